import Verif.Props.Segments
import Verif.Props.Results
import Verif.Props.ToyRun
/-!
# C55 - C57: energy group, census, weight

The energy group follows the energy (C55), the particles left by a cycle have been tracked exactly to its
end (C56), tracking does not change weights (C57).  C55 and C57 hold for every `Flt T`; the times of C56 and
the energy intervals of C55 are stated over the reals.
-/
set_option linter.unusedSectionVars false
attribute [local irreducible] Rng.lcg Rng.sample Rng.spawn
open Flt

section generic
variable {T : Type} [Flt T]

/-! ## C55 -/

/-- Specification: the energy group of the particle is the group of its energy. -/
def GroupOk (data : Data T) (p : Particle T) : Prop :=
  getEnergyGroups data.nuclear.energies p.kineticEnergy = .ok p.energyGroup

theorem gutsPrepare_groupOk {data : Data T} {p q : Particle T} (h : gutsPrepare data p = .ok q) : GroupOk data q := by
  simp only [gutsPrepare, bind_ok, pure_ok] at h
  obtain ⟨g, hg, rfl⟩ := h
  unfold GroupOk
  exact hg

theorem segmentEvent_groupOk {data : Data T} {dom : Domain T} {fuel : Nat} {o : SegOutcome}
    {st st' : TrackState T} {keep : Bool} (hg : GroupOk data st.particle)
    (h : segmentEvent data dom fuel o st = .ok (keep, st')) : GroupOk data st'.particle := by
  cases o with
  | collision =>
    simp only [segmentEvent, collisionBranch, bind_ok, pure_ok, Prod.exists, Prod.mk.injEq] at h
    obtain ⟨cs, _, kp, st2, _, g, hg, _, rfl⟩ := h
    unfold GroupOk
    dsimp only
    split <;> exact hg
  | facetCrossing =>
    obtain ⟨new, hnew⟩ := segmentEvent_extra h
    have := segmentEvent_out h hnew st'.particle (by simp)
    unfold GroupOk at hg ⊢
    generalize st'.particle = q at this
    cases this <;> exact hg
  | census =>
    simp only [segmentEvent, Except.ok.injEq, Prod.mk.injEq] at h
    obtain ⟨rfl, rfl⟩ := h
    exact hg

/-- **C55, tracking.** From the preparation of a particle to the end of its tracking, at every moment, its
energy group is the group of its energy. -/
theorem C55_tracking {data : Data T} {dom : Domain T} {fuel : Nat} {p : Particle T} {st0 st : TrackState T}
    (hp : gutsPrepare data p = .ok st0.particle) (h : Visited data dom fuel st0 st) : GroupOk data st.particle := by
  induction h with
  | start => exact gutsPrepare_groupOk hp
  | @step st st1 st2 tr o p keep _ ho hst1 hev ih =>
    refine segmentEvent_groupOk ?_ hev
    have hf := outcome_frame ho
    rw [hst1]
    unfold GroupOk at ih ⊢
    dsimp only
    rw [hf.kineticEnergy, hf.energyGroup]
    exact ih

/-- **C55, segments.** During a segment the energy and its group are those of the beginning of the segment: the
cross-section that decides the length of the segment, and the entry of the flux that the segment is added
to, are the ones of the energy of the particle. -/
theorem C55_segment {data : Data T} {dom : Domain T} {fuel : Nat} {p q : Particle T} {st0 st : TrackState T}
    (hp : gutsPrepare data p = .ok st0.particle) (h : Visited data dom fuel st0 st) {tr : List (Ev T)} {o : SegOutcome}
    (ho : (outcome data dom st.particle).May tr (o, q)) :
    GroupOk data q ∧ q.kineticEnergy = st.particle.kineticEnergy ∧ q.cell = st.particle.cell := by
  have hf := outcome_frame ho
  have hg := C55_tracking hp h
  refine ⟨?_, hf.kineticEnergy, hf.cell⟩
  unfold GroupOk at hg ⊢
  rw [hf.kineticEnergy, hf.energyGroup]
  exact hg

/-- **C55, runs.** After any number of cycles, under any schedule, the energy group of every particle is the
group of its energy. -/
theorem C55_run {data : Data T} {ex : ExecInfo} {o : SyncOpts} {fuel n : Nat} {s0 s : SimState T}
    (h0 : StartOfRun s0) (hn : n ≤ data.nSteps) (h : Cycles data ex o fuel n s0 s) :
    ∀ q ∈ s.container.all, GroupOk data q := by
  intro q hq
  obtain ⟨d, p, _, _, hpr, _⟩ := cycles_tracked h0.initial hn h q hq
  obtain ⟨p0, os, b, ex, st', hp0, hrun, rfl⟩ := hpr.run
  exact C55_tracking (st0 := { particle := p0, balance := b, extra := ex }) hp0 hrun.visited

/-! ## C56, events -/

theorem outcome_census {data : Data T} {dom : Domain T} {p q : Particle T} {tr : List (Ev T)}
    (h : (outcome data dom p).May tr (.census, q)) : q.lastEvent = .census := by
  unfold outcome at h
  dsimp only at h
  obtain ⟨t1, t2, xs, rfl, _, h2⟩ := h.bind_inv
  obtain ⟨_, h2⟩ := h2.ofExcept_inv
  simp only [outcomeWithXs, bind_ok, Prod.exists] at h2
  obtain ⟨nf, p1, _, h2⟩ := h2
  simp only [applyOutcome, bind_ok, assertB_ok] at h2
  obtain ⟨_, _, h⟩ := h2
  generalize (if (prepareForced p).1 = true then _ else _ : DistanceHandler T) = hd at h
  obtain ⟨hc, hf, hce, hm, ho⟩ := hd
  cases ho <;> (dsimp only at h; split at h) <;>
    (simp only [pure_ok, Prod.mk.injEq] at h; obtain ⟨ho, rfl⟩ := h; first | rfl | cases ho)

theorem TrackRun.lastEvent {data : Data T} {dom : Domain T} {cfuel : Nat} {os : List SegOutcome}
    {st st' : TrackState T} (h : TrackRun data dom cfuel os st st') (ho : os.getLast? = some .census) :
    st'.particle.lastEvent = .census := by
  induction h with
  | @last o st st1 st' tr p hout hst1 hev =>
    simp only [List.getLast?_singleton, Option.some.injEq] at ho
    subst ho
    simp only [segmentEvent, Except.ok.injEq, Prod.mk.injEq] at hev
    rw [← hev.2, hst1]
    have := outcome_census hout
    exact this
  | @more o os st st1 st2 st' tr p _ _ _ hrest ih =>
    have hne : os ≠ [] := by cases hrest <;> simp
    rw [List.getLast?_cons_of_ne_nil hne] at ho
    exact ih ho

/-- **C56, events.** After any number of cycles, under any schedule, every particle that is left is alive, was
there in this cycle, and the last thing that happened to it is census: no particle is left in the middle
of its flight. -/
theorem C56_events {data : Data T} {ex : ExecInfo} {o : SyncOpts} {fuel n : Nat} {s0 s : SimState T}
    (h0 : StartOfRun s0) (hn : n ≤ data.nSteps) (h : Cycles data ex o fuel n s0 s) :
    s.container.processing = [] ∧ s.container.extra = [] ∧
    ∀ q ∈ s.container.processed, q.species ≠ .unknown ∧ q.lastEvent = .census := by
  have hb := cycles_between hn h0.initial h
  refine ⟨hb.processing, hb.extra, fun q hq => ?_⟩
  obtain ⟨d, p, _, _, hpr, hs⟩ := cycles_tracked h0.initial hn h q (by simp [Container.all, hq])
  obtain ⟨p0, os, b, ex, st', hp0, hrun, rfl⟩ := hpr.run
  exact ⟨hs, hrun.lastEvent (hrun.census hs)⟩

/-! ## C57 -/

theorem updateTrajectory_weight (p : Particle T) (e a : T) : (p.updateTrajectory e a).weight = p.weight := by
  unfold Particle.updateTrajectory
  generalize Rng.sample (T := T) p.seed = r
  obtain ⟨u, s⟩ := r
  dsimp only
  generalize hq : Particle.rotateDirection (T := T) _ _ _ _ _ = q
  have hw : q.weight = p.weight := by rw [← hq]; rfl
  unfold Particle.sampleNumMfp
  generalize Rng.sample (T := T) q.seed = r
  obtain ⟨v, s'⟩ := r
  exact hw

theorem CollisionOut.weight {mass : T} {p q : Particle T} (h : CollisionOut mass p q) : q.weight = p.weight := by
  cases h with
  | same s => rfl
  | scatter s id s1 s2 => rw [updateTrajectory_weight]
  | fission s id s1 s2 => rw [updateTrajectory_weight]

theorem EventOut.weight {data : Data T} {dom : Domain T} {p q : Particle T} {o : SegOutcome}
    (h : EventOut data dom p o q) : q.weight = p.weight := by
  cases h with
  | census => rfl
  | transit => rfl
  | escape => rfl
  | reflect => rfl
  | collide _ _ hc _ => exact hc.weight
  | born _ _ hc => exact hc.weight

/-- **C57, tracking.** Tracking changes no weight: at every moment the particle has the weight it came with, and so
have the particles it has produced by fission. -/
theorem C57_tracking {data : Data T} {dom : Domain T} {fuel : Nat} {st0 st : TrackState T}
    (h : Visited data dom fuel st0 st) : st.particle.weight = st0.particle.weight ∧
    ∃ born, st.extra = st0.extra ++ born ∧ ∀ r ∈ born, r.weight = st0.particle.weight := by
  induction h with
  | start => exact ⟨rfl, [], by simp, by simp⟩
  | @step st st1 st2 tr o p keep _ ho hst1 hev ih =>
    obtain ⟨i1, born, i2, i3⟩ := ih
    obtain ⟨new, hnew⟩ := segmentEvent_extra hev
    have hout := segmentEvent_out hev hnew
    have hw : st1.particle.weight = st0.particle.weight := by
      rw [hst1]; dsimp only; rw [(outcome_frame ho).weight, i1]
    have he1 : st1.extra = st.extra := by rw [hst1]
    refine ⟨by rw [(hout _ (by simp)).weight, hw], born ++ new, by rw [hnew, he1, i2, List.append_assoc], ?_⟩
    intro r hr
    rcases List.mem_append.1 hr with hr | hr
    · exact i3 r hr
    · rw [(hout r (by simp [hr])).weight, hw]

/-- **C57, processing.** Nor does the preparation: a particle leaves a cycle with the weight that population control
gave it. -/
theorem C57_processed {data : Data T} {dom : Domain T} {fuel : Nat} {p q : Particle T}
    (h : Processed data dom fuel p q) : q.weight = p.weight := by
  obtain ⟨p0, os, b, ex, st', hp0, hrun, rfl⟩ := h.run
  rw [(C57_tracking hrun.visited).1]
  simp only [gutsPrepare, bind_ok, pure_ok] at hp0
  obtain ⟨g, _, rfl⟩ := hp0
  dsimp only
  split <;> rfl

end generic

/-! ## Over the reals -/

/-- **C55, spectrum.** With increasing levels the survivors that the spectrum counts in an entry are those whose
energy is in the interval of the entry. -/
theorem C55_spectrum {data : Data ℝ} {ex : ExecInfo} {o : SyncOpts} {fuel n : ℕ} {s0 s : SimState ℝ}
    (h0 : StartOfRun s0) (hn : n ≤ data.nSteps) (h : Cycles data ex o fuel n s0 s)
    (hl : data.nuclear.energies.Pairwise (· < ·)) :
    ∀ q ∈ s.container.all, ∀ g, q.energyGroup = g ↔ IsGroupOf data.nuclear.energies q.kineticEnergy g := by
  intro q hq g
  have hg := C55_run h0 hn h q hq
  unfold GroupOk at hg
  have hne : data.nuclear.energies ≠ [] := by
    intro he
    rw [he, C26_no_level] at hg
    cases hg
  obtain ⟨g', h1, h2⟩ := C26_lookup hne q.kineticEnergy
  rw [hg] at h1
  cases h1
  exact ⟨fun h => h ▸ h2, fun h => C26_unique hl h2 h⟩

/-- **C56, one cycle.** A particle that goes alive through a cycle ends it with exactly no time left, older by the
time it had: a whole time step if it was left by an earlier cycle, the rest of the step if it appeared in
the middle of this one. -/
theorem C56_age {data : Data ℝ} {dom d : Domain ℝ} {fuel : ℕ} (hy : TimeHyps data dom)
    (hd : d.skeleton = dom.skeleton) {p q : Particle ℝ} (hr : Reachable data dom fuel p)
    (h : Processed data d fuel p q) (hs : q.species ≠ .unknown) :
    q.timeToCensus = 0 ∧
    q.age = p.age + if p.timeToCensus = 0 then data.dt else p.timeToCensus := by
  obtain ⟨hp, ha, ht⟩ := C23_reachable hy hr
  obtain ⟨p0, os, b, ex, st', hp0, hrun, rfl⟩ := h.run
  obtain ⟨q1, q2, q3⟩ := gutsPrepare_time hp ha hy.dt hp0
  obtain ⟨c1, c2⟩ := C23_census (hy.tables.skeleton hd) hy.mass q1 hrun (hrun.census hs)
  refine ⟨c1, ?_⟩
  rw [c2]
  dsimp only
  rw [q2, q3]

/-- **C56, runs.** After any number of cycles, under any schedule, no particle has time left, so that in the next
cycle each of them is given a whole time step: if it lives through it, it is older by `dt`. -/
theorem C56_survivors {data : Data ℝ} {ex : ExecInfo} {o : SyncOpts} {fuel n : ℕ} {s0 s : SimState ℝ}
    (hy : TimeHyps data s0.unit.dom) (h0 : StartOfRun s0) (hn : n ≤ data.nSteps)
    (h : Cycles data ex o fuel n s0 s) :
    ∀ q ∈ s.container.all, q.timeToCensus = 0 ∧ 0 ≤ q.age ∧
      ∀ d r, d.skeleton = s0.unit.dom.skeleton → Processed data d fuel q r → r.species ≠ .unknown →
        r.age = q.age + data.dt := by
  intro q hq
  obtain ⟨d, p, hd, hr, hpr, hs⟩ := cycles_tracked h0.initial hn h q hq
  obtain ⟨a1, a2⟩ := C56_age hy hd hr hpr hs
  have hq' := (cycles_reachable h0.initial h).2 q hq
  refine ⟨a1, (C23_reachable hy hq').2.1, fun d r hd hpr hs => ?_⟩
  rw [(C56_age hy hd hq' hpr hs).2, if_pos a1]

/-! ## Concrete cases -/

/-- Test evaluated by the kernel: the first cycle of the toy problem leaves four particles, in their group and
at census. -/
def toyCensusCheck : Bool :=
  match toyCycle 0 toySim with
  | .ok s => decide (s.container.all.length = 4) && s.container.all.all fun p =>
      decide (p.timeToCensus = (0 : Int)) && decide (p.lastEvent = .census) &&
      (match getEnergyGroups toyData.nuclear.energies p.kineticEnergy with
        | .ok g => decide (g = p.energyGroup)
        | .error _ => false)
  | .error _ => false

theorem toyCensusCheck_true : toyCensusCheck = true := by decide +kernel

/-- The hypotheses of the theorems on runs are met by a run that leaves four particles. -/
example : StartOfRun toySim ∧ 1 ≤ toyData.nSteps ∧
    ∃ s, Cycles toyData toyExec toyOpts 20 1 toySim s ∧ s.container.all.length = 4 := by
  refine ⟨⟨rfl, rfl, rfl, rfl, rfl, rfl⟩, by decide, ?_⟩
  have h := toyCensusCheck_true
  unfold toyCensusCheck at h
  split at h
  · next s hs =>
    simp only [Bool.and_eq_true, decide_eq_true_eq] at h
    exact ⟨s, toyCycle_sound .zero hs, h.1⟩
  · cases h
