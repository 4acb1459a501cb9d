import Verif.Props.EndToEnd
import Verif.Props.CycleReport
import Verif.Spec.Nearest
/-!
# C85: nothing outruns light

Over the reals.  The path that a particle flies in a cycle is at most what light covers in the time that passes for it;
so is the distance between two states of a particle or of its offspring, in any number of cycles; and the flux of a
cycle is bounded by the counters of the cycle.
-/
open Flt FltReal GridSpec MeshSpec Flooding
attribute [local irreducible] Rng.lcg Rng.sample Rng.spawn

/-! ### Paths -/

/-- The length of a segment is the time that it takes at the speed of the particle, which is below that of light. -/
theorem outcome_path {data : Data ℝ} {dom : Domain ℝ} (hx : NonnegTables data dom) {p : Particle ℝ}
    (hp : TimeOk p) {tr : List (Ev ℝ)} {o : SegOutcome} {q : Particle ℝ} (h : (outcome data dom p).May tr (o, q)) :
    0 ≤ q.segmentPathLength ∧ q.segmentPathLength = p.getSpeed * (q.age - p.age) ∧
    q.segmentPathLength ≤ 29979200000 * (q.age - p.age) := by
  obtain ⟨_, _, hage, _⟩ := outcome_time hx hp h
  obtain ⟨xs, mfp, path, nf, r, hxs, hmfp, hpath, _, _, hf0, _, r1, r2, r3, r4, _, _, he⟩ :=
    C22_outcome hx hp h
  have hv : 0 < p.getSpeed := (C37_speed.2.1 _ hp.energy).1
  have hc : p.getSpeed < 29979200000 := (C37_value _ hp.energy.le).2
  have hm : 0 ≤ mfp := by
    rw [hmfp]; split
    · positivity
    · positivity
  have e : q.segmentPathLength = p.getSpeed * (q.age - p.age) := by
    rw [he.length, he.age, r4]
    field_simp
    ring
  have h0 : 0 ≤ q.segmentPathLength := by rw [e]; exact mul_nonneg hv.le (by linarith)
  exact ⟨h0, e, by rw [e]; exact mul_le_mul_of_nonneg_right hc.le (by linarith)⟩

theorem directLoop_path {data : Data ℝ} {dom : Domain ℝ} {cfuel : Nat} (hx : NonnegTables data dom)
    (hm : ∀ m ∈ data.materials, 1 < m.mass) {n : Nat} {p : Particle ℝ} {h : Hist ℝ} (hp : TimeOk p) (hw : 0 ≤ p.weight)
    (hl : directLoop data dom cfuel n p = .ok h) :
    p.age ≤ h.particle.age ∧ h.particle.age + h.particle.timeToCensus = p.age + p.timeToCensus ∧
    0 ≤ h.particle.timeToCensus ∧ (∀ c ∈ h.contribs, 0 ≤ c.2) ∧
    (h.contribs.map (·.2)).sum ≤ p.weight * (29979200000 * (h.particle.age - p.age)) := by
  induction n generalizing p h with
  | zero => simp [directLoop] at hl
  | succ n ih =>
    unfold directLoop at hl
    rw [bind_ok] at hl
    obtain ⟨⟨o, q⟩, ho, hl⟩ := hl
    dsimp only at hl
    rw [bind_ok] at hl
    obtain ⟨⟨keep, st⟩, he, hl⟩ := hl
    dsimp only at hl
    obtain ⟨tr, hmay, _⟩ := directOutcome_answer (by simp) ho
    obtain ⟨new, hnew⟩ := segmentEvent_extra he
    obtain ⟨t1, t2, t3, _⟩ := outcome_time hx hp hmay
    obtain ⟨l0, _, l2⟩ := outcome_path hx hp hmay
    have hq : q.weight = p.weight := (outcome_frame hmay).weight
    have hev := segmentEvent_out he hnew st.particle (List.mem_cons_self ..)
    obtain ⟨e1, e2, e3⟩ := hev.time hm (⟨t1.1, t1.2, t1.3⟩ : TimeOk { q with numSegments := q.numSegments +. one })
    have hw' : st.particle.weight = p.weight := by rw [hev.weight]; exact hq
    simp only at e2 e3
    have hc : q.segmentPathLength *. q.weight ≤ p.weight * (29979200000 * (q.age - p.age)) := by
      rw [mul_eq, hq, mul_comm]
      exact mul_le_mul_of_nonneg_left l2 hw
    have hc0 : 0 ≤ q.segmentPathLength *. q.weight := by
      rw [mul_eq, hq]; exact mul_nonneg l0 hw
    cases keep with
    | false =>
      simp only [Bool.false_eq_true, if_false, pure_ok] at hl
      subst hl
      simp only [List.map_cons, List.map_nil, List.sum_cons, List.sum_nil, add_zero, List.mem_singleton, forall_eq]
      exact ⟨by rw [e2]; exact t3, by rw [e2, e3]; exact t2, by rw [e3]; exact t1.1, hc0, by rw [e2]; exact hc⟩
    | true =>
      simp only [if_true, bind_ok, pure_ok] at hl
      obtain ⟨h2, hd2, rfl⟩ := hl
      obtain ⟨i1, i2, i3, i4, i5⟩ := ih e1 (by rw [hw']; exact hw) hd2
      rw [hw', e2] at i5
      rw [e2] at i1
      rw [e2, e3] at i2
      dsimp only
      refine ⟨by linarith, by linarith, i3, ?_, ?_⟩
      · intro c hcm
        rcases List.mem_cons.1 hcm with rfl | hcm
        · exact hc0
        · exact i4 c hcm
      · rw [List.map_cons, List.sum_cons]
        have : p.weight * (29979200000 * (h2.particle.age - p.age)) =
          p.weight * (29979200000 * (q.age - p.age)) + p.weight * (29979200000 * (h2.particle.age - q.age)) := by ring
        linarith

/-- **C85** (one history).  In a cycle, the path that a particle flies, times its weight, is the sum of its contributions
to the flux.  It is at most what light covers in the time by which the particle gets older, and this time is at most the
time step. -/
theorem C85_history {data : Data ℝ} {dom d : Domain ℝ} {fuel : ℕ} (hy : TimeHyps data dom)
    (hd : d.skeleton = dom.skeleton) {p : Particle ℝ} (hr : Reachable data dom fuel p) (hw : 0 ≤ p.weight) {h : Hist ℝ}
    (hh : directHist data d fuel p = .ok h) :
    (∀ c ∈ h.contribs, 0 ≤ c.2) ∧
    (h.contribs.map (·.2)).sum ≤ p.weight * (29979200000 * (h.particle.age - p.age)) ∧
    p.age ≤ h.particle.age ∧ h.particle.age ≤ p.age + data.dt := by
  obtain ⟨hp, ha, ht⟩ := C23_reachable hy hr
  unfold directHist at hh
  rw [bind_ok] at hh
  obtain ⟨q, hq, hh⟩ := hh
  obtain ⟨q1, q2, q3⟩ := gutsPrepare_time hp ha hy.dt hq
  have hqw : q.weight = p.weight := by
    simp only [gutsPrepare, bind_ok, pure_ok] at hq
    obtain ⟨g, _, rfl⟩ := hq
    dsimp only
    split <;> rfl
  have hle : q.timeToCensus ≤ data.dt := by
    rw [q3]; split
    · exact le_rfl
    · exact ht
  obtain ⟨i1, i2, i3, i4, i5⟩ := directLoop_path (hy.tables.skeleton hd) hy.mass q1 (by rw [hqw]; exact hw) hh
  rw [hqw, q2] at i5
  rw [q2] at i1 i2
  exact ⟨i4, i5, i1, by linarith⟩

/-! ### The flux of a cycle -/

theorem segmentEvent_born {T : Type} [Flt T] {data : Data T} {dom : Domain T} {fuel : Nat} {o : SegOutcome}
    {st st' : TrackState T} {keep : Bool} (h : segmentEvent data dom fuel o st = .ok (keep, st')) :
    st'.extra.length + st.balance.produce ≤ st.extra.length + st'.balance.produce := by
  cases o with
  | census =>
    simp only [segmentEvent, Except.ok.injEq, Prod.mk.injEq] at h
    obtain ⟨_, rfl⟩ := h
    exact le_rfl
  | facetCrossing =>
    simp only [segmentEvent, facetBranch, bind_ok] at h
    obtain ⟨conn, _, fa, _, p, hp, h⟩ := h
    split at h
    · simp only [pure_ok, Prod.mk.injEq] at h
      obtain ⟨_, rfl⟩ := h
      exact le_rfl
    · simp only [bind_ok, pure_ok, Prod.mk.injEq] at h
      obtain ⟨_, _, _, _, _, rfl⟩ := h
      exact le_rfl
    · simp at h
    · simp only [pure_ok, Prod.mk.injEq] at h
      obtain ⟨_, rfl⟩ := h
      exact le_rfl
    · simp at h
  | collision =>
    simp only [segmentEvent, collisionBranch, collisionEvent, bind_ok, pure_ok, Prod.mk.injEq, Prod.exists] at h
    obtain ⟨cs, _, k, st1, ⟨mat, _, ro, _, h1⟩, g, _, rfl, rfl⟩ := h
    cases ro with
    | none => simp at h1
    | some r =>
      simp only [bind_ok, pure_ok, Prod.mk.injEq, Prod.exists] at h1
      obtain ⟨n, p', ex, hsc, rfl, rfl⟩ := h1
      obtain ⟨_, _, hlen, h1, h0⟩ := sampleCollision_count hsc
      dsimp only
      rw [List.length_append, hlen]
      cases hr : r.rtype with
      | scatter => have := h1 hr; subst this; simp [tallyCollision]
      | absorption => have := h0 hr; subst this; simp [tallyCollision]
      | fission => simp only [tallyCollision]; omega

theorem directLoop_born {T : Type} [Flt T] {data : Data T} {dom : Domain T} {cfuel n : Nat} {p : Particle T} {h : Hist T}
    (hl : directLoop data dom cfuel n p = .ok h) : h.extra.length ≤ h.balance.produce := by
  induction n generalizing p h with
  | zero => simp [directLoop] at hl
  | succ n ih =>
    unfold directLoop at hl
    rw [bind_ok] at hl
    obtain ⟨⟨o, q⟩, ho, hl⟩ := hl
    dsimp only at hl
    rw [bind_ok] at hl
    obtain ⟨⟨keep, st⟩, he, hl⟩ := hl
    dsimp only at hl
    have hb := segmentEvent_born he
    simp only [List.length_nil] at hb
    cases keep with
    | false =>
      simp only [Bool.false_eq_true, if_false, pure_ok] at hl
      subst hl
      dsimp only; omega
    | true =>
      simp only [if_true, bind_ok, pure_ok] at hl
      obtain ⟨h2, hd2, rfl⟩ := hl
      have := ih hd2
      simp only [List.length_append, Balance.add]
      omega

theorem directHist_born {T : Type} [Flt T] {data : Data T} {dom : Domain T} {fuel : Nat} {p : Particle T} {h : Hist T}
    (hl : directHist data dom fuel p = .ok h) : h.extra.length ≤ h.balance.produce := by
  unfold directHist at hl
  rw [bind_ok] at hl
  obtain ⟨q, _, hl⟩ := hl
  exact directLoop_born hl

/-- The flux of a tracking phase. -/
theorem generations_path {data : Data ℝ} {dom d : Domain ℝ} {fuel : ℕ} (hy : TimeHyps data dom)
    (hd : d.skeleton = dom.skeleton) {W : ℝ} {ps b surv cs} (h : Generations data d fuel ps b surv cs)
    (hp : ∀ p ∈ ps, ReachableBy (CacheAnswer data) data dom fuel p ∧ 0 ≤ p.weight ∧ p.weight ≤ W) :
    (∀ c ∈ cs, 0 ≤ c.2) ∧
    (cs.map (·.2)).sum ≤ W * (29979200000 * data.dt) * ((ps.length : ℝ) + b.produce) := by
  have hdt := hy.dt
  induction h with
  | done => simp
  | @next ps hs b surv cs hne hm _ ih =>
    have hW : 0 ≤ W := by
      obtain ⟨p, hpm⟩ := List.exists_mem_of_ne_nil _ hne
      obtain ⟨_, h1, h2⟩ := hp p hpm
      linarith
    have hone : ∀ p ∈ ps, ∀ h, directHist data d fuel p = .ok h →
        (∀ c ∈ h.contribs, 0 ≤ c.2) ∧ (h.contribs.map (·.2)).sum ≤ W * (29979200000 * data.dt) := by
      intro p hpm h hh
      obtain ⟨r, w0, w1⟩ := hp p hpm
      obtain ⟨a1, a2, a3, a4⟩ := C85_history hy hd (r.weaken fun _ _ _ _ => trivial) w0 hh
      refine ⟨a1, a2.trans ?_⟩
      have : p.weight * (29979200000 * (h.particle.age - p.age)) ≤ p.weight * (29979200000 * data.dt) :=
        mul_le_mul_of_nonneg_left (by linarith) w0
      exact this.trans (mul_le_mul_of_nonneg_right w1 (by positivity))
    have hborn : ∀ p ∈ hs.flatMap (·.extra), ReachableBy (CacheAnswer data) data dom fuel p ∧ 0 ≤ p.weight ∧ p.weight ≤ W := by
      intro q hq
      obtain ⟨h, h1, h2⟩ := List.mem_flatMap.1 hq
      obtain ⟨p, hps, hl⟩ := mapM_ok_mem hm h1
      obtain ⟨r, w⟩ := hp p hps
      obtain ⟨a1, a2⟩ := (directHist_reach (by simp) hd r hl).1 q (List.mem_cons_of_mem _ h2)
      exact ⟨a1, by rw [a2]; exact w⟩
    obtain ⟨i1, i2⟩ := ih hborn
    -- the histories of this generation
    have key : ∀ (ps : List (Particle ℝ)) (hs : List (Hist ℝ)), ps.mapM (directHist data d fuel) = .ok hs →
        (∀ p ∈ ps, ∀ h, directHist data d fuel p = .ok h →
          (∀ c ∈ h.contribs, 0 ≤ c.2) ∧ (h.contribs.map (·.2)).sum ≤ W * (29979200000 * data.dt)) →
        (∀ c ∈ hs.flatMap (·.contribs), 0 ≤ c.2) ∧
        ((hs.flatMap (·.contribs)).map (·.2)).sum ≤ W * (29979200000 * data.dt) * ps.length ∧
        (hs.flatMap (·.extra)).length ≤ (Balance.sum (hs.map (·.balance))).produce := by
      intro ps
      induction ps with
      | nil =>
        intro hs hm _
        simp only [List.mapM_nil, pure_ok] at hm
        subst hm
        simp
      | cons p ps ih =>
        intro hs hm hall
        simp only [List.mapM_cons, bind_ok, pure_ok] at hm
        obtain ⟨h1, hh1, hs1, hhs1, rfl⟩ := hm
        obtain ⟨j1, j2, j3⟩ := ih hs1 hhs1 (fun p hp => hall p (List.mem_cons_of_mem _ hp))
        obtain ⟨k1, k2⟩ := hall p (List.mem_cons_self ..) h1 hh1
        have k3 := directHist_born hh1
        refine ⟨?_, ?_, ?_⟩
        · intro c hc
          rw [List.flatMap_cons] at hc
          rcases List.mem_append.1 hc with hc | hc
          · exact k1 c hc
          · exact j1 c hc
        · rw [List.flatMap_cons, List.map_append, List.sum_append, List.length_cons]
          push_cast
          have : W * (29979200000 * data.dt) * ((ps.length : ℝ) + 1) =
            W * (29979200000 * data.dt) * ps.length + W * (29979200000 * data.dt) := by ring
          linarith
        · rw [List.flatMap_cons, List.length_append, List.map_cons]
          rw [Balance.sum_cons]
          simp only [Balance.add]
          exact Nat.add_le_add k3 j3
    obtain ⟨k1, k2, k3⟩ := key ps hs hm hone
    refine ⟨?_, ?_⟩
    · intro c hc
      rcases List.mem_append.1 hc with hc | hc
      · exact k1 c hc
      · exact i1 c hc
    · rw [List.map_append, List.sum_append]
      simp only [Balance.add]
      push_cast
      have h3 : ((hs.flatMap (·.extra)).length : ℝ) ≤ (Balance.sum (hs.map (·.balance))).produce := by exact_mod_cast k3
      have hk : 0 ≤ W * (29979200000 * data.dt) := by positivity
      have := mul_le_mul_of_nonneg_left h3 hk
      nlinarith

/-- **C85** (flux).  The flux that is reported for a cycle, under any schedule, is not negative, and it is at most what
light covers in a time step, times the number of particles that enter the tracking phase or are produced in it, times
the largest of their weights. -/
theorem C85_flux {data : Data ℝ} {ex : ExecInfo} {o : SyncOpts} {fuel n : ℕ} {s0 s1 s2 s3 : SimState ℝ}
    {u1 u : UnitState ℝ} {c1 c : Container ℝ} {b : Balance} {surv : List (Particle ℝ)} {cs : List (ℕ × ℝ)} {W : ℝ}
    (hy : TimeHyps data s0.unit.dom) (ht : StartTables data s0.unit) (h0 : StartOfRun s0)
    (hf : ∀ v ∈ s0.unit.flux, v = 0) (hn : n < data.nSteps) (h : Cycles data ex o fuel n s0 s1)
    (hs : cycleSync data o n s1 = .ok s2)
    (hp : populationControl data s2.globalN s2.srcWeight s2.unit s2.container = .ok (u1, c1))
    (hw : ∀ p ∈ c1.processing, 0 ≤ p.weight ∧ p.weight ≤ W)
    (hg : Generations data u1.dom fuel c1.processing b surv cs) (hl : ProcessLoop data ex fuel u1 c1 u c)
    (hs' : cycleSync data o (n + 1) { s2 with unit := u, container := c } = .ok s3) :
    ∃ flux, s3.reports = s2.reports ++ [(n, { u.balance with end_ := c.processed.length }, flux)] ∧ 0 ≤ flux ∧
      flux ≤ W * (29979200000 * data.dt) * ((c1.processing.length : ℝ) + b.produce) := by
  obtain ⟨h1, _⟩ := C11_cycle_report ht h0 hf hn h hs hp hg hl hs'
  obtain ⟨hd, hk⟩ := cycles_reachableBy h0.initial (by omega) h
  have hd2 : s2.unit.dom.skeleton = s0.unit.dom.skeleton := by rw [cycleSync_dom hs, hd]
  have hk2 := fun p hp => hk p (cycleSync_all hs p hp)
  have e1 := (populationControl_skeleton hp).trans hd2
  obtain ⟨i1, i2⟩ := generations_path hy e1 (W := W) hg (fun q hq =>
    ⟨populationControl_reach hd2 hk2 hp q (by simp [Container.all, hq]), hw q hq⟩)
  refine ⟨_, h1, List.sum_nonneg ?_, i2⟩
  intro x hx
  obtain ⟨c, hc, rfl⟩ := List.mem_map.1 hx
  exact i1 c hc

theorem populationControl_produce {T : Type} [Flt T] {data : Data T} {n : Nat} {w : T} {u u1 : UnitState T}
    {c c1 : Container T} (h : populationControl data n w u c = .ok (u1, c1)) :
    u1.balance.produce = u.balance.produce := by
  simp only [populationControl, sourceNow, bind_ok, pure_ok, Prod.exists, Prod.mk.injEq] at h
  obtain ⟨u3, c3, ⟨_, _, _, _, _, rfl, rfl⟩, f, _, h⟩ := h
  unfold regulateOrSplit at h
  split at h
  · simp only [Container.regulate, Except.ok.injEq, Prod.mk.injEq] at h
    obtain ⟨rfl, rfl⟩ := h
    rfl
  · split at h
    · simp only [Container.split, bind_ok, pure_ok, Prod.exists, Prod.mk.injEq] at h
      obtain ⟨_, _, ⟨_, _, _, rfl, rfl⟩, rfl, rfl⟩ := h
      rfl
    · simp only [Except.ok.injEq, Prod.mk.injEq] at h
      obtain ⟨rfl, rfl⟩ := h
      rfl

/-- The tracking phase of a cycle, particle by particle. -/
theorem cycle_generations {T : Type} [Flt T] {data : Data T} {fuel : Nat} (hz : (zero >. (zero : T)) = false)
    {ex : ExecInfo} {o : SyncOpts} {n : Nat} {s0 s1 s2 : SimState T} {u1 u : UnitState T} {c1 c : Container T}
    (hn : n < data.nSteps) (h0 : InitialState s0) (hs0 : Sized data s0.unit) (hm : GroupsMet data s0.unit.dom)
    (hc : Cycles data ex o fuel n s0 s1) (hsync : cycleSync data o n s1 = .ok s2)
    (hpc : populationControl data s2.globalN s2.srcWeight s2.unit s2.container = .ok (u1, c1))
    (hl : ProcessLoop data ex fuel u1 c1 u c) :
    ∃ b surv cs, Generations data u1.dom fuel c1.processing b surv cs ∧ u.balance = u1.balance.add b := by
  obtain ⟨hsz2, hc0⟩ := cycleSync_sized (by omega) (cycles_sized hs0 (by omega) hc) hsync
  obtain ⟨hd, hk⟩ := cycles_reachableBy h0 (by omega) hc
  have hd2 : s2.unit.dom.skeleton = s0.unit.dom.skeleton := by rw [cycleSync_dom hsync, hd]
  have hk3 := populationControl_reach hd2 (fun p hp => hk p (cycleSync_all hsync p hp)) hpc
  have hsk := populationControl_skeleton hpc
  have hd3 := hsk.trans hd2
  obtain ⟨t1, t2, t3⟩ := populationControl_tables hpc
  have hx : c1.extra = [] := t3 (cycleSync_after (by omega) h0 (cycles_between (by omega) h0 hc) hsync).extra
  have hmem : MemOk data u1.dom (sharedOf u1 c1) := by
    refine ⟨?_, ?_, ?_⟩
    · rw [tableSize_skeleton hsk, sharedOf, t1]; exact hsz2.cacheLen
    · rw [tableSize_skeleton hsk, sharedOf, t2]; exact hsz2.fluxLen
    · intro i v hv
      left
      rw [sharedOf, t1] at hv
      rw [hc0 i v hv]
      exact hz
  have hgc := groupsChecked_skeleton hsk hsz2.groups
  obtain ⟨b, surv, cs, hg⟩ := processLoop_generations hz hgc
    (fun p hp => by rw [numGroups_skeleton hd3]; exact hm _ p hp) hd3 hk3
    (populationControl_answers (by omega) hsync hpc) hmem hx hl
  exact ⟨b, surv, cs, hg, (processLoop_direct hgc hg rfl hmem hx (.refl _) hl).balance⟩

/-- **C85** (report).  In a finished run on a valid input, under any schedule, the particles that are tracked in a cycle
have positive weights, and the flux reported for the cycle is not negative and at most what light covers in a time step,
times the largest of these weights, times the number of particles that enter the tracking phase or that, by the report,
are produced in it. -/
theorem C85_report {p : Params ℝ} (h : ValidInput p) {so : StrOrder} (hso : ∀ l, (so l).Perm l) {io : IterOrder}
    (hio : ∀ l, (io l).Perm l) (m : Machine) (hm : 1 ≤ m.defaultThreads) {fuel : Nat}
    (hfuel : cells p.grid + 1 ≤ fuel) {s : Started ℝ} (hs : startRun so io m fuel p = .ok (some s))
    (hfill : FilledMaterials p) (hcut : 0 < p.simulation.lowWeightCutoff) {ex : ExecInfo} {f : Nat} {t : SimState ℝ}
    (hr : RunCore s.data ex s.opts f s.state t) {n : Nat} (hn : n < p.simulation.nSteps) :
    ∃ s1 s2 u1 c1 bal flux, Cycles s.data ex s.opts f n s.state s1 ∧ cycleSync s.data s.opts n s1 = .ok s2 ∧
      populationControl s.data s2.globalN s2.srcWeight s2.unit s2.container = .ok (u1, c1) ∧
      t.reports[n]? = some (n, bal, flux) ∧ (∀ q ∈ c1.processing, 0 < q.weight) ∧ 0 ≤ flux ∧
      ∀ W, (∀ q ∈ c1.processing, q.weight ≤ W) →
        flux ≤ W * (29979200000 * p.simulation.dt) * ((c1.processing.length : ℝ) + bal.produce) := by
  obtain ⟨s', h1, h2, h3, _, _, h6, _⟩ := h.start hso hio m hm fuel hfuel
  have hg := started_groupsMet h hso hio m hm hfuel hs
  rw [hs] at h1
  cases h1
  obtain ⟨_, hset, hfresh⟩ := C64_started hs
  have htab := C67_started_tables hso h.named h.consistent hfill hs
  have h0 := started_start hs
  have hz : (zero >. (zero : ℝ)) = false := by simp
  have hn' : n < s.data.nSteps := by omega
  obtain ⟨t1, t2, u, c, t3, g1, g2, ⟨u1, c1, hpc, hl⟩, g4, g5⟩ := runCore_at hn' h0 hr
  obtain ⟨b, surv, cs, hgen, hbal⟩ := cycle_generations hz hn' h3 htab.sized hg g1 g2 hpc hl
  have hd := (cycles_reachable h3 g1).1
  have hw1 := C81_weights h hso hio m hm hfuel hs hfill hcut (by omega) g1
  obtain ⟨w1, w0, _⟩ := sync_weight_real (h2.skeleton hd) (by omega) g2
  have hw : ∀ q ∈ c1.processing, 0 < q.weight := by
    intro q hq
    refine populationControl_weights (W := fun x => 0 < x) (fun p hp => hw1 p (cycleSync_all g2 p hp)) w0
      (fun x hx => div_pos hx (by rw [hset.lowWeightCutoff]; exact hcut)) ?_ hpc q (by simp [Container.all, hq])
    intro u2 c2 f hsrc hf x hx
    exact div_pos hx (splitFactor_real_pos (by have := h2.atLeast; omega) h2.atMost h2.units w1 hf)
  have hb : u.balance.produce = b.produce := by
    rw [hbal]
    have e2 := populationControl_produce hpc
    have e3 : t2.unit.balance.produce = 0 := by
      rw [(cycleSync_after (by omega) h3 (cycles_between (by omega) h3 g1) g2).balance]
    simp only [Balance.add]
    omega
  have hmain := fun W hW => C85_flux (W := W) h2.tracking.time htab h0
    (by rw [hfresh.flux]; simp) hn' g1 g2 hpc hW hgen hl g4
  have hflux : ∀ W, (∀ q ∈ c1.processing, q.weight ≤ W) → 0 ≤ scalarFluxSum u.flux ∧ scalarFluxSum u.flux ≤
      W * (29979200000 * s.data.dt) * ((c1.processing.length : ℝ) + b.produce) := by
    intro W hW
    obtain ⟨x, hx, r1, r2⟩ := hmain W fun q hq => ⟨(hw q hq).le, hW q hq⟩
    have hxe : x = scalarFluxSum u.flux := by
      rw [cycleSync_report g4] at hx
      have := List.append_cancel_left hx
      simpa using this.symm
    exact hxe ▸ ⟨r1, r2⟩
  refine ⟨t1, t2, u1, c1, _, _, g1, g2, hpc, g5, hw, ?_, fun W hW => ?_⟩
  · refine (hflux (c1.processing.map (·.weight)).sum fun q hq => ?_).1
    exact List.single_le_sum (by
      intro x hx
      obtain ⟨q, hq, rfl⟩ := List.mem_map.1 hx
      exact (hw q hq).le) _ (List.mem_map_of_mem hq)
  · have := (hflux W hW).2
    rw [hset.dt] at this
    dsimp only
    rw [hb]
    exact this

/-! ### Distances -/

/-- The triangle inequality, without roots. -/
theorem sqDist_trans {u v w : Vec3 ℝ} {a b : ℝ} (ha : 0 ≤ a) (hb : 0 ≤ b) (h1 : sqDist u v ≤ a ^ 2)
    (h2 : sqDist v w ≤ b ^ 2) : sqDist u w ≤ (a + b) ^ 2 := by
  unfold sqDist at *
  set x := u.x - v.x with hx
  set y := u.y - v.y with hy
  set z := u.z - v.z with hz
  set x' := v.x - w.x with hx'
  set y' := v.y - w.y with hy'
  set z' := v.z - w.z with hz'
  have ex : u.x - w.x = x + x' := by rw [hx, hx']; ring
  have ey : u.y - w.y = y + y' := by rw [hy, hy']; ring
  have ez : u.z - w.z = z + z' := by rw [hz, hz']; ring
  rw [ex, ey, ez]
  have hcs : (x * x' + y * y' + z * z') ^ 2 ≤ (a * b) ^ 2 := by
    have : (x * x' + y * y' + z * z') ^ 2 ≤ (x ^ 2 + y ^ 2 + z ^ 2) * (x' ^ 2 + y' ^ 2 + z' ^ 2) := by
      nlinarith [sq_nonneg (x * y' - y * x'), sq_nonneg (x * z' - z * x'), sq_nonneg (y * z' - z * y')]
    refine this.trans ?_
    rw [mul_pow]
    exact mul_le_mul h1 h2 (by positivity) (by positivity)
  have := abs_le_of_sq_le_sq hcs (by positivity)
  nlinarith [(abs_le.1 this).2]

/-- An event does not move the particle. -/
theorem EventOut.place {data : Data ℝ} {dom : Domain ℝ} {o : SegOutcome} {p r : Particle ℝ} (h : EventOut data dom p o r) :
    r.coordinate = p.coordinate := by
  cases h with
  | census => rfl
  | transit => rfl
  | escape => rfl
  | reflect => rfl
  | collide _ _ hc _ => exact hc.place.2
  | born _ _ hc => exact hc.place.2

section
variable {order : IterOrder} (ho : ∀ l, (order l).Perm l) {params : Params ℝ}
  {mats : List (Material ℝ)} (h : SingleUnit params mats) (hroot : params.rootCell < cells params.grid)
  (fuel : Nat) (hfuel : cells params.grid + 1 ≤ fuel) {dom : Domain ℝ}
  (hdom : initMesh order fuel params mats = .ok [dom])
include ho h hroot hfuel hdom

theorem descends_distance {data : Data ℝ} {fl : Nat} (hy : TimeHyps data dom) {q p : Particle ℝ}
    (hq : Reachable data dom fl q) (hd : Descends data dom fl q p) :
    Reachable data dom fl p ∧ q.age ≤ p.age ∧
    (sqDist q.coordinate p.coordinate ≤ (29979200000 * (p.age - q.age)) ^ 2 ∨
      ∃ r c, Reachable data dom fl r ∧ Descends data dom fl r p ∧ AtHomeIn dom params.grid r c ∧
        (AtEdge params.grid (params.grid.cellIdxToTuple c) r.coordinate r.direction ∨
          WornOut params.grid (params.grid.cellIdxToTuple c) r)) := by
  have hpop : ∀ {p r : Particle ℝ}, PopFrame p r → r.age = p.age ∧ r.coordinate = p.coordinate :=
    fun hf => ⟨hf.age, hf.coordinate⟩
  induction hd with
  | refl => exact ⟨hq, le_rfl, .inl (by simp [sqDist])⟩
  | overRr _ ih =>
    obtain ⟨i1, i2, i3⟩ := ih
    obtain ⟨e1, e2⟩ := hpop (overPopulatedRr_frame _ _)
    refine ⟨.overRr i1, by rw [e1]; exact i2, ?_⟩
    rw [e1, e2]
    exact i3.imp id fun ⟨r, c, j1, j2, j3⟩ => ⟨r, c, j1, .overRr j2, j3⟩
  | lowRr _ ih =>
    obtain ⟨i1, i2, i3⟩ := ih
    obtain ⟨e1, e2⟩ := hpop (lowWeightRr_frame _ _ _)
    refine ⟨.lowRr i1, by rw [e1]; exact i2, ?_⟩
    rw [e1, e2]
    exact i3.imp id fun ⟨r, c, j1, j2, j3⟩ => ⟨r, c, j1, .lowRr j2, j3⟩
  | split _ hsp hm ih =>
    obtain ⟨i1, i2, i3⟩ := ih
    obtain ⟨e1, e2⟩ := hpop (underPopulatedSplit_frame hsp _ hm)
    refine ⟨.split i1 hsp hm, by rw [e1]; exact i2, ?_⟩
    rw [e1, e2]
    exact i3.imp id fun ⟨r, c, j1, j2, j3⟩ => ⟨r, c, j1, .split j2 hsp hm, j3⟩
  | @prepared p r _ hg ih =>
    obtain ⟨i1, i2, i3⟩ := ih
    obtain ⟨hp, ha, _⟩ := C23_reachable hy i1
    obtain ⟨_, e1, _⟩ := gutsPrepare_time hp ha hy.dt hg
    have e2 : r.coordinate = p.coordinate := by
      simp only [gutsPrepare, bind_ok, pure_ok] at hg
      obtain ⟨g, _, rfl⟩ := hg
      dsimp only
      split <;> rfl
    refine ⟨.prepared i1 hg, by rw [e1]; exact i2, ?_⟩
    rw [e1, e2]
    exact i3.imp id fun ⟨r, c, j1, j2, j3⟩ => ⟨r, c, j1, .prepared j2 hg, j3⟩
  | @event d p tr o p' b ex keep st' new r hd _ hout hev hnew hmem ih =>
    obtain ⟨i1, i2, i3⟩ := ih
    have hr : Reachable data dom fl r := .event hd i1 hout (fun _ _ _ => trivial) hev hnew hmem
    have hp := (C23_reachable hy i1).1
    obtain ⟨t1, _, t3, _⟩ := outcome_time (hy.tables.skeleton hd) hp hout
    have hq' : TimeOk { p' with numSegments := Flt.add p'.numSegments Flt.one } := ⟨t1.1, t1.2, t1.3⟩
    have heo := segmentEvent_out hev hnew _ hmem
    obtain ⟨_, e2, _⟩ := heo.time hy.mass hq'
    simp only at e2
    refine ⟨hr, by rw [e2]; linarith, ?_⟩
    rcases i3 with i3 | ⟨r', c, j1, j2, j3⟩
    case inr => exact .inr ⟨r', c, j1, .event hd j2 hout hev hnew hmem, j3⟩
    rcases C62_history ho h hroot fuel hfuel hdom hy i1 with ⟨c, hh⟩ | ⟨r', c, j1, j2, j3⟩
    case inr => exact .inr ⟨r', c, j1, .event hd j2 hout hev hnew hmem, j3⟩
    by_cases hbad : AtEdge params.grid (params.grid.cellIdxToTuple c) p.coordinate p.direction ∨
        WornOut params.grid (params.grid.cellIdxToTuple c) p
    · exact .inr ⟨p, c, i1, .event hd .refl hout hev hnew hmem, hh, hbad⟩
    · rw [not_or] at hbad
      left
      have hunit := C20_reachable (unit_planes ho h hroot fuel hfuel hdom) i1
      obtain ⟨g1, _, g3, _, _⟩ := C62_segment ho h hroot fuel hfuel hdom hd (hy.tables.skeleton hd)
        hp hunit hh hbad.1 hbad.2 hout
      obtain ⟨l0, _, l2⟩ := outcome_path (hy.tables.skeleton hd) hp hout
      rw [heo.place, e2]
      have hstep : sqDist p.coordinate p'.coordinate ≤ (29979200000 * (p'.age - p.age)) ^ 2 := by
        have : sqDist p.coordinate p'.coordinate = p'.segmentPathLength ^ 2 := by
          rw [g3]
          unfold sqDist along
          unfold IsUnit3 at hunit
          dsimp only
          linear_combination (p'.segmentPathLength ^ 2) * hunit
        rw [this]
        exact pow_le_pow_left₀ l0 l2 2
      have := sqDist_trans (by nlinarith) (by nlinarith) i3 hstep
      refine this.trans (le_of_eq ?_)
      ring
end

/-- **C85** (distance).  In a run on a valid input, let `q` be a state of a particle that the run can meet, and `r` a later
state of it, or of a particle made from it by fission or population control, any number of cycles later.  The
distance between their places is at most what light covers in the time by which `r` is older, unless one of the states
before `r` met one of the two exceptions of C62. -/
theorem C85_distance {p : Params ℝ} (h : ValidInput p) {so : StrOrder} (hso : ∀ l, (so l).Perm l) {io : IterOrder}
    (hio : ∀ l, (io l).Perm l) (m : Machine) (hm : 1 ≤ m.defaultThreads) (fuel : Nat)
    (hfuel : cells p.grid + 1 ≤ fuel) {s : Started ℝ} (hs : startRun so io m fuel p = .ok (some s)) {fuel' : Nat}
    {q r : Particle ℝ} (hq : Reachable s.data s.state.unit.dom fuel' q)
    (hr : Descends s.data s.state.unit.dom fuel' q r) :
    q.age ≤ r.age ∧
    (sqDist q.coordinate r.coordinate ≤ (29979200000 * (r.age - q.age)) ^ 2 ∨
      ∃ x c, Reachable s.data s.state.unit.dom fuel' x ∧ Descends s.data s.state.unit.dom fuel' x r ∧
        AtHomeIn s.state.unit.dom p.grid x c ∧
        (AtEdge p.grid (p.grid.cellIdxToTuple c) x.coordinate x.direction ∨
          WornOut p.grid (p.grid.cellIdxToTuple c) x)) := by
  obtain ⟨s', h1, h2, h3, _, _, _, mats, h4, h5⟩ := h.start hso hio m hm fuel hfuel
  rw [hs] at h1
  cases h1
  exact (descends_distance hio h4 h.root fuel hfuel h5 h2.tracking.time hq hr).2

/-! ### A case -/

/-- A problem, a run of it on four threads, and a particle of its only cycle with its history. -/
theorem small_history : ∃ (p : Params ℝ) (s : Started ℝ) (f : Nat), ValidInput p ∧ FilledMaterials p ∧
    0 < p.simulation.lowWeightCutoff ∧ 0 < p.simulation.nSteps ∧ cells p.grid + 1 ≤ 2 ∧
    startRun List.reverse id ⟨4, true⟩ 2 p = .ok (some s) ∧
    (∃ t, RunCore s.data ⟨.rayon, 1, 4, 0⟩ s.opts f s.state t) ∧
    ∃ d q h, d.skeleton = s.state.unit.dom.skeleton ∧ Reachable s.data s.state.unit.dom f q ∧ 0 < q.weight ∧
      directHist s.data d f q = .ok h := by
  obtain ⟨dt, hdt, s, fuel', hs, _, ⟨d, q, hv⟩, ⟨t, s1, hd, _⟩, hrun⟩ := small_run
  have hn : s.data.nSteps = 1 := (C64_started hs).2.1.nSteps
  have hcut : (0 : ℝ) < (smallProblem dt).simulation.lowWeightCutoff := by
    show (0 : ℝ) < (SimulationParams.default : SimulationParams ℝ).lowWeightCutoff
    simp [SimulationParams.default]
  refine ⟨smallProblem dt, s, fuel', small_valid hdt, small_filled dt, hcut, by show 0 < 1; norm_num,
    by rw [small_cells], hs, (hrun 4 (by norm_num)).2, ?_⟩
  obtain ⟨s', e1, e2, e3, _⟩ := (small_valid hdt).start (so := List.reverse)
    (fun l => List.reverse_perm l) (io := id) (fun l => .refl _) ⟨4, true⟩ (by norm_num) 2 (by rw [small_cells])
  rw [hs] at e1
  cases e1
  obtain ⟨n, t1, t2, u, c, p, hlt, hcyc, hsync, hpop, hp, rfl, -⟩ := hv
  obtain rfl : n = 0 := by omega
  cases hcyc
  rw [hn] at hd
  cases hd with
  | succ hd1 hsync' hdc =>
    cases hd1
    rw [hsync] at hsync'
    cases hsync'
    obtain ⟨u1, c1, b, surv, cs, hpc, hgen, rfl, rfl⟩ := hdc
    rw [hpop] at hpc
    cases hpc
    have hnone : ∀ q ∈ t2.container.all, False := by
      intro q hq
      have := cycleSync_all hsync q hq
      simp [Container.all, e3.processing, e3.processed, e3.extra] at this
    have hd2 : t2.unit.dom.skeleton = s.state.unit.dom.skeleton := by rw [cycleSync_dom hsync]
    have hreach := populationControl_reach (G := CacheAnswer s.data) (fuel := fuel') hd2 (fun q hq => (hnone q hq).elim) hpop p
      (by simp [Container.all, hp])
    obtain ⟨g0, w0, _⟩ := sync_weight_real e2 (by omega) hsync
    have hw : 0 < p.weight := by
      refine populationControl_weights (W := fun x => 0 < x) (fun q hq => (hnone q hq).elim) w0
        (fun x hx => div_pos hx (by rw [(C64_started hs).2.1.lowWeightCutoff]; exact hcut)) ?_ hpop p
        (by simp [Container.all, hp])
      intro u2 c2 f hsrc hf x hx
      exact div_pos hx (splitFactor_real_pos (by have := e2.atLeast; omega) e2.atMost e2.units g0 hf)
    generalize c.processing = ps at hgen hp
    cases hgen with
    | done => cases hp
    | next hne hm _ =>
      have key : ∀ (l : List (Particle ℝ)) hs, l.mapM (directHist s.data u.dom fuel') = .ok hs → p ∈ l →
          ∃ h, directHist s.data u.dom fuel' p = .ok h := by
        intro l
        induction l with
        | nil => intro _ _ h; cases h
        | cons a l ih =>
          intro hs hm hp
          simp only [List.mapM_cons, bind_ok, pure_ok] at hm
          obtain ⟨h1, hh1, hs1, hhs1, rfl⟩ := hm
          rcases List.mem_cons.1 hp with rfl | hp
          · exact ⟨h1, hh1⟩
          · exact ih hs1 hhs1 hp
      obtain ⟨h, hh⟩ := key _ _ hm hp
      exact ⟨u.dom, p, h, (populationControl_skeleton hpop).trans hd2, hreach.weaken fun _ _ _ _ => trivial, hw, hh⟩

/-- The hypotheses of `C85_history` are met. -/
example : ∃ (data : Data ℝ) (dom d : Domain ℝ) (f : Nat) (q : Particle ℝ) (h : Hist ℝ), TimeHyps data dom ∧
    d.skeleton = dom.skeleton ∧ Reachable data dom f q ∧ 0 ≤ q.weight ∧ directHist data d f q = .ok h := by
  obtain ⟨p, s, f, hv, _, _, _, hf, hs, _, d, q, h, h1, h2, h3, h4⟩ := small_history
  obtain ⟨s', e1, e2, _⟩ := hv.start (so := List.reverse) (fun l => List.reverse_perm l) (io := id) (fun l => .refl _)
    ⟨4, true⟩ (by norm_num) 2 hf
  rw [hs] at e1
  cases e1
  exact ⟨s.data, _, d, f, q, h, e2.tracking.time, h1, h2, h3.le, h4⟩

/-- The hypotheses of `C85_report` are met, and so are those of `C85_distance`, by a particle and what it is after its first
segment. -/
example : ∃ (p : Params ℝ) (s : Started ℝ) (f : Nat), ValidInput p ∧ FilledMaterials p ∧
    0 < p.simulation.lowWeightCutoff ∧ 0 < p.simulation.nSteps ∧ cells p.grid + 1 ≤ 2 ∧
    startRun List.reverse id ⟨4, true⟩ 2 p = .ok (some s) ∧
    (∃ t, RunCore s.data ⟨.rayon, 1, 4, 0⟩ s.opts f s.state t) ∧
    ∃ q r, Reachable s.data s.state.unit.dom f q ∧ Descends s.data s.state.unit.dom f q r ∧
      ∃ d q1 tr o q2, gutsPrepare s.data q = .ok q1 ∧ (outcome s.data d q1).May tr (o, q2) ∧
        r.coordinate = q2.coordinate := by
  obtain ⟨p, s, f, h1, h2, h3, h4, h5, h6, h7, d, q, h, g1, g2, g3, g4⟩ := small_history
  refine ⟨p, s, f, h1, h2, h3, h4, h5, h6, h7, q, ?_⟩
  unfold directHist at g4
  rw [bind_ok] at g4
  obtain ⟨q1, hq1, g4⟩ := g4
  cases f with
  | zero => simp [directLoop] at g4
  | succ f =>
    unfold directLoop at g4
    rw [bind_ok] at g4
    obtain ⟨⟨o, q2⟩, ho, g4⟩ := g4
    dsimp only at g4
    rw [bind_ok] at g4
    obtain ⟨⟨keep, st⟩, he, _⟩ := g4
    obtain ⟨tr, hmay, _⟩ := directOutcome_answer (by simp) ho
    obtain ⟨new, hnew⟩ := segmentEvent_extra he
    refine ⟨st.particle, g2, .event g1 (.prepared .refl hq1) hmay he hnew (List.mem_cons_self ..),
      d, q1, tr, o, q2, hq1, hmay, ?_⟩
    have heo := segmentEvent_out he hnew st.particle (List.mem_cons_self ..)
    generalize st.particle = r at heo
    exact heo.place
