import Verif.Lemmas.ReachCache
import Verif.Props.Census
/-!
# Particles and weights of the reference

The particles of the reference (tracking without shared memory) are among the reachable ones, with values of the
cache that a run can read.  Along a history nothing changes a weight; between histories only population control does.
-/
set_option linter.unusedSectionVars false
open Flt
attribute [local irreducible] Rng.lcg Rng.sample Rng.spawn
variable {T : Type} [Flt T] {data : Data T} {dom dom0 : Domain T} {fuel : Nat}

/-- A segment of the reference is one that the cache allows, when it holds zero. -/
theorem directOutcome_answer (hz : (zero >. (zero : T)) = false) {p : Particle T} {x : SegOutcome × Particle T}
    (h : directOutcome data dom p = .ok x) :
    ∃ tr, (outcome data dom p).May tr x ∧ Ev.LoadsIn (CacheAnswer data dom) tr := by
  unfold directOutcome at h
  unfold outcome
  dsimp only at h ⊢
  generalize prepareForced p = fp at h ⊢
  obtain ⟨force, p'⟩ := fp
  dsimp only at h ⊢
  simp only [bind_ok] at h
  obtain ⟨xs, hxs, h⟩ := h
  have hc : (cachedXs data dom p'.cell p'.energyGroup).May
      [.load (p'.cell * dom.numGroups + p'.energyGroup) zero,
        .store (p'.cell * dom.numGroups + p'.energyGroup) xs] xs := by
    unfold cachedXs
    refine .load ?_
    rw [hz, if_neg (by simp), hxs]
    exact .store .ret
  refine ⟨_, hc.bind (t2 := []) ?_, ?_⟩
  · rw [h]
    exact .ret
  · intro i v hv
    simp only [List.append_nil, List.mem_cons, List.not_mem_nil, or_false, Ev.load.injEq, reduceCtorEq] at hv
    exact .inl hv.2

/-- A flux contribution: path length times weight, at the end of a segment of a reachable particle. -/
def ContribOf (data : Data T) (dom0 : Domain T) (fuel : Nat) (w : T) (c : Nat × T) : Prop :=
  ∃ d p tr o q, d.skeleton = dom0.skeleton ∧ ReachableBy (CacheAnswer data) data dom0 fuel p ∧
    (outcome data d p).May tr (o, q) ∧ Ev.LoadsIn (CacheAnswer data d) tr ∧ q.weight = w ∧
    c.2 = q.segmentPathLength *. q.weight

theorem directLoop_reach (hz : (zero >. (zero : T)) = false) (hd : dom.skeleton = dom0.skeleton) {n : Nat}
    {p : Particle T} {h : Hist T} (hp : ReachableBy (CacheAnswer data) data dom0 fuel p)
    (hl : directLoop data dom fuel n p = .ok h) :
    (∀ q ∈ h.particle :: h.extra, ReachableBy (CacheAnswer data) data dom0 fuel q ∧ q.weight = p.weight) ∧
    ∀ c ∈ h.contribs, ContribOf data dom0 fuel p.weight c := by
  induction n generalizing p h with
  | zero => simp [directLoop] at hl
  | succ n ih =>
    unfold directLoop at hl
    rw [bind_ok] at hl
    obtain ⟨⟨o, q⟩, ho, hl⟩ := hl
    dsimp only at hl
    rw [bind_ok] at hl
    obtain ⟨⟨keep, st⟩, he, hl⟩ := hl
    dsimp only at hl
    obtain ⟨tr, hm, hlo⟩ := directOutcome_answer hz ho
    obtain ⟨new, hnew⟩ := segmentEvent_extra he
    have hq : q.weight = p.weight := (outcome_frame hm).weight
    have hc : ContribOf data dom0 fuel p.weight
        (fluxIndex dom.numGroups q.cell q.energyGroup, q.segmentPathLength *. q.weight) :=
      ⟨dom, p, tr, o, q, hd, hp, hm, hlo, hq, rfl⟩
    have hall : ∀ r ∈ st.particle :: st.extra, ReachableBy (CacheAnswer data) data dom0 fuel r ∧ r.weight = p.weight := by
      intro r hr
      rw [hnew, List.nil_append] at hr
      refine ⟨.event hd hp hm hlo he hnew hr, ?_⟩
      rw [(segmentEvent_out he hnew r hr).weight]
      exact hq
    cases keep with
    | false =>
      simp only [Bool.false_eq_true, if_false, pure_ok] at hl
      subst hl
      exact ⟨hall, fun c h => by rw [List.mem_singleton] at h; subst h; exact hc⟩
    | true =>
      simp only [if_true, bind_ok, pure_ok] at hl
      obtain ⟨h2, hd2, rfl⟩ := hl
      obtain ⟨hr, hw⟩ := hall _ (List.mem_cons_self ..)
      obtain ⟨f1, f2⟩ := ih hr hd2
      rw [hw] at f1 f2
      refine ⟨?_, ?_⟩
      · intro r hr
        rcases List.mem_cons.1 hr with rfl | hr
        · exact f1 _ (List.mem_cons_self ..)
        · rcases List.mem_append.1 hr with hr | hr
          · exact hall r (List.mem_cons_of_mem _ hr)
          · exact f1 r (List.mem_cons_of_mem _ hr)
      · intro c h
        rcases List.mem_cons.1 h with rfl | h
        · exact hc
        · exact f2 c h

theorem directHist_reach (hz : (zero >. (zero : T)) = false) (hd : dom.skeleton = dom0.skeleton)
    {p : Particle T} {h : Hist T} (hp : ReachableBy (CacheAnswer data) data dom0 fuel p)
    (hl : directHist data dom fuel p = .ok h) :
    (∀ q ∈ h.particle :: h.extra, ReachableBy (CacheAnswer data) data dom0 fuel q ∧ q.weight = p.weight) ∧
    ∀ c ∈ h.contribs, ContribOf data dom0 fuel p.weight c := by
  unfold directHist at hl
  rw [bind_ok] at hl
  obtain ⟨q, hq, hl⟩ := hl
  have hw : q.weight = p.weight := by
    simp only [gutsPrepare, bind_ok, pure_ok] at hq
    obtain ⟨g, _, rfl⟩ := hq
    dsimp only
    split <;> rfl
  have := directLoop_reach hz hd (.prepared hp hq) hl
  rwa [hw] at this

/-- The particles left by the generations and their flux contributions. -/
theorem generations_reach (hz : (zero >. (zero : T)) = false) (hd : dom.skeleton = dom0.skeleton) {W : T → Prop}
    {ps b surv cs} (h : Generations data dom fuel ps b surv cs)
    (hp : ∀ p ∈ ps, ReachableBy (CacheAnswer data) data dom0 fuel p ∧ W p.weight) :
    (∀ p ∈ surv, ReachableBy (CacheAnswer data) data dom0 fuel p ∧ W p.weight) ∧
    ∀ c ∈ cs, ∃ w, W w ∧ ContribOf data dom0 fuel w c := by
  induction h with
  | done => simp
  | @next ps hs b surv cs _ hm _ ih =>
    have hh : ∀ h ∈ hs, (∀ q ∈ h.particle :: h.extra, ReachableBy (CacheAnswer data) data dom0 fuel q ∧ W q.weight) ∧
        ∀ c ∈ h.contribs, ∃ w, W w ∧ ContribOf data dom0 fuel w c := by
      intro h hh
      obtain ⟨p, hps, hl⟩ := mapM_ok_mem hm hh
      obtain ⟨r, w⟩ := hp p hps
      obtain ⟨a1, a2⟩ := directHist_reach hz hd r hl
      exact ⟨fun q hq => ⟨(a1 q hq).1, by rw [(a1 q hq).2]; exact w⟩, fun c hc => ⟨_, w, a2 c hc⟩⟩
    obtain ⟨i1, i2⟩ := ih (fun p hp => by
      obtain ⟨h, h1, h2⟩ := List.mem_flatMap.1 hp
      exact (hh h h1).1 p (List.mem_cons_of_mem _ h2))
    refine ⟨fun p hp => ?_, fun c hc => ?_⟩
    · rcases List.mem_append.1 hp with hp | hp
      · obtain ⟨h, h1, rfl⟩ := List.mem_map.1 (List.mem_filter.1 hp).1
        exact (hh h h1).1 _ (List.mem_cons_self ..)
      · exact i1 p hp
    · rcases List.mem_append.1 hc with hc | hc
      · obtain ⟨h, h1, h2⟩ := List.mem_flatMap.1 hc
        exact (hh h h1).2 c h2
      · exact i2 c hc

/-! ### Weights in population control -/

theorem overRr_weight (p : Particle T) (f : T) :
    (p.overPopulatedRr f).1.weight = p.weight ∨ (p.overPopulatedRr f).1.weight = p.weight /. f := by
  unfold Particle.overPopulatedRr
  generalize Rng.sample (T := T) p.seed = r
  obtain ⟨v, s⟩ := r
  dsimp only
  split
  · exact .inl rfl
  · exact .inr rfl

theorem lowRr_weight (p : Particle T) (c w : T) :
    (p.lowWeightRr c w).1.weight = p.weight ∨ (p.lowWeightRr c w).1.weight = p.weight /. c := by
  unfold Particle.lowWeightRr
  generalize Rng.sample (T := T) p.seed = r
  obtain ⟨v, s⟩ := r
  dsimp only
  split
  · split
    · exact .inr rfl
    · exact .inl rfl
  · exact .inl rfl

theorem split_weight {p p' : Particle T} {f : T} {cs : List (Particle T)}
    (h : p.underPopulatedSplit f = .ok (p', cs)) : ∀ q ∈ p' :: cs, q.weight = p.weight /. f := by
  unfold Particle.underPopulatedSplit at h
  generalize Rng.sample (T := T) p.seed = r at h
  obtain ⟨v, s⟩ := r
  dsimp only at h
  rw [bind_ok] at h
  obtain ⟨n, _, h⟩ := h
  generalize Particle.spawnSeeds n s = r at h
  obtain ⟨sds, s'⟩ := r
  simp only [pure_ok, Prod.mk.injEq] at h
  obtain ⟨rfl, rfl⟩ := h
  intro q hq
  rcases List.mem_cons.1 hq with rfl | hq
  · rfl
  · obtain ⟨_, _, rfl⟩ := List.mem_map.1 hq
    rfl

theorem splitAll_weights {W : T → Prop} {f : T} (hf : ∀ x, W x → W (x /. f)) {l ps cs : List (Particle T)}
    (h : splitAll f l = .ok (ps, cs)) (hk : ∀ p ∈ l, W p.weight) : ∀ p ∈ ps ++ cs, W p.weight := by
  induction l generalizing ps cs with
  | nil =>
    simp only [splitAll, Except.ok.injEq, Prod.mk.injEq] at h
    obtain ⟨rfl, rfl⟩ := h
    simp
  | cons q l ih =>
    simp only [splitAll, bind_ok, pure_ok, Prod.exists, Prod.mk.injEq] at h
    obtain ⟨q', c1, hq, ps1, cs1, h1, rfl, rfl⟩ := h
    have hi := ih h1 (fun p hp => hk p (by simp [hp]))
    have hqr : ∀ r ∈ q' :: c1, W r.weight := fun r hr => by
      rw [split_weight hq r hr]; exact hf _ (hk q (by simp))
    intro p hp
    simp only [List.mem_append, List.mem_cons] at hp hi hqr
    rcases hp with (h | h) | h | h
    · exact hqr p (.inl h)
    · exact hi p (.inl h)
    · exact hqr p (.inr h)
    · exact hi p (.inr h)

theorem sourceCells_weight {rates : List T} {w : T} {cells cells' : List (CellState T)} {ps : List (Particle T)} {i : Nat}
    (h : sourceCells data dom rates w cells i = .ok (cells', ps)) : ∀ p ∈ ps, p.weight = w := by
  induction cells generalizing i cells' ps with
  | nil =>
    simp only [sourceCells, Except.ok.injEq, Prod.mk.injEq] at h
    obtain ⟨_, rfl⟩ := h
    simp
  | cons cell cells ih =>
    simp only [sourceCells, bind_ok, pure_ok, Prod.exists, Prod.mk.injEq] at h
    obtain ⟨n, _, ps1, hps1, cs, ps2, hcs, _, rfl⟩ := h
    intro p hp
    rcases List.mem_append.1 hp with h | h
    · obtain ⟨s, _, hs⟩ := mapM_ok_mem hps1 h
      exact (sourceParticle_fields hs).weight
    · exact ih hcs p h

/-- Population control keeps every property of weights that the weight of the source has and that is kept by the
divisions by the weight cutoff and by the splitting factor. -/
theorem populationControl_weights {W : T → Prop} {n : Nat} {w : T} {u u1 : UnitState T} {c c1 : Container T}
    (hk : ∀ p ∈ c.all, W p.weight) (hw : W w) (hcut : ∀ x, W x → W (x /. data.lowWeightCutoff))
    (hf : ∀ u2 c2 f, sourceNow data w u c = .ok (u2, c2) →
      computeSplitFactor data.nParticles n c2.processing.length data.nUnits data.loadBalance = .ok f →
      ∀ x, W x → W (x /. f))
    (h : populationControl data n w u c = .ok (u1, c1)) : ∀ p ∈ c1.all, W p.weight := by
  have low : ∀ p : Particle T, W p.weight → W (p.lowWeightRr data.lowWeightCutoff w).1.weight := by
    intro p hp
    rcases lowRr_weight p data.lowWeightCutoff w with h | h <;> rw [h]
    · exact hp
    · exact hcut _ hp
  unfold populationControl at h
  rw [bind_ok] at h
  obtain ⟨⟨u2, c2⟩, hsrc, h⟩ := h
  dsimp only at h
  rw [bind_ok] at h
  obtain ⟨f, hfac, h⟩ := h
  have hf := hf u2 c2 f hsrc hfac
  have hk2 : ∀ p ∈ c2.all, W p.weight := by
    simp only [sourceNow, bind_ok, pure_ok, Prod.exists, Prod.mk.injEq] at hsrc
    obtain ⟨rates, hrates, cells, ps, hcells, rfl, rfl⟩ := hsrc
    intro p hp
    simp only [Container.all, List.mem_append] at hp
    rcases hp with ((h | h) | h) | h
    · exact hk p (by simp [Container.all, h])
    · rw [sourceCells_weight hcells p h]; exact hw
    · exact hk p (by simp [Container.all, h])
    · exact hk p (by simp [Container.all, h])
  unfold regulateOrSplit at h
  split at h
  · simp only [Container.regulate, Except.ok.injEq, Prod.mk.injEq] at h
    obtain ⟨_, rfl⟩ := h
    intro p hp
    simp only [Container.all, List.mem_append] at hp
    rcases hp with (h | h) | h
    · obtain ⟨a, ha, rfl, _⟩ := retainMut_mem h
      unfold regulateOne
      refine low _ ?_
      have := hk2 a (by simp [Container.all, ha])
      rcases overRr_weight a f with h | h <;> rw [h]
      · exact this
      · exact hf _ this
    · exact hk2 p (by simp [Container.all, h])
    · exact hk2 p (by simp [Container.all, h])
  · split at h
    · simp only [Container.split, Container.cleanExtra, bind_ok, pure_ok, Prod.exists,
        Prod.mk.injEq] at h
      obtain ⟨c3, b1, ⟨ps, cs, hs, rfl, rfl⟩, _, rfl⟩ := h
      have hsr := splitAll_weights hf hs (fun p hp => hk2 p (by simp [Container.all, hp]))
      intro p hp
      simp only [Container.all, List.mem_append] at hp
      rcases hp with (h | h) | h
      · obtain ⟨a, ha, rfl, _⟩ := retainMut_mem h
        refine low _ ?_
        simp only [List.mem_append] at ha
        rcases ha with h | h | h
        · exact hsr a (by simp [h])
        · exact hk2 a (by simp [Container.all, h])
        · exact hsr a (by simp [h])
      · exact hk2 p (by simp [Container.all, h])
      · simp at h
    · simp only [Except.ok.injEq, Prod.mk.injEq] at h
      obtain ⟨_, rfl⟩ := h
      exact hk2
