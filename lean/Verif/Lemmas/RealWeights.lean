import Verif.Lemmas.SafeCycle
import Verif.Lemmas.DirectReach
/-!
# Weights over the reals

The split factor is positive, the weight of the source is positive, so every weight of a run is positive.
-/
open Flt FltReal
attribute [local irreducible] Rng.lcg Rng.sample Rng.spawn

theorem splitFactor_real_pos {target gn ln units : Nat} {lb : Bool} {f : ℝ} (ht0 : 0 < target) (ht : target < 2 ^ 64)
    (hu : 0 < units) (hg : 0 < gn) (h : computeSplitFactor target gn ln units lb = .ok f) : 0 < f := by
  have ht' : (target : ℝ) < 2 ^ 64 := by exact_mod_cast ht
  have t0 : (0 : ℝ) < target := by exact_mod_cast ht0
  unfold computeSplitFactor at h
  split at h
  · split at h
    · rename_i hl
      have hq0 : (0 : ℝ) < target / units := by positivity
      have hc0 : (1 : ℝ) ≤ (⌈(target : ℝ) / units⌉ : ℝ) := by
        exact_mod_cast (Int.one_le_ceil_iff.2 hq0 : 1 ≤ ⌈(target : ℝ) / units⌉)
      rw [bind_ok] at h
      obtain ⟨k, hk, h⟩ := h
      simp only [toUsize_eq, ceil_eq, div_eq, ofNat_eq] at hk
      split at hk
      · cases hk
        have hln : (0 : ℝ) < ln := by exact_mod_cast Nat.pos_of_ne_zero hl
        have hk1 : 0 < ⌊(⌈(target : ℝ) / units⌉ : ℝ)⌋₊ := Nat.floor_pos.2 hc0
        cases pure_ok.1 h
        simp only [div_eq, ofNat_eq]
        have : (0 : ℝ) < (⌊(⌈(target : ℝ) / units⌉ : ℝ)⌋₊ : ℕ) := by exact_mod_cast hk1
        positivity
      · cases hk
    · cases h
      simp
  · cases h
    simp only [div_eq, ofNat_eq]
    have : (0 : ℝ) < gn := by exact_mod_cast hg
    positivity

section
variable {data : Data ℝ} {o : SyncOpts} {fuel : Nat}

theorem sync_weight_real {n : Nat} {s s2 : SimState ℝ} (hp : SafeProblem data s.unit.dom) (hn : n ≤ data.nSteps)
    (h : cycleSync data o n s = .ok s2) : 0 < s2.globalN ∧ 0 < s2.srcWeight ∧ 0 < s2.unit.unitWeight ∧
      ∃ s1, s1.unit.dom = s.unit.dom ∧ s1.container = s.container ∧ syncPrepare data s1 = .ok s2 := by
  have key : ∀ {s1 : SimState ℝ}, s1.unit.dom = s.unit.dom → syncPrepare data s1 = .ok s2 →
      0 < s2.globalN ∧ 0 < s2.srcWeight ∧ 0 < s2.unit.unitWeight := by
    intro s1 hd h
    have hp1 : SafeProblem data s1.unit.dom := by rw [hd]; exact hp
    obtain ⟨s', h4, h5, _, w, hw, e⟩ := hp1.prepare
    rw [h] at h4
    cases h4
    obtain ⟨w', hw', hpos, _⟩ := hp1.weight
    rw [hw] at hw'
    cases hw'
    have h10 : (10 : ℝ) ≤ data.nParticles := by exact_mod_cast hp.atLeast
    refine ⟨h5, by rw [e]; positivity, ?_⟩
    simp only [syncPrepare, bind_ok, pure_ok] at h
    obtain ⟨w2, hw2, h⟩ := h
    rw [hw] at hw2
    cases hw2
    obtain ⟨k, _, rfl⟩ := h
    exact hpos
  unfold cycleSync at h
  split at h
  · rw [bind_ok] at h
    obtain ⟨s1, h1, h⟩ := h
    rw [if_neg (by omega)] at h
    simp only [syncFinalize, bind_ok, pure_ok] at h1
    obtain ⟨_, _, rfl⟩ := h1
    obtain ⟨a, b, c⟩ := key (by rfl) h
    refine ⟨a, b, c, _, ?_, ?_, h⟩ <;> rfl
  · obtain ⟨a, b, c⟩ := key (by rfl) h
    exact ⟨a, b, c, _, rfl, rfl, h⟩

/-- The reference: every particle between two cycles is reachable and has a positive weight. -/
theorem directCycles_weight {n : Nat} {s0 s : SimState ℝ} (h0 : InitialState s0) (hp : SafeProblem data s0.unit.dom)
    (hcut : 0 < data.lowWeightCutoff) (hn : n ≤ data.nSteps) (h : DirectCycles data o fuel n s0 s) :
    s.unit.dom.skeleton = s0.unit.dom.skeleton ∧
    ∀ p ∈ s.container.all, ReachableBy (CacheAnswer data) data s0.unit.dom fuel p ∧ 0 < p.weight := by
  have hz : (zero >. (zero : ℝ)) = false := by simp
  induction h with
  | zero =>
    refine ⟨rfl, ?_⟩
    simp [Container.all, h0.processing, h0.processed, h0.extra]
  | @succ n s0 s1 s2 u c hc hsync hcyc ih =>
    obtain ⟨hd, hk⟩ := ih h0 hp (by omega)
    obtain ⟨u1, c1, b, surv, cs, hpc, hg, rfl, rfl⟩ := hcyc
    have hd2 : s2.unit.dom.skeleton = s0.unit.dom.skeleton := by rw [cycleSync_dom hsync, hd]
    have hk2 := fun p hp => hk p (cycleSync_all hsync p hp)
    obtain ⟨g0, w0, _⟩ := sync_weight_real (hp.skeleton hd) (by omega) hsync
    have e1 := (populationControl_skeleton hpc).trans hd2
    have e2 : ∀ p ∈ c1.all, ReachableBy (CacheAnswer data) data s0.unit.dom fuel p ∧ 0 < p.weight := by
      refine fun p hm => ⟨populationControl_reach hd2 (fun p hp => (hk2 p hp).1) hpc p hm, ?_⟩
      refine populationControl_weights (W := fun x => 0 < x) (fun p hp => (hk2 p hp).2) w0
        (fun x hx => div_pos hx hcut) ?_ hpc p hm
      intro u2 c2 f hsrc hf x hx
      exact div_pos hx (splitFactor_real_pos (by have := hp.atLeast; omega) hp.atMost hp.units g0 hf)
    refine ⟨e1, fun p hp => ?_⟩
    simp only [Container.all, List.nil_append, List.append_nil, List.mem_append] at hp
    rcases hp with h | h
    · exact e2 p (by simp [Container.all, h])
    · exact (generations_reach hz e1 (W := fun x => 0 < x) hg (fun p hp => e2 p (by simp [Container.all, hp]))).1 p h

end
