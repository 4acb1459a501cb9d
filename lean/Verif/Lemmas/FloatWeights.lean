import Verif.Spec.Countable
import Verif.Lemmas.FloatFlight
import Verif.Lemmas.FloatCycle
import Verif.Lemmas.DirectReach
import Verif.Spec.Direct
/-!
# Weights and flux contributions in floating-point arithmetic

Every weight comes from the weight of the source by divisions by the splitting factor and by the weight cutoff.  Both
are positive, so no weight is negative, and no contribution to the flux is.
-/
set_option linter.unusedSectionVars false
open Flt Ieee
attribute [local irreducible] Rng.lcg Rng.sample Rng.spawn
variable {T : Type} [Flt T] [Ieee T] {data : Data T} {dom : Domain T} {o : SyncOpts} {fuel : Nat}

theorem nn_div_pos {a b : T} (ha : Nn a) (hb : (zero <. b) = true) : Nn (a /. b) := by
  obtain ⟨y, hy, y0⟩ := pos_iff.1 hb
  intro z hz
  rw [val_div _ _ (by rw [hy]; intro h; exact y0.ne' (Option.some.inj h)), hy] at hz
  cases hx : val a with
  | none => rw [hx] at hz; simp [ieeeDiv] at hz
  | some x =>
    rw [hx] at hz
    unfold ieeeDiv at hz
    dsimp only at hz
    split at hz
    · cases hz
    · cases hz
      exact rnd_nonneg (EReal.div_nonneg (ha x hx) y0.le)

/-- The quotient of two counters of 64 bits is not zero. -/
theorem ratio_pos {a b : ℕ} (ha : 0 < a) (ha' : a < 2 ^ 64) (hb : 0 < b) (hb' : b < 2 ^ 64) :
    ∃ z : ℝ, IsFin (Flt.ofNat a /. Flt.ofNat b : T) z ∧ 0 < z ∧ z ≤ 2 ^ (64 : ℤ) := by
  have nat : ∀ n : ℕ, 0 < n → n < 2 ^ 64 → ∃ x : ℝ, IsFin (Flt.ofNat n : T) x ∧ 1 ≤ x ∧ x ≤ 2 ^ (64 : ℤ) := by
    intro n h0 h1
    obtain ⟨x, hx, x0, x1⟩ := fin_ofNat_le (T := T) (n := n) (m := 1) (k := 64) (by exact_mod_cast h0) (by norm_num)
      (by exact_mod_cast h1.le) (by norm_num) (by norm_num)
    exact ⟨x, hx, by exact_mod_cast x0, x1⟩
  obtain ⟨x, hx, x0, x1⟩ := nat a ha ha'
  obtain ⟨y, hy, y0, y1⟩ := nat b hb hb'
  have yp : 0 < y := by linarith
  obtain ⟨z, hz, z0, z1⟩ := rnd_between (T := T) (Ieee.rep_two_pow (k := -64) (by norm_num) (by norm_num))
    (Ieee.rep_two_pow (k := 64) (by norm_num) (by norm_num)) (t := x / y)
    (by
      rw [le_div_iff₀ yp, zpow_neg]
      have h2 : (0 : ℝ) < 2 ^ (64 : ℤ) := by positivity
      calc ((2 : ℝ) ^ (64 : ℤ))⁻¹ * y ≤ ((2 : ℝ) ^ (64 : ℤ))⁻¹ * 2 ^ (64 : ℤ) := by gcongr
        _ = 1 := inv_mul_cancel₀ h2.ne'
        _ ≤ x := x0)
    ((div_le_self (by linarith) y0).trans x1)
  exact ⟨z, by unfold IsFin; rw [fin_div hx hy yp.ne', hz], lt_of_lt_of_le (by positivity) z0, z1⟩

theorem splitFactor_pos {target gn ln units : Nat} {lb : Bool} {f : T} (ht : 0 < target) (ht' : target ≤ 2 ^ 62)
    (hu : 0 < units) (hu' : units < 2 ^ 64) (hg : 0 < gn) (hg' : gn < 2 ^ 64) (hl' : ln < 2 ^ 64)
    (h : computeSplitFactor target gn ln units lb = .ok f) : (zero <. f) = true := by
  unfold computeSplitFactor at h
  split at h
  · split at h
    · rename_i hl
      dsimp only at h
      rw [bind_ok] at h
      obtain ⟨lt, hlt, h⟩ := h
      cases pure_ok.1 h
      obtain ⟨z, hz, z0, _⟩ := ratio_pos (T := T) ht (by omega) hu hu'
      obtain ⟨t, ht1, t0, t1⟩ := fin_ofNat_le (T := T) (n := target) (m := 0) (k := 62) (by simp) (by norm_num)
        (by exact_mod_cast ht') (by norm_num) (by norm_num)
      obtain ⟨y, hy, y1⟩ := ofNat_pos (T := T) hu
      obtain ⟨z', hz', _, z2⟩ := div_ge_one ht1 (by exact_mod_cast t0) t1
        (Ieee.rep_two_pow (k := 62) (by norm_num) (by norm_num)) hy y1
      cases hz.inj hz'
      have c1 : ⌈z⌉ ≤ (2 ^ 62 : ℤ) := Int.ceil_le.2 (by exact_mod_cast z2)
      have c0 : 0 < ⌈z⌉ := Int.ceil_pos.2 z0
      have hU := toUsize_eq _ _ (val_ceil _ z hz) (by exact_mod_cast c0.le)
        (by
          have : ((⌈z⌉ : ℤ) : ℝ) ≤ 2 ^ 62 := by exact_mod_cast c1
          exact lt_of_le_of_lt this (by norm_num))
      rw [hU] at hlt
      have e : lt = ⌊((⌈z⌉ : ℤ) : ℝ)⌋₊ := by
        simp only [unwrap, Except.ok.injEq] at hlt
        exact hlt.symm
      have e2 : (lt : ℤ) = ⌈z⌉ := by
        rw [e, Int.natCast_floor_eq_floor (by exact_mod_cast c0.le), Int.floor_intCast]

      obtain ⟨v, hv, v0, _⟩ := ratio_pos (T := T) (a := lt) (b := ln) (by omega) (by omega) (by omega) hl'
      exact (lt_fin fin_zero hv).2 v0
    · cases h
      exact (lt_fin fin_zero fin_one).2 (by norm_num)
  · cases h
    obtain ⟨v, hv, v0, _⟩ := ratio_pos (T := T) ht (by omega) hg hg'
    exact (lt_fin fin_zero hv).2 v0

/-- What is known of a particle of the reference. -/
def DirectOk (data : Data T) (dom0 : Domain T) (fuel : Nat) (p : Particle T) : Prop :=
  ReachableBy (CacheAnswer data) data dom0 fuel p ∧ Nn p.weight

theorem sync_weight {n : Nat} {s s2 : SimState T} (hp : FloatProblem data s.unit.dom) (hn : n ≤ data.nSteps)
    (h : cycleSync data o n s = .ok s2) : 0 < s2.globalN ∧ Nn s2.srcWeight := by
  have key : ∀ {s1 : SimState T}, s1.unit.dom = s.unit.dom → syncPrepare data s1 = .ok s2 →
      0 < s2.globalN ∧ Nn s2.srcWeight := by
    intro s1 hd h
    have hp1 : FloatProblem data s1.unit.dom := by rw [hd]; exact hp
    obtain ⟨s', h4, h5, _, w, hw, e⟩ := hp1.prepare
    rw [h] at h4
    cases h4
    obtain ⟨x, z, _, _, z0, hz, _⟩ := hp1.sourceWeight hw
    exact ⟨h5, by rw [e]; exact hz.nn z0.le⟩
  unfold cycleSync at h
  split at h
  · rw [bind_ok] at h
    obtain ⟨s1, h1, h⟩ := h
    rw [if_neg (by omega)] at h
    refine key ?_ h
    simp only [syncFinalize, bind_ok, pure_ok] at h1
    obtain ⟨_, _, rfl⟩ := h1
    rfl
  · exact key rfl h

theorem control_ok {n : Nat} {dom0 : Domain T} {s s2 : SimState T} {u1 : UnitState T} {c1 : Container T}
    (hp : FloatProblem data dom0) (hcut : (zero <. data.lowWeightCutoff) = true) (hu : data.nUnits < 2 ^ 64)
    (hd : s.unit.dom.skeleton = dom0.skeleton) (hk : ∀ p ∈ s.container.all, DirectOk data dom0 fuel p)
    (hn : n ≤ data.nSteps) (hs : cycleSync data o n s = .ok s2)
    (hsz : ∀ u2 c2, sourceNow data s2.srcWeight s2.unit s2.container = .ok (u2, c2) →
      s2.globalN < 2 ^ 64 ∧ c2.processing.length < 2 ^ 64)
    (h : populationControl data s2.globalN s2.srcWeight s2.unit s2.container = .ok (u1, c1)) :
    u1.dom.skeleton = dom0.skeleton ∧ ∀ p ∈ c1.all, DirectOk data dom0 fuel p := by
  have hd2 : s2.unit.dom.skeleton = dom0.skeleton := by rw [cycleSync_dom hs, hd]
  have hk2 := fun p hp => hk p (cycleSync_all hs p hp)
  obtain ⟨g0, w0⟩ := sync_weight (hp.skeleton hd) hn hs
  refine ⟨(populationControl_skeleton h).trans hd2, fun p hm => ⟨?_, ?_⟩⟩
  · exact populationControl_reach hd2 (fun p hp => (hk2 p hp).1) h p hm
  · refine populationControl_weights (W := Nn) (fun p hp => (hk2 p hp).2) w0 (fun x hx => nn_div_pos hx hcut) ?_ h p hm
    intro u2 c2 f hsrc hf x hx
    obtain ⟨a, b⟩ := hsz u2 c2 hsrc
    exact nn_div_pos hx (splitFactor_pos (by have := hp.atLeast; omega) hp.atMost hp.units hu g0 a b hf)

theorem zero_gt_zero : (zero >. (zero : T)) = false := not_lt_self _

/-- The reference: every particle between two cycles is reachable with a weight that is not negative. -/
theorem directCycles_ok {n : Nat} {s0 s : SimState T} (h0 : InitialState s0) (hp : FloatProblem data s0.unit.dom)
    (hcut : (zero <. data.lowWeightCutoff) = true) (hu : data.nUnits < 2 ^ 64) (hn : n ≤ data.nSteps + 1)
    (hsz : ∀ m, m + 1 = n → Countable64 data o fuel s0 m) (h : DirectCycles data o fuel n s0 s) :
    s.unit.dom.skeleton = s0.unit.dom.skeleton ∧ ∀ p ∈ s.container.all, DirectOk data s0.unit.dom fuel p := by
  induction h with
  | zero =>
    refine ⟨rfl, ?_⟩
    simp [Container.all, h0.processing, h0.processed, h0.extra]
  | @succ n s0 s1 s2 u c hc hsync hcyc ih =>
    have hsz := hsz n rfl
    obtain ⟨hd, hk⟩ := ih h0 hp (by omega) (fun m hm k s s2 u2 c2 hk => hsz k s s2 u2 c2 (by omega))
    obtain ⟨u1, c1, b, surv, cs, hpc, hg, rfl, rfl⟩ := hcyc
    obtain ⟨e1, e2⟩ := control_ok hp hcut hu hd hk (by omega) hsync (fun u2 c2 => hsz n s1 s2 u2 c2 le_rfl hc hsync) hpc
    refine ⟨e1, fun p hp => ?_⟩
    simp only [Container.all, List.nil_append, List.append_nil, List.mem_append] at hp
    rcases hp with h | h
    · exact e2 p (by simp [Container.all, h])
    · exact (generations_reach zero_gt_zero e1 (W := Nn) hg
        (fun p hp => e2 p (by simp [Container.all, hp]))).1 p h

/-- The contributions to the flux of a cycle of the reference are not negative. -/
theorem contribs_nn {n : Nat} {s0 s1 s2 : SimState T} {u1 : UnitState T} {c1 : Container T} {b : Balance}
    {surv : List (Particle T)} {cs : List (Nat × T)} (hR : Reciprocal T)
    (h0 : InitialState s0) (hp : FloatProblem data s0.unit.dom)
    (hcut : (zero <. data.lowWeightCutoff) = true) (hu : data.nUnits < 2 ^ 64) (hn : n ≤ data.nSteps)
    (hsz : Countable64 data o fuel s0 n) (h : DirectCycles data o fuel n s0 s1) (hs : cycleSync data o n s1 = .ok s2)
    (hpc : populationControl data s2.globalN s2.srcWeight s2.unit s2.container = .ok (u1, c1))
    (hg : Generations data u1.dom fuel c1.processing b surv cs) : ∀ c ∈ cs, Nn c.2 := by
  obtain ⟨hd, hk⟩ := directCycles_ok h0 hp hcut hu (by omega) (fun m hm k s s2 u2 c2 hk => hsz k s s2 u2 c2 (by omega)) h
  obtain ⟨e1, e2⟩ := control_ok hp hcut hu hd hk hn hs (fun u2 c2 => hsz n s1 s2 u2 c2 le_rfl h hs) hpc
  intro c hc
  obtain ⟨w, hw, d, p, tr, oc, q, hd', hr, hm, hl, rfl, e⟩ := (generations_reach zero_gt_zero e1 (W := Nn) hg
    (fun p hp => e2 p (by simp [Container.all, hp]))).2 c hc
  have hsg := outcome_signs (hp.tracking.skeleton hd') hR (flightOk_reachable hp.tracking hR hr) hm hl
  rw [e]
  refine Nn.mul ?_ hw
  obtain ⟨a, b', ha, hb, hab⟩ := (le_iff _ _).1 hsg.path
  intro y hy
  rw [hb] at hy
  cases hy
  rw [fin_zero] at ha
  cases ha
  simpa using hab
