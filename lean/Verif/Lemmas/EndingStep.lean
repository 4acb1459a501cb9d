import Verif.Lemmas.Ending
/-!
# Tracking ends: what decreases along the segments of a particle
-/
open Flt FltReal GridSpec MeshSpec Flooding Rng
attribute [local irreducible] Rng.lcg Rng.sample Rng.spawn

/-- A segment with a directly computed cross-section is one that the cache allows. -/
theorem directOutcome_may {data : Data ℝ} {dom : Domain ℝ} {p : Particle ℝ} {x : SegOutcome × Particle ℝ}
    (h : directOutcome data dom p = .ok x) : ∃ tr, (outcome data dom p).May tr x := by
  unfold directOutcome at h
  unfold outcome
  dsimp only at h ⊢
  generalize prepareForced p = fp at h ⊢
  obtain ⟨force, p'⟩ := fp
  dsimp only at h ⊢
  simp only [bind_ok] at h
  obtain ⟨xs, hxs, h⟩ := h
  have hc : (cachedXs data dom p'.cell p'.energyGroup).May
      [.load (p'.cell * dom.numGroups + p'.energyGroup) 0, .store (p'.cell * dom.numGroups + p'.energyGroup) xs] xs := by
    unfold cachedXs
    refine .load ?_
    rw [if_neg (by simp), hxs]
    exact .store .ret
  refine ⟨_, hc.bind (t2 := []) ?_⟩
  rw [h]
  exact .ret

theorem Visits.reachable {data : Data ℝ} {dom d : Domain ℝ} (hd : d.skeleton = dom.skeleton) {fuel : Nat}
    {p q : Particle ℝ} (hp : Reachable data dom fuel p) (h : Visits data d fuel p q) : Reachable data dom fuel q := by
  induction h with
  | start hg => exact .prepared hp hg
  | next _ ho he ih =>
    obtain ⟨tr, hm⟩ := directOutcome_may ho
    exact .event hd ih hm (fun _ _ _ => trivial) he (List.nil_append _).symm (by simp)
  | born _ ho he hc hg ih =>
    obtain ⟨tr, hm⟩ := directOutcome_may ho
    exact .prepared (.event hd ih hm (fun _ _ _ => trivial) he (List.nil_append _).symm
      (List.mem_cons_of_mem _ hc)) hg

/-! ### The optical path -/

/-- The logarithm of a draw that is neither 0 nor 1. -/
theorem log_draw {s : BitVec 64} (h0 : (Rng.sample (T := ℝ) s).1 ≠ 0) (h1 : (Rng.sample (T := ℝ) s).1 ≠ 1) :
    1 / 2 ^ 64 ≤ -Real.log (Rng.sample (T := ℝ) s).1 := by
  have e := draw_eq s
  unfold draw at e
  have l1 := draw_le_one s
  have l0 := draw_nonneg s
  unfold draw at l0 l1
  rw [e] at h0 h1 l0 l1 ⊢
  clear e
  generalize u64ToF64 (lcg s).toNat = n at h0 h1 l0 l1 ⊢
  have hn : n < 2 ^ 64 := by
    rw [div_le_one (by positivity)] at l1
    have h1' : (n : ℝ) ≠ 2 ^ 64 := fun h => h1 (by rw [h]; exact div_self (by positivity))
    exact_mod_cast lt_of_le_of_ne l1 h1'
  have hn' : (n : ℝ) + 1 ≤ 2 ^ 64 := by exact_mod_cast hn
  have hpos : 0 < (n : ℝ) / 2 ^ 64 := lt_of_le_of_ne l0 (Ne.symm h0)
  have := Real.log_le_sub_one_of_pos hpos
  have h2 : (n : ℝ) / 2 ^ 64 ≤ 1 - 1 / 2 ^ 64 := by
    rw [div_le_iff₀ (by positivity)]
    linarith [show (1 - 1 / 2 ^ 64) * (2 : ℝ) ^ 64 = 2 ^ 64 - 1 by norm_num]
  linarith

/-- The optical path drawn after a collision is zero or not too small. -/
theorem CollisionOut.fresh {mass : ℝ} {p q : Particle ℝ} (h : CollisionOut mass p q) (hp : p.numMeanFreePaths = 0) :
    q.numMeanFreePaths = 0 ∨ 1 / 2 ^ 64 ≤ q.numMeanFreePaths := by
  have key : ∀ (p : Particle ℝ) (e a : ℝ), (p.updateTrajectory e a).numMeanFreePaths = 0 ∨
      1 / 2 ^ 64 ≤ (p.updateTrajectory e a).numMeanFreePaths := by
    intro p e a
    unfold Particle.updateTrajectory
    generalize Rng.sample (T := ℝ) p.seed = r
    obtain ⟨u, s⟩ := r
    dsimp only
    have : ∀ q : Particle ℝ, q.sampleNumMfp.numMeanFreePaths = -Real.log (Rng.sample (T := ℝ) q.seed).1 := by
      intro q
      unfold Particle.sampleNumMfp
      generalize Rng.sample (T := ℝ) q.seed = r
      obtain ⟨u, s⟩ := r
      simp only [mul_eq, neg_eq, one_eq, ln_eq]
      ring
    rw [this]
    generalize (Particle.seed _) = s'
    by_cases h0 : (Rng.sample (T := ℝ) s').1 = 0
    · left; rw [h0]; simp
    by_cases h1 : (Rng.sample (T := ℝ) s').1 = 1
    · left; rw [h1]; simp
    · right; exact log_draw h0 h1
  cases h with
  | same => exact .inl hp
  | scatter => exact key _ _ _
  | fission => exact key _ _ _

/-- The length the particle could travel before the census at the speed of light. -/
noncomputable def reachOf (p : Particle ℝ) : ℝ := (Flt.lightSpeed : ℝ) * p.timeToCensus

/-- A lower bound of the optical path of the next segment, at most `2⁻⁶⁴`. -/
noncomputable def sigmaOf (p : Particle ℝ) : ℝ :=
  if p.numMeanFreePaths = 0 then 1 / 2 ^ 64 else Min.min p.numMeanFreePaths (1 / 2 ^ 64)

/-- Bounds the number of collisions to come. -/
noncomputable def collisionsLeft (X : ℝ) (p : Particle ℝ) : ℝ := (X * reachOf p - sigmaOf p) * 2 ^ 64 + 1

theorem sigmaOf_le (p : Particle ℝ) : sigmaOf p ≤ 1 / 2 ^ 64 := by
  unfold sigmaOf
  split
  · exact le_rfl
  · exact min_le_right _ _

theorem sigmaOf_nonneg {p : Particle ℝ} (h : 0 ≤ p.numMeanFreePaths) : 0 ≤ sigmaOf p := by
  unfold sigmaOf
  split
  · positivity
  · exact le_min h (by positivity)

theorem reachOf_nonneg {p : Particle ℝ} (h : TimeOk p) : 0 ≤ reachOf p :=
  mul_nonneg (constants_pos).2.le h.timeToCensus

theorem collisionsLeft_nonneg {X : ℝ} (hX : 0 ≤ X) {p : Particle ℝ} (h : TimeOk p) : 0 ≤ collisionsLeft X p := by
  unfold collisionsLeft
  have h1 := sigmaOf_le p
  have h2 := mul_nonneg hX (reachOf_nonneg h)
  have : -(1 / 2 ^ 64) ≤ X * reachOf p - sigmaOf p := by linarith
  have := mul_le_mul_of_nonneg_right this (show (0 : ℝ) ≤ 2 ^ 64 by positivity)
  norm_num at this ⊢
  linarith

theorem collisionsLeft_le {X : ℝ} {p : Particle ℝ} (h : 0 ≤ p.numMeanFreePaths) :
    collisionsLeft X p ≤ collisionBound (reachOf p) X := by
  unfold collisionsLeft collisionBound
  have := sigmaOf_nonneg h
  have : (X * reachOf p - sigmaOf p) * 2 ^ 64 ≤ X * reachOf p * 2 ^ 64 :=
    mul_le_mul_of_nonneg_right (by linarith) (by positivity)
  linarith

/-- An ordinary segment: the time and the optical path. -/
theorem ordinary_segment {data : Data ℝ} {dom : Domain ℝ} {g : Grid ℝ} (hx : NonnegTables data dom) {X : ℝ}
    (hX : 1 / 10 ^ 76 ≤ X) (hXs : ∀ c gr xs, directXs data dom c gr = .ok xs → xs ≤ X)
    {p q : Particle ℝ} (hp : TimeOk p) (hor : Ordinary data dom g p) (hb : reachOf p < 10 ^ 76) {o : SegOutcome}
    (h : directOutcome data dom p = .ok (o, q)) :
    0 ≤ q.segmentPathLength ∧ reachOf q ≤ reachOf p - q.segmentPathLength ∧
    (o = .collision → q.numMeanFreePaths = 0 ∧ sigmaOf p ≤ X * q.segmentPathLength) ∧
    (o = .facetCrossing →
      0 < q.numMeanFreePaths ∧ sigmaOf p - X * q.segmentPathLength ≤ sigmaOf q) := by
  obtain ⟨xs, nf, r, hxs, hxs0, hr, hn0, hn1, hfr, r5, r3, r6, he⟩ := direct_segment hx hp h
  have hv := C37_speed.2.1 _ hp.energy
  change 0 < p.getSpeed ∧ p.getSpeed < _ at hv
  set mfp : ℝ := if xs = 0 then 10 ^ 76 else 1 / xs with hmfp
  have hm : 0 < mfp := by
    rw [hmfp]; split
    · positivity
    · rename_i hne; have := lt_of_le_of_ne hxs0 (Ne.symm hne); positivity
  have hmX : 1 / mfp ≤ X := by
    rw [hmfp]; split
    · exact hX
    · rw [one_div_one_div]; exact hXs _ _ _ hxs
  have hpath : sigmaOf p ≤ pathOf p ∧ 0 ≤ pathOf p := by
    unfold sigmaOf pathOf
    split
    · rename_i h0
      obtain ⟨a, b⟩ := hor.flight h0
      have := log_draw a b
      exact ⟨this, le_trans (by positivity) this⟩
    · exact ⟨min_le_left _ _, hp.opticalPath⟩
  have hlen := he.length
  set L := Min.min (pathOf p * mfp) (Min.min (p.getSpeed * p.timeToCensus) nf.distanceToFacet) with hL
  have hL0 : 0 ≤ L := le_min (mul_nonneg hpath.2 hm.le) (le_min (mul_nonneg hv.1.le hp.timeToCensus) hn0)
  have hLm : L / mfp ≤ X * L := by
    rw [div_eq_mul_one_div, mul_comm]
    exact mul_le_mul_of_nonneg_right hmX hL0
  have hlt : L < 10 ^ 76 := by
    refine lt_of_le_of_lt ((min_le_right _ _).trans (min_le_left _ _)) (lt_of_le_of_lt ?_ hb)
    exact mul_le_mul_of_nonneg_right hv.2.le hp.timeToCensus
  refine ⟨by rw [hlen]; exact hL0, ?_, ?_, ?_⟩
  · unfold reachOf
    rw [he.timeToCensus, r3, hlen]
    have h1 : L ≤ (Flt.lightSpeed : ℝ) * (L / p.getSpeed) := by
      rw [mul_div_assoc', le_div_iff₀ hv.1, mul_comm]
      exact mul_le_mul_of_nonneg_right hv.2.le hL0
    linarith
  · intro hc
    refine ⟨he.opticalPath_collision hc, ?_⟩
    obtain ⟨h1, h2⟩ := (he.outcome hlt).1.1 hc
    have h3 : L = pathOf p * mfp := by rw [hL, min_eq_left (le_min h1 h2)]
    rw [hlen]
    refine le_trans hpath.1 (le_trans (le_of_eq ?_) hLm)
    rw [h3, mul_div_assoc, div_self hm.ne', mul_one]
  · intro hf
    have hne : o ≠ .collision := by rw [hf]; simp
    have h1 := ((he.outcome hlt).2.2.1 hf).1
    have h2 : q.numMeanFreePaths = pathOf p - L / mfp := by
      rw [he.opticalPath hne, hfr]
      show (prepareXs p xs).numMeanFreePaths - _ = _
      rw [prepareXs_pathOf]
    have h3 : L < pathOf p * mfp := lt_of_le_of_lt ((min_le_right _ _).trans (min_le_right _ _)) h1
    have h4 : 0 < q.numMeanFreePaths := by
      rw [h2, sub_pos, div_lt_iff₀ hm]; exact h3
    refine ⟨h4, ?_⟩
    have h5 := sigmaOf_le p
    unfold sigmaOf at h5 ⊢
    rw [if_neg h4.ne', hlen]
    refine le_min ?_ ?_
    · have := hpath.1
      unfold sigmaOf at this
      rw [h2]; linarith
    · have : 0 ≤ X * L := mul_nonneg (le_trans (by positivity) hX) hL0
      linarith
