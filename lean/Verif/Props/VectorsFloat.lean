import Verif.Props.Vectors
import Verif.Lemmas.RatingRound
import Verif.Lemmas.Binary
import Mathlib.Tactic.Positivity
/-!
# C90: the square of a length, with rounding
-/
open Flt Ieee
variable {T : Type} [Flt T] [Ieee T]

theorem Moderate.sq {x : ℝ} (h : Moderate x) :
    x * x = 0 ∨ ((2 : ℝ) ^ (-60 : ℤ) ≤ x * x ∧ x * x ≤ 2 ^ (58 : ℤ)) := by
  rcases h with rfl | ⟨h1, h2⟩
  · left; simp
  · right
    rw [← abs_mul_abs_self x]
    constructor
    · calc (2 : ℝ) ^ (-60 : ℤ) = 2 ^ (-30 : ℤ) * 2 ^ (-30 : ℤ) := by norm_num
        _ ≤ |x| * |x| := by gcongr
    · calc |x| * |x| ≤ (2 : ℝ) ^ (29 : ℤ) * 2 ^ (29 : ℤ) := by gcongr
        _ = 2 ^ (58 : ℤ) := by norm_num

theorem square_rel {a : T} {x : ℝ} (ha : IsFin a x) (h : Moderate x) : Rel (a *. a) (x * x) 1 := by
  have hm : Mid (x * x) := h.sq.imp_right fun ⟨h1, h2⟩ => ⟨h1, h2.trans (by norm_num)⟩
  obtain ⟨z, hz, z0, z1⟩ := rnd_mid (T := T) (k := 0) (w := x * x) hm (by norm_num) (by simp) (by simp)
  exact ⟨z, fin_of_rnd (fin_mul ha ha) hz, z0, z1⟩

/-- **C90, with rounding.**  The scalar product of a vector with itself, when its coordinates are zero or of an ordinary
size, is a number that differs from the square of the length by at most a millionth of it. -/
theorem C90_square_rounded {u : Vec3 T} {v : Vec3 ℝ} (hx : IsFin u.x v.x) (hy : IsFin u.y v.y) (hz : IsFin u.z v.z)
    (mx : Moderate v.x) (my : Moderate v.y) (mz : Moderate v.z) :
    ∃ d : ℝ, val (u.dot u) = some (d : EReal) ∧ |d - ‖v.euclid‖ ^ 2| ≤ ‖v.euclid‖ ^ 2 / 10 ^ 6 := by
  have hn : ‖v.euclid‖ ^ 2 = v.x * v.x + v.y * v.y + v.z * v.z := by
    rw [EuclideanSpace.norm_sq_eq, Fin.sum_univ_three]
    simp [euclid_apply, Vec3.coords, pow_two]
  have two : ∀ {s t : ℝ} {b c : ℤ}, 0 ≤ s → 0 ≤ t → (s = 0 ∨ ((2 : ℝ) ^ (-60 : ℤ) ≤ s ∧ s ≤ 2 ^ b)) →
      (t = 0 ∨ ((2 : ℝ) ^ (-60 : ℤ) ≤ t ∧ t ≤ 2 ^ b)) → (2 : ℝ) ^ b + 2 ^ b ≤ 2 ^ c →
      s + t = 0 ∨ ((2 : ℝ) ^ (-60 : ℤ) ≤ s + t ∧ s + t ≤ 2 ^ c) := by
    intro s t b c s0 t0 hs ht hb
    have hb0 : (0 : ℝ) < 2 ^ b := by positivity
    rcases hs with rfl | ⟨s1, s2⟩
    · rcases ht with rfl | ⟨t1, t2⟩
      · left; simp
      · right; exact ⟨by rw [zero_add]; exact t1, (add_le_add hb0.le t2).trans hb⟩
    · right
      refine ⟨le_add_of_le_of_nonneg s1 t0, (add_le_add s2 ?_).trans hb⟩
      rcases ht with rfl | ⟨_, t2⟩
      · exact hb0.le
      · exact t2
  have px := mul_self_nonneg v.x
  have py := mul_self_nonneg v.y
  have pz := mul_self_nonneg v.z
  have mxy := two (c := 59) px py mx.sq my.sq (by norm_num)
  have hxy := (square_rel hx mx).add (square_rel hy my)
    (mxy.imp_right fun ⟨h1, h2⟩ => ⟨h1, h2.trans (by norm_num)⟩) (by norm_num)
  have mxyz := two (c := 60) (add_nonneg px py) pz mxy
    (mz.sq.imp_right fun ⟨h1, h2⟩ => ⟨h1, h2.trans (by norm_num)⟩) (by norm_num)
  obtain ⟨d, hd, d1, d2⟩ := hxy.add ((square_rel hz mz).mono pz (by norm_num)) mxyz (by norm_num)
  refine ⟨d, hd, ?_⟩
  rw [hn]
  set q := v.x * v.x + v.y * v.y + v.z * v.z with hq
  have q0 : 0 ≤ q := add_nonneg (add_nonneg px py) pz
  have r1 : rho ^ (1 + 1 + 1) ≤ 1 + 1 / 10 ^ 6 := by unfold rho; norm_num
  have rp : 0 < rho ^ (1 + 1 + 1) := pow_pos rho_pos _
  rw [abs_le]
  constructor
  · have : q * (1 - 1 / 10 ^ 6) ≤ q / rho ^ (1 + 1 + 1) := by
      rw [le_div_iff₀ rp, mul_assoc]
      refine mul_le_of_le_one_right q0 ?_
      calc (1 - 1 / 10 ^ 6 : ℝ) * rho ^ (1 + 1 + 1) ≤ (1 - 1 / 10 ^ 6) * (1 + 1 / 10 ^ 6) := by gcongr
        _ ≤ 1 := by norm_num
    linarith
  · have h := d2.trans (mul_le_mul_of_nonneg_left r1 q0)
    have e : q * (1 + 1 / 10 ^ 6) = q + q / 10 ^ 6 := by ring
    rw [e] at h
    exact sub_le_iff_le_add'.2 h

/-- The vector (3, -4, 12) in binary64. -/
example : ∃ u : Vec3 (Num binary64), ∃ d : ℝ, val (u.dot u) = some (d : EReal) ∧ |d - 169| ≤ 169 / 10 ^ 6 ∧
    IsFin u.y (-4) := by
  have h3 : IsFin (Flt.ofNat 3 : Num binary64) 3 := by
    simpa [IsI] using isI_ofNat (T := Num binary64) (n := 3) (by norm_num)
  have h4 : IsFin (Flt.neg (Flt.ofNat 4) : Num binary64) (-4) := by
    have h : IsFin (Flt.ofNat 4 : Num binary64) 4 := by
      simpa [IsI] using isI_ofNat (T := Num binary64) (n := 4) (by norm_num)
    show val _ = _
    rw [val_neg, h]
    rfl
  have h12 : IsFin (Flt.ofNat 12 : Num binary64) 12 := by
    simpa [IsI] using isI_ofNat (T := Num binary64) (n := 12) (by norm_num)
  obtain ⟨d, d1, d2⟩ := C90_square_rounded (u := ⟨Flt.ofNat 3, Flt.neg (Flt.ofNat 4), Flt.ofNat 12⟩)
    (v := ⟨3, -4, 12⟩) h3 h4 h12 (.inr (by norm_num)) (.inr (by norm_num)) (.inr (by norm_num))
  have hn : ‖(⟨3, -4, 12⟩ : Vec3 ℝ).euclid‖ ^ 2 = 169 := by
    rw [EuclideanSpace.norm_sq_eq, Fin.sum_univ_three]
    simp [euclid_apply, Vec3.coords]
    norm_num
  rw [hn] at d2
  exact ⟨_, d, d1, d2, h4⟩
