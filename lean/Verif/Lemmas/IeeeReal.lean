import Verif.Lemmas.Ieee
import Verif.Model.Real
import Verif.Lemmas.F64
import Verif.Lemmas.Binary
import Mathlib.Analysis.SpecialFunctions.Log.Basic
/-!
# Exact arithmetic follows the rules too

The rules of `Verif/Spec/Ieee.lean` ask for nothing that the real numbers, without any rounding, do not satisfy: the
theorems about rounded arithmetic hold for exact arithmetic as well.
-/
open Flt FltReal

noncomputable instance instIeeeReal : Ieee ℝ where
  val a := some (a : EReal)
  rnd := id
  rndLit := id
  rnd_mono := monotone_id
  rnd_val _ _ _ := rfl
  rnd_exact _ _ _ _ _ := rfl
  rndLit_mono := monotone_id
  rndLit_exact _ _ _ _ _ := rfl
  lt_iff a b := by simp
  le_iff a b := by simp
  beq_iff a b := by simp [eq_comm]
  val_add a b := by simp [ieeeAdd]
  val_sub a b := by simp [ieeeAdd, sub_eq_add_neg]
  val_mul a b := by simp [ieeeMul]
  val_div a b _ := by simp [ieeeDiv, EReal.coe_div]
  val_neg a := by simp
  val_max a b := by simp [EReal.coe_strictMono.monotone.map_max]
  val_min a b := by simp [EReal.coe_strictMono.monotone.map_min]
  val_sqrt a y h := by
    cases h
    exact_mod_cast Real.sqrt_nonneg a
  val_ln a x y h h0 h1 hy := by
    cases h; cases hy
    exact_mod_cast Real.log_nonpos (by exact_mod_cast h0) (by exact_mod_cast h1)
  val_cbrt a x h h0 h1 := by
    obtain rfl : a = x := by simpa using h
    refine ⟨_, rfl, ?_⟩
    show 0 ≤ (if 0 ≤ a then a ^ (1 / 3 : ℝ) else _) ∧ (if 0 ≤ a then a ^ (1 / 3 : ℝ) else _) ≤ 1
    rw [if_pos h0]
    exact ⟨Real.rpow_nonneg h0 _, Real.rpow_le_one h0 h1 (by norm_num)⟩
  val_abs a x h := by
    obtain rfl : a = x := by simpa using h
    simp
  val_ln_mid a x h _ _ := by
    obtain rfl : a = x := by simpa using h
    exact ⟨_, rfl, Int.floor_le _, Int.le_ceil _⟩
  val_log10 a x h _ _ := by
    obtain rfl : a = x := by simpa using h
    exact ⟨_, rfl, Int.floor_le _, Int.le_ceil _⟩
  val_exp a x h _ _ := by
    obtain rfl : a = x := by simpa using h
    have := Real.exp_pos a
    exact ⟨_, rfl, by simp only [exp_eq]; linarith, by simp only [exp_eq]; linarith⟩
  val_floor a x h := by
    obtain rfl : a = x := by simpa using h
    rfl
  val_ceil a x h := by
    obtain rfl : a = x := by simpa using h
    rfl
  toUsize_eq a x h h0 h1 := by
    obtain rfl : a = x := by simpa using h
    rw [FltReal.toUsize_eq, if_pos ⟨by linarith, h1⟩]
  val_ofNat n := rfl
  val_lit m e := rfl
  val_ofSeed s := by
    refine ⟨_, rfl, by rw [ofSeed_eq]; positivity, ?_⟩
    rw [ofSeed_eq, div_le_one (by positivity)]
    exact_mod_cast Rng.u64ToF64_lt_top s.isLt
  ofSeed_le s n hn hs := by
    refine ⟨_, rfl, ?_⟩
    have h1 := Rng.u64ToF64_nearest s.toNat (n * 2 ^ 40) ⟨n, 40, by omega, rfl⟩
    have h2 : Rng.u64ToF64 s.toNat ≤ n * 2 ^ 40 := by
      by_contra hlt
      rw [not_le] at hlt
      have h3 : (s.toNat : ℤ) ≤ n * 2 ^ 40 := by exact_mod_cast hs
      have h4 : (n : ℤ) * 2 ^ 40 < Rng.u64ToF64 s.toNat := by exact_mod_cast hlt
      rw [abs_of_nonneg (by linarith), abs_of_nonneg (by push_cast; linarith)] at h1
      push_cast at h1
      linarith
    have h3 : (Rng.u64ToF64 s.toNat : ℝ) ≤ n * 2 ^ 40 := by exact_mod_cast h2
    rw [ofSeed_eq, div_le_iff₀ (by positivity), mul_assoc]
    refine h3.trans (le_of_eq ?_)
    norm_num
  wval := fun w : ℝ => some (w : EReal)
  wrnd := id
  wrnd_mono := monotone_id
  wrnd_exact _ _ _ _ _ := rfl
  wval_pow10 a x h _ := by
    obtain rfl : a = x := by simpa using h
    have b0 : (10 : ℝ) ^ ⌊a⌋ ≤ (10 : ℝ) ^ a := by
      rw [← Real.rpow_intCast]
      exact Real.rpow_le_rpow_of_exponent_le (by norm_num) (Int.floor_le a)
    have b1 : (10 : ℝ) ^ a ≤ (10 : ℝ) ^ ⌈a⌉ := by
      rw [← Real.rpow_intCast]
      exact Real.rpow_le_rpow_of_exponent_le (by norm_num) (Int.le_ceil a)
    have p0 : (0 : ℝ) < 10 ^ ⌊a⌋ := by positivity
    have p1 : (0 : ℝ) < 10 ^ ⌈a⌉ := by positivity
    exact ⟨(10 : ℝ) ^ a, rfl, by linarith, by linarith⟩
  wval_zero := rfl
  wideIsZero_iff w := by
    have h : ∀ w : ℝ, decide (w = 0) = true ↔ some (w : EReal) = some 0 := by simp
    exact h w
  wval_mul v w := by
    have h : ∀ v w : ℝ, some ((v * w : ℝ) : EReal) = ieeeMul id (some (v : EReal)) (some (w : EReal)) := by simp [ieeeMul]
    exact h v w
  wval_div a w _ := by
    have h : ∀ a w : ℝ, some ((a / w : ℝ) : EReal) = ieeeDiv id (some (a : EReal)) (some (w : EReal)) := by
      simp [ieeeDiv, EReal.coe_div]
    exact h a w
  val_ofWide w := rfl
  val_huge := ⟨_, rfl, by simp⟩
  val_tiny := ⟨_, rfl, by simp⟩
