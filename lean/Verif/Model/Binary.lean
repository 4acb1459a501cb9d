import Verif.Model.Flt
import Mathlib.Data.EReal.Inv
import Mathlib.Data.Int.Log
import Mathlib.Analysis.SpecialFunctions.Log.Base
import Mathlib.Analysis.SpecialFunctions.Trigonometric.Basic
import Mathlib.Analysis.SpecialFunctions.Pow.Real
/-!
# `f32` and `f64` as instances of the float interface

Models the two implementations of `CustomReferenceFloat`, `constants.rs` lines 107-139: the binary formats of
IEEE 754 with rounding to the nearest number, to the even one in the middle, with gradual underflow, infinities,
not-a-number and signed zeros.

Simplifications: there is a single not-a-number.  The elementary functions other than the square root are taken
as correctly rounded, which no platform promises: no theorem depends on it (`Verif/Spec/Ieee.lean` says what is
used).
-/
open Classical

/-- The nearest integer, the even one in the middle. -/
noncomputable def roundEven (q : ℝ) : ℤ :=
  if Int.fract q < 1 / 2 then ⌊q⌋
  else if 1 / 2 < Int.fract q then ⌊q⌋ + 1
  else if Even ⌊q⌋ then ⌊q⌋ else ⌊q⌋ + 1

/-- A binary format: `prec` digits, and numbers that are multiples of `2^low`, the largest being multiples of
`2^high`. The last three fields say that it is not smaller than `f32`. -/
structure Format where
  prec : ℕ
  low : ℤ
  high : ℤ
  /-- exponent of ten of `HUGE_FLOAT` -/
  huge : ℕ
  prec_ge : 24 ≤ prec
  low_le : low ≤ -149
  high_ge : 104 ≤ high
  huge_le : (10 : ℝ) ^ huge ≤ 2 ^ (prec - 1) * 2 ^ high

namespace Format

variable (F : Format)

/-- The exponent of the last digit of the numbers next to `x`. -/
noncomputable def ulp (x : ℝ) : ℤ := max (Int.log 2 |x| - (F.prec - 1)) F.low

/-- The nearest number with `prec` digits, without a bound on its size. -/
noncomputable def round (x : ℝ) : ℝ := roundEven (x / 2 ^ F.ulp x) * 2 ^ F.ulp x

/-- The largest finite number. -/
noncomputable def top : ℝ := (2 ^ F.prec - 1) * 2 ^ F.high

/-- Numbers beyond the largest finite one are infinite. -/
noncomputable def clamp (y : ℝ) : EReal := if F.top < y then ⊤ else if y < -F.top then ⊥ else y

/-- The rounding of an exact result. -/
noncomputable def rnd (x : EReal) : EReal := if x = ⊤ then ⊤ else if x = ⊥ then ⊥ else F.clamp (F.round x.toReal)

end Format

/-- `f32` -/
def binary32 : Format where
  prec := 24
  low := -149
  high := 104
  huge := 36
  prec_ge := le_rfl
  low_le := le_rfl
  high_ge := le_rfl
  huge_le := by norm_num

/-- `f64` -/
def binary64 : Format where
  prec := 53
  low := -1074
  high := 971
  huge := 76
  prec_ge := by norm_num
  low_le := by norm_num
  high_ge := by norm_num
  huge_le := by
    calc (10 : ℝ) ^ 76 ≤ 2 ^ (53 - 1) * 2 ^ (210 : ℤ) := by norm_num
      _ ≤ 2 ^ (53 - 1) * 2 ^ (971 : ℤ) := by gcongr <;> norm_num

/-! ### The rounding is monotone and leaves the numbers of the format unchanged -/

theorem roundEven_bounds (q : ℝ) : ⌊q⌋ ≤ roundEven q ∧ roundEven q ≤ ⌊q⌋ + 1 := by
  unfold roundEven
  split_ifs <;> constructor <;> omega

theorem roundEven_int (n : ℤ) : roundEven n = n := by
  unfold roundEven
  rw [if_pos (by rw [Int.fract_intCast]; norm_num), Int.floor_intCast]

theorem roundEven_mono : Monotone roundEven := by
  intro q r h
  rcases (Int.floor_le_floor h).lt_or_eq with hlt | he
  · have := (roundEven_bounds q).2
    have := (roundEven_bounds r).1
    omega
  · have hf : Int.fract q ≤ Int.fract r := by
      have := Int.floor_add_fract q
      have := Int.floor_add_fract r
      rw [he] at *
      linarith
    unfold roundEven
    rw [he]
    split_ifs <;> first | omega | (exfalso; linarith)

theorem roundEven_neg (q : ℝ) : roundEven (-q) = -roundEven q := by
  by_cases hz : Int.fract q = 0
  · have : q = ⌊q⌋ := by have := Int.floor_add_fract q; linarith
    rw [this, ← Int.cast_neg, roundEven_int, roundEven_int]
  · have h1 := Int.fract_neg hz
    have h2 : ⌊-q⌋ = -⌊q⌋ - 1 := by
      rw [Int.floor_neg]
      have := (Int.ceil_eq_floor_add_one_iff_notMem q).2 (by
        rintro ⟨n, rfl⟩
        exact hz (Int.fract_intCast n))
      omega
    unfold roundEven
    rw [h1, h2]
    have hpar : Even (-⌊q⌋ - 1) ↔ ¬ Even ⌊q⌋ := by
      rw [Int.even_sub_one, even_neg]
    simp only [hpar]
    split_ifs <;> first | omega | (exfalso; linarith)

namespace Format
variable {F : Format}

theorem round_neg (x : ℝ) : F.round (-x) = -F.round x := by
  unfold round ulp
  rw [abs_neg, neg_div, roundEven_neg]
  push_cast
  ring

theorem round_zero : F.round 0 = 0 := by
  have := F.round_neg 0
  rw [neg_zero] at this
  linarith

/-- A number of the format, whatever its size. -/
def Fits (F : Format) (y : ℝ) : Prop := ∃ (m e : ℤ), |m| ≤ 2 ^ F.prec ∧ F.low ≤ e ∧ y = m * 2 ^ e

theorem round_of_ulp {y : ℝ} {e m : ℤ} (hy : y = m * 2 ^ e) (h : F.ulp y ≤ e) : F.round y = y := by
  unfold round
  have hq : y / 2 ^ F.ulp y = ((m * 2 ^ (e - F.ulp y).toNat : ℤ) : ℝ) := by
    rw [div_eq_iff (by positivity), hy]
    push_cast
    rw [mul_assoc, ← zpow_natCast, Int.toNat_of_nonneg (by rw [← hy]; omega), ← zpow_add₀ (by norm_num)]
    congr 2
    rw [← hy]
    omega
  rw [hq, roundEven_int, ← hq, div_mul_cancel₀ _ (by positivity)]

theorem Fits.ulp_le {y : ℝ} {m e : ℤ} (hm : |m| < 2 ^ F.prec) (he : F.low ≤ e) (hy : y = m * 2 ^ e) (h0 : y ≠ 0) :
    F.ulp y ≤ e := by
  unfold ulp
  refine max_le ?_ he
  have hlt : |y| < 2 ^ ((F.prec : ℤ) + e) := by
    rw [hy, abs_mul, abs_of_pos (by positivity : (0 : ℝ) < 2 ^ e), zpow_add₀ (by norm_num), zpow_natCast]
    have : (|m| : ℝ) < 2 ^ F.prec := by exact_mod_cast hm
    gcongr
  have := (Int.lt_zpow_iff_log_lt (b := 2) (by norm_num) (abs_pos.2 h0)).1 (by exact_mod_cast hlt)
  omega

theorem Fits.round {y : ℝ} (h : F.Fits y) : F.round y = y := by
  obtain ⟨m, e, hm, he, hy⟩ := h
  by_cases h0 : y = 0
  · rw [h0, round_zero]
  rcases hm.lt_or_eq with hlt | heq
  · exact round_of_ulp hy (Fits.ulp_le hlt he hy h0)
  · have hp := F.prec_ge
    have hs : ∃ s : ℤ, (s = 1 ∨ s = -1) ∧ m = s * 2 ^ F.prec := by
      rcases abs_eq (by positivity : (0 : ℤ) ≤ 2 ^ F.prec) |>.1 heq with h | h
      · exact ⟨1, .inl rfl, by rw [h]; ring⟩
      · exact ⟨-1, .inr rfl, by rw [h]; ring⟩
    obtain ⟨s, hs, hms⟩ := hs
    have hy' : y = (s : ℤ) * 2 ^ (e + F.prec) := by
      rw [hy, hms]; push_cast
      rw [zpow_add₀ (by norm_num), zpow_natCast]; ring
    refine round_of_ulp hy' ?_
    refine (Fits.ulp_le (F := F) (m := s) (e := e + F.prec) ?_ (by omega) hy' h0)
    have : (1 : ℤ) < 2 ^ F.prec := by
      exact_mod_cast Nat.one_lt_two_pow (by omega)
    rcases hs with rfl | rfl <;> simpa using this

theorem round_pos_mono {x y : ℝ} (hx : 0 < x) (h : x ≤ y) : F.round x ≤ F.round y := by
  have hy : 0 < y := lt_of_lt_of_le hx h
  have hlog : Int.log 2 x ≤ Int.log 2 y := Int.log_mono_right hx h
  have hp := F.prec_ge
  have hle : F.ulp x ≤ F.ulp y := by
    unfold ulp
    rw [abs_of_pos hx, abs_of_pos hy]
    omega
  rcases hle.lt_or_eq with hlt | he
  · have hyu : F.ulp y = Int.log 2 y - (F.prec - 1) := by
      unfold ulp at hlt ⊢
      rw [abs_of_pos hy] at hlt ⊢
      omega
    have hxlog : Int.log 2 x < Int.log 2 y := by
      unfold ulp at hlt
      rw [abs_of_pos hx, abs_of_pos hy] at hlt
      omega
    have key : ∀ k : ℤ, k ≤ Int.log 2 y → ((2 : ℝ) ^ Int.log 2 y / 2 ^ k) = ((2 ^ (Int.log 2 y - k).toNat : ℤ) : ℝ) := by
      intro k hk
      rw [← zpow_sub₀ (by norm_num)]
      push_cast
      rw [← zpow_natCast, Int.toNat_of_nonneg (by omega)]
    have h1 : F.round x ≤ 2 ^ Int.log 2 y := by
      have hx1 : x ≤ 2 ^ Int.log 2 y := by
        have := Int.lt_zpow_succ_log_self (b := 2) (by norm_num) x
        refine this.le.trans ?_
        push_cast
        exact zpow_le_zpow_right₀ (by norm_num) (by omega)
      unfold round
      have := roundEven_mono (show x / 2 ^ F.ulp x ≤ 2 ^ Int.log 2 y / 2 ^ F.ulp x by gcongr)
      rw [key _ (by omega), roundEven_int] at this
      rw [← le_div_iff₀ (by positivity), key _ (by omega)]
      exact_mod_cast this
    have h2 : 2 ^ Int.log 2 y ≤ F.round y := by
      have hy1 : (2 : ℝ) ^ Int.log 2 y ≤ y := by
        have := Int.zpow_log_le_self (b := 2) (by norm_num) hy
        exact_mod_cast this
      unfold round
      have := roundEven_mono (show (2 : ℝ) ^ Int.log 2 y / 2 ^ F.ulp y ≤ y / 2 ^ F.ulp y by gcongr)
      rw [key _ (by omega), roundEven_int] at this
      rw [← div_le_iff₀ (by positivity), key _ (by omega)]
      exact_mod_cast this
    exact h1.trans h2
  · unfold round
    rw [he]
    have := roundEven_mono (show x / 2 ^ F.ulp y ≤ y / 2 ^ F.ulp y by gcongr)
    gcongr
    

theorem round_nonneg {x : ℝ} (h : 0 ≤ x) : 0 ≤ F.round x := by
  unfold round
  have := roundEven_mono (show ((0 : ℤ) : ℝ) ≤ x / 2 ^ F.ulp x by push_cast; positivity)
  rw [roundEven_int] at this
  have : (0 : ℝ) ≤ roundEven (x / 2 ^ F.ulp x) := by exact_mod_cast this
  positivity

theorem round_mono : Monotone F.round := by
  have nonneg : ∀ x y : ℝ, 0 ≤ x → x ≤ y → F.round x ≤ F.round y := by
    intro x y h0 h
    rcases h0.lt_or_eq with hpos | rfl
    · exact round_pos_mono hpos h
    · rw [round_zero]; exact round_nonneg h
  intro x y h
  rcases le_total 0 x with h0 | h0
  · exact nonneg x y h0 h
  · rcases le_total 0 y with h1 | h1
    · have := round_nonneg (F := F) (x := -x) (by linarith)
      rw [round_neg] at this
      have := round_nonneg (F := F) h1
      linarith
    · have := nonneg (-y) (-x) (by linarith) (by linarith)
      rw [round_neg, round_neg] at this
      linarith

theorem round_fits (x : ℝ) : F.Fits (F.round x) := by
  refine ⟨roundEven (x / 2 ^ F.ulp x), F.ulp x, ?_, le_max_right _ _, rfl⟩
  have hp := F.prec_ge
  have hb : |x| ≤ 2 ^ (F.prec + F.ulp x) := by
    have := Int.lt_zpow_succ_log_self (b := 2) (by norm_num) |x|
    refine this.le.trans ?_
    push_cast
    refine zpow_le_zpow_right₀ (by norm_num) ?_
    have : Int.log 2 |x| - (F.prec - 1) ≤ F.ulp x := le_max_left _ _
    omega
  have hq : |x / 2 ^ F.ulp x| ≤ ((2 ^ F.prec : ℤ) : ℝ) := by
    rw [abs_div, abs_of_pos (by positivity : (0 : ℝ) < 2 ^ F.ulp x), div_le_iff₀ (by positivity)]
    push_cast
    rwa [← zpow_natCast, ← zpow_add₀ (by norm_num)]
  rw [abs_le] at hq ⊢
  constructor
  · have := roundEven_mono (show ((-2 ^ F.prec : ℤ) : ℝ) ≤ x / 2 ^ F.ulp x by push_cast at hq ⊢; exact hq.1)
    rwa [roundEven_int] at this
  · have := roundEven_mono hq.2
    rwa [roundEven_int] at this

theorem round_round (x : ℝ) : F.round (F.round x) = F.round x := (round_fits x).round

theorem top_pos : 0 < F.top := by
  unfold top
  have : (1 : ℝ) < 2 ^ F.prec := one_lt_pow₀ (by norm_num) (by have := F.prec_ge; omega)
  have : (0 : ℝ) < 2 ^ F.prec - 1 := by linarith
  positivity

theorem clamp_mono : Monotone F.clamp := by
  intro x y h
  have := F.top_pos
  unfold clamp
  split_ifs <;> first | exact le_rfl | exact le_top | exact bot_le | (exfalso; linarith) | exact EReal.coe_le_coe_iff.2 h

theorem rnd_coe (x : ℝ) : F.rnd (x : EReal) = F.clamp (F.round x) := by
  unfold rnd
  rw [if_neg (EReal.coe_ne_top x), if_neg (EReal.coe_ne_bot x), EReal.toReal_coe]

theorem rnd_top : F.rnd ⊤ = ⊤ := by simp [rnd]
theorem rnd_bot : F.rnd ⊥ = ⊥ := by simp [rnd]

theorem rnd_mono : Monotone F.rnd := by
  intro x y h
  induction x with
  | bot => rw [rnd_bot]; exact bot_le
  | top => rw [top_le_iff.1 h]
  | coe x =>
    induction y with
    | bot => exact absurd (le_bot_iff.1 h) (EReal.coe_ne_bot x)
    | top => rw [rnd_top]; exact le_top
    | coe y => rw [rnd_coe, rnd_coe]; exact clamp_mono (round_mono (EReal.coe_le_coe_iff.1 h))

/-- A real number of the format. -/
theorem rnd_fits {y : ℝ} (h : F.Fits y) (ht : |y| ≤ F.top) : F.rnd (y : EReal) = y := by
  rw [abs_le] at ht
  rw [rnd_coe, h.round]
  unfold clamp
  rw [if_neg (by linarith), if_neg (by linarith)]

theorem rnd_rnd (x : EReal) : F.rnd (F.rnd x) = F.rnd x := by
  induction x with
  | bot => rw [rnd_bot, rnd_bot]
  | top => rw [rnd_top, rnd_top]
  | coe x =>
    rw [rnd_coe]
    unfold clamp
    split_ifs with h1 h2
    · exact rnd_top
    · exact rnd_bot
    · exact rnd_fits (round_fits x) (abs_le.2 ⟨by linarith, by linarith⟩)

theorem fits_of_rnd {y : ℝ} (h : F.rnd (y : EReal) = y) : F.Fits y ∧ |y| ≤ F.top := by
  rw [rnd_coe] at h
  unfold clamp at h
  split_ifs at h with h1 h2
  · exact absurd h.symm (EReal.coe_ne_top y)
  · exact absurd h.symm (EReal.coe_ne_bot y)
  · have he := EReal.coe_eq_coe_iff.1 h
    refine ⟨by rw [← he]; exact round_fits y, ?_⟩
    rw [he] at h1 h2
    exact abs_le.2 ⟨by linarith, by linarith⟩

theorem rnd_neg (x : EReal) : F.rnd (-x) = -F.rnd x := by
  induction x with
  | bot => rw [rnd_bot, EReal.neg_bot, rnd_top]
  | top => rw [rnd_top, EReal.neg_top, rnd_bot]
  | coe x =>
    have ht := F.top_pos
    rw [← EReal.coe_neg, rnd_coe, rnd_coe, round_neg]
    unfold clamp
    split_ifs <;> first | (exfalso; linarith) | simp

theorem rnd_zero : F.rnd 0 = 0 := by
  have := rnd_fits (F := F) (y := 0) ⟨0, F.low, by simp, le_rfl, by simp⟩ (by simpa using F.top_pos.le)
  simpa using this

theorem rnd_scaled (n : ℕ) (k : ℤ) (hn : n ≤ 2 ^ 24) (h0 : -100 ≤ k) (h1 : k ≤ 100) :
    F.rnd (((n : ℝ) * 2 ^ k : ℝ) : EReal) = (((n : ℝ) * 2 ^ k : ℝ) : EReal) := by
  have hp := F.prec_ge
  have hl := F.low_le
  have hh := F.high_ge
  refine rnd_fits ⟨n, k, ?_, by omega, by push_cast; rfl⟩ ?_
  · have : (2 : ℕ) ^ 24 ≤ 2 ^ F.prec := Nat.pow_le_pow_right (by norm_num) hp
    rw [abs_of_nonneg (by positivity)]
    exact_mod_cast hn.trans this
  · rw [abs_of_nonneg (by positivity)]
    unfold top
    have a1 : (n : ℝ) ≤ 2 ^ 24 := by exact_mod_cast hn
    have a2 : (2 : ℝ) ^ k ≤ 2 ^ (100 : ℤ) := zpow_le_zpow_right₀ (by norm_num) h1
    have a3 : (2 : ℝ) ^ (104 : ℤ) ≤ 2 ^ F.high := zpow_le_zpow_right₀ (by norm_num) hh
    have a4 : (2 : ℝ) ^ 24 - 1 ≤ 2 ^ F.prec - 1 := by
      have : (2 : ℝ) ^ 24 ≤ 2 ^ F.prec := pow_le_pow_right₀ (by norm_num) hp
      linarith
    calc (n : ℝ) * 2 ^ k ≤ 2 ^ 24 * 2 ^ (100 : ℤ) := by gcongr
      _ ≤ (2 ^ 24 - 1) * 2 ^ (104 : ℤ) := by norm_num
      _ ≤ (2 ^ F.prec - 1) * 2 ^ F.high := by gcongr

/-- The integer parts of a number are numbers of the format. -/
theorem rnd_floor {y : ℝ} (h : F.rnd (y : EReal) = y) : F.rnd (((⌊y⌋ : ℤ) : ℝ) : EReal) = (((⌊y⌋ : ℤ) : ℝ) : EReal) := by
  obtain ⟨⟨m, e, hm, he, hy⟩, ht⟩ := fits_of_rnd h
  have hp := F.prec_ge
  by_cases h0 : 0 ≤ e
  · have : y = ((m * 2 ^ e.toNat : ℤ) : ℝ) := by
      rw [hy]; push_cast
      rw [← zpow_natCast, Int.toNat_of_nonneg h0]
    have hf : ((⌊y⌋ : ℤ) : ℝ) = y := by rw [this, Int.floor_intCast]
    rw [hf, h]
  · have hpow : (2 : ℝ) ^ F.prec = 2 * 2 ^ (F.prec - 1) := by
      rw [← pow_succ']; congr 1; omega
    have hm' : (|m| : ℝ) ≤ 2 ^ F.prec := by exact_mod_cast hm
    have hb : |y| ≤ 2 ^ (F.prec - 1) := by
      rw [hy, abs_mul, abs_of_pos (by positivity : (0 : ℝ) < 2 ^ e)]
      calc (|m| : ℝ) * 2 ^ e ≤ 2 ^ F.prec * 2 ^ (-1 : ℤ) := by
            gcongr
            · norm_num
            · omega
        _ = 2 ^ (F.prec - 1) := by rw [hpow]; norm_num; ring
    have hn : |⌊y⌋| ≤ 2 ^ (F.prec - 1) := by
      rw [abs_le] at hb ⊢
      constructor
      · exact Int.le_floor.2 (by push_cast; exact hb.1)
      · have := (Int.floor_le y).trans hb.2
        exact_mod_cast this
    have hlt : (2 : ℤ) ^ (F.prec - 1) ≤ 2 ^ F.prec := pow_le_pow_right₀ (by norm_num) (by omega)
    refine rnd_fits ⟨⌊y⌋, 0, hn.trans hlt, by have := F.low_le; omega, by simp⟩ ?_
    have hn' : |((⌊y⌋ : ℤ) : ℝ)| ≤ 2 ^ (F.prec - 1) := by exact_mod_cast hn
    refine hn'.trans ?_
    unfold top
    have h1 : (1 : ℝ) ≤ 2 ^ F.high := one_le_zpow₀ (by norm_num) (by have := F.high_ge; omega)
    have h2 : (1 : ℝ) ≤ 2 ^ (F.prec - 1) := one_le_pow₀ (by norm_num)
    nlinarith

theorem rnd_ceil {y : ℝ} (h : F.rnd (y : EReal) = y) : F.rnd (((⌈y⌉ : ℤ) : ℝ) : EReal) = (((⌈y⌉ : ℤ) : ℝ) : EReal) := by
  have h' : F.rnd ((-y : ℝ) : EReal) = ((-y : ℝ) : EReal) := by rw [EReal.coe_neg, rnd_neg, h]
  have := rnd_floor h'
  rw [Int.floor_neg, Int.cast_neg, EReal.coe_neg, rnd_neg] at this
  exact neg_injective this

end Format

/-! ### The numbers and their operations -/

/-- A number of a format: its value, `none` for a not-a-number, and the sign of a zero. -/
structure Num (F : Format) where
  val : Option EReal
  neg : Bool
  rep : ∀ x, val = some x → F.rnd x = x

namespace Num
variable {F : Format}

/-- Not-a-number. -/
def nan : Num F := ⟨none, false, fun _ h => by cases h⟩

/-- The rounding of an exact result; `s` is the sign of an exact zero. -/
noncomputable def round (x : EReal) (s : Bool) : Num F :=
  ⟨some (F.rnd x), if x < 0 then true else if 0 < x then false else s, fun y h => by
    rw [← Option.some.inj h, F.rnd_rnd]⟩

/-- The opposite. -/
noncomputable def opp (a : Num F) : Num F :=
  ⟨a.val.map (- ·), !a.neg, fun x h => by
    obtain ⟨y, hy, rfl⟩ := Option.map_eq_some_iff.1 h
    rw [F.rnd_neg, a.rep y hy]⟩

/-- The sum, IEEE 754 sections 5.4.1, 6.3 and 7.2. -/
noncomputable def add (a b : Num F) : Num F :=
  match a.val, b.val with
  | some x, some y => if (x = ⊤ ∧ y = ⊥) ∨ (x = ⊥ ∧ y = ⊤) then nan else round (x + y) (a.neg && b.neg)
  | _, _ => nan

/-- The product. -/
noncomputable def mul (a b : Num F) : Num F :=
  match a.val, b.val with
  | some x, some y =>
    if (x = 0 ∧ (y = ⊤ ∨ y = ⊥)) ∨ (y = 0 ∧ (x = ⊤ ∨ x = ⊥)) then nan else round (x * y) (a.neg ^^ b.neg)
  | _, _ => nan

/-- The quotient; by a zero it is an infinity with the sign that the zero gives, or a not-a-number. -/
noncomputable def div (a b : Num F) : Num F :=
  match a.val, b.val with
  | some x, some y =>
    if y = 0 then if x = 0 then nan else round (if (a.neg ^^ b.neg) = true then ⊥ else ⊤) false
    else if (x = ⊤ ∨ x = ⊥) ∧ (y = ⊤ ∨ y = ⊥) then nan else round (x / y) (a.neg ^^ b.neg)
  | _, _ => nan

/-- A function of a real number, with its values at the infinities. -/
noncomputable def lift (f : ℝ → Option EReal) (lo hi : Option EReal) (a : Num F) : Num F :=
  match a.val with
  | none => nan
  | some x =>
    match if x = ⊤ then hi else if x = ⊥ then lo else f x.toReal with
    | some y => round y a.neg
    | none => nan

/-- The larger one, a number rather than a not-a-number. -/
noncomputable def sup (a b : Num F) : Num F :=
  match a.val, b.val with
  | some x, some y => if x < y then b else a
  | some _, none => a
  | none, _ => b

/-- The smaller one. -/
noncomputable def inf (a b : Num F) : Num F :=
  match a.val, b.val with
  | some x, some y => if y < x then b else a
  | some _, none => a
  | none, _ => b

/-- Comparison: false with a not-a-number. -/
noncomputable def cmp (r : EReal → EReal → Prop) (a b : Num F) : Bool :=
  match a.val, b.val with
  | some x, some y => decide (r x y)
  | _, _ => false

/-- The conversion from another format. -/
noncomputable def cast {G : Format} (a : Num G) : Num F :=
  match a.val with
  | some x => round x a.neg
  | none => nan

end Num

/-- Operations on the numbers of a format. `lit` and `ofSeed` go through `f64`, as `from_f64` does. -/
noncomputable instance instFltNum (F : Format) : Flt (Num F) where
  add := Num.add
  sub a b := Num.add a (Num.opp b)
  mul := Num.mul
  div := Num.div
  neg := Num.opp
  lt := Num.cmp (· < ·)
  le := Num.cmp (· ≤ ·)
  beq := Num.cmp (· = ·)
  max := Num.sup
  min := Num.inf
  sqrt := Num.lift (fun x => if 0 ≤ x then some ((Real.sqrt x : ℝ) : EReal) else none) none (some ⊤)
  sin := Num.lift (fun x => some ((Real.sin x : ℝ) : EReal)) none none
  cos := Num.lift (fun x => some ((Real.cos x : ℝ) : EReal)) none none
  ln := Num.lift (fun x => if 0 < x then some ((Real.log x : ℝ) : EReal) else if x = 0 then some ⊥ else none)
    none (some ⊤)
  exp := Num.lift (fun x => some ((Real.exp x : ℝ) : EReal)) (some 0) (some ⊤)
  log10 := Num.lift (fun x => if 0 < x then some ((Real.logb 10 x : ℝ) : EReal) else if x = 0 then some ⊥ else none)
    none (some ⊤)
  cbrt := Num.lift (fun x => some ((if 0 ≤ x then x ^ (1 / 3 : ℝ) else -((-x) ^ (1 / 3 : ℝ)) : ℝ) : EReal)) (some ⊥)
    (some ⊤)
  floor := Num.lift (fun x => some (((⌊x⌋ : ℤ) : ℝ) : EReal)) (some ⊥) (some ⊤)
  ceil := Num.lift (fun x => some (((⌈x⌉ : ℤ) : ℝ) : EReal)) (some ⊥) (some ⊤)
  abs a := if ∃ x, a.val = some x ∧ x < 0 then a.opp else ⟨a.val, false, a.rep⟩
  toUsize a :=
    match a.val with
    | some x => if (-1 : ℝ) < x ∧ x < ((2 ^ 64 : ℝ) : EReal) then some ⌊x.toReal⌋₊ else none
    | none => none
  ofNat n := Num.round ((n : ℝ) : EReal) false
  lit m e := Num.cast (Num.round (((m : ℝ) * 10 ^ e : ℝ) : EReal) false : Num binary64)
  ofSeed s := Num.cast (Num.mul (Num.round ((5421010862427522 / 10 ^ 35 : ℝ) : EReal) false)
    (Num.round ((s.toNat : ℝ) : EReal) false) : Num binary64)
  huge := Num.round ((10 ^ F.huge : ℝ) : EReal) false
  small := Num.round ((1 / 10 ^ 10 : ℝ) : EReal) false
  tiny := Num.round ((1 / 10 ^ 13 : ℝ) : EReal) false
  pi := Num.round ((Real.pi : ℝ) : EReal) false
  Wide := Num binary64
  pow10 a := Num.lift (fun x => some (((10 : ℝ) ^ x : ℝ) : EReal)) (some 0) (some ⊤) (Num.cast a)
  wideZero := Num.round 0 false
  wideIsZero a := Num.cmp (· = ·) a (Num.round 0 false)
  wideMul := Num.mul
  wideDiv a b := Num.div (Num.cast a) b
  ofWide := Num.cast
