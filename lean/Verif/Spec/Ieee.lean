import Verif.Model.Flt
import Mathlib.Data.EReal.Inv
import Mathlib.Analysis.SpecialFunctions.Pow.Real
import Mathlib.Analysis.SpecialFunctions.Log.Base
/-!
# Floating-point arithmetic, as IEEE 754 states it

The rules of the arithmetic that `f32` and `f64` follow (`custom_float` of `constants.rs` 62-90: the code is
written for both), as far as the theorems use them.  A number is a not-a-number or has a value, which is a real
or an infinity.  Each operation gives the exact result rounded once, except when IEEE 754 makes it a
not-a-number.  Of the rounding, only what is common to all formats and rounding modes is asked: it is monotone,
it leaves the numbers of the format unchanged, and the integers below `2^24`, scaled by a power of two in the
range of both formats, are such numbers.  Overflow to infinity, underflow to zero and signed zeros are covered:
`val` gives both zeros the value `0`, and the result of a division by zero is left open, as it depends on the
sign of the zero.  Of the elementary functions, all that is asked is that the square root and the opposite of the
logarithm of a number of `[0, 1]` are not negative, that the cube root of a number of `[0, 1]` is one, and that
logarithms and exponentials are not far off.  The last rules are about `f64`, in which the program scales its
tables of cross-sections even when its numbers are `f32`.
-/
open Flt

/-- The sum is not-a-number for two infinities of opposite signs, IEEE 754 section 7.2. -/
noncomputable def ieeeAdd (rnd : EReal → EReal) : Option EReal → Option EReal → Option EReal
  | some x, some y => open Classical in if (x = ⊤ ∧ y = ⊥) ∨ (x = ⊥ ∧ y = ⊤) then none else some (rnd (x + y))
  | _, _ => none

/-- The product is not-a-number for a zero and an infinity, IEEE 754 section 7.2. -/
noncomputable def ieeeMul (rnd : EReal → EReal) : Option EReal → Option EReal → Option EReal
  | some x, some y => open Classical in
    if (x = 0 ∧ (y = ⊤ ∨ y = ⊥)) ∨ (y = 0 ∧ (x = ⊤ ∨ x = ⊥)) then none else some (rnd (x * y))
  | _, _ => none

/-- The quotient, for a divisor that is not zero: not-a-number for two infinities, IEEE 754 section 7.2. -/
noncomputable def ieeeDiv (rnd : EReal → EReal) : Option EReal → Option EReal → Option EReal
  | some x, some y => open Classical in
    if (x = ⊤ ∨ x = ⊥) ∧ (y = ⊤ ∨ y = ⊥) then none else some (rnd (x / y))
  | _, _ => none

/-- The operations on `T` follow IEEE 754. -/
class Ieee (T : Type) [Flt T] where
  /-- the value of a number, `none` for a not-a-number -/
  val : T → Option EReal
  /-- the rounding of an exact result to the format -/
  rnd : EReal → EReal
  /-- the rounding of a decimal constant of the source: `from_f64` rounds it twice when the format is not `f64` -/
  rndLit : EReal → EReal
  rnd_mono : Monotone rnd
  rnd_val : ∀ a x, val a = some x → rnd x = x
  rnd_exact : ∀ (n : ℕ) (k : ℤ), n ≤ 2 ^ 24 → -100 ≤ k → k ≤ 100 →
    rnd (((n : ℝ) * 2 ^ k : ℝ) : EReal) = (((n : ℝ) * 2 ^ k : ℝ) : EReal)
  rndLit_mono : Monotone rndLit
  rndLit_exact : ∀ (n : ℕ) (k : ℤ), n ≤ 2 ^ 24 → -100 ≤ k → k ≤ 100 →
    rndLit (((n : ℝ) * 2 ^ k : ℝ) : EReal) = (((n : ℝ) * 2 ^ k : ℝ) : EReal)
  lt_iff : ∀ a b : T, (a <. b) = true ↔ ∃ x y, val a = some x ∧ val b = some y ∧ x < y
  le_iff : ∀ a b : T, (a <=. b) = true ↔ ∃ x y, val a = some x ∧ val b = some y ∧ x ≤ y
  beq_iff : ∀ a b : T, (a ==. b) = true ↔ ∃ x, val a = some x ∧ val b = some x
  val_add : ∀ a b : T, val (a +. b) = ieeeAdd rnd (val a) (val b)
  val_sub : ∀ a b : T, val (a -. b) = ieeeAdd rnd (val a) ((val b).map (- ·))
  val_mul : ∀ a b : T, val (a *. b) = ieeeMul rnd (val a) (val b)
  val_div : ∀ a b : T, val b ≠ some 0 → val (a /. b) = ieeeDiv rnd (val a) (val b)
  val_neg : ∀ a : T, val (Flt.neg a) = (val a).map (- ·)
  /-- the maximum ignores a not-a-number, as `f64::max` does -/
  val_max : ∀ a b : T, val (Flt.max a b) =
    match val a, val b with
    | some x, some y => some (Max.max x y)
    | some x, none => some x
    | none, v => v
  val_min : ∀ a b : T, val (Flt.min a b) =
    match val a, val b with
    | some x, some y => some (Min.min x y)
    | some x, none => some x
    | none, v => v
  /-- the square root is a not-a-number or not negative -/
  val_sqrt : ∀ (a : T) (y : EReal), val (Flt.sqrt a) = some y → 0 ≤ y
  /-- the logarithm of a number of `[0, 1]` is a not-a-number or not positive -/
  val_ln : ∀ (a : T) (x y : EReal), val a = some x → 0 ≤ x → x ≤ 1 → val (Flt.ln a) = some y → y ≤ 0
  /-- the cube root of a number of `[0, 1]` is one -/
  val_cbrt : ∀ (a : T) (x : ℝ), val a = some (x : EReal) → 0 ≤ x → x ≤ 1 →
    ∃ y : ℝ, val (Flt.cbrt a) = some (y : EReal) ∧ 0 ≤ y ∧ y ≤ 1
  val_abs : ∀ (a : T) (x : ℝ), val a = some (x : EReal) → val (Flt.abs a) = some ((|x| : ℝ) : EReal)
  /-- the logarithm is between the integers around the exact one -/
  val_ln_mid : ∀ (a : T) (x : ℝ), val a = some (x : EReal) → 2 ^ (-100 : ℤ) ≤ x → x ≤ 2 ^ (100 : ℤ) →
    ∃ y : ℝ, val (Flt.ln a) = some (y : EReal) ∧ ⌊Real.log x⌋ ≤ y ∧ y ≤ ⌈Real.log x⌉
  val_log10 : ∀ (a : T) (x : ℝ), val a = some (x : EReal) → 2 ^ (-100 : ℤ) ≤ x → x ≤ 2 ^ (100 : ℤ) →
    ∃ y : ℝ, val (Flt.log10 a) = some (y : EReal) ∧ ⌊Real.logb 10 x⌋ ≤ y ∧ y ≤ ⌈Real.logb 10 x⌉
  /-- the exponentials are right up to a factor of two -/
  val_exp : ∀ (a : T) (x : ℝ), val a = some (x : EReal) → -50 ≤ x → x ≤ 50 →
    ∃ y : ℝ, val (Flt.exp a) = some (y : EReal) ∧ Real.exp x / 2 ≤ y ∧ y ≤ 2 * Real.exp x
  val_floor : ∀ (a : T) (x : ℝ), val a = some (x : EReal) → val (Flt.floor a) = some (((⌊x⌋ : ℤ) : ℝ) : EReal)
  val_ceil : ∀ (a : T) (x : ℝ), val a = some (x : EReal) → val (Flt.ceil a) = some (((⌈x⌉ : ℤ) : ℝ) : EReal)
  toUsize_eq : ∀ (a : T) (x : ℝ), val a = some (x : EReal) → 0 ≤ x → x < 2 ^ 64 → Flt.toUsize a = some ⌊x⌋₊
  val_ofNat : ∀ n : ℕ, val (Flt.ofNat n : T) = some (rnd ((n : ℝ) : EReal))
  val_lit : ∀ (m : ℕ) (e : ℤ), val (Flt.lit m e : T) = some (rndLit (((m : ℝ) * 10 ^ e : ℝ) : EReal))
  val_ofSeed : ∀ s : BitVec 64, ∃ x : ℝ, val (Flt.ofSeed s : T) = some (x : EReal) ∧ 0 ≤ x ∧ x ≤ 1
  /-- the conversion of a state of the generator is monotone, and right for the states with 24 digits -/
  ofSeed_le : ∀ (s : BitVec 64) (n : ℕ), n ≤ 2 ^ 24 → s.toNat ≤ n * 2 ^ 40 →
    ∃ x : ℝ, val (Flt.ofSeed s : T) = some (x : EReal) ∧ x ≤ n * 2 ^ (-24 : ℤ)
  /-- the value of a number of `f64` -/
  wval : Flt.Wide T → Option EReal
  /-- the rounding to `f64` -/
  wrnd : EReal → EReal
  wrnd_mono : Monotone wrnd
  /-- `f64` has larger and smaller numbers than those that both formats have -/
  wrnd_exact : ∀ (n : ℕ) (k : ℤ), n ≤ 2 ^ 24 → -900 ≤ k → k ≤ 900 →
    wrnd (((n : ℝ) * 2 ^ k : ℝ) : EReal) = (((n : ℝ) * 2 ^ k : ℝ) : EReal)
  /-- the power of ten is between those of the integers around the exponent, up to a factor of two -/
  wval_pow10 : ∀ (a : T) (x : ℝ), val a = some (x : EReal) → |x| ≤ 200 →
    ∃ y : ℝ, wval (Flt.pow10 a) = some (y : EReal) ∧ (10 : ℝ) ^ ⌊x⌋ / 2 ≤ y ∧ y ≤ 2 * (10 : ℝ) ^ ⌈x⌉
  wval_zero : wval (Flt.wideZero : Flt.Wide T) = some 0
  wideIsZero_iff : ∀ w : Flt.Wide T, Flt.wideIsZero w = true ↔ wval w = some 0
  wval_mul : ∀ v w : Flt.Wide T, wval (Flt.wideMul v w) = ieeeMul wrnd (wval v) (wval w)
  wval_div : ∀ (a : T) (w : Flt.Wide T), wval w ≠ some 0 →
    wval (Flt.wideDiv a w) = ieeeDiv wrnd ((val a).map wrnd) (wval w)
  val_ofWide : ∀ w : Flt.Wide T, val (Flt.ofWide w) = (wval w).map rnd
  val_huge : ∃ x : ℝ, val (Flt.huge : T) = some (x : EReal) ∧ 0 < x
  val_tiny : ∃ x : ℝ, val (Flt.tiny : T) = some (x : EReal) ∧ 0 < x
