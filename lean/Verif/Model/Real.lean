import Verif.Model.Rng
import Mathlib.Analysis.SpecialFunctions.Log.Base
import Mathlib.Analysis.SpecialFunctions.Trigonometric.Basic
import Mathlib.Analysis.SpecialFunctions.Pow.Real
/-!
# Exact real arithmetic as an instance of the float interface

Used for the geometric, physical and statistical theorems.  Rounding is not modelled, except for the
conversion of a generator state to a float, which is exact IEEE rounding to 53 bits followed by an
exact division by `2^64`.

`x / 0 = 0`, `√x = 0` for negative `x` and `log 0 = 0` are artefacts of Mathlib's total functions:
theorems that go through these operations carry the guard that excludes these arguments.
-/
open Classical

/-- Real operations. -/
noncomputable instance instFltReal : Flt ℝ where
  add := (· + ·)
  sub := (· - ·)
  mul := (· * ·)
  div := (· / ·)
  neg := (- ·)
  lt a b := decide (a < b)
  le a b := decide (a ≤ b)
  beq a b := decide (a = b)
  max := max
  min := min
  sqrt := Real.sqrt
  sin := Real.sin
  cos := Real.cos
  ln := Real.log
  exp := Real.exp
  log10 := Real.logb 10
  cbrt x := if 0 ≤ x then x ^ (1 / 3 : ℝ) else -((-x) ^ (1 / 3 : ℝ))
  floor x := (⌊x⌋ : ℝ)
  ceil x := (⌈x⌉ : ℝ)
  abs x := |x|
  toUsize x := if -1 < x ∧ x < 2 ^ 64 then some ⌊x⌋₊ else none
  ofNat n := (n : ℝ)
  lit m e := (m : ℝ) * (10 : ℝ) ^ e
  ofSeed s := (Rng.u64ToF64 s.toNat : ℝ) / 2 ^ 64
  huge := 10 ^ 76
  small := 1 / 10 ^ 10
  tiny := 1 / 10 ^ 13
  pi := Real.pi
  Wide := ℝ
  pow10 x := (10 : ℝ) ^ x
  wideZero := (0 : ℝ)
  wideIsZero a := decide (a = (0 : ℝ))
  wideMul := (· * ·)
  wideDiv := (· / ·)
  ofWide x := x

/-! Unfolding rules: each operation of the interface at `ℝ`. -/
namespace FltReal
@[simp] theorem add_eq (a b : ℝ) : Flt.add a b = a + b := rfl
@[simp] theorem sub_eq (a b : ℝ) : Flt.sub a b = a - b := rfl
@[simp] theorem mul_eq (a b : ℝ) : Flt.mul a b = a * b := rfl
@[simp] theorem div_eq (a b : ℝ) : Flt.div a b = a / b := rfl
@[simp] theorem neg_eq (a : ℝ) : Flt.neg a = -a := rfl
@[simp] theorem lt_eq (a b : ℝ) : Flt.lt a b = decide (a < b) := rfl
@[simp] theorem le_eq (a b : ℝ) : Flt.le a b = decide (a ≤ b) := rfl
@[simp] theorem beq_eq (a b : ℝ) : Flt.beq a b = decide (a = b) := rfl
@[simp] theorem max_eq (a b : ℝ) : Flt.max a b = max a b := rfl
@[simp] theorem min_eq (a b : ℝ) : Flt.min a b = min a b := rfl
@[simp] theorem sqrt_eq (a : ℝ) : Flt.sqrt a = Real.sqrt a := rfl
@[simp] theorem sin_eq (a : ℝ) : Flt.sin a = Real.sin a := rfl
@[simp] theorem cos_eq (a : ℝ) : Flt.cos a = Real.cos a := rfl
@[simp] theorem ln_eq (a : ℝ) : Flt.ln a = Real.log a := rfl
@[simp] theorem exp_eq (a : ℝ) : Flt.exp a = Real.exp a := rfl
@[simp] theorem log10_eq (a : ℝ) : Flt.log10 a = Real.logb 10 a := rfl
@[simp] theorem floor_eq (a : ℝ) : Flt.floor a = (⌊a⌋ : ℝ) := rfl
@[simp] theorem ceil_eq (a : ℝ) : Flt.ceil a = (⌈a⌉ : ℝ) := rfl
@[simp] theorem abs_eq (a : ℝ) : Flt.abs a = |a| := rfl
theorem toUsize_eq (a : ℝ) :
    Flt.toUsize a = if -1 < a ∧ a < 2 ^ 64 then some ⌊a⌋₊ else none := rfl
@[simp] theorem ofNat_eq (n : Nat) : (Flt.ofNat n : ℝ) = (n : ℝ) := rfl
@[simp] theorem zero_eq : (Flt.zero : ℝ) = 0 := by simp [Flt.zero]
@[simp] theorem one_eq : (Flt.one : ℝ) = 1 := by simp [Flt.one]
@[simp] theorem two_eq : (Flt.two : ℝ) = 2 := by simp [Flt.two]
@[simp] theorem lit_eq (m : Nat) (e : Int) : (Flt.lit m e : ℝ) = (m : ℝ) * (10 : ℝ) ^ e := rfl
@[simp] theorem huge_eq : (Flt.huge : ℝ) = 10 ^ 76 := rfl
@[simp] theorem small_eq : (Flt.small : ℝ) = 1 / 10 ^ 10 := rfl
@[simp] theorem tiny_eq : (Flt.tiny : ℝ) = 1 / 10 ^ 13 := rfl
@[simp] theorem pi_eq : (Flt.pi : ℝ) = Real.pi := rfl
theorem ofSeed_eq (s : BitVec 64) : (Flt.ofSeed s : ℝ) = (Rng.u64ToF64 s.toNat : ℝ) / 2 ^ 64 := rfl
end FltReal
