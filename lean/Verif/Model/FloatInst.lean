import Verif.Model.Flt
/-!
# Executable instance of the float interface

`Float` is IEEE binary64, as `f64`.  Used only to execute the model (`Verif/Sanity.lean`).
No theorem depends on this instance.
-/

/-- `f64` operations. -/
instance : Flt Float where
  add := (· + ·)
  sub := (· - ·)
  mul := (· * ·)
  div := (· / ·)
  neg := (- ·)
  lt a b := a < b
  le a b := a ≤ b
  beq a b := a == b
  max a b := if a.isNaN then b else if b.isNaN then a else if a < b then b else a
  min a b := if a.isNaN then b else if b.isNaN then a else if b < a then b else a
  sqrt := Float.sqrt
  sin := Float.sin
  cos := Float.cos
  ln := Float.log
  exp := Float.exp
  log10 := Float.log10
  cbrt := Float.cbrt
  floor := Float.floor
  ceil := Float.ceil
  abs := Float.abs
  toUsize x := if -1.0 < x ∧ x < 18446744073709551616.0 then some x.toUInt64.toNat else none
  ofNat n := Float.ofNat n
  lit m e := match e with
    | .ofNat k => Float.ofScientific m false k
    | .negSucc k => Float.ofScientific m true (k + 1)
  ofSeed s := 5.421010862427522e-20 * (UInt64.ofNat s.toNat).toFloat
  huge := 10e75
  small := 1e-10
  tiny := 1e-13
  pi := 3.14159265358979323846
  Wide := Float
  pow10 x := Float.pow 10.0 x
  wideZero := 0.0
  wideIsZero a := a == 0.0
  wideMul := (· * ·)
  wideDiv := (· / ·)
  ofWide x := x
