import Verif.Model.Flt
/-!
# A toy instance of the float interface

Fixed-point numbers with 10 fractional bits and crude functions, which the kernel can evaluate.  It
is used only in the non-vacuity examples next to the theorems that hold for every `Flt T`.
-/

/-- Toy numbers: `n` stands for `n / 1024`. -/
abbrev Toy := Int

/-- Integer square root by bisection. -/
def toySqrt (x : Nat) : Nat → Nat → Nat → Nat
  | 0, lo, _ => lo
  | fuel + 1, lo, hi =>
    if hi ≤ lo + 1 then lo
    else
      let mid := (lo + hi) / 2
      if mid * mid ≤ x then toySqrt x fuel mid hi else toySqrt x fuel lo mid

/-- Toy operations: `cos` is constantly 1 and `sin` 0, `ln x` is `x - 1`, positive exponents of
literals are ignored. -/
instance : Flt Toy where
  add a b := Int.add a b
  sub a b := Int.sub a b
  mul a b := Int.tdiv (Int.mul a b) 1024
  div a b := Int.tdiv (Int.mul a 1024) b
  neg a := Int.neg a
  lt a b := decide (a < b)
  le a b := decide (a ≤ b)
  beq a b := decide (a = b)
  max a b := if a < b then b else a
  min a b := if b < a then b else a
  sqrt x := Int.ofNat (toySqrt (x.toNat * 1024) 400 0 (x.toNat * 1024 + 1))
  sin _ := 0
  cos _ := 1024
  ln x := Int.sub x 1024
  exp x := x
  log10 x := x
  cbrt x := x
  floor x := Int.mul (Int.fdiv x 1024) 1024
  ceil x := Int.neg (Int.mul (Int.fdiv (Int.neg x) 1024) 1024)
  abs x := if x < 0 then Int.neg x else x
  toUsize x := if x ≤ -1024 then none else some (x.toNat / 1024)
  ofNat n := Int.ofNat (n * 1024)
  lit m e := match e with
    | .ofNat _ => Int.ofNat (m * 1024)
    | .negSucc k => Int.ofNat (m * 1024 / 10 ^ (k + 1))
  ofSeed s := Int.ofNat (s.toNat / 2 ^ 54)
  huge := 10 ^ 80
  small := 1
  tiny := 1
  pi := 3217
  Wide := Toy
  pow10 x := x
  wideZero := (0 : Int)
  wideIsZero a := decide (a = (0 : Int))
  wideMul a b := Int.tdiv (Int.mul a b) 1024
  wideDiv a b := Int.tdiv (Int.mul a 1024) b
  ofWide x := x
