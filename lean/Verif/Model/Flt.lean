/-!
# Float interface and panics

Models `fastiron/src/constants.rs` lines 52-160 (`CustomReferenceFloat`, `CustomFloat`).

The Rust code is generic over `T: CustomFloat`.  The model is generic over `Flt T`, a class of
*operations without laws*.  A theorem proved for every `Flt T` holds whatever the arithmetic does
(rounding, infinities, NaN).
-/

/-- The ways the Rust program can stop: one constructor per kind of site.
`outOfFuel` is not a Rust panic: it marks that a bounded unrolling of an unbounded Rust loop was
not long enough. -/
inductive Panic where
  /-- slice / Vec / array index out of bounds -/
  | indexOutOfBounds
  /-- a failed `assert!` -/
  | assertFailed
  /-- `unwrap` of `None` / `Err` -/
  | unwrapNone
  /-- `unreachable!()` -/
  | unreachable
  /-- `unimplemented!()` / `todo!()` -/
  | unimplemented
  /-- `panic!()` of `facet_crossing_event` on an undefined adjacency -/
  | adjacencyUndefined
  /-- integer division by zero -/
  | divByZero
  /-- arithmetic overflow of an unsigned subtraction / addition (debug builds) -/
  | overflow
  /-- the fuel of a modelled unbounded loop is exhausted (not a Rust panic) -/
  | outOfFuel
deriving DecidableEq, Repr

/-- Float operations used by fastiron (`constants.rs` 52-160 and the `num::Float` methods called
in the code base).  No laws are assumed. -/
class Flt (T : Type) where
  add : T → T → T
  sub : T → T → T
  mul : T → T → T
  div : T → T → T
  neg : T → T
  /-- `a < b` -/
  lt : T → T → Bool
  /-- `a <= b` -/
  le : T → T → Bool
  /-- `a == b` -/
  beq : T → T → Bool
  /-- `Float::max` -/
  max : T → T → T
  /-- `Float::min` -/
  min : T → T → T
  sqrt : T → T
  sin : T → T
  cos : T → T
  ln : T → T
  exp : T → T
  log10 : T → T
  cbrt : T → T
  floor : T → T
  ceil : T → T
  abs : T → T
  /-- `to_usize()`: truncation towards zero, `None` when not representable -/
  toUsize : T → Option Nat
  /-- `from_usize`, `from_u64` -/
  ofNat : Nat → T
  /-- decimal literal `m * 10^e` through `from_f64` -/
  lit : Nat → Int → T
  /-- `from_f64(5.421010862427522e-20 * (seed as f64))`, `utils/mc_rng_state.rs` 18-22 -/
  ofSeed : BitVec 64 → T
  /-- `HUGE_FLOAT` -/
  huge : T
  /-- `SMALL_FLOAT` -/
  small : T
  /-- `TINY_FLOAT` -/
  tiny : T
  /-- `PI` -/
  pi : T
  /-- `f64`, in which `NuclearDataReaction::new` scales its tables, `nuclear_data.rs` 75-98 -/
  Wide : Type
  /-- `10.0_f64.powf(x.to_f64().unwrap())` -/
  pow10 : T → Wide
  /-- `0.0_f64` -/
  wideZero : Wide
  /-- `w == 0.0` -/
  wideIsZero : Wide → Bool
  /-- product of two `f64` -/
  wideMul : Wide → Wide → Wide
  /-- `a.to_f64().unwrap() / w` -/
  wideDiv : T → Wide → Wide
  /-- `from_f64` -/
  ofWide : Wide → T

namespace Flt

scoped infixl:65 " +. " => Flt.add
scoped infixl:65 " -. " => Flt.sub
scoped infixl:70 " *. " => Flt.mul
scoped infixl:70 " /. " => Flt.div
scoped notation:50 a:51 " <. " b:51 => Flt.lt a b
scoped notation:50 a:51 " <=. " b:51 => Flt.le a b
scoped notation:50 a:51 " >. " b:51 => Flt.lt b a
scoped notation:50 a:51 " >=. " b:51 => Flt.le b a
scoped notation:50 a:51 " ==. " b:51 => Flt.beq a b

variable {T : Type} [Flt T]

/-- `zero()` -/
def zero : T := Flt.ofNat 0
/-- `one()` -/
def one : T := Flt.ofNat 1
/-- `from_f64(2.0)` -/
def two : T := Flt.ofNat 2

/-- `neutron_mass_energy`, `constants.rs` 99-101 -/
def neutronMassEnergy : T := Flt.lit 939565 (-3)
/-- `light_speed`, `constants.rs` 107-109 -/
def lightSpeed : T := Flt.lit 299792 5

/-- `Iterator::sum` on floats: a left fold starting at 0 (`num`/`core` implementation). -/
def sum (l : List T) : T := l.foldl Flt.add zero

end Flt

/-- Slice indexing with its panic. -/
def idx {α : Type} (l : List α) (i : Nat) : Except Panic α :=
  match l[i]? with
  | some a => .ok a
  | none => .error .indexOutOfBounds

/-- `Option::unwrap`. -/
def unwrap {α : Type} (o : Option α) : Except Panic α :=
  match o with
  | some a => .ok a
  | none => .error .unwrapNone

/-- `assert!(b)`. -/
def assertB (b : Bool) : Except Panic Unit :=
  if b then .ok () else .error .assertFailed
