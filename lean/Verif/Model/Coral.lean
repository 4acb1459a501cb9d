import Verif.Model.Cycle
import Verif.Model.Params
/-!
# Benchmark checks

Models `fastiron/src/utils/coral_benchmark_correctness.rs`.  Each function returns whether the check
prints `PASS`.
-/
open Flt
variable {T : Type} [Flt T]

/-- `missing_particle_test`, `coral_benchmark_correctness.rs` 121-142. -/
def missingParticleTest (bt : Balance) : Bool :=
  let gains := bt.start + bt.source + bt.produce + bt.split
  let losses := bt.absorb + bt.census + bt.escape + bt.overRr + bt.weightRr + bt.fission
  gains == losses

/-- The unsigned subtraction of `balance_event_test`, `coral_benchmark_correctness.rs` 96-101, which
panics on underflow in debug builds. -/
def facetCrossingCount (bt : Balance) : Except Panic Nat :=
  if bt.numSegments < bt.collision then .error .overflow
  else if bt.numSegments - bt.collision < bt.census then .error .overflow
  else .ok (bt.numSegments - bt.collision - bt.census)

/-- `balance_event_test`, `coral_benchmark_correctness.rs` 92-114. -/
def balanceEventTest (bt : Balance) : Except Panic Bool := do
  let fc ← facetCrossingCount bt
  let ratio := Flt.abs ((Flt.ofNat fc : T) /. Flt.ofNat bt.collision -. one)
  return ratio <=. (one /. Flt.ofNat 100 : T)

/-- `balance_ratio_test`, `coral_benchmark_correctness.rs` 33-87. -/
def balanceRatioTest (coral1 : Bool) (bt : Balance) : Bool :=
  let absorb : T := Flt.ofNat bt.absorb
  let fission : T := Flt.ofNat bt.fission
  let scatter : T := Flt.ofNat bt.scatter
  let fr : T := if coral1 then Flt.lit 5 (-2) else Flt.lit 75 (-3)
  let sr : T := if coral1 then Flt.lit 1 0 else Flt.lit 830 (-3)
  let ar : T := if coral1 then Flt.lit 4 (-2) else Flt.lit 94 (-3)
  let tol : T := (if coral1 then one else Flt.lit 11 (-1)) /. Flt.ofNat 100
  let abs2sct := Flt.abs ((absorb /. ar) *. (sr /. scatter) -. one)
  let abs2fsn := Flt.abs ((absorb /. ar) *. (fr /. fission) -. one)
  let sct2abs := Flt.abs ((scatter /. sr) *. (ar /. absorb) -. one)
  let sct2fsn := Flt.abs ((scatter /. sr) *. (fr /. fission) -. one)
  let fsn2abs := Flt.abs ((fission /. fr) *. (ar /. absorb) -. one)
  let fsn2sct := Flt.abs ((fission /. fr) *. (sr /. scatter) -. one)
  !((abs2sct >. tol) || (abs2fsn >. tol) || (sct2abs >. tol) || (sct2fsn >. tol) ||
    (fsn2abs >. tol) || (fsn2sct >. tol))

/-- `fluence_test`, `coral_benchmark_correctness.rs` 147-176. -/
def fluenceTest (cells : List T) : Bool :=
  let localSum := cells.foldl (· +. ·) zero
  let average := localSum /. Flt.ofNat cells.length
  let maxDiff := cells.foldl (fun m v =>
    Flt.max m (Flt.abs (v -. average) /. ((v +. average) /. two) *. Flt.ofNat 100)) zero
  maxDiff <=. (Flt.ofNat 6 : T)

/-- What the checks print, `PASS` or not. -/
structure Verdicts where
  ratios : Bool
  events : Bool
  missing : Bool
  fluence : Bool
deriving DecidableEq, Repr

/-- `coral_benchmark_correctness`, `coral_benchmark_correctness.rs` 15-28: no check for a standard run. -/
def coralChecks (bench : BenchType) (s : SimState T) : Except Panic (Option Verdicts) :=
  if bench = .standard then .ok none
  else do
    let ratios := balanceRatioTest (T := T) (bench = .coral1) s.cumulative
    let events ← balanceEventTest (T := T) s.cumulative
    return some { ratios := ratios, events := events, missing := missingParticleTest s.cumulative,
                  fluence := fluenceTest s.fluence }
