import Verif.Model.Flt
/-!
# Tallies

Models `fastiron/src/data/tallies.rs`.
-/
open Flt

/-- `MCTallyEvent`, `tallies.rs` 27-43. -/
inductive TallyEvent where
  | collision
  | facetCrossingTransitExit
  | census
  | facetCrossingEscape
  | facetCrossingReflection
  | facetCrossingCommunication
deriving DecidableEq, Repr

/-- `Balance`, `tallies.rs` 77-103: the array indexed by `TalliedEvent`, as a record. -/
@[ext] structure Balance where
  absorb : Nat := 0
  census : Nat := 0
  escape : Nat := 0
  collision : Nat := 0
  end_ : Nat := 0
  fission : Nat := 0
  produce : Nat := 0
  scatter : Nat := 0
  start : Nat := 0
  source : Nat := 0
  overRr : Nat := 0
  weightRr : Nat := 0
  split : Nat := 0
  numSegments : Nat := 0
deriving DecidableEq, Repr

namespace Balance

/-- `add_to_self` / `Add`, `tallies.rs` 113-118, 141-149. -/
def add (a b : Balance) : Balance where
  absorb := a.absorb + b.absorb
  census := a.census + b.census
  escape := a.escape + b.escape
  collision := a.collision + b.collision
  end_ := a.end_ + b.end_
  fission := a.fission + b.fission
  produce := a.produce + b.produce
  scatter := a.scatter + b.scatter
  start := a.start + b.start
  source := a.source + b.source
  overRr := a.overRr + b.overRr
  weightRr := a.weightRr + b.weightRr
  split := a.split + b.split
  numSegments := a.numSegments + b.numSegments

/-- `Sum<Balance>`, `tallies.rs` 151-155. -/
def sum (l : List Balance) : Balance := l.foldl add {}

end Balance

/-- `ScalarFluxDomain` index `(cell, group)`, `tallies.rs` 188-201: flattened, with an assertion. -/
def fluxIndex (numGroups cell group : Nat) : Nat := cell * numGroups + group

/-- `scalar_flux_sum`, `tallies.rs` 330-336. -/
def scalarFluxSum {T : Type} [Flt T] (flux : List T) : T := Flt.sum flux

/-- Slices of a `Vec`: `chunks(k)` of the standard library and of rayon.  `k = 0` panics in Rust; the callers
below never pass 0.  The fuel is the list length, which always suffices for `k ≥ 1`. -/
def chunksAux {α : Type} (k : Nat) : Nat → List α → List (List α)
  | 0, _ => []
  | _ + 1, [] => []
  | n + 1, l => l.take k :: chunksAux k n (l.drop k)

/-- See `chunksAux`. -/
def chunks {α : Type} (k : Nat) (l : List α) : List (List α) := chunksAux k l.length l

/-- `FluenceDomain::compute`, `tallies.rs` 56-69: `zip` of the fluence cells with the flux chunks,
each fluence cell grows by the sum of its chunk; cells beyond the shorter list are unchanged. -/
def fluenceCompute {T : Type} [Flt T] (fluence : List T) (numGroups : Nat) (flux : List T) : List T :=
  let cs := chunks numGroups flux
  (List.zipWith (fun f c => f +. Flt.sum c) fluence cs) ++ fluence.drop cs.length
