import Verif.Model.Tracking
/-!
# Particle container

Models `fastiron/src/particles/particle_container.rs`.
-/
open Flt

/-- `ParticleContainer`, `particle_container.rs` 19-31. -/
structure Container (T : Type) where
  processing : List (Particle T)
  processed : List (Particle T)
  extra : List (Particle T)

/-- `ExecPolicy`, `mc_processor_info.rs`. -/
inductive ExecPolicy where
  | sequential
  | rayon
  | distributed
  | hybrid
deriving DecidableEq, Repr

/-- The part of `MCProcessorInfo` (`mc_processor_info.rs`) used by the simulation. -/
structure ExecInfo where
  policy : ExecPolicy
  nUnits : Nat
  nRayonThreads : Nat
  chunkSize : Nat
deriving DecidableEq, Repr

/-- `Vec::retain_mut`: keep the updated elements for which the closure answers `true`. -/
def retainMut {α : Type} (f : α → α × Bool) (l : List α) : List α :=
  l.filterMap fun a => let r := f a; if r.2 then some r.1 else none

variable {T : Type} [Flt T]

/-- `swap_processing_processed`, `particle_container.rs` 45-48. -/
def Container.swap (c : Container T) : Container T :=
  { c with processing := c.processing ++ c.processed, processed := [] }

/-- Closure of `regulate_population`, `particle_container.rs` 60-64: both games are played
(`&` does not short-circuit). -/
def regulateOne (factor relCutoff srcWeight : T) (p : Particle T) : Particle T × Bool :=
  let (p, b1) := p.overPopulatedRr factor
  let (p, b2) := p.lowWeightRr relCutoff srcWeight
  (p, b1 && b2)

/-- `regulate_population`, `particle_container.rs` 52-66. -/
def Container.regulate (c : Container T) (factor relCutoff srcWeight : T) (b : Balance) :
    Container T × Balance :=
  let l := retainMut (regulateOne factor relCutoff srcWeight) c.processing
  ({ c with processing := l }, { b with overRr := c.processing.length - l.length })

/-- `clean_extra_vaults`, `particle_container.rs` 178-180. -/
def Container.cleanExtra (c : Container T) : Container T :=
  { c with processing := c.processing ++ c.extra, extra := [] }

/-- Splitting loop of `split_population`, `particle_container.rs` 78-81: updated particles and the
copies pushed on `extra`. -/
def splitAll (factor : T) : List (Particle T) → Except Panic (List (Particle T) × List (Particle T))
  | [] => .ok ([], [])
  | p :: ps => do
    let (p, cs) ← p.underPopulatedSplit factor
    let (ps, cs') ← splitAll factor ps
    return (p :: ps, cs ++ cs')

/-- `split_population`, `particle_container.rs` 70-88. -/
def Container.split (c : Container T) (factor relCutoff srcWeight : T) (b : Balance) :
    Except Panic (Container T × Balance) := do
  let oldLen := c.processing.length
  let (ps, copies) ← splitAll factor c.processing
  let c := ({ c with processing := ps, extra := c.extra ++ copies } : Container T).cleanExtra
  let b := { b with split := c.processing.length - oldLen }
  let oldLen := c.processing.length
  let l := retainMut (fun p => p.lowWeightRr relCutoff srcWeight) c.processing
  return ({ c with processing := l }, { b with weightRr := oldLen - l.length })

/-- Comparison of `sort_processing`, `particle_container.rs` 168-175. -/
def cellGroupLe (a b : Particle T) : Bool :=
  decide (a.cell < b.cell) || (decide (a.cell = b.cell) && decide (a.energyGroup ≤ b.energyGroup))

/-- Insertion before the first element that is not smaller. -/
def stableInsert {α : Type} (le : α → α → Bool) (a : α) : List α → List α
  | [] => [a]
  | b :: l => if le a b then a :: b :: l else b :: stableInsert le a l

/-- A stable sort.  Rust's `sort_by` is documented to be a stable sort; the result of a stable sort
by a total preorder does not depend on the algorithm (theorem `stable_sort_unique`). -/
def stableSort {α : Type} (le : α → α → Bool) : List α → List α
  | [] => []
  | a :: l => stableInsert le a (stableSort le l)

/-- `sort_processing`, `particle_container.rs` 168-175. -/
def Container.sort (c : Container T) : Container T :=
  { c with processing := stableSort cellGroupLe c.processing }

/-- `is_done_processing`, `particle_container.rs` 186-188. -/
def Container.isDone (c : Container T) : Bool := c.extra.isEmpty && c.processing.isEmpty

/-- Tracking of a list of particles one after the other, `particle_container.rs` 103-113, 139-147:
the updated particles, the balance and the local list of extra particles. -/
def trackAll (data : Data T) (dom : Domain T) (fuel : Nat) :
    List (Particle T) → Balance → List (Particle T) →
    Prog T (List (Particle T) × Balance × List (Particle T))
  | [], b, ex => .ret ([], b, ex)
  | p :: ps, b, ex =>
    (trackGuts data dom fuel { particle := p, balance := b, extra := ex }).bind fun st =>
      (trackAll data dom fuel ps st.balance st.extra).bind fun (l, b, ex) =>
        .ret (st.particle :: l, b, ex)

/-- Work on one chunk, `particle_container.rs` 125-150: local balance, local extra list appended to
the shared one under the mutex at the end. -/
def chunkProg (data : Data T) (dom : Domain T) (fuel : Nat) (ps : List (Particle T)) :
    Prog T (List (Particle T) × Balance) :=
  (trackAll data dom fuel ps {} []).bind fun (l, b, ex) =>
    .pushExtra ex fun _ => .ret (l, b)

/-- Chunk size, `particle_container.rs` 118-121. -/
def chunkSizeFor (ex : ExecInfo) (len : Nat) : Except Panic Nat :=
  if ex.chunkSize = 0 then
    if ex.nRayonThreads = 0 then .error .divByZero else .ok (len / ex.nRayonThreads + 1)
  else .ok ex.chunkSize

/-- State of the Monte-Carlo unit, `montecarlo.rs` 64-75 (timers are modelled separately). -/
structure UnitState (T : Type) where
  dom : Domain T
  balance : Balance
  flux : List T
  cache : List T
  unitWeight : T

/-- End of `process_particles`, `particle_container.rs` 157-163: drop invalidated particles, move
the others to the processed list, install the tallies. -/
def finishProcess (u : UnitState T) (c : Container T) (m : Shared T) (ps : List (Particle T))
    (b : Balance) : UnitState T × Container T :=
  ({ u with balance := u.balance.add b, flux := m.flux, cache := m.cache },
   { processing := []
     processed := c.processed ++ ps.filter (fun p => p.species ≠ .unknown)
     extra := m.extra })

/-- The memory shared by the workers at the start of `process_particles`. -/
def sharedOf (u : UnitState T) (c : Container T) : Shared T :=
  { cache := u.cache, flux := u.flux, extra := c.extra }

/-- `process_particles` under `Sequential | Distributed`, `particle_container.rs` 99-115.
Simplification: the extra particles are appended once at the end instead of one by one; nobody reads
the list in between. -/
def processSeq (data : Data T) (fuel : Nat) (u : UnitState T) (c : Container T) :
    Except Panic (UnitState T × Container T) := do
  let ((ps, b), m) ← (chunkProg data u.dom fuel c.processing).run (sharedOf u c)
  return finishProcess u c m ps b

/-- `process_particles`, `particle_container.rs` 91-165: all the possible results.
The parallel case is any interleaving of the accesses of the chunks.  The reduction of the chunk
balances (`fold_with ... sum`) is a sum in chunk order: addition of balances is commutative and
associative, so the shape of rayon's reduction tree is irrelevant. -/
inductive ProcessParticles (data : Data T) (ex : ExecInfo) (fuel : Nat) :
    UnitState T → Container T → UnitState T → Container T → Prop where
  | seq {u c u' c'} : ex.policy = .sequential ∨ ex.policy = .distributed →
      processSeq data fuel u c = .ok (u', c') → ProcessParticles data ex fuel u c u' c'
  | par {u : UnitState T} {c : Container T} {k : Nat}
      {pool' : List (Prog T (List (Particle T) × Balance))} {m' : Shared T}
      {results : List (List (Particle T) × Balance)} : ex.policy = .rayon ∨ ex.policy = .hybrid →
      chunkSizeFor ex c.processing.length = .ok k →
      PoolSteps ((chunks k c.processing).map (chunkProg data u.dom fuel)) (sharedOf u c) pool' m' →
      pool' = results.map Prog.ret →
      -- `assert_eq!(res[Start], 0)` and the two others, lines 153-155
      (Balance.sum (results.map Prod.snd)).start = 0 →
      (Balance.sum (results.map Prod.snd)).end_ = 0 →
      (Balance.sum (results.map Prod.snd)).source = 0 →
      ProcessParticles data ex fuel u c
        (finishProcess u c m' (results.map Prod.fst).flatten (Balance.sum (results.map Prod.snd))).1
        (finishProcess u c m' (results.map Prod.fst).flatten (Balance.sum (results.map Prod.snd))).2
