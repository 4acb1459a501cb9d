import Verif.Model.Particle
/-!
# Programs over the shared memory of the tracking phase

The memory that worker threads share while particles are tracked consists of
* the cross-section cache (`XSCache`, `montecarlo.rs` 108-132): atomic loads and stores,
* the scalar flux tally (`ScalarFluxDomain`, `tallies.rs`): atomic add (`fetch_update` loop),
* the list of extra particles behind a mutex (`particle_container.rs` 111, 148).

A `Prog` is a program tree whose nodes are accesses to that memory.
-/

/-- Program tree of one worker. -/
inductive Prog (T : Type) (α : Type) where
  /-- finished -/
  | ret (a : α) : Prog T α
  /-- stopped by a panic -/
  | fail (e : Panic) : Prog T α
  /-- atomic load of cache entry `i` (`mc_segment_outcome.rs` 124) -/
  | load (i : Nat) (k : T → Prog T α) : Prog T α
  /-- atomic store to cache entry `i` (`mc_segment_outcome.rs` 138) -/
  | store (i : Nat) (v : T) (k : Unit → Prog T α) : Prog T α
  /-- atomic add of `v` to flux entry `i` (`cycle_tracking.rs` 68-72) -/
  | addFlux (i : Nat) (v : T) (k : Unit → Prog T α) : Prog T α
  /-- append to the shared list of extra particles (`particle_container.rs` 148) -/
  | pushExtra (ps : List (Particle T)) (k : Unit → Prog T α) : Prog T α

namespace Prog
variable {T α β : Type}

/-- Sequencing. -/
def bind : Prog T α → (α → Prog T β) → Prog T β
  | .ret a, f => f a
  | .fail e, _ => .fail e
  | .load i k, f => .load i (fun v => (k v).bind f)
  | .store i v k, f => .store i v (fun u => (k u).bind f)
  | .addFlux i v k, f => .addFlux i v (fun u => (k u).bind f)
  | .pushExtra ps k, f => .pushExtra ps (fun u => (k u).bind f)

instance : Monad (Prog T) where
  pure := .ret
  bind := bind

/-- Embed a pure computation that may panic. -/
def ofExcept : Except Panic α → Prog T α
  | .ok a => .ret a
  | .error e => .fail e

end Prog

/-- The shared memory. -/
structure Shared (T : Type) where
  cache : List T
  flux : List T
  extra : List (Particle T)
deriving DecidableEq, Repr

variable {T α : Type} [Flt T]

/-- Sequential execution of a program. -/
def Prog.run : Prog T α → Shared T → Except Panic (α × Shared T)
  | .ret a, m => .ok (a, m)
  | .fail e, _ => .error e
  | .load i k, m =>
    match m.cache[i]? with
    | some v => (k v).run m
    | none => .error .indexOutOfBounds
  | .store i v k, m =>
    if i < m.cache.length then (k ()).run { m with cache := m.cache.set i v }
    else .error .indexOutOfBounds
  | .addFlux i v k, m =>
    match m.flux[i]? with
    | some x => (k ()).run { m with flux := m.flux.set i (Flt.add x v) }
    | none => .error .assertFailed
  | .pushExtra ps k, m => (k ()).run { m with extra := m.extra ++ ps }

/-- One atomic access by one program. -/
inductive Prog.Step : Prog T α → Shared T → Prog T α → Shared T → Prop where
  | load {i k m v} : m.cache[i]? = some v → Step (.load i k) m (k v) m
  | loadOob {i k m} : m.cache[i]? = none → Step (.load i k) m (.fail .indexOutOfBounds) m
  | store {i v k m} : i < m.cache.length →
      Step (.store i v k) m (k ()) { m with cache := m.cache.set i v }
  | storeOob {i v k m} : ¬ i < m.cache.length →
      Step (.store i v k) m (.fail .indexOutOfBounds) m
  | addFlux {i v k m x} : m.flux[i]? = some x →
      Step (.addFlux i v k) m (k ()) { m with flux := m.flux.set i (Flt.add x v) }
  | addFluxOob {i v k m} : m.flux[i]? = none →
      Step (.addFlux i v k) m (.fail .assertFailed) m
  | pushExtra {ps k m} : Step (.pushExtra ps k) m (k ()) { m with extra := m.extra ++ ps }

/-- One step of a pool of workers: any worker that is not finished makes its next access.
This over-approximates every scheduling by rayon, whatever the number of threads and whatever the
assignment and order of the chunks. -/
inductive PoolStep : List (Prog T α) → Shared T → List (Prog T α) → Shared T → Prop where
  | mk {pool m j p p' m'} : pool[j]? = some p → Prog.Step p m p' m' →
      PoolStep pool m (pool.set j p') m'

/-- Any number of pool steps. -/
inductive PoolSteps : List (Prog T α) → Shared T → List (Prog T α) → Shared T → Prop where
  | refl {pool m} : PoolSteps pool m pool m
  | tail {a m b m' c m''} : PoolSteps a m b m' → PoolStep b m' c m'' → PoolSteps a m c m''
