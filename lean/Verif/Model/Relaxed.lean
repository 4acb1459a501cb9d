import Verif.Model.Cycle
/-!
# The shared memory at the level of the atomic instructions

`Verif/Model/Prog.lean` treats the flux update as one indivisible addition and lets every load of the
cache return the latest value.  This file models what the code asks of the machine:

* the flux update is `fetch_update(Relaxed, Relaxed, f)` (`cycle_tracking.rs` 66-72), i.e. a load
  followed by a loop around `compare_exchange_weak`: the load may return anything, the exchange
  succeeds only if the entry holds the expected bits, it may fail spuriously, and a failure hands back
  some value with which the loop is retried;
* the load of the cache (`mc_segment_outcome.rs` 122) may return any value the entry has held since
  the workers were started, whatever other loads returned (this allows more than `Acquire`/`Release`
  loads and stores do).

The values are bit patterns: equality of the exchanged values is equality.
-/
variable {T α : Type} [Flt T]

/-- A worker: its program and, inside a `fetch_update` loop, the value it expects to find. -/
structure Worker (T : Type) (α : Type) where
  prog : Prog T α
  expected : Option T := none

/-- The shared memory and the former contents of the cache. -/
structure History (T : Type) where
  now : Shared T
  past : List (List T)

/-- `v` is or was in entry `i` of the cache. -/
def History.held (m : History T) (i : Nat) (v : T) : Prop :=
  ∃ c ∈ m.now.cache :: m.past, c[i]? = some v

/-- One atomic instruction of one worker. -/
inductive Worker.Step : Worker T α → History T → Worker T α → History T → Prop where
  /-- `mc_segment_outcome.rs` 122 -/
  | load {i k m v} : m.held i v → Step ⟨.load i k, none⟩ m ⟨k v, none⟩ m
  | loadOob {i k m} : m.now.cache[i]? = none →
      Step ⟨.load i k, none⟩ m ⟨.fail .indexOutOfBounds, none⟩ m
  /-- `mc_segment_outcome.rs` 136 -/
  | store {i v k m} : i < m.now.cache.length →
      Step ⟨.store i v k, none⟩ m ⟨k (), none⟩
        ⟨{ m.now with cache := m.now.cache.set i v }, m.now.cache :: m.past⟩
  | storeOob {i v k m} : ¬ i < m.now.cache.length →
      Step ⟨.store i v k, none⟩ m ⟨.fail .indexOutOfBounds, none⟩ m
  /-- `cycle_tracking.rs` 66-72: the load at the start of `fetch_update` -/
  | fluxRead {i v k m} (x : T) : i < m.now.flux.length →
      Step ⟨.addFlux i v k, none⟩ m ⟨.addFlux i v k, some x⟩ m
  /-- the weak exchange fails, possibly for no reason, and another value is tried -/
  | fluxRetry {i v k m x} (y : T) :
      Step ⟨.addFlux i v k, some x⟩ m ⟨.addFlux i v k, some y⟩ m
  /-- the exchange succeeds -/
  | fluxSwap {i v k m x} : m.now.flux[i]? = some x →
      Step ⟨.addFlux i v k, some x⟩ m ⟨k (), none⟩
        ⟨{ m.now with flux := m.now.flux.set i (Flt.add x v) }, m.past⟩
  | fluxOob {i v k m} : ¬ i < m.now.flux.length →
      Step ⟨.addFlux i v k, none⟩ m ⟨.fail .assertFailed, none⟩ m
  /-- `particle_container.rs` 148 -/
  | pushExtra {ps k m} : Step ⟨.pushExtra ps k, none⟩ m ⟨k (), none⟩
        ⟨{ m.now with extra := m.now.extra ++ ps }, m.past⟩

/-- One instruction of any worker of a pool. -/
inductive WorkersStep : List (Worker T α) → History T → List (Worker T α) → History T → Prop where
  | mk {pool m j w w' m'} : pool[j]? = some w → Worker.Step w m w' m' →
      WorkersStep pool m (pool.set j w') m'

/-- Any number of instructions. -/
inductive WorkersSteps : List (Worker T α) → History T → List (Worker T α) → History T → Prop where
  | refl {pool m} : WorkersSteps pool m pool m
  | tail {a m b m' c m''} : WorkersSteps a m b m' → WorkersStep b m' c m'' → WorkersSteps a m c m''

/-- The workers of `process_particles` before their first instruction, `particle_container.rs` 125-150. -/
def startWorkers (data : Data T) (dom : Domain T) (fuel k : Nat) (ps : List (Particle T)) :
    List (Worker T (List (Particle T) × Balance)) :=
  (chunks k ps).map fun chunk => ⟨chunkProg data dom fuel chunk, none⟩

/-- `process_particles`, `particle_container.rs` 91-165, with workers that run on such a memory. -/
inductive RelaxedParticles (data : Data T) (ex : ExecInfo) (fuel : Nat) :
    UnitState T → Container T → UnitState T → Container T → Prop where
  | seq {u c u' c'} : ex.policy = .sequential ∨ ex.policy = .distributed →
      processSeq data fuel u c = .ok (u', c') → RelaxedParticles data ex fuel u c u' c'
  | par {u : UnitState T} {c : Container T} {k : Nat} {m' : History T}
      {results : List (List (Particle T) × Balance)} : ex.policy = .rayon ∨ ex.policy = .hybrid →
      chunkSizeFor ex c.processing.length = .ok k →
      WorkersSteps (startWorkers data u.dom fuel k c.processing) ⟨sharedOf u c, []⟩
        (results.map fun r => ⟨.ret r, none⟩) m' →
      -- `assert_eq!(res[Start], 0)` and the two others, lines 153-155
      (Balance.sum (results.map Prod.snd)).start = 0 →
      (Balance.sum (results.map Prod.snd)).end_ = 0 →
      (Balance.sum (results.map Prod.snd)).source = 0 →
      RelaxedParticles data ex fuel u c
        (finishProcess u c m'.now (results.map Prod.fst).flatten (Balance.sum (results.map Prod.snd))).1
        (finishProcess u c m'.now (results.map Prod.fst).flatten (Balance.sum (results.map Prod.snd))).2

/-- `while !container.is_done_processing()`, `main.rs` 331-343. -/
inductive RelaxedLoop (data : Data T) (ex : ExecInfo) (fuel : Nat) :
    UnitState T → Container T → UnitState T → Container T → Prop where
  | done {u c} : c.isDone = true → RelaxedLoop data ex fuel u c u c
  | iter {u c u1 c1 u2 c2} : c.isDone = false →
      RelaxedParticles data ex fuel u c.sort u1 c1 →
      RelaxedLoop data ex fuel u1 c1.cleanExtra u2 c2 →
      RelaxedLoop data ex fuel u c u2 c2

/-- `cycle_process`, `main.rs` 291-344. -/
def RelaxedProcess (data : Data T) (ex : ExecInfo) (fuel : Nat) (globalN : Nat) (srcWeight : T)
    (u : UnitState T) (c : Container T) (u' : UnitState T) (c' : Container T) : Prop :=
  ∃ u1 c1, populationControl data globalN srcWeight u c = .ok (u1, c1) ∧
    RelaxedLoop data ex fuel u1 c1 u' c'

/-- `n` cycles of `run`, `main.rs` 116-138. -/
inductive RelaxedCycles (data : Data T) (ex : ExecInfo) (o : SyncOpts) (fuel : Nat) :
    Nat → SimState T → SimState T → Prop where
  | zero {s} : RelaxedCycles data ex o fuel 0 s s
  | succ {n s s1 s2 u c} : RelaxedCycles data ex o fuel n s s1 →
      cycleSync data o n s1 = .ok s2 →
      RelaxedProcess data ex fuel s2.globalN s2.srcWeight s2.unit s2.container u c →
      RelaxedCycles data ex o fuel (n + 1) s { s2 with unit := u, container := c }

/-- The core loop of `run`, `main.rs` 116-138. -/
def RelaxedRun (data : Data T) (ex : ExecInfo) (o : SyncOpts) (fuel : Nat) (s s' : SimState T) : Prop :=
  ∃ s1, RelaxedCycles data ex o fuel data.nSteps s s1 ∧ cycleSync data o data.nSteps s1 = .ok s'
