import Verif.Model.Cycle
/-!
# Specification: the ways in which a run can stop on a panic

`RunFails data ex o fuel s0 e`: some execution of the run from `s0`, under some schedule, stops on the panic `e`.
`outOfFuel` stands for a run that is still going on when the fuel of the model is used up; it is not a panic.
-/
open Flt
variable {T : Type} [Flt T]

/-- A call of `process_particles` (`particle_container.rs` 91-165) panics.  In a parallel run, one worker
panics after any interleaving of the workers. -/
inductive ProcessFails (data : Data T) (ex : ExecInfo) (fuel : Nat) (u : UnitState T) (c : Container T) :
    Panic → Prop where
  | seq {e} : ex.policy = .sequential ∨ ex.policy = .distributed →
      processSeq data fuel u c = .error e → ProcessFails data ex fuel u c e
  | chunkSize {e} : ex.policy = .rayon ∨ ex.policy = .hybrid →
      chunkSizeFor ex c.processing.length = .error e → ProcessFails data ex fuel u c e
  | worker {k pool' m'} {j : Nat} {e} : ex.policy = .rayon ∨ ex.policy = .hybrid →
      chunkSizeFor ex c.processing.length = .ok k →
      PoolSteps ((chunks k c.processing).map (chunkProg data u.dom fuel)) (sharedOf u c) pool' m' →
      pool'[j]? = some (.fail e) → ProcessFails data ex fuel u c e
  /-- one of the `assert_eq!` of lines 153-155 -/
  | tally {k m'} {results : List (List (Particle T) × Balance)} :
      ex.policy = .rayon ∨ ex.policy = .hybrid →
      chunkSizeFor ex c.processing.length = .ok k →
      PoolSteps ((chunks k c.processing).map (chunkProg data u.dom fuel)) (sharedOf u c)
        (results.map Prog.ret) m' →
      ¬ ((Balance.sum (results.map Prod.snd)).start = 0 ∧ (Balance.sum (results.map Prod.snd)).end_ = 0 ∧
        (Balance.sum (results.map Prod.snd)).source = 0) →
      ProcessFails data ex fuel u c .assertFailed

/-- The tracking loop of a cycle (`main.rs` 331-343) panics, in some iteration. -/
inductive LoopFails (data : Data T) (ex : ExecInfo) (fuel : Nat) :
    UnitState T → Container T → Panic → Prop where
  | now {u c e} : c.isDone = false → ProcessFails data ex fuel u c.sort e → LoopFails data ex fuel u c e
  | later {u c u1 c1 e} : c.isDone = false → ProcessParticles data ex fuel u c.sort u1 c1 →
      LoopFails data ex fuel u1 c1.cleanExtra e → LoopFails data ex fuel u c e

/-- The core of the run (`main.rs` 116-138) panics: in a synchronisation, in population control or in the
tracking of some cycle. -/
inductive RunFails (data : Data T) (ex : ExecInfo) (o : SyncOpts) (fuel : Nat) (s0 : SimState T) :
    Panic → Prop where
  | sync {n s e} : n ≤ data.nSteps → Cycles data ex o fuel n s0 s → cycleSync data o n s = .error e →
      RunFails data ex o fuel s0 e
  | population {n s s1 e} : n < data.nSteps → Cycles data ex o fuel n s0 s →
      cycleSync data o n s = .ok s1 →
      populationControl data s1.globalN s1.srcWeight s1.unit s1.container = .error e →
      RunFails data ex o fuel s0 e
  | tracking {n s s1 u c e} : n < data.nSteps → Cycles data ex o fuel n s0 s →
      cycleSync data o n s = .ok s1 →
      populationControl data s1.globalN s1.srcWeight s1.unit s1.container = .ok (u, c) →
      LoopFails data ex fuel u c e → RunFails data ex o fuel s0 e
