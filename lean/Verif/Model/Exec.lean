import Verif.Model.Cycle
/-!
# Execution policy

Models `fastiron/src/utils/mc_processor_info.rs` and the start of `run` in `fastiron/src/main.rs`.
-/

/-- The fields of `SimulationParameters` read by `MCProcessorInfo::new`, `parameters.rs`. -/
structure ExecSettings where
  nUnits : Nat
  nRayonThreads : Nat
  chunkSize : Nat
  bindThreads : Bool
deriving DecidableEq, Repr

/-- `MCProcessorInfo`, `mc_processor_info.rs` 33-47 (`n_processors` is always 1 and never read). -/
structure ProcInfo where
  info : ExecInfo
  bindThreads : Bool
deriving DecidableEq, Repr

/-- `MCProcessorInfo::default`, `mc_processor_info.rs` 79-90. -/
def ProcInfo.default : ProcInfo :=
  { info := { policy := .sequential, nUnits := 1, nRayonThreads := 1, chunkSize := 0 }
    bindThreads := false }

/-- `MCProcessorInfo::new`, `mc_processor_info.rs` 51-76. -/
def ProcInfo.new (s : ExecSettings) : Except Panic ProcInfo := do
  let res : ProcInfo := ProcInfo.default
  let res : ProcInfo :=
    if s.nUnits ≠ 1 then
      let res := { res with info := { res.info with nUnits := s.nUnits } }
      if s.nRayonThreads ≠ 1 then
        { res with info := { res.info with nRayonThreads := s.nRayonThreads, policy := .hybrid } }
      else { res with info := { res.info with policy := .distributed } }
    else if s.nRayonThreads ≠ 1 then
      { info := { res.info with nRayonThreads := s.nRayonThreads, policy := .rayon }
        bindThreads := s.bindThreads }
    else res
  let res := { res with info := { res.info with chunkSize := s.chunkSize } }
  assertB (res.info.nUnits != 0)
  return res

/-- What the machine offers: the number of threads of rayon's implicit pool (at least one, as
documented by rayon) and whether threads can be bound to cores (the tests of `main.rs` 81-89). -/
structure Machine where
  defaultThreads : Nat
  canBind : Bool
deriving DecidableEq, Repr

/-- Size of the pool on which the particles are tracked, `main.rs` 76-100: a pool of the requested
size is only built when threads are bound. -/
def poolSize (m : Machine) (p : ProcInfo) : Nat :=
  if p.info.nRayonThreads ≠ 0 ∧ p.bindThreads = true ∧ m.canBind = true then p.info.nRayonThreads
  else m.defaultThreads

/-- Execution settings with which the core loop starts, `main.rs` 70-143 and
`init_particle_containers`, `init.rs` 78-82: several units are not implemented. -/
def startExec (m : Machine) (s : ExecSettings) : Except Panic ExecInfo := do
  let p ← ProcInfo.new s
  match p.info.policy with
  | .sequential => return p.info
  | .rayon => return { p.info with nRayonThreads := poolSize m p }
  | .distributed | .hybrid => .error .unimplemented
