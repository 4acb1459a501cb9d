import Verif.Model.Container
/-!
# Population control and the cycles of the simulation

Models `fastiron/src/simulation/population_control.rs`, the core loop of `fastiron/src/main.rs`
(229-344 and 112-140) and the result part of `fastiron/src/montecarlo.rs`.
-/
open Flt
variable {T : Type} [Flt T]

/-- `compute_split_factor`, `population_control.rs` 25-53. -/
def computeSplitFactor (globalTarget globalN localN numThreads : Nat) (loadBalance : Bool) :
    Except Panic T :=
  if loadBalance then
    if localN ≠ 0 then do
      let tmp : T := Flt.ofNat globalTarget /. Flt.ofNat numThreads
      let localTarget ← unwrap (Flt.toUsize (Flt.ceil tmp))
      return Flt.ofNat localTarget /. Flt.ofNat localN
    else .ok one
  else .ok (Flt.ofNat globalTarget /. Flt.ofNat globalN)

/-- Source rates of the materials, `population_control.rs` 78-83, `montecarlo.rs` 87-92: look-up by
name in a hash map, which panics on a missing key. -/
def sourceRateList (data : Data T) : Except Panic (List T) :=
  data.materials.mapM fun m =>
    match data.sourceRates.lookup m.name with
    | some r => .ok r
    | none => .error .indexOutOfBounds

/-- Seeds of the particles sourced in a cell, `population_control.rs` 99-103. -/
def cellSeeds (tally id n : Nat) : List (BitVec 64) :=
  (List.range n).map fun i => BitVec.ofNat 64 (tally + i + id)

/-- A sourced particle, `population_control.rs` 109-141. -/
def sourceParticle (data : Data T) (dom : Domain T) (srcWeight : T) (cellIdx : Nat)
    (cell : CellState T) (seed0 : BitVec 64) : Except Panic (Particle T) := do
  let (spawned, advanced) := Rng.spawn seed0
  let p : Particle T := { Particle.default with seed := spawned, identifier := advanced }
  let (coord, s) ← generateCoordinate3dg p.seed dom.mesh cellIdx cell.volume
  let p := { p with
    coordinate := coord, seed := s, domain := dom.globalDomain, cell := cellIdx, weight := srcWeight }
  let p := p.sampleIsotropic
  let range := data.eMax -. data.eMin
  let (u, s) := Rng.sample (T := T) p.seed
  let p := { p with kineticEnergy := u *. range +. data.eMin, seed := s }
  let p := p.sampleNumMfp
  let (u, s) := Rng.sample (T := T) p.seed
  return { p with timeToCensus := data.dt *. u, seed := s }

/-- Number of particles sourced in a cell, `population_control.rs` 92-97. -/
def cellSourceCount (data : Data T) (rates : List T) (srcWeight : T) (cell : CellState T) :
    Except Panic Nat := do
  let rate ← idx rates cell.material
  let cellWeight := cell.volume *. rate *. data.dt
  unwrap (Flt.toUsize (Flt.floor (cellWeight /. srcWeight)))

/-- Loop of `source_now` over the cells, `population_control.rs` 86-144: updated cells and the
sourced particles. -/
def sourceCells (data : Data T) (dom : Domain T) (rates : List T) (srcWeight : T) :
    List (CellState T) → Nat → Except Panic (List (CellState T) × List (Particle T))
  | [], _ => .ok ([], [])
  | cell :: cells, i => do
    let n ← cellSourceCount data rates srcWeight cell
    let seeds := cellSeeds cell.sourceTally cell.id n
    let ps ← seeds.mapM (sourceParticle data dom srcWeight i cell)
    let (cells', ps') ← sourceCells data dom rates srcWeight cells (i + 1)
    return ({ cell with sourceTally := cell.sourceTally + n } :: cells', ps ++ ps')

/-- `source_now`, `population_control.rs` 71-145. -/
def sourceNow (data : Data T) (srcWeight : T) (u : UnitState T) (c : Container T) :
    Except Panic (UnitState T × Container T) := do
  let rates ← sourceRateList data
  let (cells, ps) ← sourceCells data u.dom rates srcWeight u.dom.cells 0
  return ({ u with
      dom := { u.dom with cells := cells }
      balance := { u.balance with source := u.balance.source + ps.length } },
    { c with processing := c.processing ++ ps })

/-- Regulation step of `cycle_process`, `main.rs` 311-326. -/
def regulateOrSplit (data : Data T) (factor srcWeight : T) (u : UnitState T) (c : Container T) :
    Except Panic (UnitState T × Container T) :=
  if factor <. one then
    let (c, b) := c.regulate factor data.lowWeightCutoff srcWeight u.balance
    .ok ({ u with balance := b }, c)
  else if factor >. one then do
    let (c, b) ← c.split factor data.lowWeightCutoff srcWeight u.balance
    return ({ u with balance := b }, c)
  else .ok (u, c)

/-- Everything in `cycle_process` before the tracking loop, `main.rs` 296-326. -/
def populationControl (data : Data T) (globalN : Nat) (srcWeight : T) (u : UnitState T)
    (c : Container T) : Except Panic (UnitState T × Container T) := do
  let (u, c) ← sourceNow data srcWeight u c
  let factor ← computeSplitFactor data.nParticles globalN c.processing.length data.nUnits
    data.loadBalance
  regulateOrSplit data factor srcWeight u c

/-- `while !container.is_done_processing()`, `main.rs` 331-343: all the possible finished runs. -/
inductive ProcessLoop (data : Data T) (ex : ExecInfo) (fuel : Nat) :
    UnitState T → Container T → UnitState T → Container T → Prop where
  | done {u c} : c.isDone = true → ProcessLoop data ex fuel u c u c
  | iter {u c u1 c1 u2 c2} : c.isDone = false →
      ProcessParticles data ex fuel u c.sort u1 c1 →
      ProcessLoop data ex fuel u1 c1.cleanExtra u2 c2 →
      ProcessLoop data ex fuel u c u2 c2

/-- `cycle_process`, `main.rs` 291-344. -/
def CycleProcess (data : Data T) (ex : ExecInfo) (fuel : Nat) (globalN : Nat) (srcWeight : T)
    (u : UnitState T) (c : Container T) (u' : UnitState T) (c' : Container T) : Prop :=
  ∃ u1 c1, populationControl data globalN srcWeight u c = .ok (u1, c1) ∧
    ProcessLoop data ex fuel u1 c1 u' c'

/-- The sequential tracking loop as a function (fuelled), for execution. -/
def processLoopSeq (data : Data T) (fuel : Nat) :
    Nat → UnitState T → Container T → Except Panic (UnitState T × Container T)
  | 0, _, _ => .error .outOfFuel
  | n + 1, u, c =>
    if c.isDone then .ok (u, c)
    else do
      let (u, c) ← processSeq data fuel u c.sort
      processLoopSeq data fuel n u c.cleanExtra

/-- Whole state of a run.  `reports` is the list of the balances and total fluxes printed by
`print_summary`, oldest first (the observable output of the simulation). -/
structure SimState (T : Type) where
  unit : UnitState T
  container : Container T
  srcWeight : T
  globalN : Nat
  /-- `MonteCarloResults::balance_cumulative` -/
  cumulative : Balance
  /-- `MonteCarloResults::fluence.cell` -/
  fluence : List T
  /-- `MonteCarloResults::spectrum.census_energy_spectrum` -/
  spectrum : List Nat
  reports : List (Nat × Balance × T)

/-- Options read by `cycle_sync`. -/
structure SyncOpts where
  /-- `bench_type != Standard` -/
  bench : Bool
  /-- `!spectrum.file_name.is_empty()` -/
  spectrumOn : Bool

/-- `spectrum[particle.energy_group] += 1` for each particle, `montecarlo.rs` 166-170. -/
def countSpectrum : List (Particle T) → List Nat → Except Panic (List Nat)
  | [], s => .ok s
  | p :: ps, s => do
    let v ← idx s p.energyGroup
    countSpectrum ps (s.set p.energyGroup (v + 1))

/-- `update_spectrum`, `montecarlo.rs` 161-185 (one container). -/
def updateSpectrum (on : Bool) (c : Container T) (s : List Nat) : Except Panic (List Nat) :=
  if on then do
    let s ← countSpectrum c.processing s
    countSpectrum c.processed s
  else .ok s

/-- `Tallies::cycle_finalize`, `tallies.rs` 339-345. -/
def cycleFinalize (u : UnitState T) : UnitState T :=
  { u with balance := { start := u.balance.end_ }, flux := u.flux.map fun _ => zero }

/-- First part of `cycle_sync` (`step != 0`), `main.rs` 238-262: set `End`, report, accumulate,
update fluence and spectrum, reset the tallies. -/
def syncFinalize (o : SyncOpts) (step : Nat) (s : SimState T) : Except Panic (SimState T) := do
  let u := { s.unit with
    balance := { s.unit.balance with end_ := s.container.processed.length } }
  let reports := s.reports ++ [(step - 1, u.balance, scalarFluxSum u.flux)]
  let cumulative := s.cumulative.add u.balance
  let fluence := if o.bench then fluenceCompute s.fluence u.dom.numGroups u.flux else s.fluence
  let u := cycleFinalize u
  let spectrum ← updateSpectrum o.spectrumOn s.container s.spectrum
  return { s with unit := u, cumulative := cumulative, fluence := fluence, spectrum := spectrum,
                  reports := reports }

/-- `update_unit_weight`, `montecarlo.rs` 86-105. -/
def unitWeightOf (data : Data T) (cells : List (CellState T)) : Except Panic T := do
  let rates ← sourceRateList data
  let ws ← cells.mapM fun cell => do
    let r ← idx rates cell.material
    return cell.volume *. r *. data.dt
  return Flt.sum ws

/-- Second part of `cycle_sync`, `main.rs` 264-284: prepare the next cycle. -/
def syncPrepare (data : Data T) (s : SimState T) : Except Panic (SimState T) := do
  let w ← unitWeightOf data s.unit.dom.cells
  let c := s.container.swap
  let n := c.processing.length
  let u := { s.unit with
    unitWeight := w
    cache := s.unit.cache.map fun _ => zero
    balance := { s.unit.balance with start := n } }
  let total : T := zero +. w
  let toSpawn : T := Flt.lit 1 (-1) *. Flt.ofNat data.nParticles
  let k ← unwrap (Flt.toUsize toSpawn)
  return { s with unit := u, container := c, srcWeight := total /. toSpawn, globalN := n + k }

/-- `cycle_sync`, `main.rs` 229-285.  The early return for `step == n_steps + 1` is kept. -/
def cycleSync (data : Data T) (o : SyncOpts) (step : Nat) (s : SimState T) :
    Except Panic (SimState T) := do
  if step ≠ 0 then
    let s ← syncFinalize o step s
    if step = data.nSteps + 1 then return s
    else syncPrepare data s
  else syncPrepare data s

/-- `n` iterations of the core loop, `main.rs` 118-128: `cycle_sync(step)` then `cycle_process`. -/
inductive Cycles (data : Data T) (ex : ExecInfo) (o : SyncOpts) (fuel : Nat) :
    Nat → SimState T → SimState T → Prop where
  | zero {s} : Cycles data ex o fuel 0 s s
  | succ {n s s1 s2 u c} : Cycles data ex o fuel n s s1 →
      cycleSync data o n s1 = .ok s2 →
      CycleProcess data ex fuel s2.globalN s2.srcWeight s2.unit s2.container u c →
      Cycles data ex o fuel (n + 1) s { s2 with unit := u, container := c }

/-- The core loop of `run`, `main.rs` 116-138: `n_steps` cycles and a last `cycle_sync`. -/
def RunCore (data : Data T) (ex : ExecInfo) (o : SyncOpts) (fuel : Nat) (s s' : SimState T) : Prop :=
  ∃ s1, Cycles data ex o fuel data.nSteps s s1 ∧ cycleSync data o data.nSteps s1 = .ok s'
