import Verif.Model.Init
/-!
# Specification: what a run starts with
-/
open Flt
variable {T : Type} [Flt T]

/-- The settings with which a run starts are those of the parameters. -/
structure Settings (p : Params T) (s : Started T) : Prop where
  dt : s.data.dt = p.simulation.dt
  eMin : s.data.eMin = p.simulation.eMin
  eMax : s.data.eMax = p.simulation.eMax
  nParticles : s.data.nParticles = p.simulation.nParticles
  nSteps : s.data.nSteps = p.simulation.nSteps
  lowWeightCutoff : s.data.lowWeightCutoff = p.simulation.lowWeightCutoff
  loadBalance : s.data.loadBalance = p.simulation.loadBalance
  /-- the source rate of each material name is the one given for this name -/
  rates : ∀ name, s.data.sourceRates.lookup name = (p.materials.get? name).map (·.sourceRate)
  /-- the energy spectrum is recorded when a file name is given for it -/
  spectrum : s.opts.spectrumOn = true ↔ p.simulation.energySpectrum ≠ ""
  /-- the balance of the reactions is checked when a benchmark is asked for -/
  bench : s.opts.bench = true ↔ p.simulation.coralBenchmark ≠ .standard
  units : p.simulation.nUnits = 1 ∧ s.data.nUnits = 1 ∧ s.exec.nUnits = 1
  /-- on threads unless exactly one is asked for -/
  policy : s.exec.policy = if p.simulation.nRayonThreads = 1 then .sequential else .rayon
  chunk : s.exec.chunkSize = p.simulation.chunkSize
  groups : s.state.unit.dom.numGroups = p.simulation.nGroups

/-- Nothing has happened yet: no particle, every counter and tally at zero, tables of the right sizes. -/
structure Fresh (s : SimState T) : Prop where
  particles : s.container.processing = [] ∧ s.container.processed = [] ∧ s.container.extra = []
  counters : s.unit.balance = {} ∧ s.cumulative = {} ∧ s.reports = [] ∧ s.globalN = 0
  flux : s.unit.flux = List.replicate (s.unit.dom.cells.length * s.unit.dom.numGroups) zero
  cache : s.unit.cache = List.replicate (s.unit.dom.cells.length * s.unit.dom.numGroups) zero
  fluence : s.fluence = []
  spectrum : s.spectrum = List.replicate (s.unit.dom.numGroups + 1) 0
  weights : s.unit.unitWeight = zero ∧ s.srcWeight = zero
