import Verif.Model.Init
import Batteries.Data.List.Basic
/-!
# Specification: inputs that describe the same problem, and results that cannot be told apart
-/
open Flt
variable {T : Type} [Flt T]

/-- Two inputs that describe the same problem: the same regions, the same material and the same cross-section curve
under every name, and the same settings except for the threads.  The order in which materials and curves are given
is free. -/
structure SameProblem (p q : Params T) : Prop where
  simulation : q.simulation = { p.simulation with
    nRayonThreads := q.simulation.nRayonThreads, chunkSize := q.simulation.chunkSize,
    bindThreads := q.simulation.bindThreads }
  geometries : q.geometries = p.geometries
  materials : ∀ name, q.materials.get? name = p.materials.get? name
  crossSections : ∀ name, q.crossSections.get? name = p.crossSections.get? name

/-- The cells of two runs: the same volume, density, identifier and number of sourced particles, and a material of
the same name. -/
def SameCell (data data' : Data T) (c c' : CellState T) : Prop :=
  c' = { c with material := c'.material } ∧
    ∃ m m', data.materials[c.material]? = some m ∧ data'.materials[c'.material]? = some m' ∧ m'.name = m.name

/-- Two states with exactly the same content, down to the last bit and in the same order: particles, reports,
counters, flux, fluence, spectrum.  Only the numbers of the materials of the cells may differ. -/
structure SameState (data data' : Data T) (s s' : SimState T) : Prop where
  cells : List.Forall₂ (SameCell data data') s.unit.dom.cells s'.unit.dom.cells
  rest : s' = { s with unit := { s.unit with dom := { s.unit.dom with cells := s'.unit.dom.cells } } }

/-- The results of two runs of the same problem: same reports and counters, same particles up to order, same
spectrum, and cells of the same content with a material of the same name. -/
structure AgreeingResults (data data' : Data T) (s s' : SimState T) : Prop where
  reports : s'.reports.map (fun r => (r.1, r.2.1)) = s.reports.map (fun r => (r.1, r.2.1))
  cumulative : s'.cumulative = s.cumulative
  spectrum : s'.spectrum = s.spectrum
  srcWeight : s'.srcWeight = s.srcWeight
  globalN : s'.globalN = s.globalN
  waiting : s'.container.processing.Perm s.container.processing
  done : s'.container.processed.Perm s.container.processed
  cells : List.Forall₂ (SameCell data data') s.unit.dom.cells s'.unit.dom.cells

/-- Every material has isotopes and reactions, and the share of an isotope does not vanish. -/
structure FilledMaterials (p : Params T) : Prop where
  notZero : (one ==. (zero : T)) = false
  materials : ∀ k mp, p.materials.get? k = some mp →
    0 < mp.nIsotopes ∧ 0 < mp.nReactions ∧ ((one /. Flt.ofNat mp.nIsotopes) ==. (zero : T)) = false
