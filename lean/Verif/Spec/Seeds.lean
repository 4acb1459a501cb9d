import Verif.Model.Init
/-!
# Specification: inputs that differ only in the seed, and states that differ only in the numbers of the cells
-/
open Flt
variable {T : Type} [Flt T]

/-- Two inputs that differ at most in the seed and in the settings of the threads. -/
def SameButSeed (p q : Params T) : Prop :=
  q = { p with simulation := { p.simulation with
    seed := q.simulation.seed, nRayonThreads := q.simulation.nRayonThreads, chunkSize := q.simulation.chunkSize,
    bindThreads := q.simulation.bindThreads } }

/-- A particle and the content of its cell (identifier, material, volume, number of sourced particles), without the
number of this cell in the mesh. -/
def Domain.placed (dom : Domain T) (p : Particle T) : Particle T × Option (CellState T) :=
  ({ p with cell := 0 }, dom.cells[p.cell]?)

/-- Two states that cannot be told apart without the numbers of the cells, except for the rounding of flux sums: same
reported steps and counters, same cumulative counters, same spectrum, same source weight and population, the same
cells in some order, and the same particles, each in the same cell, in some order. -/
structure SameButNumbers (s s' : SimState T) : Prop where
  reports : s'.reports.map (fun r => (r.1, r.2.1)) = s.reports.map (fun r => (r.1, r.2.1))
  cumulative : s'.cumulative = s.cumulative
  spectrum : s'.spectrum = s.spectrum
  srcWeight : s'.srcWeight = s.srcWeight
  globalN : s'.globalN = s.globalN
  cells : s'.unit.dom.cells.Perm s.unit.dom.cells
  waiting : (s'.container.processing.map s'.unit.dom.placed).Perm (s.container.processing.map s.unit.dom.placed)
  done : (s'.container.processed.map s'.unit.dom.placed).Perm (s.container.processed.map s.unit.dom.placed)

/-- The same problem with another kind of border. -/
def Params.withBorder {T : Type} (p : Params T) (s : String) : Params T :=
  { p with simulation := { p.simulation with boundaryCondition := s } }

/-- The same problem with another seed. -/
def Params.withSeed {T : Type} (p : Params T) (n : Nat) : Params T :=
  { p with simulation := { p.simulation with seed := n } }
