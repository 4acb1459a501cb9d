import Verif.Spec.Startup
import Verif.Spec.Config
import Verif.Spec.Init
/-!
# Specification: inputs a run can be started with

The conditions bear on the parameters only: on what a user writes in the input file and on the command line.
-/
open GridSpec MeshSpec

/-- A material whose data make sense: heavier than a neutron, no negative cross-section, at least one kind of
reaction, no negative source. -/
structure ValidMaterial (mp : MaterialParams ℝ) : Prop where
  mass : 1 < mp.mass
  total : 0 ≤ mp.totalCrossSection
  ratios : 0 ≤ mp.scatteringCrossSectionRatio ∧ 0 ≤ mp.absorptionCrossSectionRatio ∧ 0 ≤ mp.fissionCrossSectionRatio
  someRatio : 0 < mp.scatteringCrossSectionRatio + mp.absorptionCrossSectionRatio + mp.fissionCrossSectionRatio
  rate : 0 ≤ mp.sourceRate

/-- The first region of the input that holds the centre of cell `c` is `geom`: it decides the material of the cell. -/
def RegionOf (p : Params ℝ) (c : Nat) (geom : GeometryParams ℝ) : Prop :=
  ∃ pre post, p.geometries = pre ++ geom :: post ∧
    InRegion geom (boxCenter p.grid (p.grid.cellIdxToTuple c)) ∧
    ∀ x ∈ pre, ¬ InRegion x (boxCenter p.grid (p.grid.cellIdxToTuple c))

/-- Inputs with which a run on one unit goes through. -/
structure ValidInput (p : Params ℝ) : Prop where
  /-- read from a file or built in: indexed by name, and accepted by the validation -/
  named : NamedParams p
  consistent : Config.Consistent p
  units : p.simulation.nUnits = 1
  counts : (0 < p.simulation.nx ∧ p.simulation.nx < 2 ^ 31) ∧ (0 < p.simulation.ny ∧ p.simulation.ny < 2 ^ 31) ∧
    (0 < p.simulation.nz ∧ p.simulation.nz < 2 ^ 31)
  sizes : (0 < p.simulation.lx ∧ p.simulation.lx ≤ 2 ^ 60) ∧ (0 < p.simulation.ly ∧ p.simulation.ly ≤ 2 ^ 60) ∧
    (0 < p.simulation.lz ∧ p.simulation.lz ≤ 2 ^ 60)
  seed : p.simulation.seed + 1 < 2 ^ 64
  border : ∀ f, (borderEvent p.simulation.boundaryCondition f).isSome
  /-- every cell has its centre in some region -/
  covered : ∀ c, c < cells p.grid → ∃ geom ∈ p.geometries,
    InRegion geom (boxCenter p.grid (p.grid.cellIdxToTuple c))
  /-- none of the three draws for the centre of the unit is exactly one -/
  root : p.rootCell < cells p.grid
  /-- at least ten particles by cell -/
  particles : 10 * cells p.grid ≤ p.simulation.nParticles ∧ p.simulation.nParticles < 2 ^ 64
  dt : 0 < p.simulation.dt
  energies : 0 < p.simulation.eMin ∧ p.simulation.eMin < p.simulation.eMax ∧ 20 ≤ p.simulation.eMax
  groups : 0 < p.simulation.nGroups
  materials : ∀ k mp, p.materials.get? k = some mp → ValidMaterial mp
  nuBar : ∀ k x, p.crossSections.get? k = some x → 0 ≤ x.nuBar ∧ x.nuBar < 4
  /-- some cell emits -/
  emits : ∃ c < cells p.grid, ∃ geom mp, RegionOf p c geom ∧ p.materials.get? geom.materialName = some mp ∧
    0 < mp.sourceRate
