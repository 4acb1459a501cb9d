import Verif.Props.Locate
import Verif.Lemmas.Uniform
import Verif.Spec.MeshSpec
/-!
# Problems a run on one unit starts from
-/
open GridSpec MeshSpec

/-- The grid of a problem. -/
noncomputable def Params.grid (params : Params ℝ) : Grid ℝ :=
  Grid.new params.simulation.nx params.simulation.ny params.simulation.nz
    params.simulation.lx params.simulation.ly params.simulation.lz

/-- A problem for one unit: positive sizes (not absurdly large), a supported boundary condition,
and in each cell a region whose material exists. -/
structure SingleUnit (params : Params ℝ) (mats : List (Material ℝ)) : Prop where
  units : params.simulation.nUnits = 1
  counts : (0 < params.simulation.nx ∧ params.simulation.nx < 2 ^ 31) ∧
    (0 < params.simulation.ny ∧ params.simulation.ny < 2 ^ 31) ∧
    (0 < params.simulation.nz ∧ params.simulation.nz < 2 ^ 31)
  sizes : (0 < params.simulation.lx ∧ params.simulation.lx ≤ 2 ^ 60) ∧
    (0 < params.simulation.ly ∧ params.simulation.ly ≤ 2 ^ 60) ∧
    (0 < params.simulation.lz ∧ params.simulation.lz ≤ 2 ^ 60)
  /-- `seed + 1` does not overflow. -/
  seed : params.simulation.seed + 1 < 2 ^ 64
  border : ∀ f, (borderEvent params.simulation.boundaryCondition f).isSome
  shapes : ∀ geom ∈ params.geometries, geom.shape ≠ .undefined
  materials : ∀ geom ∈ params.geometries, ∃ m ∈ mats, m.name = geom.materialName
  covered : ∀ c, c < cells params.grid →
    ∃ geom ∈ params.geometries, InRegion geom (boxCenter params.grid (params.grid.cellIdxToTuple c))

/-- The cell drawn as the centre of the only domain. -/
noncomputable def Params.rootCell (params : Params ℝ) : Nat :=
  let s := BitVec.ofNat 64 (params.simulation.seed + 1)
  params.grid.cellTupleToIdx
    (⌊Rng.draw s * params.simulation.nx⌋₊, ⌊Rng.draw (Rng.lcg s) * params.simulation.ny⌋₊,
     ⌊Rng.draw (Rng.lcg (Rng.lcg s)) * params.simulation.nz⌋₊)

/-- The cell of the grid that the unit holds at this position of its list, read from the identifier
of the cell: the number of the cell in the grid is in the upper half. -/
def CellAt (dom : Domain ℝ) (i c : Nat) : Prop :=
  ∃ st : CellState ℝ, dom.cells[i]? = some st ∧ st.id = c * 2 ^ 32
