import Verif.Spec.FloatMesh
import Verif.Spec.FloatProblem
import Verif.Spec.Init
/-!
# Inputs in a range that floating-point arithmetic can carry

Ranges for the numbers of the input, wide enough for the input files of the repository that have an upper bound of the
source energies of at least 20 and a source in every material.  They are the same for `f32` and `f64`.
-/
open Flt Ieee GridSpec
variable {T : Type} [Flt T] [Ieee T]

/-- Between the energies `10^-10` and `10^12` the curve stays within ten decades on each side of some power of ten. -/
def TameCurve (q : Polynomial5 T) : Prop :=
  ∃ c : ℤ, |c| ≤ 100 ∧ ∀ x : T, Bd x (-10) 12 → Bd (q.val x) (c - 10) (c + 10)

/-- The numbers of a material. -/
structure MaterialRange (mp : MaterialParams T) : Prop where
  isotopes : mp.nIsotopes ≤ 2 ^ 7
  reactions : mp.nReactions ≤ 2 ^ 5
  rate : Bd mp.sourceRate (2 ^ (-7 : ℤ)) (2 ^ (34 : ℤ))
  total : Bd mp.totalCrossSection 0 (2 ^ (34 : ℤ))
  fission : Bd mp.fissionCrossSectionRatio 0 (2 ^ (7 : ℤ))
  scattering : Bd mp.scatteringCrossSectionRatio 0 (2 ^ (7 : ℤ))
  absorption : Bd mp.absorptionCrossSectionRatio 0 (2 ^ (7 : ℤ))
  /-- the ratios are not all tiny -/
  ratios : Bd mp.fissionCrossSectionRatio (2 ^ (-1 : ℤ)) (2 ^ (7 : ℤ)) ∨
    Bd mp.scatteringCrossSectionRatio (2 ^ (-1 : ℤ)) (2 ^ (7 : ℤ)) ∨
    Bd mp.absorptionCrossSectionRatio (2 ^ (-1 : ℤ)) (2 ^ (7 : ℤ))

/-- At most 1024 cells along each axis, and sizes of the problem that are neither tiny nor huge. -/
structure Params.Sized (p : Params T) : Prop where
  counts : (0 < p.simulation.nx ∧ p.simulation.nx ≤ 2 ^ 10) ∧ (0 < p.simulation.ny ∧ p.simulation.ny ≤ 2 ^ 10) ∧
    (0 < p.simulation.nz ∧ p.simulation.nz ≤ 2 ^ 10)
  sizes : Bd p.simulation.lx (2 ^ (-10 : ℤ)) (2 ^ (20 : ℤ)) ∧ Bd p.simulation.ly (2 ^ (-10 : ℤ)) (2 ^ (20 : ℤ)) ∧
    Bd p.simulation.lz (2 ^ (-10 : ℤ)) (2 ^ (20 : ℤ))

/-- The exact sizes of a cell along the three axes: the sizes of the problem over the numbers of cells. -/
def Params.CellSides (p : Params T) (X Y Z : ℝ) : Prop :=
  ∃ x y z : ℝ, IsFin p.simulation.lx x ∧ IsFin p.simulation.ly y ∧ IsFin p.simulation.lz z ∧
    X = x / p.simulation.nx ∧ Y = y / p.simulation.ny ∧ Z = z / p.simulation.nz

/-- The numbers of the input are in the ranges. -/
structure FloatRange (p : Params T) : Prop where
  eMin : Bd p.simulation.eMin (2 ^ (-30 : ℤ)) 1
  eMax : Bd p.simulation.eMax 20 (2 ^ (5 : ℤ))
  groups : 0 < p.simulation.nGroups ∧ p.simulation.nGroups < 2 ^ 19
  dt : Bd p.simulation.dt (2 ^ (-30 : ℤ)) (2 ^ (20 : ℤ))
  particles : 16 ≤ p.simulation.nParticles ∧ p.simulation.nParticles ≤ 2 ^ 44
  cells : cells p.gridOf ≤ 2 ^ 24
  /-- the exact volume of a cell -/
  volume : ∃ X Y Z : ℝ, p.CellSides X Y Z ∧ 2 ^ (-19 : ℤ) ≤ X * Y * Z ∧ X * Y * Z ≤ 2 ^ (39 : ℤ)
  materials : ∀ k mp, p.materials.get? k = some mp → MaterialRange mp
  curves : ∀ k x, p.crossSections.get? k = some x → TameCurve x.poly

/-- The exact centre of a cell along an axis: cell number `i`, size `X`. -/
noncomputable def exactCentre (i : Nat) (X : ℝ) : ℝ := (i + 1 / 2) * X

/-- The numbers `lo` and `hi` of the input bound the real number `x`. -/
def WithinBounds (lo hi : T) (x : ℝ) : Prop := ∃ l h : ℝ, IsFin lo l ∧ IsFin hi h ∧ l ≤ x ∧ x ≤ h

/-- The region is a brick that contains the whole problem. -/
structure WholeBrick (p : Params T) (geom : GeometryParams T) : Prop where
  shape : geom.shape = .brick
  x : ∃ lo hi l : ℝ, IsFin geom.xMin lo ∧ IsFin geom.xMax hi ∧ IsFin p.simulation.lx l ∧ lo ≤ 0 ∧ l ≤ hi
  y : ∃ lo hi l : ℝ, IsFin geom.yMin lo ∧ IsFin geom.yMax hi ∧ IsFin p.simulation.ly l ∧ lo ≤ 0 ∧ l ≤ hi
  z : ∃ lo hi l : ℝ, IsFin geom.zMin lo ∧ IsFin geom.zMax hi ∧ IsFin p.simulation.lz l ∧ lo ≤ 0 ∧ l ≤ hi

/-- The bounds of a region along an axis are finite and further from `x` than `d`. -/
def ClearOf (lo hi : T) (x d : ℝ) : Prop := ∃ l h : ℝ, IsFin lo l ∧ IsFin hi h ∧ d < |x - l| ∧ d < |x - h|

/-- The point is in the brick, exactly. -/
def InBrick (geom : GeometryParams T) (x y z : ℝ) : Prop :=
  WithinBounds geom.xMin geom.xMax x ∧ WithinBounds geom.yMin geom.yMax y ∧ WithinBounds geom.zMin geom.zMax z
