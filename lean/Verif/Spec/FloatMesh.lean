import Verif.Lemmas.IeeeBounds
import Verif.Lemmas.StartShape
/-!
# Meshes that floating-point arithmetic can carry

What the start of a run asks of the geometry of the input when results are rounded.
-/
open Flt Ieee GridSpec MeshSpec
variable {T : Type} [Flt T]

/-- The grid of the input, with the sizes of its cells as the program computes them. -/
def Params.gridOf (p : Params T) : Grid T :=
  Grid.new p.simulation.nx p.simulation.ny p.simulation.nz p.simulation.lx p.simulation.ly p.simulation.lz

/-- The centre of a cell, as the program computes it: the mean of its 14 points. -/
def Grid.meanPoint (g : Grid T) (c : Nat) : Except Panic (Vec3 T) := do
  let pts ← (g.getNodeGids c).mapM g.nodeCoordFromIdx
  (Vec3.sum pts).sdiv (Flt.ofNat 14)

/-- A point of a cell, from the operations that compute it. -/
def Flooding.pointOf (g : Grid T) (t : Nat × Nat × Nat) (o : Nat × Nat × Nat × Nat) : Vec3 T :=
  Vec3.add ⟨Flt.ofNat (t.1 + o.1) *. g.dx, Flt.ofNat (t.2.1 + o.2.1) *. g.dy, Flt.ofNat (t.2.2 + o.2.2.1) *. g.dz⟩
    (g.basisOffset.getD o.2.2.2 Vec3.zero)

/-- The volume of a cell, from the operations that compute it. -/
def Flooding.volumeOf (g : Grid T) (c : Nat) (center : Vec3 T) : T :=
  Flt.sum (nodeIndirect.map fun n =>
    Flt.abs (computeVolume (Flooding.pointOf g (g.cellIdxToTuple c) (cornerOffset.getD n.1 (0, 0, 0, 0)))
      (Flooding.pointOf g (g.cellIdxToTuple c) (cornerOffset.getD n.2.1 (0, 0, 0, 0)))
      (Flooding.pointOf g (g.cellIdxToTuple c) (cornerOffset.getD n.2.2 (0, 0, 0, 0))) center)) /. Flt.ofNat 6

/-- A grid of reasonable size: at most 1024 cells along each axis, with sides neither tiny nor huge. -/
structure Flooding.SizedGrid [Ieee T] (g : Grid T) : Prop where
  counts : (0 < g.nx ∧ g.nx ≤ 2 ^ 10) ∧ (0 < g.ny ∧ g.ny ≤ 2 ^ 10) ∧ (0 < g.nz ∧ g.nz ≤ 2 ^ 10)
  dx : Bd g.dx (2 ^ (-20 : ℤ)) (2 ^ (20 : ℤ))
  dy : Bd g.dy (2 ^ (-20 : ℤ)) (2 ^ (20 : ℤ))
  dz : Bd g.dz (2 ^ (-20 : ℤ)) (2 ^ (20 : ℤ))

/-- One unit, a grid of reasonable size, and a region around each cell. -/
structure FloatMesh [Ieee T] (p : Params T) : Prop where
  units : p.simulation.nUnits = 1
  counts : (0 < p.simulation.nx ∧ p.simulation.nx ≤ 2 ^ 10) ∧ (0 < p.simulation.ny ∧ p.simulation.ny ≤ 2 ^ 10) ∧
    (0 < p.simulation.nz ∧ p.simulation.nz ≤ 2 ^ 10)
  sizes : Bd p.simulation.lx (2 ^ (-10 : ℤ)) (2 ^ (20 : ℤ)) ∧ Bd p.simulation.ly (2 ^ (-10 : ℤ)) (2 ^ (20 : ℤ)) ∧
    Bd p.simulation.lz (2 ^ (-10 : ℤ)) (2 ^ (20 : ℤ))
  seed : p.simulation.seed + 1 < 2 ^ 64
  border : ∀ f, (borderEvent p.simulation.boundaryCondition f).isSome
  root : Flooding.RootInGrid p
  /-- the computed centre of every cell is in some region, by the test of the program -/
  covered : ∀ c r, c < cells p.gridOf → p.gridOf.meanPoint c = .ok r →
    ∃ geom ∈ p.geometries, isInside geom r = .ok true
