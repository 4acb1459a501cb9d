import Verif.Model.Vec3
/-!
# The grid of the problem

Models `fastiron/src/geometry/global_fcc_grid.rs` and the constants of `geometry/mod.rs`.

Simplifications.  `usize` values are natural numbers: products and sums of indices do not wrap
(a grid whose node numbering does not fit in 64 bits cannot be allocated).  The casts `as i32` of
`get_face_nbr_gids` and `snap_turtle` are exact: grids have less than `2^31` cells along an axis.
`% 0` and `/ 0` panic in Rust and are total here: theorems carry `0 < nx`, `0 < ny`, `0 < nz`
wherever one of these operations is used.
-/
open Flt

/-- `CORNER_OFFSET`, `geometry/mod.rs` 40-56. -/
def cornerOffset : List (Nat × Nat × Nat × Nat) :=
  [(0, 0, 0, 0), (1, 0, 0, 0), (0, 1, 0, 0), (1, 1, 0, 0), (0, 0, 1, 0), (1, 0, 1, 0),
   (0, 1, 1, 0), (1, 1, 1, 0), (1, 0, 0, 1), (0, 0, 0, 1), (0, 1, 0, 2), (0, 0, 0, 2),
   (0, 0, 1, 3), (0, 0, 0, 3)]

/-- `FACE_OFFSET`, `geometry/mod.rs` 60-67. -/
def faceOffset : List (Int × Int × Int) :=
  [(1, 0, 0), (-1, 0, 0), (0, 1, 0), (0, -1, 0), (0, 0, 1), (0, 0, -1)]

/-- `GlobalFccGrid`, `global_fcc_grid.rs` 11-33. -/
structure Grid (T : Type) where
  nx : Nat
  ny : Nat
  nz : Nat
  lx : T
  ly : T
  lz : T
  dx : T
  dy : T
  dz : T
deriving DecidableEq, Repr

namespace Grid
variable {T : Type} [Flt T]

/-- `GlobalFccGrid::new`, `global_fcc_grid.rs` 37-53. -/
def new (nx ny nz : Nat) (lx ly lz : T) : Grid T :=
  { nx, ny, nz, lx, ly, lz,
    dx := lx /. Flt.ofNat nx
    dy := ly /. Flt.ofNat ny
    dz := lz /. Flt.ofNat nz }

/-- `cell_idx_to_tuple`, `global_fcc_grid.rs` 80-86. -/
def cellIdxToTuple (g : Grid T) (i : Nat) : Nat × Nat × Nat :=
  let x := i % g.nx
  let tmp := i / g.nx
  (x, tmp % g.ny, tmp / g.ny)

/-- `cell_tuple_to_idx`, `global_fcc_grid.rs` 89-91. -/
def cellTupleToIdx (g : Grid T) (t : Nat × Nat × Nat) : Nat :=
  t.1 + g.nx * (t.2.1 + g.ny * t.2.2)

/-- `node_tuple_to_idx`, `global_fcc_grid.rs` 94-98. -/
def nodeTupleToIdx (g : Grid T) (t : Nat × Nat × Nat × Nat) : Nat :=
  t.1 + (g.nx + 1) * (t.2.1 + (g.ny + 1) * (t.2.2.1 + (g.nz + 1) * t.2.2.2))

/-- `node_idx_to_tuple`, `global_fcc_grid.rs` 101-111. -/
def nodeIdxToTuple (g : Grid T) (i : Nat) : Nat × Nat × Nat × Nat :=
  let x := i % (g.nx + 1)
  let qx := i / (g.nx + 1)
  let y := qx % (g.ny + 1)
  let qy := qx / (g.ny + 1)
  (x, y, qy % (g.nz + 1), qy / (g.nz + 1))

/-- `which_cell`, `global_fcc_grid.rs` 56-65. -/
def whichCell (g : Grid T) (r : Vec3 T) : Except Panic Nat := do
  let ix ← unwrap (Flt.toUsize (r.x /. g.dx))
  let iy ← unwrap (Flt.toUsize (r.y /. g.dy))
  let iz ← unwrap (Flt.toUsize (r.z /. g.dz))
  return g.cellTupleToIdx (ix, iy, iz)

/-- The four entries of `basis_offset`, `global_fcc_grid.rs` 159-176. -/
def basisOffset (g : Grid T) : List (Vec3 T) :=
  [Vec3.zero,
   ⟨zero, g.dy /. two, g.dz /. two⟩,
   ⟨g.dx /. two, zero, g.dz /. two⟩,
   ⟨g.dx /. two, g.dy /. two, zero⟩]

/-- `node_coord_from_tuple`, `global_fcc_grid.rs` 157-186. -/
def nodeCoordFromTuple (g : Grid T) (t : Nat × Nat × Nat × Nat) : Except Panic (Vec3 T) := do
  let off ← idx g.basisOffset t.2.2.2
  return Vec3.add ⟨Flt.ofNat t.1 *. g.dx, Flt.ofNat t.2.1 *. g.dy, Flt.ofNat t.2.2.1 *. g.dz⟩ off

/-- `node_coord_from_idx`, `global_fcc_grid.rs` 152-154. -/
def nodeCoordFromIdx (g : Grid T) (i : Nat) : Except Panic (Vec3 T) :=
  g.nodeCoordFromTuple (g.nodeIdxToTuple i)

/-- `cell_center`, `global_fcc_grid.rs` 68-77. -/
def cellCenter (g : Grid T) (i : Nat) : Except Panic (Vec3 T) := do
  let (x, y, z) := g.cellIdxToTuple i
  let r ← g.nodeCoordFromTuple (x, y, z, 0)
  return r.add ⟨g.dx /. two, g.dy /. two, g.dz /. two⟩

/-- `get_node_gids`, `global_fcc_grid.rs` 114-130. -/
def getNodeGids (g : Grid T) (i : Nat) : List Nat :=
  let (x, y, z) := g.cellIdxToTuple i
  cornerOffset.map fun o => g.nodeTupleToIdx (x + o.1, y + o.2.1, z + o.2.2.1, o.2.2.2)

/-- `i32::clamp(0, n - 1) as usize` for one coordinate of `snap_turtle`. -/
def snap1 (a : Int) (n : Nat) : Nat := (min (max a 0) ((n : Int) - 1)).toNat

/-- `snap_turtle`, `global_fcc_grid.rs` 189-196. -/
def snapTurtle (g : Grid T) (t : Int × Int × Int) : Nat × Nat × Nat :=
  (snap1 t.1 g.nx, snap1 t.2.1 g.ny, snap1 t.2.2 g.nz)

/-- Index of the cell at an offset of a cell, snapped to the grid: common part of
`get_face_nbr_gids` (`global_fcc_grid.rs` 138-146) and `add_nbrs_to_flood`
(`mesh_partition.rs` 196-204). -/
def shifted (g : Grid T) (i : Nat) (o : Int × Int × Int) : Nat :=
  let (x, y, z) := g.cellIdxToTuple i
  g.cellTupleToIdx (g.snapTurtle ((x : Int) + o.1, (y : Int) + o.2.1, (z : Int) + o.2.2))

/-- `get_face_nbr_gids`, `global_fcc_grid.rs` 133-149. -/
def getFaceNbrGids (g : Grid T) (i : Nat) : List Nat := faceOffset.map (g.shifted i)

end Grid
