import Verif.Model.Vec3
/-!
# Search of the nearest domain centre

Models `fastiron/src/geometry/grid_assignment_object.rs`.

Simplification: `usize` values are natural numbers, without wrapping.
-/
open Flt

/-- `GridCell`, `grid_assignment_object.rs` 17-21. -/
structure GridCell where
  burned : Bool
  myCenters : List Nat
deriving DecidableEq, Repr

/-- `GridAssignmentObject`, `grid_assignment_object.rs` 25-49. -/
structure Assigner (T : Type) where
  nx : Nat
  ny : Nat
  nz : Nat
  dx : T
  dy : T
  dz : T
  corner : Vec3 T
  centers : List (Vec3 T)
  grid : List GridCell
  floodQueue : List Nat
  wetList : List Nat

namespace Assigner
variable {T : Type} [Flt T]

/-- One coordinate of `which_cell_tuple`, `grid_assignment_object.rs` 148-164. -/
def axisIdx (r corner d : T) (n : Nat) : Except Panic Nat := do
  let i ← unwrap (Flt.toUsize (Flt.max (Flt.floor ((r -. corner) /. d)) zero))
  return min i (n - 1)

/-- `which_cell_tuple`, `grid_assignment_object.rs` 147-168. -/
def whichCellTuple (g : Assigner T) (r : Vec3 T) : Except Panic (Nat × Nat × Nat) := do
  let ix ← axisIdx r.x g.corner.x g.dx g.nx
  let iy ← axisIdx r.y g.corner.y g.dy g.ny
  let iz ← axisIdx r.z g.corner.z g.dz g.nz
  return (ix, iy, iz)

/-- `tuple_to_index`, `grid_assignment_object.rs` 176-178. -/
def tupleToIndex (g : Assigner T) (t : Nat × Nat × Nat) : Nat :=
  t.1 + g.nx * (t.2.1 + g.ny * t.2.2)

/-- `index_to_tuple`, `grid_assignment_object.rs` 181-187. -/
def indexToTuple (g : Assigner T) (i : Nat) : Nat × Nat × Nat :=
  (i % g.nx, i / g.nx % g.ny, i / g.nx / g.ny)

/-- `which_cell`, `grid_assignment_object.rs` 171-173. -/
def whichCell (g : Assigner T) (r : Vec3 T) : Except Panic Nat := do
  return g.tupleToIndex (← g.whichCellTuple r)

/-- Registration of the centres in their cells, `grid_assignment_object.rs` 98-101. -/
def register (g : Assigner T) : List (Vec3 T × Nat) → Except Panic (Assigner T)
  | [] => .ok g
  | (c, i) :: rest => do
    let cell ← g.whichCell c
    let gc ← idx g.grid cell
    register { g with grid := g.grid.set cell { gc with myCenters := gc.myCenters ++ [i] } } rest

/-- `GridAssignmentObject::new`, `grid_assignment_object.rs` 53-104. -/
def new (centers : List (Vec3 T)) : Except Panic (Assigner T) := do
  let c0 ← idx centers 0
  let lo := centers.foldl (fun m v => (⟨Flt.min m.x v.x, Flt.min m.y v.y, Flt.min m.z v.z⟩ : Vec3 T)) c0
  let hi := centers.foldl (fun m v => (⟨Flt.max m.x v.x, Flt.max m.y v.y, Flt.max m.z v.z⟩ : Vec3 T)) c0
  let lx := Flt.max one (hi.x -. lo.x)
  let ly := Flt.max one (hi.y -. lo.y)
  let lz := Flt.max one (hi.z -. lo.z)
  let dim := Flt.cbrt (Flt.ofNat centers.length /. (Flt.ofNat 5 *. lx *. ly *. lz))
  let nx := Flt.max one (Flt.floor (dim *. lx))
  let ny := Flt.max one (Flt.floor (dim *. ly))
  let nz := Flt.max one (Flt.floor (dim *. lz))
  let nCells ← unwrap (Flt.toUsize (nx *. ny *. nz))
  let nxu ← unwrap (Flt.toUsize nx)
  let nyu ← unwrap (Flt.toUsize ny)
  let nzu ← unwrap (Flt.toUsize nz)
  let g : Assigner T :=
    { nx := nxu, ny := nyu, nz := nzu, dx := lx /. nx, dy := ly /. ny, dz := lz /. nz
      corner := lo, centers := centers
      grid := List.replicate nCells { burned := false, myCenters := [] }
      floodQueue := [], wetList := [] }
  register g centers.zipIdx

/-- `tuple_idx.k.abs_diff(r_idx.k).saturating_sub(1)`, `grid_assignment_object.rs` 196-200. -/
def gap (a b : Nat) : Nat := (max a b - min a b) - 1

/-- `min_dist2`, `grid_assignment_object.rs` 191-205. -/
def minDist2 (g : Assigner T) (r : Vec3 T) (cell : Nat) : Except Panic T := do
  let ri ← g.whichCellTuple r
  let ti := g.indexToTuple cell
  let rx := g.dx *. Flt.ofNat (gap ti.1 ri.1)
  let ry := g.dy *. Flt.ofNat (gap ti.2.1 ri.2.1)
  let rz := g.dz *. Flt.ofNat (gap ti.2.2 ri.2.2)
  assertB (rx >=. zero)
  assertB (ry >=. zero)
  assertB (rz >=. zero)
  return rx *. rx +. ry *. ry +. rz *. rz

/-- `add_tuple_to_queue`, `grid_assignment_object.rs` 208-216. -/
def addTuple (g : Assigner T) (t : Nat × Nat × Nat) : Except Panic (Assigner T) := do
  let i := g.tupleToIndex t
  let gc ← idx g.grid i
  if gc.burned then return g
  else return { g with
    floodQueue := g.floodQueue ++ [i]
    wetList := g.wetList ++ [i]
    grid := g.grid.set i { gc with burned := true } }

/-- The neighbouring tuples visited by `add_nbrs_to_queue`, in order, `grid_assignment_object.rs`
219-254. -/
def nbrTuples (g : Assigner T) (t : Nat × Nat × Nat) : List (Nat × Nat × Nat) :=
  (if t.1 + 1 < g.nx then [(t.1 + 1, t.2.1, t.2.2)] else []) ++
  (if t.1 > 0 then [(t.1 - 1, t.2.1, t.2.2)] else []) ++
  (if t.2.1 + 1 < g.ny then [(t.1, t.2.1 + 1, t.2.2)] else []) ++
  (if t.2.1 > 0 then [(t.1, t.2.1 - 1, t.2.2)] else []) ++
  (if t.2.2 + 1 < g.nz then [(t.1, t.2.1, t.2.2 + 1)] else []) ++
  (if t.2.2 > 0 then [(t.1, t.2.1, t.2.2 - 1)] else [])

/-- `add_nbrs_to_queue`, `grid_assignment_object.rs` 219-255. -/
def addNbrs (g : Assigner T) (cell : Nat) : Except Panic (Assigner T) :=
  (g.nbrTuples (g.indexToTuple cell)).foldlM addTuple g

/-- State of the search: smallest squared distance so far and its centre. -/
structure Best (T : Type) where
  r2 : T
  center : Option Nat
deriving DecidableEq, Repr

/-- Scan of the centres of one cell, `grid_assignment_object.rs` 124-134.  The first `if` of the
Rust code computes `center_min.map(|m| m.min(*center_idx))` and discards the result. -/
def scanCenters (g : Assigner T) (r : Vec3 T) : List Nat → Best T → Except Panic (Best T)
  | [], b => .ok b
  | c :: cs, b => do
    let cr ← idx g.centers c
    let d := r.sub cr
    let r2 := d.dot d
    scanCenters g r cs (if r2 <. b.r2 then { r2 := r2, center := some c } else b)

/-- Search loop, `grid_assignment_object.rs` 117-136.  The fuel bounds the number of iterations. -/
def searchLoop (r : Vec3 T) : Nat → Assigner T → Best T → Except Panic (Assigner T × Best T)
  | fuel, g, b =>
    match g.floodQueue with
    | [] => .ok (g, b)
    | cell :: rest =>
      match fuel with
      | 0 => .error .outOfFuel
      | fuel + 1 => do
        let g := { g with floodQueue := rest }
        let d ← g.minDist2 r cell
        if d >. b.r2 then searchLoop r fuel g b
        else
          let gc ← idx g.grid cell
          let b ← g.scanCenters r gc.myCenters b
          let g ← g.addNbrs cell
          searchLoop r fuel g b

/-- Reset of the burned marks, `grid_assignment_object.rs` 138-140. -/
def resetWet (g : Assigner T) : List Nat → List GridCell → Except Panic (List GridCell)
  | [], grid => .ok grid
  | i :: is, grid => do
    let gc ← idx grid i
    resetWet g is (grid.set i { gc with burned := false })

/-- `nearest_center`, `grid_assignment_object.rs` 111-144: the centre and the structure after the
query.  The fuel of the loop is the number of cells: a cell enters the queue at most once. -/
def nearestCenter (g : Assigner T) (r : Vec3 T) : Except Panic (Nat × Assigner T) := do
  let t ← g.whichCellTuple r
  let g ← g.addTuple t
  let (g, b) ← searchLoop r g.grid.length g { r2 := Flt.lit 1 300, center := none }
  let grid ← resetWet g g.wetList g.grid
  let g := { g with grid := grid, wetList := [] }
  assertB b.center.isSome
  let c ← unwrap b.center
  return (c, g)

end Assigner
