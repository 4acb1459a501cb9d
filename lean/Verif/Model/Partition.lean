import Verif.Model.Grid
import Verif.Model.Assign
import Verif.Model.HMap
/-!
# Partition of the mesh between domains

Models `fastiron/src/geometry/mesh_partition.rs`, `utils/comm_object.rs` and
`utils/decomposition_object.rs`.
-/
open Flt

/-- `CellInfo`, `mesh_partition.rs` 20-30. -/
structure CellInfo where
  domainGid : Option Nat := none
  foreman : Option Nat := none
  domainIndex : Option Nat := none
  cellIndex : Option Nat := none
deriving DecidableEq, Repr

/-- `MeshPartition`, `mesh_partition.rs` 35-45. -/
structure Partition where
  domainGid : Nat
  foreman : Nat
  cellInfoMap : HMap Nat CellInfo
  nbrDomains : List Nat
deriving DecidableEq, Repr

/-- `MeshPartition::new`, `mesh_partition.rs` 49-56. -/
def Partition.new (domainGid foreman : Nat) : Partition :=
  { domainGid, foreman, cellInfoMap := [], nbrDomains := [] }

/-- `NBR_COORDS`, `mesh_partition.rs` 160-191. -/
def nbrCoords : List (Int × Int × Int) :=
  [(-1, -1, -1), (-1, -1, 0), (-1, -1, 1), (-1, 0, -1), (-1, 0, 0), (-1, 0, 1), (-1, 1, -1),
   (-1, 1, 0), (-1, 1, 1),
   (0, -1, -1), (0, -1, 0), (0, -1, 1), (0, 0, -1), (0, 0, 1), (0, 1, -1), (0, 1, 0), (0, 1, 1),
   (1, -1, -1), (1, -1, 0), (1, -1, 1), (1, 0, -1), (1, 0, 0), (1, 0, 1), (1, 1, -1), (1, 1, 0),
   (1, 1, 1)]

/-- One step of `add_nbrs_to_flood`, `mesh_partition.rs` 206-212: the queue and the wet set. -/
def addWet (qw : List Nat × List Nat) (nbr : Nat) : List Nat × List Nat :=
  if nbr ∈ qw.2 then qw else (qw.1 ++ [nbr], nbr :: qw.2)

/-- State of the flood: the partition being built, the structure used to find the nearest centre, the
queue and the set of cells that have been queued (a set: only membership is observed). -/
structure Flood (T : Type) where
  part : Partition
  assigner : Assigner T
  queue : List Nat
  wet : List Nat

variable {T : Type} [Flt T]

/-- `add_nbrs_to_flood`, `mesh_partition.rs` 153-213. -/
def addNbrsToFlood (g : Grid T) (cell : Nat) (qw : List Nat × List Nat) : List Nat × List Nat :=
  (nbrCoords.map (g.shifted cell)).foldl addWet qw

/-- Body of the flood loop, `mesh_partition.rs` 88-103, for the cell popped from the queue. -/
def floodStep (g : Grid T) (f : Flood T) (cell : Nat) : Except Panic (Flood T) := do
  let rr ← g.cellCenter cell
  let (domain, a) ← f.assigner.nearestCenter rr
  let m := f.part.cellInfoMap.orInsert cell { domainGid := some domain }
  if domain = f.part.domainGid then
    let (q, w) := addNbrsToFlood g cell (f.queue, f.wet)
    return { part := { f.part with cellInfoMap := m }, assigner := a, queue := q, wet := w }
  else
    let nbrs := if domain ∈ f.part.nbrDomains then f.part.nbrDomains
      else f.part.nbrDomains ++ [domain]
    return { part := { f.part with cellInfoMap := m, nbrDomains := nbrs }, assigner := a,
             queue := f.queue, wet := f.wet }

/-- Flood loop, `mesh_partition.rs` 87-104.  The fuel bounds the number of iterations. -/
def floodLoop (g : Grid T) : Nat → Flood T → Except Panic (Flood T)
  | fuel, f =>
    match f.queue with
    | [] => .ok f
    | cell :: rest =>
      match fuel with
      | 0 => .error .outOfFuel
      | fuel + 1 => do
        let f ← floodStep g { f with queue := rest } cell
        floodLoop g fuel f

/-- `assign_cells_to_domain`, `mesh_partition.rs` 70-104. -/
def assignCellsToDomain (fuel : Nat) (g : Grid T) (centers : List (Vec3 T)) (p : Partition) :
    Except Panic Partition := do
  let assigner ← Assigner.new centers
  let c ← idx centers p.domainGid
  let root ← g.whichCell c
  let (q, w) := addNbrsToFlood g root ([root], [root])
  let f ← floodLoop g fuel { part := p, assigner := assigner, queue := q, wet := w }
  return f.part

/-- Remote cells found for one non-local cell, `mesh_partition.rs` 131-144. -/
def remoteOf (g : Grid T) (readMap : HMap Nat CellInfo) (my dom cell : Nat)
    (acc : List (Nat × Nat)) : List (Nat × Nat) :=
  (g.getFaceNbrGids cell).foldl (fun acc j =>
    match readMap.get? j with
    | some ci =>
      if ci.domainGid ≠ some my then acc
      else if (dom, j) ∈ acc then acc else acc ++ [(dom, j)]
    | none => acc) acc

/-- Loop of `build_cell_idx_map`, `mesh_partition.rs` 117-147, over the entries in iteration order:
`m` is the map being updated, `n` the number of local cells so far. -/
def idxLoop (g : Grid T) (readMap : HMap Nat CellInfo) (my foreman : Nat) :
    List (Nat × CellInfo) → HMap Nat CellInfo → Nat → List (Nat × Nat) →
    Except Panic (HMap Nat CellInfo × List (Nat × Nat))
  | [], m, _, remote => .ok (m, remote)
  | (cell, ci) :: rest, m, n, remote => do
    let dom ← unwrap ci.domainGid
    if dom = my then
      idxLoop g readMap my foreman rest
        (m.insert cell { ci with cellIndex := some n, domainIndex := some my,
                                 foreman := some foreman }) (n + 1) remote
    else idxLoop g readMap my foreman rest m n (remoteOf g readMap my dom cell remote)

/-- `build_cell_idx_map`, `mesh_partition.rs` 106-151. -/
def buildCellIdxMap (order : IterOrder) (g : Grid T) (p : Partition) :
    Except Panic (Partition × List (Nat × Nat)) := do
  let (m, remote) ← idxLoop g p.cellInfoMap p.domainGid p.foreman
    (p.cellInfoMap.iter order) p.cellInfoMap 0 []
  return ({ p with cellInfoMap := m }, remote)

/-- `build_mesh_partition`, `mesh_partition.rs` 59-67. -/
def buildMeshPartition (order : IterOrder) (fuel : Nat) (g : Grid T) (centers : List (Vec3 T))
    (p : Partition) : Except Panic (Partition × List (Nat × Nat)) := do
  let p ← assignCellsToDomain fuel g centers p
  buildCellIdxMap order g p

/-- `DecompositionObject`, `decomposition_object.rs` 17-24. -/
structure Decomposition where
  assignedGids : List Nat
  rank : List Nat
  index : List Nat
deriving DecidableEq, Repr

/-- `DecompositionObject::new`, `decomposition_object.rs` 28-53. -/
def Decomposition.new (myRank nRanks domPerRank : Nat) : Except Panic Decomposition := do
  let rank := (List.range (nRanks * domPerRank)).map (· / domPerRank)
  let index := (List.range (nRanks * domPerRank)).map (· % domPerRank)
  let gids ← (List.range domPerRank).mapM fun ii => do
    let i := domPerRank * myRank + ii
    let r ← idx rank i
    let x ← idx index i
    return domPerRank * r + x
  return { assignedGids := gids, rank := rank, index := index }

/-- `CommObject`, `comm_object.rs` 7-11. -/
structure Comm where
  partition : List Partition
  gidToIdx : List Nat
deriving DecidableEq, Repr

/-- Loop of `CommObject::new`, `comm_object.rs` 18-21. -/
def Comm.fill (n : Nat) : List (Partition × Nat) → List Nat → Except Panic (List Nat)
  | [], t => .ok t
  | (p, i) :: rest, t => do
    assertB (decide (p.domainGid < n))
    Comm.fill n rest (t.set p.domainGid i)

/-- `CommObject::new`, `comm_object.rs` 15-29. -/
def Comm.new (partition : List Partition) : Except Panic Comm := do
  let t ← Comm.fill partition.length partition.zipIdx (List.replicate partition.length 0)
  return { partition := partition, gidToIdx := t }
