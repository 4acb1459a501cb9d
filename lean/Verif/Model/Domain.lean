import Verif.Model.Partition
import Verif.Model.Params
import Verif.Model.Tracking
/-!
# Construction of the mesh and of the domain

Models the construction part of `fastiron/src/geometry/mc_domain.rs` and the mesh part of
`fastiron/src/init.rs` (183-309).
-/
open Flt

/-- `NODE_INDIRECT`, `mc_domain.rs` 37-62. -/
def nodeIndirect : List (Nat × Nat × Nat) :=
  [(1, 3, 8), (3, 7, 8), (7, 5, 8), (5, 1, 8),
   (0, 4, 9), (4, 6, 9), (6, 2, 9), (2, 0, 9),
   (3, 2, 10), (2, 6, 10), (6, 7, 10), (7, 3, 10),
   (0, 1, 11), (1, 5, 11), (5, 4, 11), (4, 0, 11),
   (4, 5, 12), (5, 7, 12), (7, 6, 12), (6, 4, 12),
   (0, 2, 13), (2, 3, 13), (3, 1, 13), (1, 0, 13)]

/-- `OPPOSING_FACET`, `mc_domain.rs` 64-66. -/
def opposingFacet : List Nat :=
  [7, 6, 5, 4, 3, 2, 1, 0, 12, 15, 14, 13, 8, 11, 10, 9, 20, 23, 22, 21, 16, 19, 18, 17]

/-- `FaceInfo`, `mc_domain.rs` 28-35. -/
structure FaceInfo where
  event : AdjEvent
  cellInfo : CellInfo
  nbrIdx : Option Nat
deriving DecidableEq, Repr

/-- `make_facet`, `mc_domain.rs` 366-393. -/
def makeFacet (domain cell : Option Nat) (points : List Nat) (faces : List FaceInfo) (facet : Nat) :
    Except Panic FacetAdj := do
  let ni ← idx nodeIndirect facet
  let p0 ← idx points ni.1
  let p1 ← idx points ni.2.1
  let p2 ← idx points ni.2.2
  let face ← idx faces (facet / 4)
  let opp ← idx opposingFacet facet
  let adjFacet :=
    match face.event with
    | .boundaryReflection | .boundaryEscape => facet
    | _ => opp
  return {
    point := (p0, p1, p2)
    subfacet := {
      event := face.event
      current := { domain := domain, cell := cell, facet := some facet }
      adjacent := { domain := face.cellInfo.domainIndex, cell := face.cellInfo.cellIndex,
                    facet := some adjFacet }
      neighborIndex := face.nbrIdx
      neighborGlobalDomain := face.cellInfo.domainGid
      neighborForeman := face.cellInfo.foreman } }

/-- `get_boundary_conditions`, `mc_domain.rs` 396-413. -/
def getBoundaryConditions (s : String) : Except Panic (List AdjEvent) :=
  if s = "reflect" then .ok (List.replicate 6 .boundaryReflection)
  else if s = "escape" then .ok (List.replicate 6 .boundaryEscape)
  else if s = "octant" then
    .ok [.boundaryEscape, .boundaryReflection, .boundaryEscape, .boundaryReflection,
         .boundaryEscape, .boundaryReflection]
  else .error .unreachable

variable {T : Type} [Flt T]

/-- The node gids of one cell entered in the two maps of `bootstrap_node_map`,
`mc_domain.rs` 271-281. -/
def nodeMapStep (g : Grid T) (cell : Nat) (maps : HMap Nat Nat × HMap Nat Nat) :
    HMap Nat Nat × HMap Nat Nat :=
  let gids := g.getNodeGids cell
  ((gids.take 8).foldl (fun m k => m.orInsert k m.length) maps.1,
   (gids.drop 8).foldl (fun m k => m.orInsert k m.length) maps.2)

/-- Loop of `bootstrap_node_map`, `mc_domain.rs` 264-282. -/
def nodeMapLoop (g : Grid T) (my : Nat) : List (Nat × CellInfo) → HMap Nat Nat × HMap Nat Nat →
    Except Panic (HMap Nat Nat × HMap Nat Nat)
  | [], maps => .ok maps
  | (cell, ci) :: rest, maps => do
    let dom ← unwrap ci.domainGid
    nodeMapLoop g my rest (if dom ≠ my then maps else nodeMapStep g cell maps)

/-- `bootstrap_node_map`, `mc_domain.rs` 256-291. -/
def bootstrapNodeMap (order : IterOrder) (p : Partition) (g : Grid T) :
    Except Panic (HMap Nat Nat) := do
  let (nodes, centers) ← nodeMapLoop g p.domainGid (p.cellInfoMap.iter order) ([], [])
  let shift := centers.map fun e => (e.1, e.2 + nodes.length)
  return (HMap.iter order shift).foldl (fun m e => m.insert e.1 e.2) nodes

/-- The face data of one cell, `mc_domain.rs` 330-346. -/
def faceInfos (nbrDomainIdx : HMap Nat (Option Nat)) (p : Partition) (g : Grid T)
    (bc : List AdjEvent) (cell : Nat) (ci : CellInfo) : Except Panic (List FaceInfo) :=
  (g.getFaceNbrGids cell).zipIdx.mapM fun (nbr, ii) => do
    let fci ← HMap.index p.cellInfoMap nbr
    let dom ← unwrap fci.domainGid
    let nbrIdx ← HMap.index nbrDomainIdx dom
    let event ←
      if nbr = cell then idx bc ii
      else if fci.foreman = ci.foreman then pure .transitOnProcessor
      else pure .transitOffProcessor
    return { event := event, cellInfo := fci, nbrIdx := nbrIdx }

/-- Construction of one cell, `mc_domain.rs` 315-360. -/
def buildCell (nodeIdx : HMap Nat Nat) (nbrDomainIdx : HMap Nat (Option Nat)) (p : Partition)
    (g : Grid T) (bc : List AdjEvent) (cell : Nat) (ci : CellInfo) : Except Panic CellConn := do
  let points ← (g.getNodeGids cell).mapM fun k => HMap.index nodeIdx k
  let faces ← faceInfos nbrDomainIdx p g bc cell ci
  let facets ← (List.range 24).mapM fun f => makeFacet ci.domainIndex ci.cellIndex points faces f
  return { facet := facets, point := points }

/-- `nbr_domain_idx`, `mc_domain.rs` 302-306. -/
def nbrDomainMap (my : Nat) (nbrDomain : List Nat) : HMap Nat (Option Nat) :=
  HMap.insert (nbrDomain.zipIdx.foldl (fun m e => HMap.insert m e.1 (some e.2)) []) my none

/-- `build_cells`, `mc_domain.rs` 294-363. -/
def buildCells (order : IterOrder) (nodeIdx : HMap Nat Nat) (p : Partition) (g : Grid T)
    (bc : List AdjEvent) : Except Panic (List CellConn) :=
  ((HMap.iter order p.cellInfoMap).filter fun e => e.2.domainGid = some p.domainGid).mapM
    fun e => buildCell nodeIdx (nbrDomainMap p.domainGid p.nbrDomains) p g bc e.1 e.2

/-- Filling of the node coordinates, `mc_domain.rs` 112-115. -/
def fillNodes (g : Grid T) : List (Nat × Nat) → List (Vec3 T) → Except Panic (List (Vec3 T))
  | [], node => .ok node
  | (gid, i) :: rest, node => do
    let c ← g.nodeCoordFromIdx gid
    if i < node.length then fillNodes g rest (node.set i c) else .error .indexOutOfBounds

/-- `MCMeshDomain::new`, `mc_domain.rs` 87-131. -/
def Mesh.build (order : IterOrder) (p : Partition) (g : Grid T) (ddc : Decomposition)
    (bc : List AdjEvent) : Except Panic (Mesh T) := do
  let nbrRank ← p.nbrDomains.mapM (idx ddc.rank)
  let nodeIdx ← bootstrapNodeMap order p g
  let conn ← buildCells order nodeIdx p g bc
  let node ← fillNodes g (HMap.iter order nodeIdx) (List.replicate nodeIdx.length Vec3.zero)
  let geom ← conn.mapM fun c => c.getPlanes node
  return { domainGid := p.domainGid, nbrDomainGid := p.nbrDomains, nbrRank := nbrRank,
           node := node, cellConnectivity := conn, cellGeometry := geom }

/-- `is_inside`, `mc_domain.rs` 204-222. -/
def isInside (geom : GeometryParams T) (rr : Vec3 T) : Except Panic Bool :=
  match geom.shape with
  | .brick =>
    .ok (((rr.x >=. geom.xMin) && (rr.x <=. geom.xMax)) &&
         ((rr.y >=. geom.yMin) && (rr.y <=. geom.yMax)) &&
         ((rr.z >=. geom.zMin) && (rr.z <=. geom.zMax)))
  | .sphere => .ok ((rr.sub ⟨geom.xCenter, geom.yCenter, geom.zCenter⟩).length <=. geom.radius)
  | .undefined => .error .unreachable

/-- `find_material`, `mc_domain.rs` 191-202: the last write wins, over the reversed list. -/
def findMaterialName (geoms : List (GeometryParams T)) (rr : Vec3 T) : Except Panic String :=
  geoms.reverse.foldlM (fun name geom => do
    let b ← isInside geom rr
    return if b then geom.materialName else name) ""

/-- `cell_center`, `mc_domain.rs` 226-232: mean of the points of the cell. -/
def meshCellCenter (mesh : Mesh T) (cell : Nat) : Except Panic (Vec3 T) := do
  let conn ← idx mesh.cellConnectivity cell
  let pts ← idxAll mesh.node (conn.point.take 14)
  (Vec3.sum pts).sdiv (Flt.ofNat conn.point.length)

/-- `cell_volume`, `mc_domain.rs` 235-253. -/
def cellVolume (mesh : Mesh T) (cell : Nat) : Except Panic T := do
  let center ← meshCellCenter mesh cell
  let conn ← idx mesh.cellConnectivity cell
  let parts ← conn.facet.mapM fun f => do
    let p0 ← idx mesh.node f.point.1
    let p1 ← idx mesh.node f.point.2.1
    let p2 ← idx mesh.node f.point.2.2
    return Flt.abs ((p0.sub center).dot ((p1.sub center).cross (p2.sub center)))
  return Flt.sum parts /. Flt.ofNat 6

/-- State of one cell, `mc_domain.rs` 171-182. -/
def cellStateOf (g : Grid T) (geoms : List (GeometryParams T)) (mats : List (Material T))
    (mesh : Mesh T) (cell : Nat) : Except Panic (CellState T) := do
  let rr ← cellPosition3dg mesh cell
  let name ← findMaterialName geoms rr
  let center ← meshCellCenter mesh cell
  let material ← unwrap (findMaterialIdx mats name)
  let volume ← cellVolume mesh cell
  let gid ← g.whichCell center
  return { material := material, volume := volume, cellNumberDensity := one,
           id := gid * 2 ^ 32, sourceTally := 0 }

/-- `MCDomain::new`, `mc_domain.rs` 161-189, with the number of energy groups of the cross-section
cache of the unit (`init.rs` 320-330). -/
def Domain.build (order : IterOrder) (p : Partition) (g : Grid T) (ddc : Decomposition)
    (params : Params T) (mats : List (Material T)) : Except Panic (Domain T) := do
  let bc ← getBoundaryConditions params.simulation.boundaryCondition
  let mesh ← Mesh.build order p g ddc bc
  let cells ← (List.range mesh.cellGeometry.length).mapM
    (cellStateOf g params.geometries mats mesh)
  return { globalDomain := mesh.domainGid, cells := cells, mesh := mesh,
           numGroups := params.simulation.nGroups }

/-- One centre of `initialize_centers_rand`, `init.rs` 233-244. -/
def randomCenter (g : Grid T) (seed : BitVec 64) : Except Panic (Vec3 T × BitVec 64) := do
  let (f1, s) := Rng.sample (T := T) seed
  let (f2, s) := Rng.sample (T := T) s
  let (f3, s) := Rng.sample (T := T) s
  let x ← unwrap (Flt.toUsize (Flt.floor (f1 *. Flt.ofNat g.nx)))
  let y ← unwrap (Flt.toUsize (Flt.floor (f2 *. Flt.ofNat g.ny)))
  let z ← unwrap (Flt.toUsize (Flt.floor (f3 *. Flt.ofNat g.nz)))
  let c ← g.cellCenter (g.cellTupleToIdx (x, y, z))
  return (c, s)

/-- `initialize_centers_rand`, `init.rs` 222-247. -/
def initCenters (g : Grid T) : Nat → BitVec 64 → Except Panic (List (Vec3 T))
  | 0, _ => .ok []
  | n + 1, seed => do
    let (c, s) ← randomCenter g seed
    let cs ← initCenters g n s
    return c :: cs

/-- Insertion of the remote cells of a partition into the others, `init.rs` 290-301. -/
def sendRemote (i : Nat) : List (Nat × Nat) → Comm → Except Panic Comm
  | [], c => .ok c
  | (dom, cell) :: rest, c => do
    let p ← idx c.partition i
    let info ← unwrap (p.cellInfoMap.get? cell)
    let target ← idx c.gidToIdx dom
    let tp ← idx c.partition target
    assertB info.domainIndex.isSome
    assertB info.cellIndex.isSome
    let tp := { tp with cellInfoMap := HMap.insert tp.cellInfoMap cell info }
    sendRemote i rest { c with partition := c.partition.set target tp }

/-- Loop over the partitions, `init.rs` 284-302. -/
def buildPartitions (order : IterOrder) (fuel : Nat) (g : Grid T) (centers : List (Vec3 T)) :
    List Nat → Comm → Except Panic Comm
  | [], c => .ok c
  | i :: is, c => do
    let p ← idx c.partition i
    let (p, remote) ← buildMeshPartition order fuel g centers p
    let c ← sendRemote i remote { c with partition := c.partition.set i p }
    buildPartitions order fuel g centers is c

/-- `init_mesh`, `init.rs` 249-309: the domains of the units.  `seed + 1` overflows for the largest
seed. -/
def initMesh (order : IterOrder) (fuel : Nat) (params : Params T) (mats : List (Material T)) :
    Except Panic (List (Domain T)) := do
  let sp := params.simulation
  let ddc ← Decomposition.new 0 1 4
  let g := Grid.new sp.nx sp.ny sp.nz sp.lx sp.ly sp.lz
  if sp.seed + 1 < 2 ^ 64 then
    let centers ← initCenters g sp.nUnits (BitVec.ofNat 64 (sp.seed + 1))
    let comm ← Comm.new ((List.range sp.nUnits).map fun i => Partition.new i 0)
    let comm ← buildPartitions order fuel g centers (List.range comm.partition.length) comm
    (List.range sp.nUnits).mapM fun gid => do
      let p ← idx comm.partition gid
      Domain.build order p g ddc params mats
  else .error .overflow

/-- One facet of `consistency_check`, `init.rs` 193-217. -/
def checkFacet (units : List (Domain T)) (domain cell facet : Nat) (ff : FacetAdj) :
    Except Panic Unit := do
  let cur ← unwrap ff.subfacet.current.cell
  assertB (decide (cur = cell))
  match ff.subfacet.adjacent.domain, ff.subfacet.adjacent.cell, ff.subfacet.adjacent.facet with
  | some d, some c, some f =>
    let dom ← idx units d
    let conn ← idx dom.mesh.cellConnectivity c
    let back ← idx conn.facet f
    let bd ← unwrap back.subfacet.adjacent.domain
    let bc ← unwrap back.subfacet.adjacent.cell
    let bf ← unwrap back.subfacet.adjacent.facet
    assertB (decide (bd = domain) && decide (bc = cell) && decide (bf = facet))
  | _, _, _ => return ()

/-- `consistency_check`, `init.rs` 183-220. -/
def consistencyCheck (units : List (Domain T)) : Except Panic Unit :=
  units.zipIdx.forM fun (dd, di) =>
    dd.mesh.cellConnectivity.zipIdx.forM fun (cc, ci) =>
      cc.facet.zipIdx.forM fun (ff, fi) => checkFacet units di ci fi ff
