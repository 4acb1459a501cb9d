import Verif.Model.Vec3
/-!
# Planes, facets and the mesh of a domain

Models `fastiron/src/geometry/facets.rs`, `mc_location.rs` and the data part of `mc_domain.rs`.
-/
open Flt

/-- `MCGeneralPlane`, `facets.rs` 17-27. -/
structure Plane (T : Type) where
  a : T
  b : T
  c : T
  d : T
deriving DecidableEq, Repr

/-- `MCGeneralPlane::new`, `facets.rs` 32-57. -/
def Plane.new {T : Type} [Flt T] (r0 r1 r2 : Vec3 T) : Plane T :=
  let a := ((r1.y -. r0.y) *. (r2.z -. r0.z)) -. ((r1.z -. r0.z) *. (r2.y -. r0.y))
  let b := ((r1.z -. r0.z) *. (r2.x -. r0.x)) -. ((r1.x -. r0.x) *. (r2.z -. r0.z))
  let c := ((r1.x -. r0.x) *. (r2.y -. r0.y)) -. ((r1.y -. r0.y) *. (r2.x -. r0.x))
  let d := (Flt.neg one) *. (a *. r0.x +. b *. r0.y +. c *. r0.z)
  let magnitude := Flt.sqrt (a *. a +. b *. b +. c *. c)
  if magnitude ==. zero then { a := one, b := b, c := c, d := d }
  else { a := a /. magnitude, b := b /. magnitude, c := c /. magnitude, d := d /. magnitude }

/-- `MCSubfacetAdjacencyEvent`, `facets.rs`. -/
inductive AdjEvent where
  | undefined
  | boundaryEscape
  | boundaryReflection
  | transitOnProcessor
  | transitOffProcessor
deriving DecidableEq, Repr

/-- `MCLocation`, `mc_location.rs`. -/
structure Location where
  domain : Option Nat := none
  cell : Option Nat := none
  facet : Option Nat := none
deriving DecidableEq, Repr

/-- `SubfacetAdjacency`, `facets.rs`. -/
structure SubfacetAdj where
  event : AdjEvent := .undefined
  current : Location := {}
  adjacent : Location := {}
  neighborIndex : Option Nat := none
  neighborGlobalDomain : Option Nat := none
  neighborForeman : Option Nat := none
deriving DecidableEq, Repr

/-- `MCFacetAdjacency`, `facets.rs`: the adjacency and the three node indices of the triangle. -/
structure FacetAdj where
  subfacet : SubfacetAdj := {}
  point : Nat × Nat × Nat := (0, 0, 0)
deriving DecidableEq, Repr

/-- `MCFacetAdjacencyCell`, `facets.rs`: `facet : [_; 24]`, `point : [usize; 14]`. -/
structure CellConn where
  facet : List FacetAdj
  point : List Nat
deriving DecidableEq, Repr

/-- `MCMeshDomain`, `mc_domain.rs` 70-85. -/
structure Mesh (T : Type) where
  domainGid : Nat
  nbrDomainGid : List Nat := []
  nbrRank : List Nat := []
  node : List (Vec3 T)
  cellConnectivity : List CellConn
  cellGeometry : List (List (Plane T))
deriving DecidableEq, Repr

/-- `MCCellState`, `mc_cell_state.rs`. -/
structure CellState (T : Type) where
  material : Nat
  volume : T
  cellNumberDensity : T
  id : Nat
  sourceTally : Nat
deriving DecidableEq, Repr

/-- `MCNearestFacet`, `facets.rs`. -/
structure NearestFacet (T : Type) where
  facet : Nat
  distanceToFacet : T
  dotProduct : T
deriving DecidableEq, Repr

variable {T : Type} [Flt T]

/-- `MCNearestFacet::default()`. -/
def NearestFacet.default : NearestFacet T :=
  { facet := 0, distanceToFacet := Flt.huge, dotProduct := zero }

/-- `MCMeshDomain::get_facet_coords`, `mc_domain.rs` 134-140. -/
def Mesh.getFacetCoords (mesh : Mesh T) (cell facet : Nat) :
    Except Panic (Vec3 T × Vec3 T × Vec3 T) := do
  let conn ← idx mesh.cellConnectivity cell
  let f ← idx conn.facet facet
  let p0 ← idx mesh.node f.point.1
  let p1 ← idx mesh.node f.point.2.1
  let p2 ← idx mesh.node f.point.2.2
  return (p0, p1, p2)

/-- `MCFacetAdjacencyCell::get_planes`, `facets.rs`. -/
def CellConn.getPlanes (c : CellConn) (node : List (Vec3 T)) : Except Panic (List (Plane T)) :=
  c.facet.mapM fun f => do
    let p0 ← idx node f.point.1
    let p1 ← idx node f.point.2.1
    let p2 ← idx node f.point.2.2
    return Plane.new p0 p1 p2
