import Verif.Model.Particle
import Verif.Model.Geometry
/-!
# Spatial computations

Models `fastiron/src/simulation/mct.rs`.
-/
open Flt
variable {T : Type} [Flt T]

/-- Read a list of indices. -/
def idxAll {α : Type} (l : List α) (is : List Nat) : Except Panic (List α) := is.mapM (idx l)

/-- `cell_position_3dg`, `mct.rs` 90-101: mean of the 14 points of the cell. -/
def cellPosition3dg (mesh : Mesh T) (cell : Nat) : Except Panic (Vec3 T) := do
  let conn ← idx mesh.cellConnectivity cell
  let pts ← idxAll mesh.node conn.point
  (Vec3.sum pts).sdiv (Flt.ofNat 14)

/-- `compute_volume`, `mct.rs` 190-197. -/
def computeVolume (p0 p1 p2 origin : Vec3 T) : T :=
  (p0.sub origin).dot ((p1.sub origin).cross (p2.sub origin))

/-- Facet search of `generate_coordinate_3dg`, `mct.rs` 58-68: walk the facets accumulating the
sub-volumes, stop at the first facet reaching `which`; the points of the last visited facet are kept.
`last` is the current content of `points`. -/
def findFacet (mesh : Mesh T) (cell : Nat) (center : Vec3 T) (which : T) :
    List Nat → T → (Vec3 T × Vec3 T × Vec3 T) → Except Panic (Vec3 T × Vec3 T × Vec3 T)
  | [], _, last => .ok last
  | f :: fs, current, _ => do
    let pts ← mesh.getFacetCoords cell f
    let current := current +. computeVolume pts.1 pts.2.1 pts.2.2 center
    if current >=. which then return pts
    else findFacet mesh cell center which fs current pts

/-- Folding of three uniform numbers into barycentric coordinates, `mct.rs` 71-84:
returns `(r1, r2, r3, r4)`. -/
def foldBary (r1 r2 r3 : T) : T × T × T × T :=
  let c1 := (r1 +. r2) >. one
  let r1' := if c1 then one -. r1 else r1
  let r2' := if c1 then one -. r2 else r2
  let (a, b, c) :=
    if (r2' +. r3) >. one then (r1', one -. r3, one -. r1' -. r2')
    else if (r1' +. r2' +. r3) >. one then
      (one -. r2' -. r3, r2', r1' +. r2' +. r3 -. one)
    else (r1', r2', r3)
  (a, b, c, one -. a -. b -. c)

/-- `generate_coordinate_3dg`, `mct.rs` 40-87: coordinate and new seed. -/
def generateCoordinate3dg (seed : BitVec 64) (mesh : Mesh T) (cell : Nat) (cellVolume : T) :
    Except Panic (Vec3 T × BitVec 64) := do
  let center ← cellPosition3dg mesh cell
  let (u, s) := Rng.sample (T := T) seed
  let which := u *. Flt.ofNat 6 *. cellVolume
  let (p0, p1, p2) ←
    findFacet mesh cell center which (List.range 24) zero (Vec3.zero, Vec3.zero, Vec3.zero)
  let (r1, s) := Rng.sample (T := T) s
  let (r2, s) := Rng.sample (T := T) s
  let (r3, s) := Rng.sample (T := T) s
  let (r1, r2, r3, r4) := foldBary r1 r2 r3
  return ((((p0.smul r1).add (p1.smul r2)).add (p2.smul r3)).add (center.smul r4), s)

/-- `reflect_particle`, `mct.rs` 107-120. -/
def reflectDirection (d : Vec3 T) (plane : Plane T) : Vec3 T :=
  let n : Vec3 T := ⟨plane.a, plane.b, plane.c⟩
  let dot := two *. d.dot n
  if dot >. zero then d.sub (n.smul dot) else d

/-- `reflect_particle`, `mct.rs` 107-120. -/
def reflectParticle (p : Particle T) (plane : Plane T) : Particle T :=
  { p with direction := reflectDirection p.direction plane }

/-- `belongs_or_return!`, `mct.rs` 284-299: `true` when the point is outside of the facet's extent
along one axis (the macro then returns `false`). -/
def outsideExtent (f0 f1 f2 pt : T) : Bool :=
  let tol : T := Flt.lit 1 (-9)
  let below := (f0 >. (pt +. tol)) && (f1 >. (pt +. tol)) && (f2 >. (pt +. tol))
  let above := (f0 <. (pt -. tol)) && (f1 <. (pt -. tol)) && (f2 <. (pt -. tol))
  below || above

/-- `ab_cross_ac!`, `mct.rs` 302-306. -/
def abCrossAc (ax ay bx by_ cx cy : T) : T :=
  (bx -. ax) *. (cy -. ay) -. (by_ -. ay) *. (cx -. ax)

/-- Sign test at the end of `mct_nf_3dg_dist_to_segment`, `mct.rs` 400-413. -/
def crossesTest (c0 c1 c2 : T) : Bool :=
  let tol := (Flt.lit 1 (-9) : T) *. Flt.abs (c0 +. c1 +. c2)
  ((c0 >. Flt.neg tol) && (c1 >. Flt.neg tol) && (c2 >. Flt.neg tol)) ||
  ((c0 <. tol) && (c1 <. tol) && (c2 <. tol))

/-- `mct_nf_3dg_dist_to_segment`, `mct.rs` 275-414. -/
def distToSegment (pt : Vec3 T) (plane : Plane T) (f : Vec3 T × Vec3 T × Vec3 T) : Bool :=
  let pfive : T := Flt.lit 5 (-1)
  let (f0, f1, f2) := f
  if Flt.abs plane.c >. pfive then
    if outsideExtent f0.x f1.x f2.x pt.x then false
    else if outsideExtent f0.y f1.y f2.y pt.y then false
    else crossesTest
      (abCrossAc f0.x f0.y f1.x f1.y pt.x pt.y)
      (abCrossAc f1.x f1.y f2.x f2.y pt.x pt.y)
      (abCrossAc f2.x f2.y f0.x f0.y pt.x pt.y)
  else if Flt.abs plane.b >. pfive then
    if outsideExtent f0.x f1.x f2.x pt.x then false
    else if outsideExtent f0.z f1.z f2.z pt.z then false
    else crossesTest
      (abCrossAc f0.z f0.x f1.z f1.x pt.z pt.x)
      (abCrossAc f1.z f1.x f2.z f2.x pt.z pt.x)
      (abCrossAc f2.z f2.x f0.z f0.x pt.z pt.x)
  else if Flt.abs plane.a >. pfive then
    if outsideExtent f0.z f1.z f2.z pt.z then false
    else if outsideExtent f0.y f1.y f2.y pt.y then false
    else crossesTest
      (abCrossAc f0.y f0.z f1.y f1.z pt.y pt.z)
      (abCrossAc f1.y f1.z f2.y f2.z pt.y pt.z)
      (abCrossAc f2.y f2.z f0.y f0.z pt.y pt.z)
  else crossesTest (zero : T) zero zero

/-- Distance to one facet, body of the `for_each` of `mct_nf_3dg`, `mct.rs` 150-172. -/
def facetDistance (mesh : Mesh T) (cell : Nat) (coords direction : Vec3 T) (planeTol : T)
    (facetIdx : Nat) (plane : Plane T) : Except Panic T := do
  let numerator := (Flt.neg one) *.
    (plane.a *. coords.x +. plane.b *. coords.y +. plane.c *. coords.z +. plane.d)
  let dcos := plane.a *. direction.x +. plane.b *. direction.y +. plane.c *. direction.z
  if (dcos <=. zero) || ((numerator <. zero) && (numerator *. numerator >. planeTol)) then
    return Flt.huge
  let f ← mesh.getFacetCoords cell facetIdx
  let distance := numerator /. dcos
  let pt := coords.add (direction.smul distance)
  if distToSegment pt plane f then return distance else return Flt.huge

/-- Distances to all the facets, `mct.rs` 143-172. -/
def facetDistances (mesh : Mesh T) (cell : Nat) (coords direction : Vec3 T) (planeTol : T)
    (planes : List (Plane T)) : Except Panic (List T) :=
  planes.zipIdx.mapM fun (pl, i) => facetDistance mesh cell coords direction planeTol i pl

/-- First pass of `mct_nf_compute_nearest`, `mct.rs` 209-218: last facet with the smallest positive
distance. -/
def nearestPositive (dists : List (T × Nat)) (init : NearestFacet T) : NearestFacet T :=
  dists.foldl (fun nf (d, i) =>
    if (d >. zero) && (d <=. nf.distanceToFacet) then { nf with distanceToFacet := d, facet := i }
    else nf) init

/-- Second pass of `mct_nf_compute_nearest`, `mct.rs` 224-233: first facet with the largest
non-positive distance. -/
def nearestNegative (dists : List (T × Nat)) (init : NearestFacet T) : NearestFacet T :=
  dists.foldl (fun nf (d, i) =>
    if (d <=. zero) && (d >. nf.distanceToFacet) then { nf with distanceToFacet := d, facet := i }
    else nf) init

/-- `mct_nf_compute_nearest`, `mct.rs` 199-241. -/
def computeNearest (dists : List T) : NearestFacet T :=
  let nf := nearestPositive dists.zipIdx NearestFacet.default
  if !(nf.distanceToFacet ==. Flt.huge) then nf
  else
    let nn := nearestNegative dists.zipIdx
      { (NearestFacet.default : NearestFacet T) with distanceToFacet := Flt.neg Flt.huge }
    if !(nn.distanceToFacet ==. Flt.neg Flt.huge) then nn else nf

/-- Retry loop of `mct_nf_3dg` with `check_nearest_validity`, `mct.rs` 142-186, 243-273.
The coordinates used for the distances are those copied before the loop (`coords`), as in the code.
`iteration` stops at `MAX_ITERATION = 1000`; the fuel is the number of iterations left. -/
def nfLoop (mesh : Mesh T) (planes : List (Plane T)) (coords direction : Vec3 T) (planeTol : T) :
    Nat → Nat → T → Particle T → Except Panic (NearestFacet T × Particle T)
  | 0, _, _, _ => .error .outOfFuel
  | fuel + 1, iteration, moveFactor, p => do
    let dists ← facetDistances mesh p.cell coords direction planeTol planes
    let nf := computeNearest dists
    if (nf.distanceToFacet ==. Flt.huge) ||
        ((p.numSegments >. Flt.ofNat 10000000) && (nf.distanceToFacet <=. zero)) then
      let moveTo ← cellPosition3dg mesh p.cell
      let p := { p with
        coordinate := p.coordinate.add ((moveTo.sub p.coordinate).smul moveFactor) }
      let moveFactor := Flt.min (Flt.lit 1 (-2)) (moveFactor *. two)
      if iteration + 1 ≠ 1000 then
        nfLoop mesh planes coords direction planeTol fuel (iteration + 1) moveFactor p
      else return (nf, p)
    else return (nf, p)

/-- `mct_nf_3dg`, `mct.rs` 126-186. -/
def mctNf3dg (mesh : Mesh T) (p : Particle T) : Except Panic (NearestFacet T × Particle T) := do
  let coords := p.coordinate
  let planeTol := (Flt.lit 1 (-16) : T) *.
    (coords.x *. coords.x +. coords.y *. coords.y +. coords.z *. coords.z)
  let planes ← idx mesh.cellGeometry p.cell
  nfLoop mesh planes coords p.direction planeTol 1000 0 ((Flt.lit 5 (-1) : T) *. Flt.small) p

/-- `nearest_facet`, `mct.rs` 27-37. -/
def nearestFacet (mesh : Mesh T) (p : Particle T) : Except Panic (NearestFacet T × Particle T) := do
  let (nf, p) ← mctNf3dg mesh p
  let nf := { nf with distanceToFacet := Flt.max nf.distanceToFacet zero }
  assertB (nf.distanceToFacet <=. Flt.huge)
  return (nf, p)
