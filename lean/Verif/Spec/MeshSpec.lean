import Verif.Spec.GridSpec
import Verif.Model.Geometry
/-!
# What the mesh of a single-unit run must be
-/

namespace MeshSpec
open GridSpec
variable {T : Type}

/-- What happens at each face of the problem for the supported boundary conditions: with `octant`,
particles are reflected at the three faces through the origin and escape at the others. -/
def borderEvent : String → Face → Option AdjEvent
  | "reflect", _ => some .boundaryReflection
  | "escape", _ => some .boundaryEscape
  | "octant", .xm | "octant", .ym | "octant", .zm => some .boundaryReflection
  | "octant", .xp | "octant", .yp | "octant", .zp => some .boundaryEscape
  | _, _ => none

/-- The mesh covers the grid: `cellAt` gives the cell of the grid at each position of the list of
cells.  Facets `4 f, ..., 4 f + 3` of a cell are those of its face `f`. -/
structure Covers (g : Grid T) (bc : Face → AdjEvent) (cellAt : List Nat) (mesh : Mesh T) : Prop where
  /-- Every cell of the grid appears exactly once. -/
  perm : cellAt.Perm (List.range (cells g))
  count : mesh.cellConnectivity.length = cells g
  planes : mesh.cellGeometry.length = cells g
  facets : ∀ conn ∈ mesh.cellConnectivity, conn.facet.length = 24
  /-- A facet knows where it is. -/
  current : ∀ (i : Nat) (conn : CellConn) (n : Nat) (fa : FacetAdj), mesh.cellConnectivity[i]? = some conn → conn.facet[n]? = some fa →
    fa.subfacet.current = ⟨some 0, some i, some n⟩
  /-- A facet on the border has the configured boundary condition. -/
  border : ∀ (i c : Nat) (conn : CellConn) (f : Face) (k : Nat) (fa : FacetAdj),
    cellAt[i]? = some c → mesh.cellConnectivity[i]? = some conn → k < 4 →
    conn.facet[4 * Face.num f + k]? = some fa → OnBorder g (g.cellIdxToTuple c) f →
    fa.subfacet.event = bc f ∧ fa.subfacet.adjacent = fa.subfacet.current
  /-- An interior facet leads to the cell on its other side, on the same unit. -/
  interior : ∀ (i c : Nat) (conn : CellConn) (f : Face) (k : Nat) (fa : FacetAdj),
    cellAt[i]? = some c → mesh.cellConnectivity[i]? = some conn → k < 4 →
    conn.facet[4 * Face.num f + k]? = some fa → ¬ OnBorder g (g.cellIdxToTuple c) f →
    fa.subfacet.event = .transitOnProcessor ∧
    ∃ j k' : Nat, cellAt[j]? = some (g.cellTupleToIdx (across (g.cellIdxToTuple c) f)) ∧ k' < 4 ∧
      fa.subfacet.adjacent = ⟨some 0, some j, some (4 * f.opposite.num + k')⟩

end MeshSpec
