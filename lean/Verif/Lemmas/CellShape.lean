import Verif.Lemmas.MeshCells
import Verif.Props.Locate
import Mathlib.Tactic.IntervalCases
import Mathlib.Tactic.Linarith
import Mathlib.Tactic.Ring
/-!
# The shape of a cell, over the reals: helper lemmas
-/
open Flt FltReal GridSpec MeshSpec

namespace Flooding

/-- Position of the points of a cell, in half-cells from its lowest corner. -/
def halves : List (Nat × Nat × Nat) :=
  [(0, 0, 0), (2, 0, 0), (0, 2, 0), (2, 2, 0), (0, 0, 2), (2, 0, 2), (0, 2, 2), (2, 2, 2),
   (2, 1, 1), (0, 1, 1), (1, 2, 1), (1, 0, 1), (1, 1, 2), (1, 1, 0)]

/-- Point of a cell, by its position in half-cells. -/
noncomputable def halfPoint (g : Grid ℝ) (t h : Nat × Nat × Nat) : Vec3 ℝ :=
  ⟨(t.1 + h.1 / 2) * g.dx, (t.2.1 + h.2.1 / 2) * g.dy, (t.2.2 + h.2.2 / 2) * g.dz⟩

variable {g : Grid ℝ}

theorem pointCoord_eq {c m : Nat} (hc : c < cells g) (hm : m < 14) :
    pointCoord g c m = halfPoint g (g.cellIdxToTuple c) (halves.getD m (0, 0, 0)) := by
  have ho : cornerOffset.getD m (0, 0, 0, 0) ∈ cornerOffset := by
    rw [List.getD_eq_getElem?_getD, List.getElem?_eq_getElem (show m < cornerOffset.length from hm)]
    exact List.getElem_mem _
  obtain ⟨b1, b2, b3, _⟩ := nodeTuple_in (Grid.idx_inGrid hc) ho
  unfold pointCoord nodeCoord Grid.nodeCoordFromIdx
  rw [gid_eq hm, Grid.node_tuple_idx b1 b2 b3]
  generalize g.cellIdxToTuple c = t
  interval_cases m <;>
    simp [cornerOffset, nodeTuple, Grid.nodeCoordFromTuple, Grid.basisOffset, idx, halves, halfPoint,
      Vec3.add, Vec3.zero, bind, Except.bind, pure, Except.pure] <;>
    (try constructor) <;> ring

/-- Plane of a face of a cell. -/
noncomputable def facePlane (g : Grid ℝ) (t : Nat × Nat × Nat) : Face → Plane ℝ
  | .xp => ⟨1, 0, 0, -((t.1 + 1) * g.dx)⟩
  | .xm => ⟨-1, 0, 0, t.1 * g.dx⟩
  | .yp => ⟨0, 1, 0, -((t.2.1 + 1) * g.dy)⟩
  | .ym => ⟨0, -1, 0, t.2.1 * g.dy⟩
  | .zp => ⟨0, 0, 1, -((t.2.2 + 1) * g.dz)⟩
  | .zm => ⟨0, 0, -1, t.2.2 * g.dz⟩

/-- The plane of three points, from the value of the cross product. -/
theorem plane_of_cross (r0 r1 r2 : Vec3 ℝ) {a b c m : ℝ}
    (ha : (r1.y - r0.y) * (r2.z - r0.z) - (r1.z - r0.z) * (r2.y - r0.y) = a)
    (hb : (r1.z - r0.z) * (r2.x - r0.x) - (r1.x - r0.x) * (r2.z - r0.z) = b)
    (hc : (r1.x - r0.x) * (r2.y - r0.y) - (r1.y - r0.y) * (r2.x - r0.x) = c)
    (hm : 0 < m) (hmm : a * a + b * b + c * c = m * m) :
    Plane.new r0 r1 r2
      = ⟨a / m, b / m, c / m, -(a / m * r0.x + b / m * r0.y + c / m * r0.z)⟩ := by
  unfold Plane.new
  simp only [sub_eq, mul_eq, add_eq, div_eq, neg_eq, one_eq, zero_eq, sqrt_eq, beq_eq]
  rw [ha, hb, hc, hmm, Real.sqrt_mul_self hm.le, if_neg (by simpa using hm.ne')]
  congr 1
  field_simp

theorem planeOf_eq (hg : BoxGrid g) {c : Nat} (hc : c < cells g) (f : Face) {k : Nat} (hk : k < 4) :
    planeOf g c (4 * f.num + k) = facePlane g (g.cellIdxToTuple c) f := by
  have px := hg.dx_pos
  have py := hg.dy_pos
  have pz := hg.dz_pos
  have hn : 4 * f.num + k < 24 := by have := num_lt f; omega
  obtain ⟨l1, l2, l3⟩ := indirect_lt _ hn
  unfold planeOf
  rw [pointCoord_eq hc l1, pointCoord_eq hc l2, pointCoord_eq hc l3]
  generalize g.cellIdxToTuple c = t
  cases f
  · have hm : 0 < g.dy * g.dz / 2 := by positivity
    interval_cases k <;>
    · rw [plane_of_cross (a := g.dy * g.dz / 2) (b := 0) (c := 0) (m := g.dy * g.dz / 2)
        _ _ _ ?_ ?_ ?_ hm (by ring)]
      · simp only [nodeIndirect, Face.num, halves, halfPoint, facePlane]
        simp [hm.ne']
        try ring
      all_goals
        simp [nodeIndirect, Face.num, halves, halfPoint]
        try ring
  · have hm : 0 < g.dy * g.dz / 2 := by positivity
    interval_cases k <;>
    · rw [plane_of_cross (a := -(g.dy * g.dz / 2)) (b := 0) (c := 0) (m := g.dy * g.dz / 2)
        _ _ _ ?_ ?_ ?_ hm (by ring)]
      · simp only [nodeIndirect, Face.num, halves, halfPoint, facePlane]
        simp [hm.ne']
        try ring
      all_goals
        simp [nodeIndirect, Face.num, halves, halfPoint]
        try ring
  · have hm : 0 < g.dx * g.dz / 2 := by positivity
    interval_cases k <;>
    · rw [plane_of_cross (a := 0) (b := g.dx * g.dz / 2) (c := 0) (m := g.dx * g.dz / 2)
        _ _ _ ?_ ?_ ?_ hm (by ring)]
      · simp only [nodeIndirect, Face.num, halves, halfPoint, facePlane]
        simp [hm.ne']
        try ring
      all_goals
        simp [nodeIndirect, Face.num, halves, halfPoint]
        try ring
  · have hm : 0 < g.dx * g.dz / 2 := by positivity
    interval_cases k <;>
    · rw [plane_of_cross (a := 0) (b := -(g.dx * g.dz / 2)) (c := 0) (m := g.dx * g.dz / 2)
        _ _ _ ?_ ?_ ?_ hm (by ring)]
      · simp only [nodeIndirect, Face.num, halves, halfPoint, facePlane]
        simp [hm.ne']
        try ring
      all_goals
        simp [nodeIndirect, Face.num, halves, halfPoint]
        try ring
  · have hm : 0 < g.dx * g.dy / 2 := by positivity
    interval_cases k <;>
    · rw [plane_of_cross (a := 0) (b := 0) (c := g.dx * g.dy / 2) (m := g.dx * g.dy / 2)
        _ _ _ ?_ ?_ ?_ hm (by ring)]
      · simp only [nodeIndirect, Face.num, halves, halfPoint, facePlane]
        simp [hm.ne']
        try ring
      all_goals
        simp [nodeIndirect, Face.num, halves, halfPoint]
        try ring
  · have hm : 0 < g.dx * g.dy / 2 := by positivity
    interval_cases k <;>
    · rw [plane_of_cross (a := 0) (b := 0) (c := -(g.dx * g.dy / 2)) (m := g.dx * g.dy / 2)
        _ _ _ ?_ ?_ ?_ hm (by ring)]
      · simp only [nodeIndirect, Face.num, halves, halfPoint, facePlane]
        simp [hm.ne']
        try ring
      all_goals
        simp [nodeIndirect, Face.num, halves, halfPoint]
        try ring

variable {bc : List AdjEvent} {cs : List Nat} {nodeOf : Nat → Nat} {mesh : Mesh ℝ}

theorem Built.points (h : Built g bc cs nodeOf mesh) {i c : Nat} (hi : cs[i]? = some c) :
    idxAll mesh.node (connOf g bc cs nodeOf i c).point
      = .ok (halves.map (halfPoint g (g.cellIdxToTuple c))) := by
  have hc := h.lt hi
  have h1 := nodeGids_range (g := g) c
  have h2 : halves = (List.range 14).map fun m => halves.getD m (0, 0, 0) := by decide
  unfold idxAll connOf
  simp only
  rw [h1, List.map_map, List.mapM_map, h2, List.map_map]
  refine mapM_ok_of_forall fun m hm => ?_
  have hm' := List.mem_range.1 hm
  simp only [Function.comp]
  rw [idx_ok.2 (h.node c (List.mem_of_getElem? hi) _ (gid_mem hm'))]
  rw [← pointCoord_eq hc hm']
  rfl

theorem Built.position (h : Built g bc cs nodeOf mesh) {i c : Nat} (hi : cs[i]? = some c) :
    cellPosition3dg mesh i = .ok (boxCenter g (g.cellIdxToTuple c)) := by
  unfold cellPosition3dg
  rw [idx_ok.2 (h.conn_get hi)]
  show (do let pts ← idxAll mesh.node (connOf g bc cs nodeOf i c).point; _) = _
  rw [h.points hi]
  show (Vec3.sum (halves.map (halfPoint g (g.cellIdxToTuple c)))).sdiv _ = _
  generalize g.cellIdxToTuple c = t
  simp only [Vec3.sum, halves, List.map_cons, List.map_nil, List.foldl_cons, List.foldl_nil, Vec3.add,
    Vec3.zero, halfPoint, Vec3.sdiv, beq_eq, ofNat_eq, zero_eq, div_eq, add_eq, boxCenter]
  rw [if_neg (by norm_num)]
  congr 2 <;> (push_cast; ring)

theorem Built.center (h : Built g bc cs nodeOf mesh) {i c : Nat} (hi : cs[i]? = some c) :
    meshCellCenter mesh i = .ok (boxCenter g (g.cellIdxToTuple c)) := by
  rw [← h.position hi]
  unfold meshCellCenter cellPosition3dg
  rw [idx_ok.2 (h.conn_get hi)]
  show (do let pts ← idxAll mesh.node ((connOf g bc cs nodeOf i c).point.take 14); _)
    = (do let pts ← idxAll mesh.node (connOf g bc cs nodeOf i c).point; _)
  rw [List.take_of_length_le (by rw [connOf_point_length]), connOf_point_length]

theorem Built.facetCoords (h : Built g bc cs nodeOf mesh) {i c : Nat} (hi : cs[i]? = some c) {n : Nat}
    (hn : n < 24) : mesh.getFacetCoords i n = .ok
      (pointCoord g c (nodeIndirect.getD n (0, 0, 0)).1, pointCoord g c (nodeIndirect.getD n (0, 0, 0)).2.1,
       pointCoord g c (nodeIndirect.getD n (0, 0, 0)).2.2) := by
  obtain ⟨l1, l2, l3⟩ := indirect_lt n hn
  have hc := List.mem_of_getElem? hi
  unfold Mesh.getFacetCoords
  rw [idx_ok.2 (h.conn_get hi)]
  show (do let f ← idx (connOf g bc cs nodeOf i c).facet n; _) = _
  rw [idx_ok.2 (connOf_facet.2 ⟨hn, rfl⟩)]
  simp only [facetOf, idx_ok.2 (h.node c hc _ (gid_mem l1)), idx_ok.2 (h.node c hc _ (gid_mem l2)),
    idx_ok.2 (h.node c hc _ (gid_mem l3)), bind, Except.bind, pure, Except.pure]
  rfl

/-- Six times the volume of the tetrahedron over a facet. -/
theorem tetra (hc : c < cells g) {n : Nat} (hn : n < 24) :
    computeVolume (pointCoord g c (nodeIndirect.getD n (0, 0, 0)).1)
      (pointCoord g c (nodeIndirect.getD n (0, 0, 0)).2.1)
      (pointCoord g c (nodeIndirect.getD n (0, 0, 0)).2.2) (boxCenter g (g.cellIdxToTuple c))
      = g.dx * g.dy * g.dz / 4 := by
  obtain ⟨l1, l2, l3⟩ := indirect_lt _ hn
  rw [pointCoord_eq hc l1, pointCoord_eq hc l2, pointCoord_eq hc l3]
  generalize g.cellIdxToTuple c = t
  interval_cases n <;>
    (simp [computeVolume, Vec3.sub, Vec3.dot, Vec3.cross, nodeIndirect, halves, halfPoint, boxCenter]
     ring)

theorem Built.volume (hg : BoxGrid g) (h : Built g bc cs nodeOf mesh) {i c : Nat}
    (hi : cs[i]? = some c) : cellVolume mesh i = .ok (g.dx * g.dy * g.dz) := by
  have px := hg.dx_pos
  have py := hg.dy_pos
  have pz := hg.dz_pos
  have hv : 0 < g.dx * g.dy * g.dz / 4 := by positivity
  have hc := List.mem_of_getElem? hi
  unfold cellVolume
  rw [h.center hi]
  show (do let conn ← idx mesh.cellConnectivity i; _) = _
  rw [idx_ok.2 (h.conn_get hi)]
  have hm : (connOf g bc cs nodeOf i c).facet.mapM (fun f => do
      let p0 ← idx mesh.node f.point.1
      let p1 ← idx mesh.node f.point.2.1
      let p2 ← idx mesh.node f.point.2.2
      return Flt.abs ((p0.sub (boxCenter g (g.cellIdxToTuple c))).dot
        ((p1.sub (boxCenter g (g.cellIdxToTuple c))).cross (p2.sub (boxCenter g (g.cellIdxToTuple c))))))
      = .ok ((List.range 24).map fun _ => g.dx * g.dy * g.dz / 4) := by
    unfold connOf
    simp only
    rw [List.mapM_map]
    refine mapM_ok_of_forall fun n hn => ?_
    have hn' := List.mem_range.1 hn
    obtain ⟨l1, l2, l3⟩ := indirect_lt n hn'
    simp only [Function.comp, facetOf, idx_ok.2 (h.node c hc _ (gid_mem l1)), idx_ok.2 (h.node c hc _ (gid_mem l2)),
      idx_ok.2 (h.node c hc _ (gid_mem l3)), bind, Except.bind, pure, Except.pure]
    have := tetra (h.lt hi) hn'
    unfold computeVolume pointCoord at this
    rw [this, abs_eq, abs_of_pos hv]
  simp only [bind, Except.bind, pure, Except.pure] at hm ⊢
  rw [hm]
  simp [Flt.sum, List.range, List.range.loop]
  ring

end Flooding
