import Verif.Props.Cells
import Verif.Spec.Triangle
/-!
# The faces of a cell are covered by their facets: helper lemmas
-/
open Flt FltReal GridSpec MeshSpec Flooding

/-- Corner of a facet of a cell. -/
noncomputable def facetPoint (g : Grid ℝ) (t : Nat × Nat × Nat) (n : Nat) : Nat → Vec3 ℝ
  | 0 => halfPoint g t (halves.getD (nodeIndirect.getD n (0, 0, 0)).1 (0, 0, 0))
  | 1 => halfPoint g t (halves.getD (nodeIndirect.getD n (0, 0, 0)).2.1 (0, 0, 0))
  | _ => halfPoint g t (halves.getD (nodeIndirect.getD n (0, 0, 0)).2.2 (0, 0, 0))

theorem cover_xp {g : Grid ℝ} (hg : BoxGrid g) (t : Nat × Nat × Nat) {q : Vec3 ℝ}
    (hq : InClosedCell g t q) (hp : OnPlane (facePlane g t .xp) q) :
    ∃ k, k < 4 ∧ InTriangle 0 (facetPoint g t (4 * Face.num .xp + k) 0) (facetPoint g t (4 * Face.num .xp + k) 1)
      (facetPoint g t (4 * Face.num .xp + k) 2) q := by
  have px := hg.dx_pos
  have py := hg.dy_pos
  have pz := hg.dz_pos
  obtain ⟨⟨x1, x2⟩, ⟨y1, y2⟩, z1, z2⟩ := hq
  have hp' := hp
  simp only [OnPlane, facePlane] at hp'
  obtain ⟨v, hv⟩ : ∃ v : ℝ, q.y = (t.2.1 + v) * g.dy :=
    ⟨q.y / g.dy - t.2.1, by field_simp; ring⟩
  obtain ⟨w, hw⟩ : ∃ w : ℝ, q.z = (t.2.2 + w) * g.dz :=
    ⟨q.z / g.dz - t.2.2, by field_simp; ring⟩
  rw [hv] at y1 y2
  rw [hw] at z1 z2
  have v0 := le_of_mul_le_mul_right y1 py
  have v1 := le_of_mul_le_mul_right y2 py
  have w0 := le_of_mul_le_mul_right z1 pz
  have w1 := le_of_mul_le_mul_right z2 pz
  have hu : q.x = (t.1 + 1) * g.dx := by linarith
  obtain ⟨qx, qy, qz⟩ := q
  simp only at hv hw hu
  subst hv hw hu
  rcases le_total v w with h1 | h1 <;> rcases le_total (v + w) 1 with h2 | h2
  · refine ⟨3, by norm_num, 1 - (1 - w) - v, (1 - w) - v, 2 * v, by ring, by linarith, by linarith, by linarith, ?_⟩
    simp only [facetPoint, nodeIndirect, halves, halfPoint, Face.num, List.getD_cons_succ, List.getD_cons_zero,
      Nat.reduceMul, Nat.reduceAdd, Vec3.mk.injEq]
    push_cast
    refine ⟨?_, ?_, ?_⟩ <;> ring
  · refine ⟨2, by norm_num, 1 - (1 - v) - (1 - w), (1 - v) - (1 - w), 2 * (1 - w), by ring, by linarith, by linarith, by linarith, ?_⟩
    simp only [facetPoint, nodeIndirect, halves, halfPoint, Face.num, List.getD_cons_succ, List.getD_cons_zero,
      Nat.reduceMul, Nat.reduceAdd, Vec3.mk.injEq]
    push_cast
    refine ⟨?_, ?_, ?_⟩ <;> ring
  · refine ⟨0, by norm_num, 1 - v - w, v - w, 2 * w, by ring, by linarith, by linarith, by linarith, ?_⟩
    simp only [facetPoint, nodeIndirect, halves, halfPoint, Face.num, List.getD_cons_succ, List.getD_cons_zero,
      Nat.reduceMul, Nat.reduceAdd, Vec3.mk.injEq]
    push_cast
    refine ⟨?_, ?_, ?_⟩ <;> ring
  · refine ⟨1, by norm_num, 1 - w - (1 - v), w - (1 - v), 2 * (1 - v), by ring, by linarith, by linarith, by linarith, ?_⟩
    simp only [facetPoint, nodeIndirect, halves, halfPoint, Face.num, List.getD_cons_succ, List.getD_cons_zero,
      Nat.reduceMul, Nat.reduceAdd, Vec3.mk.injEq]
    push_cast
    refine ⟨?_, ?_, ?_⟩ <;> ring

theorem cover_xm {g : Grid ℝ} (hg : BoxGrid g) (t : Nat × Nat × Nat) {q : Vec3 ℝ}
    (hq : InClosedCell g t q) (hp : OnPlane (facePlane g t .xm) q) :
    ∃ k, k < 4 ∧ InTriangle 0 (facetPoint g t (4 * Face.num .xm + k) 0) (facetPoint g t (4 * Face.num .xm + k) 1)
      (facetPoint g t (4 * Face.num .xm + k) 2) q := by
  have px := hg.dx_pos
  have py := hg.dy_pos
  have pz := hg.dz_pos
  obtain ⟨⟨x1, x2⟩, ⟨y1, y2⟩, z1, z2⟩ := hq
  have hp' := hp
  simp only [OnPlane, facePlane] at hp'
  obtain ⟨v, hv⟩ : ∃ v : ℝ, q.y = (t.2.1 + v) * g.dy :=
    ⟨q.y / g.dy - t.2.1, by field_simp; ring⟩
  obtain ⟨w, hw⟩ : ∃ w : ℝ, q.z = (t.2.2 + w) * g.dz :=
    ⟨q.z / g.dz - t.2.2, by field_simp; ring⟩
  rw [hv] at y1 y2
  rw [hw] at z1 z2
  have v0 := le_of_mul_le_mul_right y1 py
  have v1 := le_of_mul_le_mul_right y2 py
  have w0 := le_of_mul_le_mul_right z1 pz
  have w1 := le_of_mul_le_mul_right z2 pz
  have hu : q.x = (t.1 + 0) * g.dx := by linarith
  obtain ⟨qx, qy, qz⟩ := q
  simp only at hv hw hu
  subst hv hw hu
  rcases le_total v w with h1 | h1 <;> rcases le_total (v + w) 1 with h2 | h2
  · refine ⟨0, by norm_num, 1 - w - v, w - v, 2 * v, by ring, by linarith, by linarith, by linarith, ?_⟩
    simp only [facetPoint, nodeIndirect, halves, halfPoint, Face.num, List.getD_cons_succ, List.getD_cons_zero,
      Nat.reduceMul, Nat.reduceAdd, Vec3.mk.injEq]
    push_cast
    refine ⟨?_, ?_, ?_⟩ <;> ring
  · refine ⟨1, by norm_num, 1 - v - (1 - w), v - (1 - w), 2 * (1 - w), by ring, by linarith, by linarith, by linarith, ?_⟩
    simp only [facetPoint, nodeIndirect, halves, halfPoint, Face.num, List.getD_cons_succ, List.getD_cons_zero,
      Nat.reduceMul, Nat.reduceAdd, Vec3.mk.injEq]
    push_cast
    refine ⟨?_, ?_, ?_⟩ <;> ring
  · refine ⟨3, by norm_num, 1 - (1 - v) - w, (1 - v) - w, 2 * w, by ring, by linarith, by linarith, by linarith, ?_⟩
    simp only [facetPoint, nodeIndirect, halves, halfPoint, Face.num, List.getD_cons_succ, List.getD_cons_zero,
      Nat.reduceMul, Nat.reduceAdd, Vec3.mk.injEq]
    push_cast
    refine ⟨?_, ?_, ?_⟩ <;> ring
  · refine ⟨2, by norm_num, 1 - (1 - w) - (1 - v), (1 - w) - (1 - v), 2 * (1 - v), by ring, by linarith, by linarith, by linarith, ?_⟩
    simp only [facetPoint, nodeIndirect, halves, halfPoint, Face.num, List.getD_cons_succ, List.getD_cons_zero,
      Nat.reduceMul, Nat.reduceAdd, Vec3.mk.injEq]
    push_cast
    refine ⟨?_, ?_, ?_⟩ <;> ring

theorem cover_yp {g : Grid ℝ} (hg : BoxGrid g) (t : Nat × Nat × Nat) {q : Vec3 ℝ}
    (hq : InClosedCell g t q) (hp : OnPlane (facePlane g t .yp) q) :
    ∃ k, k < 4 ∧ InTriangle 0 (facetPoint g t (4 * Face.num .yp + k) 0) (facetPoint g t (4 * Face.num .yp + k) 1)
      (facetPoint g t (4 * Face.num .yp + k) 2) q := by
  have px := hg.dx_pos
  have py := hg.dy_pos
  have pz := hg.dz_pos
  obtain ⟨⟨x1, x2⟩, ⟨y1, y2⟩, z1, z2⟩ := hq
  have hp' := hp
  simp only [OnPlane, facePlane] at hp'
  obtain ⟨v, hv⟩ : ∃ v : ℝ, q.x = (t.1 + v) * g.dx :=
    ⟨q.x / g.dx - t.1, by field_simp; ring⟩
  obtain ⟨w, hw⟩ : ∃ w : ℝ, q.z = (t.2.2 + w) * g.dz :=
    ⟨q.z / g.dz - t.2.2, by field_simp; ring⟩
  rw [hv] at x1 x2
  rw [hw] at z1 z2
  have v0 := le_of_mul_le_mul_right x1 px
  have v1 := le_of_mul_le_mul_right x2 px
  have w0 := le_of_mul_le_mul_right z1 pz
  have w1 := le_of_mul_le_mul_right z2 pz
  have hu : q.y = (t.2.1 + 1) * g.dy := by linarith
  obtain ⟨qx, qy, qz⟩ := q
  simp only at hv hw hu
  subst hv hw hu
  rcases le_total v w with h1 | h1 <;> rcases le_total (v + w) 1 with h2 | h2
  · refine ⟨1, by norm_num, 1 - w - v, w - v, 2 * v, by ring, by linarith, by linarith, by linarith, ?_⟩
    simp only [facetPoint, nodeIndirect, halves, halfPoint, Face.num, List.getD_cons_succ, List.getD_cons_zero,
      Nat.reduceMul, Nat.reduceAdd, Vec3.mk.injEq]
    push_cast
    refine ⟨?_, ?_, ?_⟩ <;> ring
  · refine ⟨2, by norm_num, 1 - v - (1 - w), v - (1 - w), 2 * (1 - w), by ring, by linarith, by linarith, by linarith, ?_⟩
    simp only [facetPoint, nodeIndirect, halves, halfPoint, Face.num, List.getD_cons_succ, List.getD_cons_zero,
      Nat.reduceMul, Nat.reduceAdd, Vec3.mk.injEq]
    push_cast
    refine ⟨?_, ?_, ?_⟩ <;> ring
  · refine ⟨0, by norm_num, 1 - (1 - v) - w, (1 - v) - w, 2 * w, by ring, by linarith, by linarith, by linarith, ?_⟩
    simp only [facetPoint, nodeIndirect, halves, halfPoint, Face.num, List.getD_cons_succ, List.getD_cons_zero,
      Nat.reduceMul, Nat.reduceAdd, Vec3.mk.injEq]
    push_cast
    refine ⟨?_, ?_, ?_⟩ <;> ring
  · refine ⟨3, by norm_num, 1 - (1 - w) - (1 - v), (1 - w) - (1 - v), 2 * (1 - v), by ring, by linarith, by linarith, by linarith, ?_⟩
    simp only [facetPoint, nodeIndirect, halves, halfPoint, Face.num, List.getD_cons_succ, List.getD_cons_zero,
      Nat.reduceMul, Nat.reduceAdd, Vec3.mk.injEq]
    push_cast
    refine ⟨?_, ?_, ?_⟩ <;> ring

theorem cover_ym {g : Grid ℝ} (hg : BoxGrid g) (t : Nat × Nat × Nat) {q : Vec3 ℝ}
    (hq : InClosedCell g t q) (hp : OnPlane (facePlane g t .ym) q) :
    ∃ k, k < 4 ∧ InTriangle 0 (facetPoint g t (4 * Face.num .ym + k) 0) (facetPoint g t (4 * Face.num .ym + k) 1)
      (facetPoint g t (4 * Face.num .ym + k) 2) q := by
  have px := hg.dx_pos
  have py := hg.dy_pos
  have pz := hg.dz_pos
  obtain ⟨⟨x1, x2⟩, ⟨y1, y2⟩, z1, z2⟩ := hq
  have hp' := hp
  simp only [OnPlane, facePlane] at hp'
  obtain ⟨v, hv⟩ : ∃ v : ℝ, q.x = (t.1 + v) * g.dx :=
    ⟨q.x / g.dx - t.1, by field_simp; ring⟩
  obtain ⟨w, hw⟩ : ∃ w : ℝ, q.z = (t.2.2 + w) * g.dz :=
    ⟨q.z / g.dz - t.2.2, by field_simp; ring⟩
  rw [hv] at x1 x2
  rw [hw] at z1 z2
  have v0 := le_of_mul_le_mul_right x1 px
  have v1 := le_of_mul_le_mul_right x2 px
  have w0 := le_of_mul_le_mul_right z1 pz
  have w1 := le_of_mul_le_mul_right z2 pz
  have hu : q.y = (t.2.1 + 0) * g.dy := by linarith
  obtain ⟨qx, qy, qz⟩ := q
  simp only at hv hw hu
  subst hv hw hu
  rcases le_total v w with h1 | h1 <;> rcases le_total (v + w) 1 with h2 | h2
  · refine ⟨3, by norm_num, 1 - (1 - w) - v, (1 - w) - v, 2 * v, by ring, by linarith, by linarith, by linarith, ?_⟩
    simp only [facetPoint, nodeIndirect, halves, halfPoint, Face.num, List.getD_cons_succ, List.getD_cons_zero,
      Nat.reduceMul, Nat.reduceAdd, Vec3.mk.injEq]
    push_cast
    refine ⟨?_, ?_, ?_⟩ <;> ring
  · refine ⟨2, by norm_num, 1 - (1 - v) - (1 - w), (1 - v) - (1 - w), 2 * (1 - w), by ring, by linarith, by linarith, by linarith, ?_⟩
    simp only [facetPoint, nodeIndirect, halves, halfPoint, Face.num, List.getD_cons_succ, List.getD_cons_zero,
      Nat.reduceMul, Nat.reduceAdd, Vec3.mk.injEq]
    push_cast
    refine ⟨?_, ?_, ?_⟩ <;> ring
  · refine ⟨0, by norm_num, 1 - v - w, v - w, 2 * w, by ring, by linarith, by linarith, by linarith, ?_⟩
    simp only [facetPoint, nodeIndirect, halves, halfPoint, Face.num, List.getD_cons_succ, List.getD_cons_zero,
      Nat.reduceMul, Nat.reduceAdd, Vec3.mk.injEq]
    push_cast
    refine ⟨?_, ?_, ?_⟩ <;> ring
  · refine ⟨1, by norm_num, 1 - w - (1 - v), w - (1 - v), 2 * (1 - v), by ring, by linarith, by linarith, by linarith, ?_⟩
    simp only [facetPoint, nodeIndirect, halves, halfPoint, Face.num, List.getD_cons_succ, List.getD_cons_zero,
      Nat.reduceMul, Nat.reduceAdd, Vec3.mk.injEq]
    push_cast
    refine ⟨?_, ?_, ?_⟩ <;> ring

theorem cover_zp {g : Grid ℝ} (hg : BoxGrid g) (t : Nat × Nat × Nat) {q : Vec3 ℝ}
    (hq : InClosedCell g t q) (hp : OnPlane (facePlane g t .zp) q) :
    ∃ k, k < 4 ∧ InTriangle 0 (facetPoint g t (4 * Face.num .zp + k) 0) (facetPoint g t (4 * Face.num .zp + k) 1)
      (facetPoint g t (4 * Face.num .zp + k) 2) q := by
  have px := hg.dx_pos
  have py := hg.dy_pos
  have pz := hg.dz_pos
  obtain ⟨⟨x1, x2⟩, ⟨y1, y2⟩, z1, z2⟩ := hq
  have hp' := hp
  simp only [OnPlane, facePlane] at hp'
  obtain ⟨v, hv⟩ : ∃ v : ℝ, q.x = (t.1 + v) * g.dx :=
    ⟨q.x / g.dx - t.1, by field_simp; ring⟩
  obtain ⟨w, hw⟩ : ∃ w : ℝ, q.y = (t.2.1 + w) * g.dy :=
    ⟨q.y / g.dy - t.2.1, by field_simp; ring⟩
  rw [hv] at x1 x2
  rw [hw] at y1 y2
  have v0 := le_of_mul_le_mul_right x1 px
  have v1 := le_of_mul_le_mul_right x2 px
  have w0 := le_of_mul_le_mul_right y1 py
  have w1 := le_of_mul_le_mul_right y2 py
  have hu : q.z = (t.2.2 + 1) * g.dz := by linarith
  obtain ⟨qx, qy, qz⟩ := q
  simp only at hv hw hu
  subst hv hw hu
  rcases le_total v w with h1 | h1 <;> rcases le_total (v + w) 1 with h2 | h2
  · refine ⟨3, by norm_num, 1 - (1 - w) - v, (1 - w) - v, 2 * v, by ring, by linarith, by linarith, by linarith, ?_⟩
    simp only [facetPoint, nodeIndirect, halves, halfPoint, Face.num, List.getD_cons_succ, List.getD_cons_zero,
      Nat.reduceMul, Nat.reduceAdd, Vec3.mk.injEq]
    push_cast
    refine ⟨?_, ?_, ?_⟩ <;> ring
  · refine ⟨2, by norm_num, 1 - (1 - v) - (1 - w), (1 - v) - (1 - w), 2 * (1 - w), by ring, by linarith, by linarith, by linarith, ?_⟩
    simp only [facetPoint, nodeIndirect, halves, halfPoint, Face.num, List.getD_cons_succ, List.getD_cons_zero,
      Nat.reduceMul, Nat.reduceAdd, Vec3.mk.injEq]
    push_cast
    refine ⟨?_, ?_, ?_⟩ <;> ring
  · refine ⟨0, by norm_num, 1 - v - w, v - w, 2 * w, by ring, by linarith, by linarith, by linarith, ?_⟩
    simp only [facetPoint, nodeIndirect, halves, halfPoint, Face.num, List.getD_cons_succ, List.getD_cons_zero,
      Nat.reduceMul, Nat.reduceAdd, Vec3.mk.injEq]
    push_cast
    refine ⟨?_, ?_, ?_⟩ <;> ring
  · refine ⟨1, by norm_num, 1 - w - (1 - v), w - (1 - v), 2 * (1 - v), by ring, by linarith, by linarith, by linarith, ?_⟩
    simp only [facetPoint, nodeIndirect, halves, halfPoint, Face.num, List.getD_cons_succ, List.getD_cons_zero,
      Nat.reduceMul, Nat.reduceAdd, Vec3.mk.injEq]
    push_cast
    refine ⟨?_, ?_, ?_⟩ <;> ring

theorem cover_zm {g : Grid ℝ} (hg : BoxGrid g) (t : Nat × Nat × Nat) {q : Vec3 ℝ}
    (hq : InClosedCell g t q) (hp : OnPlane (facePlane g t .zm) q) :
    ∃ k, k < 4 ∧ InTriangle 0 (facetPoint g t (4 * Face.num .zm + k) 0) (facetPoint g t (4 * Face.num .zm + k) 1)
      (facetPoint g t (4 * Face.num .zm + k) 2) q := by
  have px := hg.dx_pos
  have py := hg.dy_pos
  have pz := hg.dz_pos
  obtain ⟨⟨x1, x2⟩, ⟨y1, y2⟩, z1, z2⟩ := hq
  have hp' := hp
  simp only [OnPlane, facePlane] at hp'
  obtain ⟨v, hv⟩ : ∃ v : ℝ, q.x = (t.1 + v) * g.dx :=
    ⟨q.x / g.dx - t.1, by field_simp; ring⟩
  obtain ⟨w, hw⟩ : ∃ w : ℝ, q.y = (t.2.1 + w) * g.dy :=
    ⟨q.y / g.dy - t.2.1, by field_simp; ring⟩
  rw [hv] at x1 x2
  rw [hw] at y1 y2
  have v0 := le_of_mul_le_mul_right x1 px
  have v1 := le_of_mul_le_mul_right x2 px
  have w0 := le_of_mul_le_mul_right y1 py
  have w1 := le_of_mul_le_mul_right y2 py
  have hu : q.z = (t.2.2 + 0) * g.dz := by linarith
  obtain ⟨qx, qy, qz⟩ := q
  simp only at hv hw hu
  subst hv hw hu
  rcases le_total v w with h1 | h1 <;> rcases le_total (v + w) 1 with h2 | h2
  · refine ⟨0, by norm_num, 1 - w - v, w - v, 2 * v, by ring, by linarith, by linarith, by linarith, ?_⟩
    simp only [facetPoint, nodeIndirect, halves, halfPoint, Face.num, List.getD_cons_succ, List.getD_cons_zero,
      Nat.reduceMul, Nat.reduceAdd, Vec3.mk.injEq]
    push_cast
    refine ⟨?_, ?_, ?_⟩ <;> ring
  · refine ⟨1, by norm_num, 1 - v - (1 - w), v - (1 - w), 2 * (1 - w), by ring, by linarith, by linarith, by linarith, ?_⟩
    simp only [facetPoint, nodeIndirect, halves, halfPoint, Face.num, List.getD_cons_succ, List.getD_cons_zero,
      Nat.reduceMul, Nat.reduceAdd, Vec3.mk.injEq]
    push_cast
    refine ⟨?_, ?_, ?_⟩ <;> ring
  · refine ⟨3, by norm_num, 1 - (1 - v) - w, (1 - v) - w, 2 * w, by ring, by linarith, by linarith, by linarith, ?_⟩
    simp only [facetPoint, nodeIndirect, halves, halfPoint, Face.num, List.getD_cons_succ, List.getD_cons_zero,
      Nat.reduceMul, Nat.reduceAdd, Vec3.mk.injEq]
    push_cast
    refine ⟨?_, ?_, ?_⟩ <;> ring
  · refine ⟨2, by norm_num, 1 - (1 - w) - (1 - v), (1 - w) - (1 - v), 2 * (1 - v), by ring, by linarith, by linarith, by linarith, ?_⟩
    simp only [facetPoint, nodeIndirect, halves, halfPoint, Face.num, List.getD_cons_succ, List.getD_cons_zero,
      Nat.reduceMul, Nat.reduceAdd, Vec3.mk.injEq]
    push_cast
    refine ⟨?_, ?_, ?_⟩ <;> ring
theorem cover {g : Grid ℝ} (hg : BoxGrid g) (t : Nat × Nat × Nat) (f : Face) {q : Vec3 ℝ}
    (hq : InClosedCell g t q) (hp : OnPlane (facePlane g t f) q) :
    ∃ k, k < 4 ∧ InTriangle 0 (facetPoint g t (4 * f.num + k) 0) (facetPoint g t (4 * f.num + k) 1)
      (facetPoint g t (4 * f.num + k) 2) q := by
  cases f
  · exact cover_xp hg t hq hp
  · exact cover_xm hg t hq hp
  · exact cover_yp hg t hq hp
  · exact cover_ym hg t hq hp
  · exact cover_zp hg t hq hp
  · exact cover_zm hg t hq hp

/-! ### The test of a point against a triangle -/

/-- A weighted mean is not outside of the extent of the corners. -/
theorem outsideExtent_mean {a b c x y z : ℝ} (h : a + b + c = 1) (ha : 0 ≤ a) (hb : 0 ≤ b) (hc : 0 ≤ c) :
    outsideExtent x y z (a * x + b * y + c * z) = false := by
  have hl : ∀ m : ℝ, m < x → m < y → m < z → m < a * x + b * y + c * z := by
    intro m h1 h2 h3
    have e : m = a * m + b * m + c * m := by rw [← add_mul, ← add_mul, h, one_mul]
    have k1 := mul_le_mul_of_nonneg_left h1.le ha
    have k2 := mul_le_mul_of_nonneg_left h2.le hb
    have k3 := mul_le_mul_of_nonneg_left h3.le hc
    rcases ha.lt_or_eq with ha' | ha'
    · have := mul_lt_mul_of_pos_left h1 ha'; linarith
    · rcases hb.lt_or_eq with hb' | hb'
      · have := mul_lt_mul_of_pos_left h2 hb'; linarith
      · have hc' : 0 < c := by linarith
        have := mul_lt_mul_of_pos_left h3 hc'; linarith
  have hu : ∀ m : ℝ, x < m → y < m → z < m → a * x + b * y + c * z < m := by
    intro m h1 h2 h3
    have e : m = a * m + b * m + c * m := by rw [← add_mul, ← add_mul, h, one_mul]
    have k1 := mul_le_mul_of_nonneg_left h1.le ha
    have k2 := mul_le_mul_of_nonneg_left h2.le hb
    have k3 := mul_le_mul_of_nonneg_left h3.le hc
    rcases ha.lt_or_eq with ha' | ha'
    · have := mul_lt_mul_of_pos_left h1 ha'; linarith
    · rcases hb.lt_or_eq with hb' | hb'
      · have := mul_lt_mul_of_pos_left h2 hb'; linarith
      · have hc' : 0 < c := by linarith
        have := mul_lt_mul_of_pos_left h3 hc'; linarith
  unfold outsideExtent
  simp only [lt_eq, add_eq, sub_eq, lit_eq]
  rw [Bool.or_eq_false_iff]
  constructor
  · by_contra hcon
    simp only [Bool.not_eq_false, Bool.and_eq_true, decide_eq_true_eq] at hcon
    have := hl _ hcon.1.1 hcon.1.2 hcon.2
    norm_num at this
  · by_contra hcon
    simp only [Bool.not_eq_false, Bool.and_eq_true, decide_eq_true_eq] at hcon
    have := hu _ hcon.1.1 hcon.1.2 hcon.2
    norm_num at this
    linarith

/-- Points of the triangle pass the sign test. -/
theorem crossesTest_mean {S a b c : ℝ} (hS : S ≠ 0) (h : a + b + c = 1) (ha : 0 ≤ a) (hb : 0 ≤ b) (hc : 0 ≤ c) :
    crossesTest (S * a) (S * b) (S * c) = true := by
  have e : S * a + S * b + S * c = S := by rw [← mul_add, ← mul_add, h, mul_one]
  unfold crossesTest
  simp only [lt_eq, add_eq, mul_eq, neg_eq, abs_eq, lit_eq, e, Bool.or_eq_true, Bool.and_eq_true, decide_eq_true_eq]
  have hp : (0 : ℝ) < ((1 : ℕ) : ℝ) * 10 ^ (-9 : ℤ) := by norm_num
  have ht := mul_pos hp (abs_pos.2 hS)
  rcases hS.lt_or_gt with hs | hs
  · right
    have l := fun x (hx : 0 ≤ x) => mul_nonpos_of_nonpos_of_nonneg hs.le hx
    exact ⟨⟨by linarith [l a ha], by linarith [l b hb]⟩, by linarith [l c hc]⟩
  · left
    have l := fun x (hx : 0 ≤ x) => mul_nonneg hs.le hx
    exact ⟨⟨by linarith [l a ha], by linarith [l b hb]⟩, by linarith [l c hc]⟩

/-- Conversely, the weights of a point that passes the sign test are above `-1e-9`. -/
theorem weights_of_crossesTest {S a b c : ℝ} (hS : S ≠ 0) (h : a + b + c = 1)
    (ht : crossesTest (S * a) (S * b) (S * c) = true) :
    -(1 / 10 ^ 9) ≤ a ∧ -(1 / 10 ^ 9) ≤ b ∧ -(1 / 10 ^ 9) ≤ c := by
  have e : S * a + S * b + S * c = S := by rw [← mul_add, ← mul_add, h, mul_one]
  unfold crossesTest at ht
  simp only [lt_eq, add_eq, mul_eq, neg_eq, abs_eq, lit_eq, e, Bool.or_eq_true, Bool.and_eq_true, decide_eq_true_eq] at ht
  have hp : (1 : ℝ) * 10 ^ (-9 : ℤ) = 1 / 10 ^ 9 := by norm_num
  push_cast at ht
  rw [hp] at ht
  rcases hS.lt_or_gt with hs | hs
  · rw [abs_of_neg hs] at ht
    have k : ∀ x, S * x < 1 / 10 ^ 9 * -S → -(1 / 10 ^ 9) ≤ x := by
      intro x hx
      by_contra hcon
      have := mul_lt_mul_of_neg_left (not_le.1 hcon) hs
      linarith
    rcases ht with ⟨⟨h1, h2⟩, h3⟩ | ⟨⟨h1, h2⟩, h3⟩
    · exfalso; linarith
    · exact ⟨k a h1, k b h2, k c h3⟩
  · rw [abs_of_pos hs] at ht
    have k : ∀ x, -(1 / 10 ^ 9 * S) < S * x → -(1 / 10 ^ 9) ≤ x := by
      intro x hx
      by_contra hcon
      have := mul_lt_mul_of_pos_left (not_le.1 hcon) hs
      linarith
    rcases ht with ⟨⟨h1, h2⟩, h3⟩ | ⟨⟨h1, h2⟩, h3⟩
    · exact ⟨k a h1, k b h2, k c h3⟩
    · exfalso; linarith

/-- Doubled area of a triangle of the plane. -/
def area2 (ax ay bx by_ cx cy : ℝ) : ℝ := (bx - ax) * (cy - ay) - (by_ - ay) * (cx - ax)

theorem cross_mean {ax ay bx by_ cx cy a b c : ℝ} (h : a + b + c = 1) :
    abCrossAc ax ay bx by_ (a * ax + b * bx + c * cx) (a * ay + b * by_ + c * cy)
      = area2 ax ay bx by_ cx cy * c ∧
    abCrossAc bx by_ cx cy (a * ax + b * bx + c * cx) (a * ay + b * by_ + c * cy)
      = area2 ax ay bx by_ cx cy * a ∧
    abCrossAc cx cy ax ay (a * ax + b * bx + c * cx) (a * ay + b * by_ + c * cy)
      = area2 ax ay bx by_ cx cy * b := by
  have ha : a = 1 - b - c := by linarith
  subst ha
  unfold abCrossAc area2
  simp only [sub_eq, mul_eq]
  refine ⟨?_, ?_, ?_⟩ <;> ring

/-- Every point of the plane is a mean of the corners of a triangle that is not flat. -/
theorem exists_weights {ax ay bx by_ cx cy : ℝ} (hS : area2 ax ay bx by_ cx cy ≠ 0) (x y : ℝ) :
    ∃ a b c : ℝ, a + b + c = 1 ∧ x = a * ax + b * bx + c * cx ∧ y = a * ay + b * by_ + c * cy := by
  refine ⟨area2 bx by_ cx cy x y / area2 ax ay bx by_ cx cy, area2 cx cy ax ay x y / area2 ax ay bx by_ cx cy,
    area2 ax ay bx by_ x y / area2 ax ay bx by_ cx cy, ?_, ?_, ?_⟩ <;> field_simp <;> unfold area2 <;> ring

/-- The areas used by the test of a facet. -/
theorem facet_area {g : Grid ℝ} (hg : BoxGrid g) (t : Nat × Nat × Nat) (f : Face) {k : Nat} (hk : k < 4) :
    match f with
    | .xp | .xm => area2 (facetPoint g t (4 * f.num + k) 0).y (facetPoint g t (4 * f.num + k) 0).z
        (facetPoint g t (4 * f.num + k) 1).y (facetPoint g t (4 * f.num + k) 1).z
        (facetPoint g t (4 * f.num + k) 2).y (facetPoint g t (4 * f.num + k) 2).z ≠ 0
    | .yp | .ym => area2 (facetPoint g t (4 * f.num + k) 0).z (facetPoint g t (4 * f.num + k) 0).x
        (facetPoint g t (4 * f.num + k) 1).z (facetPoint g t (4 * f.num + k) 1).x
        (facetPoint g t (4 * f.num + k) 2).z (facetPoint g t (4 * f.num + k) 2).x ≠ 0
    | .zp | .zm => area2 (facetPoint g t (4 * f.num + k) 0).x (facetPoint g t (4 * f.num + k) 0).y
        (facetPoint g t (4 * f.num + k) 1).x (facetPoint g t (4 * f.num + k) 1).y
        (facetPoint g t (4 * f.num + k) 2).x (facetPoint g t (4 * f.num + k) 2).y ≠ 0 := by
  have px := hg.dx_pos
  have py := hg.dy_pos
  have pz := hg.dz_pos
  have h1 : 0 < g.dy * g.dz / 2 := by positivity
  have h2 : 0 < g.dx * g.dz / 2 := by positivity
  have h3 : 0 < g.dx * g.dy / 2 := by positivity
  cases f <;> interval_cases k <;>
    simp only [facetPoint, nodeIndirect, halves, halfPoint, Face.num, List.getD_cons_succ, List.getD_cons_zero,
      Nat.reduceMul, Nat.reduceAdd, area2] <;> push_cast <;> intro hcon <;> nlinarith

theorem distToSegment_of_inTriangle {g : Grid ℝ} (hg : BoxGrid g) (t : Nat × Nat × Nat) (f : Face) {k : Nat}
    (hk : k < 4) {q : Vec3 ℝ} (hq : InTriangle 0 (facetPoint g t (4 * f.num + k) 0)
      (facetPoint g t (4 * f.num + k) 1) (facetPoint g t (4 * f.num + k) 2) q) :
    distToSegment q (facePlane g t f) (facetPoint g t (4 * f.num + k) 0, facetPoint g t (4 * f.num + k) 1,
      facetPoint g t (4 * f.num + k) 2) = true := by
  obtain ⟨a, b, c, hs, ha, hb, hc, rfl⟩ := hq
  rw [neg_zero] at ha hb hc
  have hs' : c + a + b = 1 := by linarith
  have hA := facet_area hg t f hk
  unfold distToSegment
  simp only [lt_eq, abs_eq, lit_eq]
  cases f
  all_goals
    simp only [facePlane] at hA ⊢
    generalize facetPoint g t _ 0 = p0 at *
    generalize facetPoint g t _ 1 = p1 at *
    generalize facetPoint g t _ 2 = p2 at *
    simp only [outsideExtent_mean hs ha hb hc, abs_zero, abs_one, abs_neg, (cross_mean hs).1, (cross_mean hs).2.1,
      (cross_mean hs).2.2, crossesTest_mean hA hs' hc ha hb]
    norm_num

theorem inTriangle_of_distToSegment {g : Grid ℝ} (hg : BoxGrid g) (t : Nat × Nat × Nat) (f : Face) {k : Nat}
    (hk : k < 4) {q : Vec3 ℝ} (hp : OnPlane (facePlane g t f) q)
    (h0 : OnPlane (facePlane g t f) (facetPoint g t (4 * f.num + k) 0))
    (h1 : OnPlane (facePlane g t f) (facetPoint g t (4 * f.num + k) 1))
    (h2 : OnPlane (facePlane g t f) (facetPoint g t (4 * f.num + k) 2))
    (h : distToSegment q (facePlane g t f) (facetPoint g t (4 * f.num + k) 0, facetPoint g t (4 * f.num + k) 1,
      facetPoint g t (4 * f.num + k) 2) = true) :
    InTriangle (1 / 10 ^ 9) (facetPoint g t (4 * f.num + k) 0)
      (facetPoint g t (4 * f.num + k) 1) (facetPoint g t (4 * f.num + k) 2) q := by
  have hA := facet_area hg t f hk
  have hs' : ∀ {a b c : ℝ}, a + b + c = 1 → c + a + b = 1 := fun h => by linarith
  unfold distToSegment at h
  simp only [lt_eq, abs_eq, lit_eq] at h
  obtain ⟨qx, qy, qz⟩ := q
  cases f
  · simp only [facePlane, OnPlane] at hA h hp h0 h1 h2
    generalize facetPoint g t _ 0 = p0 at *
    generalize facetPoint g t _ 1 = p1 at *
    generalize facetPoint g t _ 2 = p2 at *
    obtain ⟨a, b, c, hs, rfl, rfl⟩ := exists_weights hA qy qz
    norm_num at h
    have hw := weights_of_crossesTest hA (hs' hs)
      (by rw [(cross_mean hs).1, (cross_mean hs).2.1, (cross_mean hs).2.2] at h; exact h.2.2)
    refine ⟨a, b, c, hs, hw.2.1, hw.2.2, hw.1, ?_⟩
    have e0 : p0.x = qx := by linarith
    have e1 : p1.x = qx := by linarith
    have e2 : p2.x = qx := by linarith
    rw [e0, e1, e2, ← add_mul, ← add_mul, hs, one_mul]
  · simp only [facePlane, OnPlane] at hA h hp h0 h1 h2
    generalize facetPoint g t _ 0 = p0 at *
    generalize facetPoint g t _ 1 = p1 at *
    generalize facetPoint g t _ 2 = p2 at *
    obtain ⟨a, b, c, hs, rfl, rfl⟩ := exists_weights hA qy qz
    norm_num at h
    have hw := weights_of_crossesTest hA (hs' hs)
      (by rw [(cross_mean hs).1, (cross_mean hs).2.1, (cross_mean hs).2.2] at h; exact h.2.2)
    refine ⟨a, b, c, hs, hw.2.1, hw.2.2, hw.1, ?_⟩
    have e0 : p0.x = qx := by linarith
    have e1 : p1.x = qx := by linarith
    have e2 : p2.x = qx := by linarith
    rw [e0, e1, e2, ← add_mul, ← add_mul, hs, one_mul]
  · simp only [facePlane, OnPlane] at hA h hp h0 h1 h2
    generalize facetPoint g t _ 0 = p0 at *
    generalize facetPoint g t _ 1 = p1 at *
    generalize facetPoint g t _ 2 = p2 at *
    obtain ⟨a, b, c, hs, rfl, rfl⟩ := exists_weights hA qz qx
    norm_num at h
    have hw := weights_of_crossesTest hA (hs' hs)
      (by rw [(cross_mean hs).1, (cross_mean hs).2.1, (cross_mean hs).2.2] at h; exact h.2.2)
    refine ⟨a, b, c, hs, hw.2.1, hw.2.2, hw.1, ?_⟩
    have e0 : p0.y = qy := by linarith
    have e1 : p1.y = qy := by linarith
    have e2 : p2.y = qy := by linarith
    rw [e0, e1, e2, ← add_mul, ← add_mul, hs, one_mul]
  · simp only [facePlane, OnPlane] at hA h hp h0 h1 h2
    generalize facetPoint g t _ 0 = p0 at *
    generalize facetPoint g t _ 1 = p1 at *
    generalize facetPoint g t _ 2 = p2 at *
    obtain ⟨a, b, c, hs, rfl, rfl⟩ := exists_weights hA qz qx
    norm_num at h
    have hw := weights_of_crossesTest hA (hs' hs)
      (by rw [(cross_mean hs).1, (cross_mean hs).2.1, (cross_mean hs).2.2] at h; exact h.2.2)
    refine ⟨a, b, c, hs, hw.2.1, hw.2.2, hw.1, ?_⟩
    have e0 : p0.y = qy := by linarith
    have e1 : p1.y = qy := by linarith
    have e2 : p2.y = qy := by linarith
    rw [e0, e1, e2, ← add_mul, ← add_mul, hs, one_mul]
  · simp only [facePlane, OnPlane] at hA h hp h0 h1 h2
    generalize facetPoint g t _ 0 = p0 at *
    generalize facetPoint g t _ 1 = p1 at *
    generalize facetPoint g t _ 2 = p2 at *
    obtain ⟨a, b, c, hs, rfl, rfl⟩ := exists_weights hA qx qy
    norm_num at h
    have hw := weights_of_crossesTest hA (hs' hs)
      (by rw [(cross_mean hs).1, (cross_mean hs).2.1, (cross_mean hs).2.2] at h; exact h.2.2)
    refine ⟨a, b, c, hs, hw.2.1, hw.2.2, hw.1, ?_⟩
    have e0 : p0.z = qz := by linarith
    have e1 : p1.z = qz := by linarith
    have e2 : p2.z = qz := by linarith
    rw [e0, e1, e2, ← add_mul, ← add_mul, hs, one_mul]
  · simp only [facePlane, OnPlane] at hA h hp h0 h1 h2
    generalize facetPoint g t _ 0 = p0 at *
    generalize facetPoint g t _ 1 = p1 at *
    generalize facetPoint g t _ 2 = p2 at *
    obtain ⟨a, b, c, hs, rfl, rfl⟩ := exists_weights hA qx qy
    norm_num at h
    have hw := weights_of_crossesTest hA (hs' hs)
      (by rw [(cross_mean hs).1, (cross_mean hs).2.1, (cross_mean hs).2.2] at h; exact h.2.2)
    refine ⟨a, b, c, hs, hw.2.1, hw.2.2, hw.1, ?_⟩
    have e0 : p0.z = qz := by linarith
    have e1 : p1.z = qz := by linarith
    have e2 : p2.z = qz := by linarith
    rw [e0, e1, e2, ← add_mul, ← add_mul, hs, one_mul]
