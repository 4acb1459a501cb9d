import Verif.Props.Mesh
/-!
# Facet planes (C17), volumes (C18) and sourced positions (C19)

Over the reals, in the mesh of a single-unit run.
-/
open Flt FltReal GridSpec MeshSpec Flooding
attribute [local irreducible] Rng.lcg Rng.sample Rng.spawn

/-- The point is on the plane. -/
def OnPlane (pl : Plane ℝ) (r : Vec3 ℝ) : Prop := pl.a * r.x + pl.b * r.y + pl.c * r.z + pl.d = 0

/-- The normal of the plane has length one. -/
def UnitNormal (pl : Plane ℝ) : Prop := pl.a ^ 2 + pl.b ^ 2 + pl.c ^ 2 = 1

/-- The three points are on a line. -/
def Aligned (r0 r1 r2 : Vec3 ℝ) : Prop :=
  (r1.y - r0.y) * (r2.z - r0.z) = (r1.z - r0.z) * (r2.y - r0.y) ∧
  (r1.z - r0.z) * (r2.x - r0.x) = (r1.x - r0.x) * (r2.z - r0.z) ∧
  (r1.x - r0.x) * (r2.y - r0.y) = (r1.y - r0.y) * (r2.x - r0.x)

/-- `Aligned` says what it should: the points are aligned exactly when the first two are equal or the
third is on the line through them. -/
theorem aligned_iff (r0 r1 r2 : Vec3 ℝ) : Aligned r0 r1 r2 ↔
    (r0 = r1 ∨ ∃ k : ℝ, r2 = ⟨r0.x + k * (r1.x - r0.x), r0.y + k * (r1.y - r0.y), r0.z + k * (r1.z - r0.z)⟩) := by
  constructor
  · rintro ⟨h1, h2, h3⟩
    by_cases hx : r1.x - r0.x = 0
    · by_cases hy : r1.y - r0.y = 0
      · by_cases hz : r1.z - r0.z = 0
        · left
          obtain ⟨a, b, c⟩ := r0
          obtain ⟨a', b', c'⟩ := r1
          simp only [Vec3.mk.injEq] at hx hy hz ⊢
          exact ⟨by linarith, by linarith, by linarith⟩
        · right
          refine ⟨(r2.z - r0.z) / (r1.z - r0.z), ?_⟩
          rw [hx] at h2
          rw [hy] at h1
          have e1 : r2.x - r0.x = 0 := by
            have : (r1.z - r0.z) * (r2.x - r0.x) = 0 := by linarith
            exact (mul_eq_zero.1 this).resolve_left hz
          have e2 : r2.y - r0.y = 0 := by
            have : (r1.z - r0.z) * (r2.y - r0.y) = 0 := by linarith
            exact (mul_eq_zero.1 this).resolve_left hz
          rw [hx, hy, div_mul_cancel₀ _ hz]
          obtain ⟨a, b, c⟩ := r2
          simp only [Vec3.mk.injEq] at e1 e2 ⊢
          exact ⟨by linarith, by linarith, by linarith⟩
      · right
        refine ⟨(r2.y - r0.y) / (r1.y - r0.y), ?_⟩
        rw [hx] at h3
        have e1 : r2.x - r0.x = 0 := by
          have : (r1.y - r0.y) * (r2.x - r0.x) = 0 := by linarith
          exact (mul_eq_zero.1 this).resolve_left hy
        have e2 : r2.z - r0.z = (r2.y - r0.y) / (r1.y - r0.y) * (r1.z - r0.z) := by
          field_simp; linarith
        rw [hx, div_mul_cancel₀ _ hy, ← e2]
        obtain ⟨a, b, c⟩ := r2
        simp only [Vec3.mk.injEq] at e1 ⊢
        exact ⟨by linarith, by linarith, by linarith⟩
    · right
      refine ⟨(r2.x - r0.x) / (r1.x - r0.x), ?_⟩
      have e1 : r2.y - r0.y = (r2.x - r0.x) / (r1.x - r0.x) * (r1.y - r0.y) := by field_simp; linarith
      have e2 : r2.z - r0.z = (r2.x - r0.x) / (r1.x - r0.x) * (r1.z - r0.z) := by field_simp; linarith
      rw [div_mul_cancel₀ _ hx, ← e1, ← e2]
      obtain ⟨a, b, c⟩ := r2
      simp only [Vec3.mk.injEq]
      exact ⟨by linarith, by linarith, by linarith⟩
  · rintro (rfl | ⟨k, rfl⟩)
    · refine ⟨?_, ?_, ?_⟩ <;> ring
    · refine ⟨?_, ?_, ?_⟩ <;> simp only <;> ring

/-- **C17** (any triangle).  Three points that are not aligned give a plane with a unit normal that
contains them. -/
theorem C17_triangle (r0 r1 r2 : Vec3 ℝ) (h : ¬ Aligned r0 r1 r2) :
    UnitNormal (Plane.new r0 r1 r2) ∧ OnPlane (Plane.new r0 r1 r2) r0 ∧
    OnPlane (Plane.new r0 r1 r2) r1 ∧ OnPlane (Plane.new r0 r1 r2) r2 := by
  obtain ⟨a, ha⟩ : ∃ a, (r1.y - r0.y) * (r2.z - r0.z) - (r1.z - r0.z) * (r2.y - r0.y) = a := ⟨_, rfl⟩
  obtain ⟨b, hb⟩ : ∃ b, (r1.z - r0.z) * (r2.x - r0.x) - (r1.x - r0.x) * (r2.z - r0.z) = b := ⟨_, rfl⟩
  obtain ⟨c, hc⟩ : ∃ c, (r1.x - r0.x) * (r2.y - r0.y) - (r1.y - r0.y) * (r2.x - r0.x) = c := ⟨_, rfl⟩
  have hpos : 0 < a * a + b * b + c * c := by
    by_contra hcon
    have h1 : a = 0 := by nlinarith [mul_self_nonneg a, mul_self_nonneg b, mul_self_nonneg c]
    have h2 : b = 0 := by nlinarith [mul_self_nonneg a, mul_self_nonneg b, mul_self_nonneg c]
    have h3 : c = 0 := by nlinarith [mul_self_nonneg a, mul_self_nonneg b, mul_self_nonneg c]
    exact h ⟨by linarith, by linarith, by linarith⟩
  have hm := Real.sqrt_pos.2 hpos
  have hmm := (Real.mul_self_sqrt hpos.le).symm
  rw [plane_of_cross r0 r1 r2 ha hb hc hm hmm]
  set m := Real.sqrt (a * a + b * b + c * c)
  refine ⟨?_, ?_, ?_, ?_⟩
  · unfold UnitNormal
    simp only
    rw [div_pow, div_pow, div_pow, ← add_div, ← add_div, div_eq_one_iff_eq (by positivity)]
    linarith
  · unfold OnPlane; simp only; ring
  · unfold OnPlane
    simp only
    have : a * (r1.x - r0.x) + b * (r1.y - r0.y) + c * (r1.z - r0.z) = 0 := by
      rw [← ha, ← hb, ← hc]; ring
    have h2 : (a * (r1.x - r0.x) + b * (r1.y - r0.y) + c * (r1.z - r0.z)) / m = 0 := by rw [this, zero_div]
    rw [← h2]; ring
  · unfold OnPlane
    simp only
    have : a * (r2.x - r0.x) + b * (r2.y - r0.y) + c * (r2.z - r0.z) = 0 := by
      rw [← ha, ← hb, ← hc]; ring
    have h2 : (a * (r2.x - r0.x) + b * (r2.y - r0.y) + c * (r2.z - r0.z)) / m = 0 := by rw [this, zero_div]
    rw [← h2]; ring

/-- Aligned points give the plane `x = 0`, which need not contain them. -/
theorem C17_aligned (r0 r1 r2 : Vec3 ℝ) (h : Aligned r0 r1 r2) : Plane.new r0 r1 r2 = ⟨1, 0, 0, 0⟩ := by
  obtain ⟨h1, h2, h3⟩ := h
  unfold Plane.new
  simp only [sub_eq, mul_eq, add_eq, div_eq, neg_eq, one_eq, zero_eq, sqrt_eq, beq_eq, h1, h2, h3, sub_self]
  simp

example : ¬ Aligned ⟨0, 0, 0⟩ ⟨1, 2, 3⟩ ⟨-1, 0, 5⟩ := by
  rintro ⟨h, _, _⟩
  norm_num at h

/-- Points of a cell are in its closed box. -/
theorem halfPoint_in {g : Grid ℝ} (hg : BoxGrid g) (t h : Nat × Nat × Nat)
    (hh : h.1 ≤ 2 ∧ h.2.1 ≤ 2 ∧ h.2.2 ≤ 2) : InClosedCell g t (halfPoint g t h) := by
  have px := hg.dx_pos.le
  have py := hg.dy_pos.le
  have pz := hg.dz_pos.le
  obtain ⟨h1, h2, h3⟩ := hh
  have b1 : (h.1 : ℝ) ≤ 2 := by exact_mod_cast h1
  have b2 : (h.2.1 : ℝ) ≤ 2 := by exact_mod_cast h2
  have b3 : (h.2.2 : ℝ) ≤ 2 := by exact_mod_cast h3
  have c1 : (0 : ℝ) ≤ h.1 := Nat.cast_nonneg _
  have c2 : (0 : ℝ) ≤ h.2.1 := Nat.cast_nonneg _
  have c3 : (0 : ℝ) ≤ h.2.2 := Nat.cast_nonneg _
  unfold InClosedCell halfPoint
  simp only
  refine ⟨⟨?_, ?_⟩, ⟨?_, ?_⟩, ?_, ?_⟩ <;> apply mul_le_mul_of_nonneg_right <;> linarith

theorem halves_le : ∀ m, m < 14 → (halves.getD m (0, 0, 0)).1 ≤ 2 ∧ (halves.getD m (0, 0, 0)).2.1 ≤ 2 ∧
    (halves.getD m (0, 0, 0)).2.2 ≤ 2 := by decide

theorem pointCoord_in {g : Grid ℝ} (hg : BoxGrid g) {c m : Nat} (hc : c < cells g) (hm : m < 14) :
    InClosedCell g (g.cellIdxToTuple c) (pointCoord g c m) := by
  rw [pointCoord_eq hc hm]
  exact halfPoint_in hg _ _ (halves_le m hm)

/-- The corners of a facet of a face are on that face. -/
theorem facet_on_face {g : Grid ℝ} {c : Nat} (hc : c < cells g) (f : Face) {k : Nat} (hk : k < 4) :
    OnPlane (facePlane g (g.cellIdxToTuple c) f) (pointCoord g c (nodeIndirect.getD (4 * f.num + k) (0, 0, 0)).1) ∧
    OnPlane (facePlane g (g.cellIdxToTuple c) f) (pointCoord g c (nodeIndirect.getD (4 * f.num + k) (0, 0, 0)).2.1) ∧
    OnPlane (facePlane g (g.cellIdxToTuple c) f) (pointCoord g c (nodeIndirect.getD (4 * f.num + k) (0, 0, 0)).2.2) := by
  have hn : 4 * f.num + k < 24 := by have := num_lt f; omega
  obtain ⟨l1, l2, l3⟩ := indirect_lt _ hn
  rw [pointCoord_eq hc l1, pointCoord_eq hc l2, pointCoord_eq hc l3]
  generalize g.cellIdxToTuple c = t
  cases f <;> interval_cases k <;>
    simp [OnPlane, nodeIndirect, Face.num, halves, halfPoint, facePlane]

theorem facePlane_unit (g : Grid ℝ) (t : Nat × Nat × Nat) (f : Face) : UnitNormal (facePlane g t f) := by
  cases f <;> simp [UnitNormal, facePlane]

theorem facePlane_outward (g : Grid ℝ) (t : Nat × Nat × Nat) (f : Face) {r : Vec3 ℝ}
    (hr : InClosedCell g t r) :
    (facePlane g t f).a * r.x + (facePlane g t f).b * r.y + (facePlane g t f).c * r.z
      + (facePlane g t f).d ≤ 0 := by
  obtain ⟨⟨h1, h2⟩, ⟨h3, h4⟩, h5, h6⟩ := hr
  cases f <;> simp only [facePlane] <;> linarith

section
variable {order : IterOrder} (ho : ∀ l, (order l).Perm l) {params : Params ℝ}
  {mats : List (Material ℝ)} (h : SingleUnit params mats) (hroot : params.rootCell < cells params.grid)
  (fuel : Nat) (hfuel : cells params.grid + 1 ≤ fuel) {dom : Domain ℝ}
  (hdom : initMesh order fuel params mats = .ok [dom])
include ho h hroot hfuel hdom

/-- What is known of the mesh of a single-unit run. -/
theorem unit_mesh : ∃ (bc : List AdjEvent) (cs : List Nat) (nodeOf : Nat → Nat),
    Built params.grid bc cs nodeOf dom.mesh ∧ dom.cells.length = cells params.grid ∧
    (∀ i c, cs[i]? = some c ↔ CellAt dom i c) ∧
    ∀ i c, CellAt dom i c → ∃ st, dom.cells[i]? = some st ∧
        cellStateOf params.grid params.geometries mats dom.mesh i = .ok st := by
  obtain ⟨dom', bc, cs, nodeOf, h1, h2, h3, -, -, h6, h7⟩ := initMesh_spec ho h hroot fuel hfuel
  rw [hdom] at h1
  cases h1
  have hat := cellAt_iff h h3 h6 h7
  exact ⟨bc, cs, nodeOf, h3, h6, hat, fun i c hc => h7 i c ((hat i c).2 hc)⟩

/-- **C17** (facets).  The plane of every facet of every cell has a unit normal, contains the three
corners of the facet, and has the whole cell on its non-positive side. -/
theorem C17_facet_planes {i c : Nat} (hi : CellAt dom i c) {n : Nat} (hn : n < 24) :
    ∃ (planes : List (Plane ℝ)) (pl : Plane ℝ) (p0 p1 p2 : Vec3 ℝ),
      dom.mesh.cellGeometry[i]? = some planes ∧ planes[n]? = some pl ∧
      dom.mesh.getFacetCoords i n = .ok (p0, p1, p2) ∧
      UnitNormal pl ∧ OnPlane pl p0 ∧ OnPlane pl p1 ∧ OnPlane pl p2 ∧
      ∀ r, InClosedCell params.grid (params.grid.cellIdxToTuple c) r →
        pl.a * r.x + pl.b * r.y + pl.c * r.z + pl.d ≤ 0 := by
  obtain ⟨bc, cs, nodeOf, hb, _, hat, _⟩ := unit_mesh ho h hroot fuel hfuel hdom
  have hi' := (hat i c).2 hi
  have hc := hb.lt hi'
  obtain ⟨f, k, hk, rfl⟩ := face_of_facet hn
  obtain ⟨q1, q2, q3⟩ := facet_on_face hc f hk
  refine ⟨(List.range 24).map fun n => planeOf params.grid c n,
    facePlane params.grid (params.grid.cellIdxToTuple c) f, _, _, _, ?_, ?_,
    hb.facetCoords hi' hn, facePlane_unit _ _ f, q1, q2, q3, fun r hr => facePlane_outward _ _ f hr⟩
  · rw [hb.geom, List.getElem?_map, hi']; rfl
  · rw [List.getElem?_map, List.getElem?_range hn, Option.map_some, planeOf_eq (grid_box h) hc f hk]

/-- **C18.**  The volume recorded for every cell is that of its box, and the volumes of all the cells
add up to that of the problem. -/
theorem C18_volumes :
    (∀ st ∈ dom.cells, st.volume = params.grid.dx * params.grid.dy * params.grid.dz) ∧
    (dom.cells.map (·.volume)).sum
      = params.simulation.lx * params.simulation.ly * params.simulation.lz := by
  obtain ⟨bc, cs, nodeOf, hb, hlen, hat, hst⟩ := unit_mesh ho h hroot fuel hfuel hdom
  have hvol : ∀ st ∈ dom.cells, st.volume = params.grid.dx * params.grid.dy * params.grid.dz := by
    intro st hm
    obtain ⟨i, hi⟩ := List.getElem?_of_mem hm
    have hlt : i < cs.length := by
      rw [hb.perm.length_eq, List.length_range, ← hlen]
      exact (List.getElem?_eq_some_iff.1 hi).1
    have hci := List.getElem?_eq_getElem hlt
    obtain ⟨st', h1, h2⟩ := hst i _ ((hat i _).1 hci)
    rw [hi] at h1
    cases h1
    obtain ⟨k, m, _, _, e⟩ := cellState_spec h hb hci
    rw [e] at h2
    rw [← Except.ok.inj h2]
  refine ⟨hvol, ?_⟩
  have hg := grid_box h
  rw [List.map_congr_left hvol, List.map_const', List.sum_replicate, hlen, nsmul_eq_mul]
  have e1 : params.simulation.lx = params.grid.nx * params.grid.dx := hg.lx_eq
  have e2 : params.simulation.ly = params.grid.ny * params.grid.dy := hg.ly_eq
  have e3 : params.simulation.lz = params.grid.nz * params.grid.dz := hg.lz_eq
  rw [e1, e2, e3]
  unfold cells
  push_cast
  ring

end

/-! ### Sourced positions -/

theorem foldBary_spec {r1 r2 r3 : ℝ} (h1 : 0 ≤ r1 ∧ r1 ≤ 1) (h2 : 0 ≤ r2 ∧ r2 ≤ 1) (h3 : 0 ≤ r3 ∧ r3 ≤ 1) :
    ∃ a b c d, foldBary r1 r2 r3 = (a, b, c, d) ∧ 0 ≤ a ∧ 0 ≤ b ∧ 0 ≤ c ∧ 0 ≤ d ∧ a + b + c + d = 1 := by
  obtain ⟨h1, h1'⟩ := h1
  obtain ⟨h2, h2'⟩ := h2
  obtain ⟨h3, h3'⟩ := h3
  unfold foldBary
  simp only [lt_eq, add_eq, sub_eq, one_eq, decide_eq_true_eq]
  refine ⟨_, _, _, _, rfl, ?_⟩
  split_ifs <;> simp only <;> refine ⟨?_, ?_, ?_, ?_, ?_⟩ <;> linarith

/-- The facet search always ends with the corners of a facet of the cell. -/
theorem findFacet_spec {mesh : Mesh ℝ} {cell : Nat} {center : Vec3 ℝ} {which : ℝ}
    (P : Vec3 ℝ × Vec3 ℝ × Vec3 ℝ → Prop) (fs : List Nat) (current : ℝ) (last : Vec3 ℝ × Vec3 ℝ × Vec3 ℝ)
    (hf : ∀ n ∈ fs, ∃ pts, mesh.getFacetCoords cell n = .ok pts ∧ P pts) (hl : fs = [] → P last) :
    ∃ pts, findFacet mesh cell center which fs current last = .ok pts ∧ P pts := by
  induction fs generalizing current last with
  | nil => exact ⟨last, rfl, hl rfl⟩
  | cons n fs ih =>
    obtain ⟨pts, e, hp⟩ := hf n (by simp)
    unfold findFacet
    rw [e]
    simp only [bind, Except.bind, pure, Except.pure]
    split
    · exact ⟨pts, rfl, hp⟩
    · exact ih _ pts (fun m hm => hf m (by simp [hm])) fun _ => hp

theorem convex_in {g : Grid ℝ} {t : Nat × Nat × Nat} {p q r s : Vec3 ℝ} {a b c d : ℝ}
    (hp : InClosedCell g t p) (hq : InClosedCell g t q) (hr : InClosedCell g t r) (hs : InClosedCell g t s)
    (ha : 0 ≤ a) (hb : 0 ≤ b) (hc : 0 ≤ c) (hd : 0 ≤ d) (hsum : a + b + c + d = 1) :
    InClosedCell g t ((((p.smul a).add (q.smul b)).add (r.smul c)).add (s.smul d)) := by
  have hd' : d = 1 - a - b - c := by linarith
  have lo : ∀ {l x y z w : ℝ}, l ≤ x → l ≤ y → l ≤ z → l ≤ w → l ≤ x * a + y * b + z * c + w * d := by
    intro l x y z w h1 h2 h3 h4
    have := mul_le_mul_of_nonneg_right h1 ha
    have := mul_le_mul_of_nonneg_right h2 hb
    have := mul_le_mul_of_nonneg_right h3 hc
    have := mul_le_mul_of_nonneg_right h4 hd
    have e : l = l * a + l * b + l * c + l * d := by rw [← mul_add, ← mul_add, ← mul_add, hsum, mul_one]
    linarith
  have up : ∀ {l x y z w : ℝ}, x ≤ l → y ≤ l → z ≤ l → w ≤ l → x * a + y * b + z * c + w * d ≤ l := by
    intro l x y z w h1 h2 h3 h4
    have := mul_le_mul_of_nonneg_right h1 ha
    have := mul_le_mul_of_nonneg_right h2 hb
    have := mul_le_mul_of_nonneg_right h3 hc
    have := mul_le_mul_of_nonneg_right h4 hd
    have e : l = l * a + l * b + l * c + l * d := by rw [← mul_add, ← mul_add, ← mul_add, hsum, mul_one]
    linarith
  obtain ⟨⟨p1, p2⟩, ⟨p3, p4⟩, p5, p6⟩ := hp
  obtain ⟨⟨q1, q2⟩, ⟨q3, q4⟩, q5, q6⟩ := hq
  obtain ⟨⟨r1, r2⟩, ⟨r3, r4⟩, r5, r6⟩ := hr
  obtain ⟨⟨s1, s2⟩, ⟨s3, s4⟩, s5, s6⟩ := hs
  unfold InClosedCell
  simp only [Vec3.add, Vec3.smul, add_eq, mul_eq]
  exact ⟨⟨lo p1 q1 r1 s1, up p2 q2 r2 s2⟩, ⟨lo p3 q3 r3 s3, up p4 q4 r4 s4⟩, lo p5 q5 r5 s5, up p6 q6 r6 s6⟩

theorem center_in {g : Grid ℝ} (hg : BoxGrid g) (t : Nat × Nat × Nat) : InClosedCell g t (boxCenter g t) := by
  have px := hg.dx_pos
  have py := hg.dy_pos
  have pz := hg.dz_pos
  unfold InClosedCell boxCenter
  refine ⟨⟨?_, ?_⟩, ⟨?_, ?_⟩, ?_, ?_⟩ <;> simp only <;> linarith

/-- **C19.**  For every state of the generator and every cell of a single-unit run, a position is drawn
without failure, in the closed box of the cell. -/
theorem C19_position_in_cell {order : IterOrder} (ho : ∀ l, (order l).Perm l) {params : Params ℝ}
    {mats : List (Material ℝ)} (h : SingleUnit params mats) (hroot : params.rootCell < cells params.grid)
    (fuel : Nat) (hfuel : cells params.grid + 1 ≤ fuel) {dom : Domain ℝ}
    (hdom : initMesh order fuel params mats = .ok [dom]) {i c : Nat} (hi : CellAt dom i c)
    (seed : BitVec 64) (volume : ℝ) :
    ∃ r s, generateCoordinate3dg seed dom.mesh i volume = .ok (r, s) ∧
      InClosedCell params.grid (params.grid.cellIdxToTuple c) r := by
  obtain ⟨bc, cs, nodeOf, hb, _, hat, _⟩ := unit_mesh ho h hroot fuel hfuel hdom
  have hi' := (hat i c).2 hi
  have hc := hb.lt hi'
  have hg := grid_box h
  have h01 : ∀ s : BitVec 64, 0 ≤ (Rng.sample (T := ℝ) s).1 ∧ (Rng.sample (T := ℝ) s).1 ≤ 1 := fun s =>
    ⟨(C01_sample_range s).1, (C01_sample_range s).2.1⟩
  unfold generateCoordinate3dg
  rw [hb.position hi']
  have e0 := h01 seed
  generalize Rng.sample (T := ℝ) seed = q0 at *
  obtain ⟨u, s0⟩ := q0
  obtain ⟨⟨p0, p1, p2⟩, hf, i0, i1, i2⟩ := findFacet_spec (mesh := dom.mesh) (cell := i)
    (center := boxCenter params.grid (params.grid.cellIdxToTuple c)) (which := u *. Flt.ofNat 6 *. volume)
    (fun pts => InClosedCell params.grid (params.grid.cellIdxToTuple c) pts.1 ∧
      InClosedCell params.grid (params.grid.cellIdxToTuple c) pts.2.1 ∧
      InClosedCell params.grid (params.grid.cellIdxToTuple c) pts.2.2) (List.range 24) zero
    (Vec3.zero, Vec3.zero, Vec3.zero) (by
      intro n hn
      obtain ⟨l1, l2, l3⟩ := indirect_lt _ (List.mem_range.1 hn)
      exact ⟨_, hb.facetCoords hi' (List.mem_range.1 hn), pointCoord_in hg hc l1, pointCoord_in hg hc l2,
        pointCoord_in hg hc l3⟩) (by intro h; simp at h)
  simp only [bind, Except.bind, pure, Except.pure, hf]
  have e1 := h01 s0
  generalize Rng.sample (T := ℝ) s0 = q1 at *
  obtain ⟨r1, s1⟩ := q1
  dsimp only
  have e2 := h01 s1
  generalize Rng.sample (T := ℝ) s1 = q2 at *
  obtain ⟨r2, s2⟩ := q2
  dsimp only
  have e3 := h01 s2
  generalize Rng.sample (T := ℝ) s2 = q3 at *
  obtain ⟨r3, s3⟩ := q3
  dsimp only
  obtain ⟨a, b, d, e, hfold, a0, b0, d0, e0', hsum⟩ := foldBary_spec e1 e2 e3
  rw [hfold]
  exact ⟨_, _, rfl, convex_in i0 i1 i2 (center_in hg _) a0 b0 d0 e0' hsum⟩

/-- The theorems of this file apply to every cell of the default problem. -/
example (c : Nat) (hc : c < 1000) : ∃ dom i,
    initMesh id 1001 (defaultProblem 1029384756) defaultMats = .ok [dom] ∧ CellAt dom i c := by
  obtain ⟨dom, cellAt, _, h1, _, h3, _, h5, _⟩ := C16_mesh (order := id) (fun _ => List.Perm.refl _)
    (default_single (by norm_num)) default_root 1001 (by rw [default_cells])
  obtain ⟨i, hi⟩ := List.getElem?_of_mem (h3.perm.mem_iff.2 (List.mem_range.2
    (show c < cells (defaultProblem 1029384756).grid by rw [default_cells]; exact hc)))
  exact ⟨dom, i, h1, (h5 i c).1 hi⟩
