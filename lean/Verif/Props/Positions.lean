import Verif.Props.Cells
import Verif.Lemmas.Uniform
import Mathlib.Data.Matrix.Basic
import Mathlib.LinearAlgebra.Matrix.Determinant.Basic
import Mathlib.LinearAlgebra.Matrix.Notation
/-!
# C58: sourced positions are spread evenly over the cell

A cell is cut into 24 tetrahedra of equal volume, one over each facet.  One number of the generator chooses
the tetrahedron, three more a point inside it.  Over the reals, in the mesh of a single-unit run.
-/
open Flt FltReal GridSpec MeshSpec Flooding
attribute [local irreducible] Rng.lcg Rng.sample Rng.spawn

/-- Specification: `k` is the share of `u` when the unit interval is cut in 24. -/
def ShareOf (u : ℝ) (k : ℕ) : Prop := k < 24 ∧ ((k : ℝ) / 24 < u ∧ u ≤ (k + 1 : ℝ) / 24 ∨ u = 0 ∧ k = 0)

theorem ShareOf.unique {u : ℝ} {k l : ℕ} (hk : ShareOf u k) (hl : ShareOf u l) : k = l := by
  rcases hk with ⟨_, ⟨h1, h2⟩ | ⟨h1, h2⟩⟩ <;> rcases hl with ⟨_, ⟨h3, h4⟩ | ⟨h3, h4⟩⟩
  · rw [div_lt_iff₀ (by norm_num)] at h1 h3
    rw [le_div_iff₀ (by norm_num)] at h2 h4
    have e1 : (k : ℝ) < l + 1 := by linarith
    have e2 : (l : ℝ) < k + 1 := by linarith
    have e1 : k < l + 1 := by exact_mod_cast e1
    have e2 : l < k + 1 := by exact_mod_cast e2
    omega
  · subst h3
    have : (0 : ℝ) ≤ k / 24 := by positivity
    linarith
  · subst h1
    have : (0 : ℝ) ≤ l / 24 := by positivity
    linarith
  · omega

/-- The facet search in a cell whose 24 tetrahedra have the same volume. -/
theorem findFacet_share {mesh : Mesh ℝ} {cell : ℕ} {center : Vec3 ℝ} {v u : ℝ} (hv : 0 < v) (hu : 0 ≤ u) (hu1 : u ≤ 1)
    (pt : ℕ → Vec3 ℝ × Vec3 ℝ × Vec3 ℝ) (hf : ∀ n, n < 24 → mesh.getFacetCoords cell n = .ok (pt n))
    (ht : ∀ n, n < 24 → computeVolume (pt n).1 (pt n).2.1 (pt n).2.2 center = v)
    (m j : ℕ) (hmj : j + m = 24) (hm : 0 < m) (last : Vec3 ℝ × Vec3 ℝ × Vec3 ℝ)
    (hj : (j : ℝ) / 24 < u ∨ j = 0) :
    ∃ k, ShareOf u k ∧ findFacet mesh cell center (24 * u * v) (List.range' j m) (j * v) last = .ok (pt k) := by
  induction m generalizing j last with
  | zero => omega
  | succ m ih =>
    have hj24 : j < 24 := by omega
    rw [List.range'_succ]
    unfold findFacet
    rw [hf j hj24]
    simp only [bind, Except.bind, pure, Except.pure, ht j hj24, add_eq, le_eq, decide_eq_true_eq]
    have e : (j : ℝ) * v + v = ((j + 1 : ℕ) : ℝ) * v := by push_cast; ring
    rw [e]
    by_cases hc : 24 * u * v ≤ ((j + 1 : ℕ) : ℝ) * v
    · rw [if_pos hc]
      have hc' : 24 * u ≤ ((j + 1 : ℕ) : ℝ) := le_of_mul_le_mul_right hc hv
      push_cast at hc'
      refine ⟨j, ⟨hj24, ?_⟩, rfl⟩
      rcases hj with h | h
      · exact .inl ⟨h, by rw [le_div_iff₀ (by norm_num)]; linarith⟩
      · subst h
        rcases hu.eq_or_lt with h0 | h0
        · exact .inr ⟨h0.symm, rfl⟩
        · exact .inl ⟨by simpa using h0, by rw [le_div_iff₀ (by norm_num)]; linarith⟩
    · rw [if_neg hc]
      have hc' : ((j + 1 : ℕ) : ℝ) < 24 * u := lt_of_mul_lt_mul_right (not_le.1 hc) hv.le
      have hm0 : 0 < m := by
        rcases Nat.eq_zero_or_pos m with h | h
        · exfalso
          have : j + 1 = 24 := by omega
          rw [this] at hc'
          push_cast at hc'
          linarith
        · exact h
      exact ih (j + 1) (by omega) hm0 _ (.inl (by rw [div_lt_iff₀ (by norm_num)]; linarith))

/-- **C58, the tetrahedron.**  In every cell of a single-unit run, for every state of the generator: the first number
drawn chooses one of the 24 tetrahedra over the facets of the cell, each for its 24th of the unit interval;
the next three numbers choose the barycentric coordinates of the position in this tetrahedron. -/
theorem C58_tetrahedron {order : IterOrder} (ho : ∀ l, (order l).Perm l) {params : Params ℝ}
    {mats : List (Material ℝ)} (h : SingleUnit params mats) (hroot : params.rootCell < cells params.grid)
    (fuel : Nat) (hfuel : cells params.grid + 1 ≤ fuel) {dom : Domain ℝ}
    (hdom : initMesh order fuel params mats = .ok [dom]) {i c : Nat} (hi : CellAt dom i c)
    {st : CellState ℝ} (hst : dom.cells[i]? = some st) (seed : BitVec 64) :
    ∃ (k : ℕ) (p0 p1 p2 center : Vec3 ℝ) (u r1 r2 r3 : ℝ) (s1 s2 s3 s4 : BitVec 64),
      Rng.sample (T := ℝ) seed = (u, s1) ∧ Rng.sample (T := ℝ) s1 = (r1, s2) ∧ Rng.sample (T := ℝ) s2 = (r2, s3) ∧
      Rng.sample (T := ℝ) s3 = (r3, s4) ∧
      ShareOf u k ∧ dom.mesh.getFacetCoords i k = .ok (p0, p1, p2) ∧
      center = boxCenter params.grid (params.grid.cellIdxToTuple c) ∧
      computeVolume p0 p1 p2 center / 6 = st.volume / 24 ∧
      generateCoordinate3dg seed dom.mesh i st.volume = .ok (
        ⟨(foldBary r1 r2 r3).1 * p0.x + (foldBary r1 r2 r3).2.1 * p1.x + (foldBary r1 r2 r3).2.2.1 * p2.x
            + (foldBary r1 r2 r3).2.2.2 * center.x,
         (foldBary r1 r2 r3).1 * p0.y + (foldBary r1 r2 r3).2.1 * p1.y + (foldBary r1 r2 r3).2.2.1 * p2.y
            + (foldBary r1 r2 r3).2.2.2 * center.y,
         (foldBary r1 r2 r3).1 * p0.z + (foldBary r1 r2 r3).2.1 * p1.z + (foldBary r1 r2 r3).2.2.1 * p2.z
            + (foldBary r1 r2 r3).2.2.2 * center.z⟩, s4) := by
  obtain ⟨bc, cs, nodeOf, hb, _, hat, _⟩ := unit_mesh ho h hroot fuel hfuel hdom
  have hi' := (hat i c).2 hi
  have hc := hb.lt hi'
  have hg := grid_box h
  have px := hg.dx_pos
  have py := hg.dy_pos
  have pz := hg.dz_pos
  have hvol := (C18_volumes ho h hroot fuel hfuel hdom).1 st (List.mem_of_getElem? hst)
  have h01 : ∀ s : BitVec 64, 0 ≤ (Rng.sample (T := ℝ) s).1 ∧ (Rng.sample (T := ℝ) s).1 ≤ 1 := fun s =>
    ⟨(C01_sample_range s).1, (C01_sample_range s).2.1⟩
  have e0 := h01 seed
  generalize hq0 : Rng.sample (T := ℝ) seed = q0 at e0
  obtain ⟨u, s1⟩ := q0
  generalize hq1 : Rng.sample (T := ℝ) s1 = q1
  obtain ⟨r1, s2⟩ := q1
  generalize hq2 : Rng.sample (T := ℝ) s2 = q2
  obtain ⟨r2, s3⟩ := q2
  generalize hq3 : Rng.sample (T := ℝ) s3 = q3
  obtain ⟨r3, s4⟩ := q3
  set v := params.grid.dx * params.grid.dy * params.grid.dz with hv
  have hvpos : 0 < v := by positivity
  obtain ⟨k, hk, hf⟩ := findFacet_share (mesh := dom.mesh) (cell := i)
    (center := boxCenter params.grid (params.grid.cellIdxToTuple c)) (v := v / 4) (by positivity) e0.1 e0.2
    (fun n => (pointCoord params.grid c (nodeIndirect.getD n (0, 0, 0)).1,
      pointCoord params.grid c (nodeIndirect.getD n (0, 0, 0)).2.1,
      pointCoord params.grid c (nodeIndirect.getD n (0, 0, 0)).2.2))
    (fun n hn => hb.facetCoords hi' hn) (fun n hn => tetra hc hn) 24 0 rfl (by norm_num)
    (Vec3.zero, Vec3.zero, Vec3.zero) (.inr rfl)
  refine ⟨k, _, _, _, _, u, r1, r2, r3, s1, s2, s3, s4, rfl, hq1, hq2, hq3, hk, hb.facetCoords hi' hk.1, rfl, ?_, ?_⟩
  · rw [tetra hc hk.1, hvol]; ring
  · unfold generateCoordinate3dg
    rw [hb.position hi', hq0]
    simp only [bind, Except.bind, pure, Except.pure]
    have ew : u *. Flt.ofNat 6 *. st.volume = 24 * u * (v / 4) := by
      rw [hvol]; simp only [mul_eq, ofNat_eq]; push_cast; ring
    have er : (List.range 24) = List.range' 0 24 := by decide
    have ez : (zero : ℝ) = ((0 : ℕ) : ℝ) * (v / 4) := by simp
    rw [ew, er, ez, hf]
    dsimp only
    rw [hq1]
    dsimp only
    rw [hq2]
    dsimp only
    rw [hq3]
    dsimp only
    generalize foldBary r1 r2 r3 = q
    obtain ⟨a, b, d, e⟩ := q
    simp only [Vec3.add, Vec3.smul, add_eq, mul_eq]
    congr 3 <;> ring

/-- **C58, counting.**  Each of the 24 shares is drawn by the same number of states of the generator, up to a
relative error of `2^-46`: `2^64 / 24` each, up to 8192 (and the states that draw zero for the first). -/
theorem C58_states {k : ℕ} (hk : k < 24) :
    |(({s : BitVec 64 | ShareOf (Rng.draw s) k}.ncard : ℕ) : ℝ) - 2 ^ 64 / 24| ≤ 2 ^ 13 := by
  have hfin : ∀ S : Set (BitVec 64), S.Finite := fun S =>
    (Set.finite_of_ncard_ne_zero (by rw [Rng.ncard_states]; positivity) : (Set.univ : Set (BitVec 64)).Finite).subset
      (Set.subset_univ _)
  have hk' : (k : ℝ) + 1 ≤ 24 := by exact_mod_cast hk
  have hup := abs_le.1 (Rng.count_draw_le (x := (k + 1 : ℝ) / 24) (by positivity)
    (by rw [div_le_one (by norm_num)]; exact hk'))
  rcases Nat.eq_zero_or_pos k with rfl | hpos
  · have e : {s : BitVec 64 | ShareOf (Rng.draw s) 0} = {s : BitVec 64 | Rng.draw s ≤ ((0 : ℕ) + 1 : ℝ) / 24} := by
      ext s
      simp only [ShareOf, Set.mem_ofPred_eq]
      have := Rng.draw_nonneg s
      constructor
      · rintro ⟨_, ⟨_, h⟩ | ⟨h, _⟩⟩
        · exact h
        · rw [h]; positivity
      · intro h
        refine ⟨by norm_num, ?_⟩
        rcases this.eq_or_lt with h0 | h0
        · exact .inr ⟨h0.symm, trivial⟩
        · exact .inl ⟨by simpa using h0, h⟩
    rw [e, abs_le]
    push_cast at hup ⊢
    constructor <;> linarith [hup.1, hup.2]
  · have hlo := abs_le.1 (Rng.count_draw_le (x := (k : ℝ) / 24) (by positivity)
      (by rw [div_le_one (by norm_num)]; linarith))
    have hsub : {s : BitVec 64 | Rng.draw s ≤ (k : ℝ) / 24} ⊆ {s : BitVec 64 | Rng.draw s ≤ (k + 1 : ℝ) / 24} := by
      intro s hs
      simp only [Set.mem_ofPred_eq] at hs ⊢
      have : (k : ℝ) / 24 ≤ (k + 1 : ℝ) / 24 := by gcongr; linarith
      linarith
    have e : {s : BitVec 64 | ShareOf (Rng.draw s) k} =
        {s : BitVec 64 | Rng.draw s ≤ (k + 1 : ℝ) / 24} \ {s : BitVec 64 | Rng.draw s ≤ (k : ℝ) / 24} := by
      ext s
      simp only [ShareOf, Set.mem_ofPred_eq, Set.mem_sdiff, not_le]
      constructor
      · rintro ⟨_, ⟨h1, h2⟩ | ⟨_, h⟩⟩
        · exact ⟨h2, h1⟩
        · omega
      · rintro ⟨h1, h2⟩
        exact ⟨hk, .inl ⟨h2, h1⟩⟩
    have hcard := Set.ncard_sdiff_add_ncard_of_subset hsub (hfin _)
    rw [← e] at hcard
    have hcard' : (({s : BitVec 64 | ShareOf (Rng.draw s) k}.ncard : ℕ) : ℝ) +
        (({s : BitVec 64 | Rng.draw s ≤ (k : ℝ) / 24}.ncard : ℕ) : ℝ) =
        (({s : BitVec 64 | Rng.draw s ≤ (k + 1 : ℝ) / 24}.ncard : ℕ) : ℝ) := by exact_mod_cast hcard
    rw [abs_le]
    constructor <;> linarith [hup.1, hup.2, hlo.1, hlo.2]

/-! ### Inside the tetrahedron -/

/-- The six points of the unit cube that are folded on the point `(a, b, c)` of the simplex. -/
def unfolded (a b c : ℝ) : List (ℝ × ℝ × ℝ) :=
  [(a, b, c), (1 - a, 1 - b, c),
   (a, 1 - c - a, 1 - b), (1 - a, c + a, 1 - b),
   (a + c, b, 1 - a - b), (1 - a - c, 1 - b, 1 - a - b)]

/-- **C58, inside.**  The three numbers that place a point in the tetrahedron fold the unit cube exactly six times on
the simplex: every point of the open simplex comes from exactly six points of the cube, each given by an
affine map. -/
theorem C58_fold {a b c : ℝ} (ha : 0 < a) (hb : 0 < b) (hc : 0 < c) (hs : a + b + c < 1) :
    (unfolded a b c).Nodup ∧
    (∀ r ∈ unfolded a b c, 0 < r.1 ∧ r.1 < 1 ∧ 0 < r.2.1 ∧ r.2.1 < 1 ∧ 0 < r.2.2 ∧ r.2.2 < 1) ∧
    ∀ r1 r2 r3 : ℝ, ((0 ≤ r1 ∧ r1 ≤ 1) ∧ (0 ≤ r2 ∧ r2 ≤ 1) ∧ (0 ≤ r3 ∧ r3 ≤ 1) ∧
      foldBary r1 r2 r3 = (a, b, c, 1 - a - b - c)) ↔ (r1, r2, r3) ∈ unfolded a b c := by
  refine ⟨?_, ?_, ?_⟩
  · simp only [unfolded, List.nodup_cons, List.mem_cons, Prod.mk.injEq, List.not_mem_nil, or_false, not_or,
      not_and, not_false_eq_true, List.nodup_nil, and_true]
    refine ⟨⟨?_, ?_, ?_, ?_, ?_⟩, ⟨?_, ?_, ?_, ?_⟩, ⟨?_, ?_, ?_⟩, ⟨?_, ?_⟩, ?_⟩ <;>
      intros <;> linarith
  · intro r hr
    simp only [unfolded, List.mem_cons, List.not_mem_nil, or_false] at hr
    rcases hr with rfl | rfl | rfl | rfl | rfl | rfl <;> simp only <;>
      refine ⟨?_, ?_, ?_, ?_, ?_, ?_⟩ <;> linarith
  · intro r1 r2 r3
    unfold foldBary
    simp only [unfolded, lt_eq, add_eq, sub_eq, one_eq, decide_eq_true_eq, List.mem_cons, Prod.mk.injEq,
      List.not_mem_nil, or_false]
    constructor
    · rintro ⟨⟨_, _⟩, ⟨_, _⟩, ⟨_, _⟩, h⟩
      split_ifs at h <;> simp only at h <;> obtain ⟨h1, h2, h3, _⟩ := h
      · refine .inr (.inr (.inr (.inl ⟨?_, ?_, ?_⟩))) <;> linarith
      · refine .inr (.inr (.inr (.inr (.inr ⟨?_, ?_, ?_⟩)))) <;> linarith
      · refine .inr (.inl ⟨?_, ?_, ?_⟩) <;> linarith
      · refine .inr (.inr (.inl ⟨?_, ?_, ?_⟩)) <;> linarith
      · refine .inr (.inr (.inr (.inr (.inl ⟨?_, ?_, ?_⟩)))) <;> linarith
      · refine .inl ⟨?_, ?_, ?_⟩ <;> linarith
    · rintro (⟨rfl, rfl, rfl⟩ | ⟨rfl, rfl, rfl⟩ | ⟨rfl, rfl, rfl⟩ | ⟨rfl, rfl, rfl⟩ | ⟨rfl, rfl, rfl⟩ |
        ⟨rfl, rfl, rfl⟩) <;>
        refine ⟨⟨by linarith, by linarith⟩, ⟨by linarith, by linarith⟩, ⟨by linarith, by linarith⟩, ?_⟩ <;>
        split_ifs <;> first
          | (exfalso; linarith)
          | (refine ⟨?_, ?_, ?_, ?_⟩ <;> ring)

/-- The linear parts of the six maps of `unfolded`. -/
def unfoldedLinear : List (Matrix (Fin 3) (Fin 3) ℝ) :=
  [!![1, 0, 0; 0, 1, 0; 0, 0, 1], !![-1, 0, 0; 0, -1, 0; 0, 0, 1],
   !![1, 0, 0; -1, 0, -1; 0, -1, 0], !![-1, 0, 0; 1, 0, 1; 0, -1, 0],
   !![1, 0, 1; 0, 1, 0; -1, -1, 0], !![-1, 0, -1; 0, -1, 0; -1, -1, 0]]

/-- **C58, volumes.**  Each of the six maps preserves volumes: with C58, inside, a part of the simplex is hit by a part
of the cube of six times its volume, wherever it is. -/
theorem C58_volume :
    (∀ m ∈ unfoldedLinear, |m.det| = 1) ∧
    ∀ a b c : ℝ, unfolded a b c = List.zipWith (fun (m : Matrix (Fin 3) (Fin 3) ℝ) (o : ℝ × ℝ × ℝ) =>
      (m 0 0 * a + m 0 1 * b + m 0 2 * c + o.1, m 1 0 * a + m 1 1 * b + m 1 2 * c + o.2.1,
       m 2 0 * a + m 2 1 * b + m 2 2 * c + o.2.2)) unfoldedLinear
      [(0, 0, 0), (1, 1, 0), (0, 1, 1), (1, 0, 1), (0, 0, 1), (1, 1, 1)] := by
  constructor
  · intro m hm
    simp only [unfoldedLinear, List.mem_cons, List.not_mem_nil, or_false] at hm
    rcases hm with rfl | rfl | rfl | rfl | rfl | rfl <;> simp [Matrix.det_fin_three]
  · intro a b c
    simp [unfolded, unfoldedLinear]
    refine ⟨?_, ?_, ?_, ?_, ?_, ?_⟩ <;> ring_nf <;> simp

/-- The centre of the simplex meets the hypotheses of `C58_fold`. -/
example : (unfolded (1/4) (1/4) (1/4)).length = 6 ∧ (unfolded (1/4) (1/4) (1/4)).Nodup :=
  ⟨rfl, (C58_fold (a := 1/4) (b := 1/4) (c := 1/4) (by norm_num) (by norm_num) (by norm_num) (by norm_num)).1⟩

/-- The theorem on tetrahedra applies to every cell of the default problem. -/
example (c : Nat) (hc : c < 1000) : ∃ dom i st,
    initMesh id 1001 (defaultProblem 1029384756) defaultMats = .ok [dom] ∧ CellAt dom i c ∧ dom.cells[i]? = some st := by
  obtain ⟨dom, cellAt, _, h1, _, h3, _, h5, _⟩ := C16_mesh (order := id) (fun _ => List.Perm.refl _)
    (default_single (by norm_num)) default_root 1001 (by rw [default_cells])
  obtain ⟨i, hi⟩ := List.getElem?_of_mem (h3.perm.mem_iff.2 (List.mem_range.2
    (show c < cells (defaultProblem 1029384756).grid by rw [default_cells]; exact hc)))
  have hat := (h5 i c).1 hi
  obtain ⟨_, _, _, _, _, _, h⟩ := unit_mesh (order := id) (fun _ => List.Perm.refl _)
    (default_single (by norm_num)) default_root 1001 (by rw [default_cells]) h1
  obtain ⟨st, hst, _⟩ := h i c hat
  exact ⟨dom, i, st, h1, hat, hst⟩
