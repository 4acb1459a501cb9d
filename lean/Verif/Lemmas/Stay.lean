import Verif.Props.Exit
import Verif.Spec.Home
/-!
# A segment stays in its cell: helper lemmas
-/
open Flt FltReal GridSpec MeshSpec Flooding
attribute [local irreducible] Rng.lcg Rng.sample Rng.spawn

theorem along_zero (r d : Vec3 ℝ) : along r d 0 = r := by unfold along; simp

/-- Every ray from a point of a closed cell leaves the cell. -/
theorem exit_closed {g : Grid ℝ} (hg : BoxGrid g) {t : Nat × Nat × Nat} {r d : Vec3 ℝ}
    (hr : InClosedCell g t r) (hd : d.x ^ 2 + d.y ^ 2 + d.z ^ 2 = 1) :
    ∃ s, 0 ≤ s ∧ ExitsAt g t r d s := by
  have px := hg.dx_pos
  have py := hg.dy_pos
  have pz := hg.dz_pos
  have hcl := inClosed_iff.1 hr
  have hstep : ∀ f, ∃ e : ℝ, 0 ≤ e ∧ (∀ u, 0 ≤ u → u ≤ e → (facePlane g t f).at (along r d u) ≤ 0) ∧
      ((∀ u, e < u → 0 < (facePlane g t f).at (along r d u)) ∨ e = g.dx + g.dy + g.dz + 1) := by
    intro f
    have h1 := hcl f
    by_cases hc : 0 < (facePlane g t f).cos d
    · refine ⟨-(facePlane g t f).at r / (facePlane g t f).cos d,
        div_nonneg (by linarith) hc.le, ?_, Or.inl ?_⟩
      · intro u _ hue
        rw [le_div_iff₀ hc] at hue
        rw [Plane.at_along]
        linarith
      · intro u hue
        rw [div_lt_iff₀ hc] at hue
        rw [Plane.at_along]
        linarith
    · refine ⟨_, by positivity, fun u hu _ => ?_, Or.inr rfl⟩
      rw [Plane.at_along]
      have := mul_nonpos_of_nonneg_of_nonpos hu (not_lt.1 hc)
      linarith
  choose e he hin hout using hstep
  let m := Min.min (Min.min (Min.min (e .xp) (e .xm)) (Min.min (e .yp) (e .ym))) (Min.min (e .zp) (e .zm))
  have hm : 0 ≤ m := by
    simp only [m, le_min_iff]
    exact ⟨⟨⟨he _, he _⟩, he _, he _⟩, he _, he _⟩
  have hle : ∀ f, m ≤ e f := by
    intro f
    cases f <;> simp [m]
  have hme : ∃ f, m = e f := by
    simp only [m]
    rcases min_choice (Min.min (Min.min (e .xp) (e .xm)) (Min.min (e .yp) (e .ym))) (Min.min (e .zp) (e .zm)) with h | h <;> rw [h]
    · rcases min_choice (Min.min (e .xp) (e .xm)) (Min.min (e .yp) (e .ym)) with h | h <;> rw [h]
      · rcases min_choice (e .xp) (e .xm) with h | h <;> exact ⟨_, h⟩
      · rcases min_choice (e .yp) (e .ym) with h | h <;> exact ⟨_, h⟩
    · rcases min_choice (e .zp) (e .zm) with h | h <;> exact ⟨_, h⟩
  have hinm : ∀ u, 0 ≤ u → u ≤ m → InClosedCell g t (along r d u) := fun u hu hum =>
    inClosed_iff.2 fun f => hin f u hu (hum.trans (hle f))
  refine ⟨m, hm, hinm, fun u hu hcon => ?_⟩
  obtain ⟨f, hf⟩ := hme
  rcases hout f with h | h
  · have := inClosed_iff.1 hcon f
    have := h u (hf ▸ hu)
    linarith
  · have := inside_bound hg (hinm 0 le_rfl hm) (hinm m hm le_rfl) hd
    rw [hf, h] at this
    linarith

/-- A facet is not found from a point beyond another face, seen by the extent test. -/
theorem not_distToSegment {g : Grid ℝ} {t : Nat × Nat × Nat} {f f' : Face} {q p0 p1 p2 : Vec3 ℝ}
    (h0 : InClosedCell g t p0) (h1 : InClosedCell g t p1) (h2 : InClosedCell g t p2)
    (hne : f ≠ f') (hop : f ≠ f'.opposite) (hq : 1 / 10 ^ 9 < (facePlane g t f).at q) :
    distToSegment q (facePlane g t f') (p0, p1, p2) = false := by
  have a0 := inClosed_iff.1 h0 f
  have a1 := inClosed_iff.1 h1 f
  have a2 := inClosed_iff.1 h2 f
  have he : ((1 : ℕ) : ℝ) * 10 ^ (-9 : ℤ) = 1 / 10 ^ 9 := by norm_num
  have key : ∀ (x0 x1 x2 x : ℝ), (x0 + 1 / 10 ^ 9 < x ∧ x1 + 1 / 10 ^ 9 < x ∧ x2 + 1 / 10 ^ 9 < x) ∨
      (x + 1 / 10 ^ 9 < x0 ∧ x + 1 / 10 ^ 9 < x1 ∧ x + 1 / 10 ^ 9 < x2) → outsideExtent x0 x1 x2 x = true := by
    intro x0 x1 x2 x h
    unfold outsideExtent
    simp only [lt_eq, add_eq, sub_eq, lit_eq, he, Bool.or_eq_true, Bool.and_eq_true, decide_eq_true_eq]
    rcases h with ⟨b0, b1, b2⟩ | ⟨b0, b1, b2⟩
    · exact .inr ⟨⟨by linarith, by linarith⟩, by linarith⟩
    · exact .inl ⟨⟨b0, b1⟩, b2⟩
  have hall : (f = .xp ∨ f = .xm → outsideExtent p0.x p1.x p2.x q.x = true) ∧
      (f = .yp ∨ f = .ym → outsideExtent p0.y p1.y p2.y q.y = true) ∧
      (f = .zp ∨ f = .zm → outsideExtent p0.z p1.z p2.z q.z = true) := by
    refine ⟨?_, ?_, ?_⟩ <;> rintro (rfl | rfl) <;> apply key <;>
      simp only [Plane.at, facePlane] at a0 a1 a2 hq
    · left; refine ⟨?_, ?_, ?_⟩ <;> linarith
    · right; refine ⟨?_, ?_, ?_⟩ <;> linarith
    · left; refine ⟨?_, ?_, ?_⟩ <;> linarith
    · right; refine ⟨?_, ?_, ?_⟩ <;> linarith
    · left; refine ⟨?_, ?_, ?_⟩ <;> linarith
    · right; refine ⟨?_, ?_, ?_⟩ <;> linarith
  clear a0 a1 a2 hq key he
  obtain ⟨hx, hy, hz⟩ := hall
  have hl : (Flt.lit 5 (-1) : ℝ) = 1 / 2 := by simp [lit_eq]; norm_num
  have e1 : (decide ((1 / 2 : ℝ) < 1)) = true := by norm_num
  have e0 : (decide ((1 / 2 : ℝ) < 0)) = false := by norm_num
  unfold distToSegment
  simp only [lt_eq, abs_eq, hl]
  generalize outsideExtent p0.x p1.x p2.x q.x = ex at hx ⊢
  generalize outsideExtent p0.y p1.y p2.y q.y = ey at hy ⊢
  generalize outsideExtent p0.z p1.z p2.z q.z = ez at hz ⊢
  cases f' <;> simp only [facePlane, abs_zero, abs_one, abs_neg, e1, e0, if_true, if_false, Bool.false_eq_true] <;>
    cases f <;> simp only [Face.opposite, ne_eq, not_true_eq_false, reduceCtorEq, not_false_eq_true, or_true, true_or, or_false,
      false_or, forall_const, true_implies] at hne hop hx hy hz <;>
    simp only [hx, hy, hz, if_true, ite_self]

/-- If the distances are all zero or out of reach, with a zero, the search returns a zero. -/
theorem computeNearest_zero {dists : List ℝ} {n : Nat} (hn : dists[n]? = some 0)
    (hall : ∀ x ∈ dists, x = 0 ∨ x = 10 ^ 76) :
    (computeNearest dists).distanceToFacet = 0 ∧ dists[(computeNearest dists).facet]? = some 0 := by
  have hbig : (0 : ℝ) < 10 ^ 76 := by norm_num
  obtain ⟨h1, h2, h3⟩ := nearestPositive_spec dists.zipIdx NearestFacet.default
  have hd : (nearestPositive dists.zipIdx (NearestFacet.default : NearestFacet ℝ)).distanceToFacet = 10 ^ 76 := by
    rcases h3 with h3 | ⟨q, hq, hp, e1, e2⟩
    · rw [h3]; simp only [NearestFacet.default, huge_eq]
    · rw [e1]
      rcases hall q.1 (List.mem_of_getElem? (List.mem_zipIdx_iff_getElem?.1 hq)) with h | h
      · rw [h] at hp; exact absurd hp (lt_irrefl _)
      · exact h
  have neg : ∀ (l : List (ℝ × Nat)) (init : NearestFacet ℝ), (∀ q ∈ l, q.1 = 0 ∨ q.1 = 10 ^ 76) →
      (init.distanceToFacet = 0 → nearestNegative l init = init) ∧
      (init.distanceToFacet < 0 → ∀ m, (0, m) ∈ l → (nearestNegative l init).distanceToFacet = 0 ∧
        (0, (nearestNegative l init).facet) ∈ l) := by
    intro l
    induction l with
    | nil => exact fun init _ => ⟨fun _ => rfl, by simp⟩
    | cons a l ih =>
      obtain ⟨x, k⟩ := a
      intro init hl
      have hx := hl (x, k) (by simp)
      have hl' := fun q hq => hl q (List.mem_cons_of_mem _ hq)
      have hun : nearestNegative ((x, k) :: l) init = nearestNegative l
          (if (decide (x ≤ 0) && decide (init.distanceToFacet < x)) = true
           then ⟨k, x, init.dotProduct⟩ else init) := by
        unfold nearestNegative
        rw [List.foldl_cons]
        simp only [lt_eq, le_eq, zero_eq]
      rw [hun]
      constructor
      · intro h0
        rw [if_neg]
        · exact (ih init hl').1 h0
        · simp only [h0, Bool.and_eq_true, decide_eq_true_eq, not_and, not_lt]; exact fun h => h
      · intro h0 m hm
        rcases hx with hx | hx
        · simp only at hx
          subst hx
          rw [if_pos (by simp [h0]), (ih ⟨k, 0, init.dotProduct⟩ hl').1 rfl]
          exact ⟨rfl, by simp⟩
        · simp only at hx
          subst hx
          rw [if_neg (by simp)]
          rcases List.mem_cons.1 hm with hm | hm
          · simp only [Prod.mk.injEq] at hm
            exact absurd hm.1 hbig.ne
          · obtain ⟨i1, i2⟩ := (ih init hl').2 h0 m hm
            exact ⟨i1, List.mem_cons_of_mem _ i2⟩
  have hz : ∀ q ∈ dists.zipIdx, q.1 = 0 ∨ q.1 = 10 ^ 76 := fun q hq =>
    hall q.1 (List.mem_of_getElem? (List.mem_zipIdx_iff_getElem?.1 hq))
  obtain ⟨n1, n2⟩ := (neg dists.zipIdx
    { (NearestFacet.default : NearestFacet ℝ) with distanceToFacet := Flt.neg Flt.huge } hz).2
    (by simp only [neg_eq, huge_eq]; linarith) n (List.mem_zipIdx_iff_getElem?.2 hn)
  unfold computeNearest
  simp only [beq_eq, huge_eq, neg_eq] at n1 n2 ⊢
  rw [hd, if_neg (by simp)]
  rw [n1, if_pos (by simp)]
  exact ⟨n1, List.mem_zipIdx_iff_getElem?.1 n2⟩

theorem at_eq_beyond (g : Grid ℝ) (t : Nat × Nat × Nat) (r : Vec3 ℝ) (f : Face) :
    (facePlane g t f).at r = beyond g t r f := by
  cases f <;> simp only [Plane.at, facePlane, beyond] <;> ring

theorem cos_eq_outward (g : Grid ℝ) (t : Nat × Nat × Nat) (d : Vec3 ℝ) (f : Face) :
    (facePlane g t f).cos d = outward d f := by
  cases f <;> simp only [Plane.cos, facePlane, outward] <;> ring

theorem outward_opposite (d : Vec3 ℝ) (f : Face) : outward d f.opposite = -outward d f := by
  cases f <;> simp [outward, Face.opposite]

theorem beyond_along (g : Grid ℝ) (t : Nat × Nat × Nat) (r d : Vec3 ℝ) (s : ℝ) (f : Face) :
    beyond g t (along r d s) f = beyond g t r f + s * outward d f := by
  rw [← at_eq_beyond, ← at_eq_beyond, ← cos_eq_outward g t, Plane.at_along]

theorem closed_iff_beyond {g : Grid ℝ} {t : Nat × Nat × Nat} {r : Vec3 ℝ} :
    InClosedCell g t r ↔ ∀ f, beyond g t r f ≤ 0 := by
  rw [inClosed_iff]
  simp only [at_eq_beyond]

/-- The facet found from a point of the closed cell: it is on a face by which the ray leaves the cell, at the
distance where it leaves. -/
theorem nearest_exit {order : IterOrder} (ho : ∀ l, (order l).Perm l) {params : Params ℝ}
    {mats : List (Material ℝ)} (h : SingleUnit params mats) (hroot : params.rootCell < cells params.grid)
    (fuel : Nat) (hfuel : cells params.grid + 1 ≤ fuel) {dom : Domain ℝ}
    (hdom : initMesh order fuel params mats = .ok [dom]) {c : Nat} (p : Particle ℝ)
    (hi : CellAt dom p.cell c)
    (hd : p.direction.x ^ 2 + p.direction.y ^ 2 + p.direction.z ^ 2 = 1)
    (hr : InClosedCell params.grid (params.grid.cellIdxToTuple c) p.coordinate)
    (hedge : ¬ AtEdge params.grid (params.grid.cellIdxToTuple c) p.coordinate p.direction)
    (hworn : ¬ WornOut params.grid (params.grid.cellIdxToTuple c) p) :
    ∃ (s : ℝ) (nf : NearestFacet ℝ) (f : Face) (k : Nat), 0 ≤ s ∧ s < 10 ^ 76 ∧
      ExitsAt params.grid (params.grid.cellIdxToTuple c) p.coordinate p.direction s ∧
      nearestFacet dom.mesh p = .ok (nf, p) ∧ nf.distanceToFacet = s ∧ k < 4 ∧ nf.facet = 4 * f.num + k ∧
      LeavesBy params.grid (params.grid.cellIdxToTuple c) (along p.coordinate p.direction s) p.direction f := by
  obtain ⟨s, hs0, hexit⟩ := exit_closed (grid_box h) hr hd
  have hbig : s < 10 ^ 76 := by
    have h1 := exit_bound (grid_box h) hs0 hexit hd
    have hg := grid_box h
    have hx := (h.sizes).1
    have hy := (h.sizes).2.1
    have hz := (h.sizes).2.2
    have b : ∀ {l dl : ℝ} {n : Nat}, 0 < n → l = n * dl → 0 < dl → l ≤ 2 ^ 60 → dl ≤ 2 ^ 60 := by
      intro l dl n hn hl hd hb
      have : (1 : ℝ) ≤ n := by exact_mod_cast hn
      nlinarith
    have b1 := b hg.nx hg.lx_eq hg.dx_pos hx.2
    have b2 := b hg.ny hg.ly_eq hg.dy_pos hy.2
    have b3 := b hg.nz hg.lz_eq hg.dz_pos hz.2
    have : (2 : ℝ) ^ 60 + 2 ^ 60 + 2 ^ 60 < 10 ^ 76 := by norm_num
    linarith
  obtain ⟨bc, cs, nodeOf, hb, _, hat, _⟩ := unit_mesh ho h hroot fuel hfuel hdom
  have hi' := (hat p.cell c).2 hi
  have hc := hb.lt hi'
  have hg := grid_box h
  rcases hs0.lt_or_eq with hs | rfl
  · obtain ⟨nf, planes, pl, p0, p1, p2, h1, h2, h3, h4, h5, h6, h7, _⟩ :=
      C25_nearest_facet ho h hroot fuel hfuel hdom p hi hd hs hexit
    obtain ⟨f, k, hk, hfk⟩ := face_of_facet h3
    have hgeom : dom.mesh.cellGeometry[p.cell]? = some ((List.range 24).map (planeOf params.grid c)) := by
      rw [hb.geom, List.getElem?_map, hi']; rfl
    rw [hgeom] at h4
    cases h4
    rw [List.getElem?_map, List.getElem?_range h3, Option.map_some, hfk, planeOf_eq hg hc f hk] at h5
    cases h5
    have hb0 : beyond params.grid (params.grid.cellIdxToTuple c) (along p.coordinate p.direction s) f = 0 := by
      rw [← at_eq_beyond]; exact h6
    exact ⟨s, nf, f, k, hs0, hbig, hexit, h1, h2, hk, hfk, hb0, by rwa [← cos_eq_outward params.grid]⟩
  · -- the particle is already on the face
    set g := params.grid with hgdef
    set t := g.cellIdxToTuple c with ht
    set r := p.coordinate with hrdef
    set d := p.direction with hddef
    have hgeom : dom.mesh.cellGeometry[p.cell]? = some ((List.range 24).map (planeOf g c)) := by
      rw [hb.geom, List.getElem?_map, hi']; rfl
    obtain ⟨f, hcos, hat0⟩ := exit_face le_rfl hexit
    rw [along_zero] at hat0
    have hleave : LeavesBy g t r d f := ⟨by rw [← at_eq_beyond]; exact hat0, by rw [← cos_eq_outward g t]; exact hcos⟩
    have hseg : ¬ (10000000 : ℝ) < p.numSegments := fun hn => hworn ⟨hn, f, hleave⟩
    set dists := (List.range 24).map fun n => facetDist g t r d n (planeOf g c n) with hdists
    have hget : ∀ n, n < 24 → dists[n]? = some (facetDist g t r d n (planeOf g c n)) := by
      intro n hn
      rw [hdists, List.getElem?_map, List.getElem?_range hn]; rfl
    have hin : ∀ n, n < 24 → InClosedCell g t (facetPoint g t n 0) ∧ InClosedCell g t (facetPoint g t n 1) ∧
        InClosedCell g t (facetPoint g t n 2) := by
      intro n hn
      obtain ⟨l1, l2, l3⟩ := indirect_lt _ hn
      have i1 := pointCoord_in hg hc l1
      have i2 := pointCoord_in hg hc l2
      have i3 := pointCoord_in hg hc l3
      rw [pointCoord_eq hc l1] at i1
      rw [pointCoord_eq hc l2] at i2
      rw [pointCoord_eq hc l3] at i3
      exact ⟨i1, i2, i3⟩
    have hall : ∀ x ∈ dists, x = 0 ∨ x = 10 ^ 76 := by
      intro x hx
      obtain ⟨n, hn, rfl⟩ := List.mem_map.1 hx
      have hn' := List.mem_range.1 hn
      obtain ⟨f', k, hk, rfl⟩ := face_of_facet hn'
      rw [planeOf_eq hg hc f' hk]
      unfold facetDist
      simp only [huge_eq]
      split_ifs with h1 h2
      · exact .inr rfl
      · have hle := inClosed_iff.1 hr f'
        rcases hle.lt_or_eq with hlt | heq
        · exfalso
          have hne : f ≠ f' := fun he => by rw [← he, hat0] at hlt; exact lt_irrefl _ hlt
          have hop : f ≠ f'.opposite := by
            intro he
            have h3 := hleave.2
            rw [he, outward_opposite] at h3
            rw [cos_eq_outward] at h1
            linarith
          obtain ⟨i0, i1, i2⟩ := hin _ hn'
          have : (1 : ℝ) / 10 ^ 9 < (facePlane g t f).at (along r d
              (-(facePlane g t f').at r / (facePlane g t f').cos d)) := by
            by_contra hcon
            refine hedge ⟨f, f', hleave, ?_, ?_, ?_⟩
            · rw [← at_eq_beyond]; exact hlt
            · rw [← cos_eq_outward g t]; exact not_le.1 h1
            · rw [← at_eq_beyond, ← at_eq_beyond, ← cos_eq_outward g t]; exact not_lt.1 hcon
          rw [not_distToSegment i0 i1 i2 hne hop this] at h2
          exact absurd h2 (by simp)
        · left; rw [heq]; simp
      · exact .inr rfl
    have hcl0 := hexit.inside 0 le_rfl le_rfl
    rw [along_zero] at hcl0
    obtain ⟨k, hk, htri⟩ := cover hg t f hcl0 hat0
    have hkn : 4 * f.num + k < 24 := by have := num_lt f; omega
    have hone : dists[4 * f.num + k]? = some 0 := by
      rw [hget _ hkn, planeOf_eq hg hc f hk]
      unfold facetDist
      rw [if_neg (not_le.2 hcos), hat0, neg_zero, zero_div, along_zero,
        if_pos (distToSegment_of_inTriangle hg t f hk htri)]
    obtain ⟨hnd, hnf⟩ := computeNearest_zero hone hall
    set nf := computeNearest dists with hnfdef
    have hlt : nf.facet < 24 := by
      have := (List.getElem?_eq_some_iff.1 hnf).1
      rwa [hdists, List.length_map, List.length_range] at this
    have hloop : ∀ (fl : Nat) (tol move : ℝ),
        nfLoop dom.mesh ((List.range 24).map (planeOf g c)) r d tol (fl + 1) 0 move p = .ok (nf, p) := by
      intro fl tol move
      unfold nfLoop
      rw [facetDistances_eq hg hb hi' hr tol]
      simp only [bind, Except.bind, pure, Except.pure]
      rw [← hnfdef, hnd]
      simp only [beq_eq, huge_eq, le_eq, zero_eq, lt_eq, ofNat_eq]
      rw [if_neg]
      simp only [Bool.or_eq_true, Bool.and_eq_true, decide_eq_true_eq, not_or, not_and]
      exact ⟨by norm_num, fun hn => absurd (by simpa using hn) hseg⟩
    obtain ⟨f', k', hk', hfk⟩ := face_of_facet hlt
    rw [hget _ hlt, hfk, planeOf_eq hg hc f' hk'] at hnf
    unfold facetDist at hnf
    simp only [huge_eq] at hnf
    have hcase : 0 < (facePlane g t f').cos d ∧ -(facePlane g t f').at r / (facePlane g t f').cos d = 0 := by
      split_ifs at hnf with h1 h2
      · exact absurd (Option.some.inj hnf) (by norm_num)
      · exact ⟨not_le.1 h1, Option.some.inj hnf⟩
      · exact absurd (Option.some.inj hnf) (by norm_num)
    obtain ⟨c1, c2⟩ := hcase
    rw [div_eq_zero_iff] at c2
    refine ⟨0, nf, f', k', le_rfl, hbig, hexit, ?_, hnd, hk', hfk, ?_, by rwa [← cos_eq_outward g t]⟩
    · unfold nearestFacet mctNf3dg
      rw [idx_ok.2 hgeom]
      simp only [bind, Except.bind, pure, Except.pure]
      rw [← hrdef, ← hddef, hloop 999]
      simp only [hnd, max_eq, zero_eq, le_eq, huge_eq, max_self]
      rw [assertB_ok.2 (by simp)]
      simp only
      rw [← hnd]
      exact ()
    · rw [along_zero, ← at_eq_beyond]
      rcases c2 with c2 | c2
      · exact neg_eq_zero.1 c2
      · exact absurd c2 c1.ne'
