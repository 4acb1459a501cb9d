import Verif.Spec.Ending
import Verif.Lemmas.Stay
import Verif.Lemmas.SafeTrack
import Verif.Props.InCell
/-!
# Tracking ends: one segment

What a segment does to the time left, to the optical path left and to the place of the particle, without
supposing that the particle is in its cell.
-/
open Flt FltReal GridSpec MeshSpec Flooding
attribute [local irreducible] Rng.lcg Rng.sample Rng.spawn

/-- The optical path used by the next segment: the one left, or a fresh one. -/
noncomputable def pathOf (p : Particle ℝ) : ℝ :=
  if p.numMeanFreePaths = 0 then -Real.log (Rng.sample (T := ℝ) p.seed).1 else p.numMeanFreePaths

theorem prepareXs_pathOf (p : Particle ℝ) (xs : ℝ) : (prepareXs p xs).numMeanFreePaths = pathOf p := by
  unfold prepareXs pathOf
  simp only [beq_eq, zero_eq, decide_eq_true_eq]
  split
  · unfold Particle.sampleNumMfp
    generalize Rng.sample (T := ℝ) p.seed = r
    obtain ⟨u, s⟩ := r
    simp only [mul_eq, neg_eq, one_eq, ln_eq]
    ring
  · rfl

/-- A segment with its cross-section. -/
theorem direct_segment {data : Data ℝ} {dom : Domain ℝ} (hx : NonnegTables data dom) {p : Particle ℝ}
    (hp : TimeOk p) {o : SegOutcome} {q : Particle ℝ} (h : directOutcome data dom p = .ok (o, q)) :
    ∃ xs nf, ∃ r : Particle ℝ, directXs data dom p.cell p.energyGroup = .ok xs ∧ 0 ≤ xs ∧
      nearestFacet dom.mesh (prepareXs p xs) = .ok (nf, r) ∧
      0 ≤ nf.distanceToFacet ∧ nf.distanceToFacet ≤ 10 ^ 76 ∧
      r = { prepareXs p xs with coordinate := r.coordinate } ∧ r.direction = p.direction ∧
      r.timeToCensus = p.timeToCensus ∧ q.totalCrossSection = xs ∧
      SegmentEnd r p.getSpeed (if xs = 0 then 10 ^ 76 else 1 / xs) (pathOf p * (if xs = 0 then 10 ^ 76 else 1 / xs))
        (p.getSpeed * p.timeToCensus) nf.distanceToFacet nf.facet o q := by
  have hforce : prepareForced p = (false, p) := by
    unfold prepareForced
    simp [not_lt.2 hp.opticalPath]
  unfold directOutcome at h
  rw [hforce] at h
  simp only [bind_ok, outcomeWithXs, Prod.exists] at h
  obtain ⟨xs, hxs, nf, r, hr, h2⟩ := h
  have hxs0 := hx.directXs hxs
  have hfr := nearestFacet_frame hr
  have hnf : 0 ≤ nf.distanceToFacet ∧ nf.distanceToFacet ≤ 10 ^ 76 := by
    simp only [nearestFacet, bind_ok, pure_ok, Prod.mk.injEq, Prod.exists, assertB_ok] at hr
    obtain ⟨nf0, p0, _, _, ha, rfl, _⟩ := hr
    simp only [le_eq, huge_eq, decide_eq_true_eq] at ha
    refine ⟨?_, ha⟩
    simp only [max_eq, zero_eq]
    exact le_max_right _ _
  have hv : 0 < p.getSpeed := (C37_speed.2.1 _ hp.energy).1
  obtain ⟨_, p2, p3, p4⟩ := prepareXs_path xs hp.opticalPath
  have r1 : r.numMeanFreePaths = pathOf p := by rw [hfr]; exact prepareXs_pathOf p xs
  have r2 : r.meanFreePath = if xs = 0 then 10 ^ 76 else 1 / xs := by rw [hfr]; exact p3
  have r3 : r.timeToCensus = p.timeToCensus := by rw [hfr]; exact p2
  have r5 : r.direction = p.direction := by rw [hfr]; exact (prepareXs_frame p xs).direction
  have r6 : r.totalCrossSection = xs := by rw [hfr]; exact p4
  refine ⟨xs, nf, r, hxs, hxs0, hr, hnf.1, hnf.2, hfr, r5, r3, ?_, ?_⟩
  · rw [← r6]
    have h2' := h2
    simp only [applyOutcome, bind_ok, assertB_ok] at h2'
    obtain ⟨_, _, h2'⟩ := h2'
    generalize (if false = true then _ else _ : DistanceHandler ℝ) = hd at h2'
    obtain ⟨hc, hf, hce, hm, ho⟩ := hd
    cases ho <;> (dsimp only at h2'; split at h2') <;>
      (simp only [pure_ok, Prod.mk.injEq] at h2'; obtain ⟨_, rfl⟩ := h2'; rfl)
  · have := C22_segment hv (by rw [r3]; exact hp.timeToCensus) hnf.2 h2
    rw [r1, r2, r3] at this
    exact this

/-! ### The facet ahead -/

theorem nearestNegative_mem (l : List (ℝ × Nat)) (init : NearestFacet ℝ) :
    nearestNegative l init = init ∨
      ∃ q ∈ l, q.1 ≤ 0 ∧ (nearestNegative l init).distanceToFacet = q.1 ∧ (nearestNegative l init).facet = q.2 := by
  induction l generalizing init with
  | nil => exact .inl rfl
  | cons a l ih =>
    obtain ⟨x, n⟩ := a
    have hun : nearestNegative ((x, n) :: l) init = nearestNegative l
        (if (decide (x ≤ 0) && decide (init.distanceToFacet < x)) = true
         then ⟨n, x, init.dotProduct⟩ else init) := by
      unfold nearestNegative
      rw [List.foldl_cons]
      simp only [lt_eq, le_eq, zero_eq]
    rw [hun]
    split
    · rename_i hc
      simp only [Bool.and_eq_true, decide_eq_true_eq] at hc
      rcases ih ⟨n, x, init.dotProduct⟩ with h | ⟨q, hq, h⟩
      · exact .inr ⟨(x, n), by simp, hc.1, by rw [h], by rw [h]⟩
      · exact .inr ⟨q, by simp [hq], h⟩
    · rcases ih init with h | ⟨q, hq, h⟩
      · exact .inl h
      · exact .inr ⟨q, by simp [hq], h⟩

/-- What the search returns, unless it finds nothing, is one of the distances. -/
theorem computeNearest_mem (dists : List ℝ) (h : (computeNearest dists).distanceToFacet ≠ 10 ^ 76) :
    dists[(computeNearest dists).facet]? = some (computeNearest dists).distanceToFacet := by
  have hpos := (nearestPositive_spec dists.zipIdx (NearestFacet.default : NearestFacet ℝ)).2.2
  have hneg := nearestNegative_mem dists.zipIdx
    { (NearestFacet.default : NearestFacet ℝ) with distanceToFacet := Flt.neg Flt.huge }
  unfold computeNearest at h ⊢
  simp only [beq_eq, huge_eq, neg_eq] at h hneg ⊢
  split
  · rename_i h1
    rcases hpos with hp | ⟨q, hq, _, e1, e2⟩
    · rw [hp] at h1
      simp [NearestFacet.default, huge_eq] at h1
    · rw [e1, e2]; exact List.mem_zipIdx_iff_getElem?.1 hq
  · rename_i h1
    rw [if_neg h1] at h
    split
    · rename_i h2
      rcases hneg with hp | ⟨q, hq, _, e1, e2⟩
      · rw [hp] at h2
        simp at h2
      · rw [e1, e2]; exact List.mem_zipIdx_iff_getElem?.1 hq
    · rename_i h2
      rw [if_neg h2] at h
      simp at h1
      exact absurd h1 h

/-- One facet: the ray goes to its plane and out of the cell. -/
theorem facetDistance_ahead {mesh : Mesh ℝ} {i : Nat} {r d : Vec3 ℝ} {tol : ℝ} {n : Nat} {pl : Plane ℝ} {x : ℝ}
    (h : facetDistance mesh i r d tol n pl = .ok x) (hx : x ≠ 10 ^ 76) :
    0 < pl.cos d ∧ x = -pl.at r / pl.cos d := by
  have e1 : -1 * (pl.a * r.x + pl.b * r.y + pl.c * r.z + pl.d) = -pl.at r := by unfold Plane.at; ring
  have e2 : pl.a * d.x + pl.b * d.y + pl.c * d.z = pl.cos d := rfl
  unfold facetDistance at h
  simp only [le_eq, lt_eq, mul_eq, add_eq, neg_eq, one_eq, zero_eq, div_eq, huge_eq, e1, e2] at h
  split at h
  · simp only [pure_ok] at h
    exact absurd h.symm hx
  · rename_i hc
    simp only [Bool.or_eq_true, decide_eq_true_eq, not_or, not_le] at hc
    simp only [bind_ok] at h
    obtain ⟨f, _, h⟩ := h
    split at h
    · simp only [pure_ok] at h
      exact ⟨hc.1, h.symm⟩
    · simp only [pure_ok] at h
      exact absurd h.symm hx

theorem nfLoop_same {mesh : Mesh ℝ} {pl : List (Plane ℝ)} {c d : Vec3 ℝ} {tol : ℝ} {m it : ℕ} {mf : ℝ}
    {a b : Particle ℝ} {dists : List ℝ} {nf : NearestFacet ℝ}
    (hdi : facetDistances mesh a.cell c d tol pl = .ok dists)
    (h : nfLoop mesh pl c d tol m it mf a = .ok (nf, b)) : nf = computeNearest dists := by
  induction m generalizing it mf a with
  | zero => simp [nfLoop] at h
  | succ m ihm =>
    simp only [nfLoop, bind_ok] at h
    obtain ⟨dists', hd', h⟩ := h
    rw [hdi] at hd'
    obtain rfl := Except.ok.inj hd'
    split at h
    · simp only [bind_ok] at h
      obtain ⟨ctr, _, h⟩ := h
      split at h
      · refine ihm (a := { a with coordinate := _ }) ?_ h
        exact hdi
      · simp only [pure_ok, Prod.mk.injEq] at h; exact h.1.symm
    · simp only [pure_ok, Prod.mk.injEq] at h; exact h.1.symm

theorem nfLoop_first {mesh : Mesh ℝ} {pl : List (Plane ℝ)} {c d : Vec3 ℝ} {tol : ℝ} {m it : ℕ} {mf : ℝ}
    {a b : Particle ℝ} {nf : NearestFacet ℝ} (h : nfLoop mesh pl c d tol (m + 1) it mf a = .ok (nf, b)) :
    ∃ dists, facetDistances mesh a.cell c d tol pl = .ok dists ∧
      ((computeNearest dists).distanceToFacet ≠ 10 ^ 76 →
        (10000000 < a.numSegments → ¬ (computeNearest dists).distanceToFacet ≤ 0) → b = a) := by
  simp only [nfLoop, bind_ok] at h
  obtain ⟨dists, hd, h⟩ := h
  refine ⟨dists, hd, fun h1 h2 => ?_⟩
  rw [if_neg] at h
  · simp only [pure_ok, Prod.mk.injEq] at h; exact h.2.symm
  · simp only [beq_eq, huge_eq, lt_eq, ofNat_eq, le_eq, zero_eq, Bool.or_eq_true, decide_eq_true_eq,
      Bool.and_eq_true, not_or, not_and]
    exact ⟨h1, fun hgt => h2 (by norm_num at hgt; exact hgt)⟩

section
variable {order : IterOrder} (ho : ∀ l, (order l).Perm l) {params : Params ℝ}
  {mats : List (Material ℝ)} (h : SingleUnit params mats) (hroot : params.rootCell < cells params.grid)
  (fuel : Nat) (hfuel : cells params.grid + 1 ≤ fuel) {dom : Domain ℝ}
  (hdom : initMesh order fuel params mats = .ok [dom])
include ho h hroot hfuel hdom

/-- The facet found, wherever the particle is: it is on a face by which the particle goes out of its cell, and at
the distance found the particle is on the plane of that face or beyond. -/
theorem nearest_ahead {c : Nat} {p r : Particle ℝ} {nf : NearestFacet ℝ} (hi : CellAt dom p.cell c)
    (hnf : nearestFacet dom.mesh p = .ok (nf, r)) (hd : nf.distanceToFacet < 10 ^ 76)
    (hplace : ¬ Astray params.grid (params.grid.cellIdxToTuple c) p) :
    r.coordinate = p.coordinate ∧ ∃ f k, k < 4 ∧ nf.facet = 4 * Face.num f + k ∧ 0 < outward p.direction f ∧
      0 ≤ beyond params.grid (params.grid.cellIdxToTuple c) (along p.coordinate p.direction nf.distanceToFacet) f := by
  obtain ⟨bc, cs, nodeOf, hb, _, hat, _⟩ := unit_mesh ho h hroot fuel hfuel hdom
  have hi' := (hat p.cell c).2 hi
  have hc := hb.lt hi'
  have hg := grid_box h
  have hgeom : dom.mesh.cellGeometry[p.cell]? = some ((List.range 24).map (planeOf params.grid c)) := by
    rw [hb.geom, List.getElem?_map, hi']; rfl
  simp only [nearestFacet, mctNf3dg, bind_ok, pure_ok, Prod.mk.injEq, Prod.exists, assertB_ok, idx_ok] at hnf
  obtain ⟨nf0, p0, ⟨pl, hpl, hl⟩, _, _, rfl, rfl⟩ := hnf
  rw [hgeom] at hpl
  cases hpl
  have hd0 : nf0.distanceToFacet < 10 ^ 76 := lt_of_le_of_lt (le_max_left _ _) hd
  have main : ∀ (dists : List ℝ) (tol : ℝ),
      facetDistances dom.mesh p.cell p.coordinate p.direction tol ((List.range 24).map (planeOf params.grid c)) = .ok dists →
      (computeNearest dists).distanceToFacet < 10 ^ 76 →
      ∃ f k, k < 4 ∧ (computeNearest dists).facet = 4 * Face.num f + k ∧ 0 < outward p.direction f ∧
        (computeNearest dists).distanceToFacet =
          -beyond params.grid (params.grid.cellIdxToTuple c) p.coordinate f / outward p.direction f := by
    intro dists tol hdi hlt
    have hm := computeNearest_mem dists hlt.ne
    unfold facetDistances at hdi
    have hlt' : (computeNearest dists).facet < 24 := by
      have h1 := (List.getElem?_eq_some_iff.1 hm).1
      have h2 := mapM_ok_length hdi
      simp only [List.length_zipIdx, List.length_map, List.length_range] at h2
      omega
    obtain ⟨f, k, hk, hfk⟩ := face_of_facet hlt'
    have hz : ((List.range 24).map (planeOf params.grid c)).zipIdx[(computeNearest dists).facet]? =
        some (planeOf params.grid c (computeNearest dists).facet, (computeNearest dists).facet) := by
      rw [List.getElem?_zipIdx, List.getElem?_map, List.getElem?_range hlt']
      simp
    obtain ⟨x, hx, hf⟩ := mapM_ok_getElem hdi _ _ hz
    rw [hm] at hx
    cases hx
    obtain ⟨g1, g2⟩ := facetDistance_ahead hf hlt.ne
    rw [hfk, planeOf_eq hg hc f hk, cos_eq_outward] at g1
    rw [hfk, planeOf_eq hg hc f hk, cos_eq_outward, at_eq_beyond] at g2
    exact ⟨f, k, hk, hfk, g1, g2⟩
  have hl0 := hl
  obtain ⟨dists, hdi, hsm⟩ := nfLoop_first (m := 999) hl
  have hsame := nfLoop_same hdi hl0
  subst hsame
  obtain ⟨f, k, hk, hfk, g1, g2⟩ := main dists _ hdi hd0
  have hr : p0.coordinate = p.coordinate := by
    rw [hsm hd0.ne]
    refine fun hgt hle => hplace ⟨hgt, f, ?_, g1⟩
    rw [g2, div_le_iff₀ g1] at hle
    linarith
  refine ⟨hr, f, k, hk, hfk, g1, ?_⟩
  rw [beyond_along]
  have : (computeNearest dists).distanceToFacet ≤
      Flt.max (computeNearest dists).distanceToFacet (zero : ℝ) := le_max_left _ _
  rw [g2] at this
  dsimp only
  rw [g2]
  rw [div_le_iff₀ g1] at this
  linarith

end
