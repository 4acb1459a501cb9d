import Verif.Lemmas.Cover
import Mathlib.Tactic.Positivity
/-!
# Nearest facet (C25)

Over the reals, in the mesh of a single-unit run.
-/
open Flt FltReal GridSpec MeshSpec Flooding
attribute [local irreducible] Rng.lcg Rng.sample Rng.spawn

/-- Value of the equation of a plane at a point. -/
def Plane.at (pl : Plane ℝ) (r : Vec3 ℝ) : ℝ := pl.a * r.x + pl.b * r.y + pl.c * r.z + pl.d

/-- Cosine of a direction with the normal of a plane. -/
def Plane.cos (pl : Plane ℝ) (d : Vec3 ℝ) : ℝ := pl.a * d.x + pl.b * d.y + pl.c * d.z

theorem Plane.at_along (pl : Plane ℝ) (r d : Vec3 ℝ) (s : ℝ) :
    pl.at (along r d s) = pl.at r + s * pl.cos d := by
  unfold Plane.at Plane.cos along; ring

theorem inClosed_iff {g : Grid ℝ} {t : Nat × Nat × Nat} {r : Vec3 ℝ} :
    InClosedCell g t r ↔ ∀ f, (facePlane g t f).at r ≤ 0 := by
  constructor
  · intro h f
    exact facePlane_outward g t f h
  · intro h
    have h1 := h .xp
    have h2 := h .xm
    have h3 := h .yp
    have h4 := h .ym
    have h5 := h .zp
    have h6 := h .zm
    simp only [Plane.at, facePlane] at h1 h2 h3 h4 h5 h6
    exact ⟨⟨by linarith, by linarith⟩, ⟨by linarith, by linarith⟩, by linarith, by linarith⟩

/-- The ray leaves the cell through a face. -/
theorem exit_face {g : Grid ℝ} {t : Nat × Nat × Nat} {r d : Vec3 ℝ} {s : ℝ} (hs : 0 ≤ s)
    (h : ExitsAt g t r d s) : ∃ f, 0 < (facePlane g t f).cos d ∧ (facePlane g t f).at (along r d s) = 0 := by
  by_contra hcon
  push Not at hcon
  have hin := inClosed_iff.1 (h.inside s hs le_rfl)
  have hstep : ∀ f, ∃ e : ℝ, 0 < e ∧ ∀ u, 0 ≤ u → u ≤ e → (facePlane g t f).at (along r d (s + u)) ≤ 0 := by
    intro f
    by_cases hc : 0 < (facePlane g t f).cos d
    · have hlt : (facePlane g t f).at (along r d s) < 0 := lt_of_le_of_ne (hin f) (hcon f hc)
      refine ⟨-(facePlane g t f).at (along r d s) / (facePlane g t f).cos d, by
        apply div_pos <;> linarith, fun u hu hue => ?_⟩
      rw [le_div_iff₀ hc] at hue
      rw [Plane.at_along] at hue ⊢
      linarith
    · refine ⟨1, one_pos, fun u hu _ => ?_⟩
      have := hin f
      rw [Plane.at_along] at this ⊢
      have := mul_nonpos_of_nonneg_of_nonpos hu (not_lt.1 hc)
      linarith
  choose e he hpos using hstep
  let m := Min.min (Min.min (Min.min (e .xp) (e .xm)) (Min.min (e .yp) (e .ym))) (Min.min (e .zp) (e .zm))
  have hm : 0 < m := by
    simp only [m, lt_min_iff]
    exact ⟨⟨⟨he _, he _⟩, he _, he _⟩, he _, he _⟩
  have hle : ∀ f, m ≤ e f := by
    intro f
    cases f <;> simp [m]
  exact h.outside (s + m) (by linarith) (inClosed_iff.2 fun f => hpos f m hm.le (hle f))

theorem inside_bound {g : Grid ℝ} (hg : BoxGrid g) {t : Nat × Nat × Nat} {r d : Vec3 ℝ} {s : ℝ}
    (h0 : InClosedCell g t (along r d 0)) (h : InClosedCell g t (along r d s)) (hd : d.x ^ 2 + d.y ^ 2 + d.z ^ 2 = 1) : s ≤ g.dx + g.dy + g.dz := by
  have px := hg.dx_pos
  have py := hg.dy_pos
  have pz := hg.dz_pos
  obtain ⟨⟨a1, a2⟩, ⟨a3, a4⟩, a5, a6⟩ := h0
  obtain ⟨⟨b1, b2⟩, ⟨b3, b4⟩, b5, b6⟩ := h
  simp only [along, zero_mul, add_zero] at a1 a2 a3 a4 a5 a6 b1 b2 b3 b4 b5 b6
  have hx : |s * d.x| ≤ g.dx := abs_le.2 ⟨by linarith, by linarith⟩
  have hy : |s * d.y| ≤ g.dy := abs_le.2 ⟨by linarith, by linarith⟩
  have hz : |s * d.z| ≤ g.dz := abs_le.2 ⟨by linarith, by linarith⟩
  have h1 := sq_le_sq' (by linarith [abs_nonneg (s * d.x)]) hx
  have h2 := sq_le_sq' (by linarith [abs_nonneg (s * d.y)]) hy
  have h3 := sq_le_sq' (by linarith [abs_nonneg (s * d.z)]) hz
  rw [sq_abs] at h1 h2 h3
  have e : s ^ 2 = (s * d.x) ^ 2 + (s * d.y) ^ 2 + (s * d.z) ^ 2 := by
    calc s ^ 2 = s ^ 2 * (d.x ^ 2 + d.y ^ 2 + d.z ^ 2) := by rw [hd, mul_one]
      _ = _ := by ring
  refine abs_le_of_sq_le_sq' ?_ (by positivity) |>.2
  nlinarith [mul_pos px py, mul_pos px pz, mul_pos py pz]

theorem exit_bound {g : Grid ℝ} (hg : BoxGrid g) {t : Nat × Nat × Nat} {r d : Vec3 ℝ} {s : ℝ} (hs : 0 ≤ s)
    (h : ExitsAt g t r d s) (hd : d.x ^ 2 + d.y ^ 2 + d.z ^ 2 = 1) : s ≤ g.dx + g.dy + g.dz :=
  inside_bound hg (h.inside 0 le_rfl hs) (h.inside s hs le_rfl) hd

/-- From the interior, every ray leaves the cell after a positive distance. -/
theorem exit_exists {g : Grid ℝ} (hg : BoxGrid g) {t : Nat × Nat × Nat} {r d : Vec3 ℝ}
    (hr : InOpenCell g t r) (hd : d.x ^ 2 + d.y ^ 2 + d.z ^ 2 = 1) :
    ∃ s, 0 < s ∧ ExitsAt g t r d s := by
  have px := hg.dx_pos
  have py := hg.dy_pos
  have pz := hg.dz_pos
  have hopen : ∀ f, (facePlane g t f).at r < 0 := by
    obtain ⟨⟨h1, h2⟩, ⟨h3, h4⟩, h5, h6⟩ := hr
    intro f
    cases f <;> simp only [Plane.at, facePlane] <;> linarith
  have hstep : ∀ f, ∃ e : ℝ, 0 < e ∧ (∀ u, 0 ≤ u → u ≤ e → (facePlane g t f).at (along r d u) ≤ 0) ∧
      ((∀ u, e < u → 0 < (facePlane g t f).at (along r d u)) ∨ e = g.dx + g.dy + g.dz + 1) := by
    intro f
    have h1 := hopen f
    by_cases hc : 0 < (facePlane g t f).cos d
    · refine ⟨-(facePlane g t f).at r / (facePlane g t f).cos d, by apply div_pos <;> linarith, ?_, Or.inl ?_⟩
      · intro u _ hue
        rw [le_div_iff₀ hc] at hue
        rw [Plane.at_along]
        linarith
      · intro u hue
        rw [div_lt_iff₀ hc] at hue
        rw [Plane.at_along]
        linarith
    · refine ⟨_, by positivity, fun u hu _ => ?_, Or.inr rfl⟩
      rw [Plane.at_along]
      have := mul_nonpos_of_nonneg_of_nonpos hu (not_lt.1 hc)
      linarith
  choose e he hin hout using hstep
  let m := Min.min (Min.min (Min.min (e .xp) (e .xm)) (Min.min (e .yp) (e .ym))) (Min.min (e .zp) (e .zm))
  have hm : 0 < m := by
    simp only [m, lt_min_iff]
    exact ⟨⟨⟨he _, he _⟩, he _, he _⟩, he _, he _⟩
  have hle : ∀ f, m ≤ e f := by
    intro f
    cases f <;> simp [m]
  have hme : ∃ f, m = e f := by
    simp only [m]
    rcases min_choice (Min.min (Min.min (e .xp) (e .xm)) (Min.min (e .yp) (e .ym))) (Min.min (e .zp) (e .zm)) with h | h <;> rw [h]
    · rcases min_choice (Min.min (e .xp) (e .xm)) (Min.min (e .yp) (e .ym)) with h | h <;> rw [h]
      · rcases min_choice (e .xp) (e .xm) with h | h <;> exact ⟨_, h⟩
      · rcases min_choice (e .yp) (e .ym) with h | h <;> exact ⟨_, h⟩
    · rcases min_choice (e .zp) (e .zm) with h | h <;> exact ⟨_, h⟩
  have hinm : ∀ u, 0 ≤ u → u ≤ m → InClosedCell g t (along r d u) := fun u hu hum =>
    inClosed_iff.2 fun f => hin f u hu (hum.trans (hle f))
  refine ⟨m, hm, hinm, fun u hu hcon => ?_⟩
  obtain ⟨f, hf⟩ := hme
  rcases hout f with h | h
  · have := inClosed_iff.1 hcon f
    have := h u (hf ▸ hu)
    linarith
  · have := inside_bound hg (hinm 0 le_rfl hm.le) (hinm m hm.le le_rfl) hd
    rw [hf, h] at this
    linarith

/-! ### The distances to the facets -/

/-- Distance to a facet, as the search computes it from a point of the closed cell. -/
noncomputable def facetDist (g : Grid ℝ) (t : Nat × Nat × Nat) (r d : Vec3 ℝ) (n : Nat) (pl : Plane ℝ) : ℝ :=
  if pl.cos d ≤ 0 then Flt.huge
  else if distToSegment (along r d (-pl.at r / pl.cos d)) pl (facetPoint g t n 0, facetPoint g t n 1, facetPoint g t n 2)
    then -pl.at r / pl.cos d else Flt.huge

section
variable {g : Grid ℝ} {bc : List AdjEvent} {cs : List Nat} {nodeOf : Nat → Nat} {mesh : Mesh ℝ}

theorem Flooding.Built.facetPoints (h : Built g bc cs nodeOf mesh) {i c : Nat} (hi : cs[i]? = some c) {n : Nat}
    (hn : n < 24) : mesh.getFacetCoords i n = .ok (facetPoint g (g.cellIdxToTuple c) n 0,
      facetPoint g (g.cellIdxToTuple c) n 1, facetPoint g (g.cellIdxToTuple c) n 2) := by
  obtain ⟨l1, l2, l3⟩ := indirect_lt _ hn
  rw [h.facetCoords hi hn, pointCoord_eq (h.lt hi) l1, pointCoord_eq (h.lt hi) l2, pointCoord_eq (h.lt hi) l3]
  rfl

theorem facetDistance_eq (h : Built g bc cs nodeOf mesh) {i c : Nat} (hi : cs[i]? = some c) {n : Nat}
    (hn : n < 24) {pl : Plane ℝ} {r d : Vec3 ℝ} (hr : pl.at r ≤ 0) (tol : ℝ) :
    facetDistance mesh i r d tol n pl = .ok (facetDist g (g.cellIdxToTuple c) r d n pl) := by
  unfold facetDistance
  simp only [le_eq, lt_eq, mul_eq, add_eq, neg_eq, one_eq, zero_eq, div_eq, bind, Except.bind, pure, Except.pure]
  have e1 : -1 * (pl.a * r.x + pl.b * r.y + pl.c * r.z + pl.d) = -pl.at r := by unfold Plane.at; ring
  have e2 : pl.a * d.x + pl.b * d.y + pl.c * d.z = pl.cos d := rfl
  have e3 : ∀ s, r.add (d.smul s) = along r d s := by
    intro s; unfold Vec3.add Vec3.smul along; simp only [add_eq, mul_eq, mul_comm]
  rw [e1, e2, h.facetPoints hi hn]
  have hneg : decide (-pl.at r < 0) = false := by simpa using hr
  rw [hneg, Bool.false_and, Bool.or_false]
  unfold facetDist
  simp only [decide_eq_true_eq, e3]
  split
  · rfl
  · split <;> rfl

theorem facetDistances_eq (hg : BoxGrid g) (h : Built g bc cs nodeOf mesh) {i c : Nat} (hi : cs[i]? = some c)
    {r d : Vec3 ℝ} (hr : InClosedCell g (g.cellIdxToTuple c) r) (tol : ℝ) :
    facetDistances mesh i r d tol ((List.range 24).map (planeOf g c))
      = .ok ((List.range 24).map fun n => facetDist g (g.cellIdxToTuple c) r d n (planeOf g c n)) := by
  unfold facetDistances
  have hz : ((List.range 24).map (planeOf g c)).zipIdx = (List.range 24).map fun n => (planeOf g c n, n) := by
    rw [List.zipIdx_map]
    have : (List.range 24).zipIdx = (List.range 24).map fun n => (n, n) := by decide
    rw [this, List.map_map]
    rfl
  rw [hz, List.mapM_map]
  refine mapM_ok_of_forall fun n hn => ?_
  have hn' := List.mem_range.1 hn
  obtain ⟨f, k, hk, rfl⟩ := face_of_facet hn'
  refine facetDistance_eq h hi hn' ?_ tol
  rw [planeOf_eq hg (h.lt hi) f hk]
  exact inClosed_iff.1 hr f

theorem nearestPositive_spec (l : List (ℝ × Nat)) (init : NearestFacet ℝ) :
    (nearestPositive l init).distanceToFacet ≤ init.distanceToFacet ∧
    (∀ q ∈ l, 0 < q.1 → (nearestPositive l init).distanceToFacet ≤ q.1) ∧
    (nearestPositive l init = init ∨
      ∃ q ∈ l, 0 < q.1 ∧ (nearestPositive l init).distanceToFacet = q.1 ∧ (nearestPositive l init).facet = q.2) := by
  induction l generalizing init with
  | nil => exact ⟨le_rfl, by simp, Or.inl rfl⟩
  | cons a l ih =>
    obtain ⟨x, n⟩ := a
    have hun : nearestPositive ((x, n) :: l) init = nearestPositive l
        (if (decide (0 < x) && decide (x ≤ init.distanceToFacet)) = true
         then ⟨n, x, init.dotProduct⟩ else init) := by
      unfold nearestPositive
      rw [List.foldl_cons]
      simp only [lt_eq, le_eq, zero_eq]
    rw [hun]
    by_cases hc : 0 < x ∧ x ≤ init.distanceToFacet
    · rw [if_pos (by simpa using hc)]
      obtain ⟨i1, i2, i3⟩ := ih ⟨n, x, init.dotProduct⟩
      refine ⟨i1.trans hc.2, ?_, ?_⟩
      · intro q hq hp
        rcases List.mem_cons.1 hq with rfl | hq
        · exact i1
        · exact i2 q hq hp
      · rcases i3 with i3 | ⟨q, hq, h3⟩
        · exact Or.inr ⟨(x, n), by simp, hc.1, by rw [i3], by rw [i3]⟩
        · exact Or.inr ⟨q, by simp [hq], h3⟩
    · rw [if_neg (by simpa using hc)]
      obtain ⟨i1, i2, i3⟩ := ih init
      refine ⟨i1, ?_, ?_⟩
      · intro q hq hp
        rcases List.mem_cons.1 hq with rfl | hq
        · have : ¬ x ≤ init.distanceToFacet := fun h => hc ⟨hp, h⟩
          exact i1.trans (not_le.1 this).le
        · exact i2 q hq hp
      · rcases i3 with i3 | ⟨q, hq, h3⟩
        · exact Or.inl i3
        · exact Or.inr ⟨q, by simp [hq], h3⟩

/-- The smallest of the positive distances wins. -/
theorem computeNearest_spec {dists : List ℝ} {s : ℝ} {n : Nat} (hs : 0 < s) (hh : s < 10 ^ 76)
    (hn : dists[n]? = some s) (hmin : ∀ x ∈ dists, 0 < x → s ≤ x) :
    (computeNearest dists).distanceToFacet = s ∧ dists[(computeNearest dists).facet]? = some s := by
  obtain ⟨h1, h2, h3⟩ := nearestPositive_spec dists.zipIdx NearestFacet.default
  have hle := h2 (s, n) (List.mem_zipIdx_iff_getElem?.2 hn) hs
  have hd : (nearestPositive dists.zipIdx (NearestFacet.default : NearestFacet ℝ)).distanceToFacet = s ∧
      dists[(nearestPositive dists.zipIdx (NearestFacet.default : NearestFacet ℝ)).facet]? = some s := by
    rcases h3 with h3 | ⟨q, hq, hp, e1, e2⟩
    · rw [h3] at hle
      simp only [NearestFacet.default, huge_eq] at hle
      linarith
    · have hq' := List.mem_zipIdx_iff_getElem?.1 hq
      have := hmin q.1 (List.mem_of_getElem? hq') hp
      have he : q.1 = s := le_antisymm (by rw [← e1]; exact hle) this
      rw [e1, e2, he]
      exact ⟨rfl, by rw [hq', he]⟩
  unfold computeNearest
  simp only [beq_eq, huge_eq]
  rw [hd.1, if_pos (by simpa using hh.ne)]
  exact hd

end

/-- **C25.**  A particle in a closed cell of a single-unit run, whose ray is in the cell up to the
distance `s > 0` and not after: the search succeeds and leaves the particle as it is, the reported
distance is `s`, the facet is one of the 24 of the cell and faces the direction, the exit point is on its
plane and in the facet, with a relative margin of `1e-9`.  The search ends at its first attempt: it gives the same
result when only one iteration is allowed. -/
theorem C25_nearest_facet {order : IterOrder} (ho : ∀ l, (order l).Perm l) {params : Params ℝ}
    {mats : List (Material ℝ)} (h : SingleUnit params mats) (hroot : params.rootCell < cells params.grid)
    (fuel : Nat) (hfuel : cells params.grid + 1 ≤ fuel) {dom : Domain ℝ}
    (hdom : initMesh order fuel params mats = .ok [dom]) {c : Nat} (p : Particle ℝ)
    (hi : CellAt dom p.cell c)
    (hd : p.direction.x ^ 2 + p.direction.y ^ 2 + p.direction.z ^ 2 = 1) {s : ℝ} (hs : 0 < s)
    (hexit : ExitsAt params.grid (params.grid.cellIdxToTuple c) p.coordinate p.direction s) :
    ∃ (nf : NearestFacet ℝ) (planes : List (Plane ℝ)) (pl : Plane ℝ) (p0 p1 p2 : Vec3 ℝ),
      nearestFacet dom.mesh p = .ok (nf, p) ∧ nf.distanceToFacet = s ∧ nf.facet < 24 ∧
      dom.mesh.cellGeometry[p.cell]? = some planes ∧ planes[nf.facet]? = some pl ∧
      OnPlane pl (along p.coordinate p.direction s) ∧ 0 < pl.cos p.direction ∧
      dom.mesh.getFacetCoords p.cell nf.facet = .ok (p0, p1, p2) ∧
      InTriangle (1 / 10 ^ 9) p0 p1 p2 (along p.coordinate p.direction s) ∧
      ∀ tol move, nfLoop dom.mesh planes p.coordinate p.direction tol 1 0 move p = .ok (nf, p) := by
  obtain ⟨bc, cs, nodeOf, hb, _, hat, _⟩ := unit_mesh ho h hroot fuel hfuel hdom
  have hi' := (hat p.cell c).2 hi
  have hc := hb.lt hi'
  have hg := grid_box h
  set g := params.grid with hgdef
  set t := g.cellIdxToTuple c with ht
  set r := p.coordinate with hrdef
  set d := p.direction with hddef
  have hr : InClosedCell g t r := by
    have := hexit.inside 0 le_rfl hs.le
    have e : along r d 0 = r := by unfold along; simp
    rwa [e] at this
  have hgeom : dom.mesh.cellGeometry[p.cell]? = some ((List.range 24).map (planeOf g c)) := by
    rw [hb.geom, List.getElem?_map, hi']; rfl
  -- the distances
  have hbig : s < 10 ^ 76 := by
    have h1 := exit_bound hg hs.le hexit hd
    have hx := (h.sizes).1
    have hy := (h.sizes).2.1
    have hz := (h.sizes).2.2
    have b : ∀ {l dl : ℝ} {n : Nat}, 0 < n → l = n * dl → 0 < dl → l ≤ 2 ^ 60 → dl ≤ 2 ^ 60 := by
      intro l dl n hn hl hd hb
      have : (1 : ℝ) ≤ n := by exact_mod_cast hn
      nlinarith
    have b1 := b hg.nx hg.lx_eq hg.dx_pos hx.2
    have b2 := b hg.ny hg.ly_eq hg.dy_pos hy.2
    have b3 := b hg.nz hg.lz_eq hg.dz_pos hz.2
    have : (2 : ℝ) ^ 60 + 2 ^ 60 + 2 ^ 60 < 10 ^ 76 := by norm_num
    linarith
  have hcosle : ∀ f, 0 < (facePlane g t f).cos d → s ≤ -(facePlane g t f).at r / (facePlane g t f).cos d := by
    intro f hf
    rw [le_div_iff₀ hf]
    have := inClosed_iff.1 (hexit.inside s hs.le le_rfl) f
    rw [Plane.at_along] at this
    linarith
  set dists := (List.range 24).map fun n => facetDist g t r d n (planeOf g c n) with hdists
  have hget : ∀ n, n < 24 → dists[n]? = some (facetDist g t r d n (planeOf g c n)) := by
    intro n hn
    rw [hdists, List.getElem?_map, List.getElem?_range hn]; rfl
  have hmin : ∀ x ∈ dists, s ≤ x := by
    intro x hx
    obtain ⟨n, hn, rfl⟩ := List.mem_map.1 hx
    obtain ⟨f, k, hk, rfl⟩ := face_of_facet (List.mem_range.1 hn)
    rw [planeOf_eq hg hc f hk]
    unfold facetDist
    simp only [huge_eq]
    split_ifs with h1 h2
    · exact hbig.le
    · exact hcosle f (not_le.1 h1)
    · exact hbig.le
  obtain ⟨f, hcos, hat0⟩ := exit_face hs.le hexit
  have hpt : -(facePlane g t f).at r / (facePlane g t f).cos d = s := by
    rw [Plane.at_along] at hat0
    rw [div_eq_iff hcos.ne']
    linarith
  obtain ⟨k, hk, htri⟩ := cover hg t f (hexit.inside s hs.le le_rfl) hat0
  have hkn : 4 * f.num + k < 24 := by have := num_lt f; omega
  have hone : dists[4 * f.num + k]? = some s := by
    rw [hget _ hkn, planeOf_eq hg hc f hk]
    unfold facetDist
    rw [if_neg (not_le.2 hcos), hpt, if_pos (distToSegment_of_inTriangle hg t f hk htri)]
  obtain ⟨hnd, hnf⟩ := computeNearest_spec hs hbig hone fun x hx _ => hmin x hx
  set nf := computeNearest dists with hnfdef
  have hlt : nf.facet < 24 := by
    have := (List.getElem?_eq_some_iff.1 hnf).1
    rwa [hdists, List.length_map, List.length_range] at this
  have hloop : ∀ (fl : Nat) (tol move : ℝ),
      nfLoop dom.mesh ((List.range 24).map (planeOf g c)) r d tol (fl + 1) 0 move p = .ok (nf, p) := by
    intro fl tol move
    unfold nfLoop
    rw [facetDistances_eq hg hb hi' hr tol]
    simp only [bind, Except.bind, pure, Except.pure]
    rw [← hnfdef, hnd]
    simp only [beq_eq, huge_eq, le_eq, zero_eq]
    rw [if_neg]
    simp [hbig.ne, not_le.2 hs]
  obtain ⟨f', k', hk', hfk⟩ := face_of_facet hlt
  have hplane : ((List.range 24).map (planeOf g c))[nf.facet]? = some (facePlane g t f') := by
    rw [List.getElem?_map, List.getElem?_range hlt, Option.map_some, hfk, planeOf_eq hg hc f' hk']
  rw [hget _ hlt, hfk, planeOf_eq hg hc f' hk'] at hnf
  unfold facetDist at hnf
  simp only [huge_eq] at hnf
  have hcase : 0 < (facePlane g t f').cos d ∧ -(facePlane g t f').at r / (facePlane g t f').cos d = s ∧
      distToSegment (along r d s) (facePlane g t f') (facetPoint g t (4 * f'.num + k') 0,
        facetPoint g t (4 * f'.num + k') 1, facetPoint g t (4 * f'.num + k') 2) = true := by
    split_ifs at hnf with h1 h2
    · exact absurd (Option.some.inj hnf) hbig.ne'
    · have he := Option.some.inj hnf
      rw [he] at h2
      exact ⟨not_le.1 h1, he, h2⟩
    · exact absurd (Option.some.inj hnf) hbig.ne'
  obtain ⟨c1, c2, c3⟩ := hcase
  have hon : OnPlane (facePlane g t f') (along r d s) := by
    rw [div_eq_iff c1.ne'] at c2
    have := Plane.at_along (facePlane g t f') r d s
    have e : (facePlane g t f').at (along r d s) = 0 := by rw [this]; linarith
    exact e
  have hcoords := hb.facetPoints hi' hlt
  obtain ⟨o0, o1, o2⟩ := facet_on_face hc f' hk'
  obtain ⟨l1, l2, l3⟩ := indirect_lt _ (hfk ▸ hlt)
  rw [pointCoord_eq hc l1] at o0
  rw [pointCoord_eq hc l2] at o1
  rw [pointCoord_eq hc l3] at o2
  refine ⟨nf, _, _, _, _, _, ?_, hnd, hlt, hgeom, hplane, hon, c1, hcoords, ?_, fun tol move => hloop 0 tol move⟩
  · unfold nearestFacet mctNf3dg
    rw [idx_ok.2 hgeom]
    simp only [bind, Except.bind, pure, Except.pure]
    rw [← hrdef, ← hddef, hloop 999]
    simp only [hnd, max_eq, zero_eq, le_eq, huge_eq, max_eq_left hs.le]
    rw [assertB_ok.2 (by simpa using hbig.le)]
    simp only
    rw [← hnd]
    exact ()
  · rw [hfk]
    exact inTriangle_of_distToSegment hg t f' hk' hon o0 o1 o2 c3

/-- **C25** (interior positions). -/
theorem C25_interior {order : IterOrder} (ho : ∀ l, (order l).Perm l) {params : Params ℝ}
    {mats : List (Material ℝ)} (h : SingleUnit params mats) (hroot : params.rootCell < cells params.grid)
    (fuel : Nat) (hfuel : cells params.grid + 1 ≤ fuel) {dom : Domain ℝ}
    (hdom : initMesh order fuel params mats = .ok [dom]) {c : Nat} (p : Particle ℝ)
    (hi : CellAt dom p.cell c)
    (hd : p.direction.x ^ 2 + p.direction.y ^ 2 + p.direction.z ^ 2 = 1)
    (hr : InOpenCell params.grid (params.grid.cellIdxToTuple c) p.coordinate) :
    ∃ (s : ℝ) (nf : NearestFacet ℝ) (p0 p1 p2 : Vec3 ℝ), 0 < s ∧
      ExitsAt params.grid (params.grid.cellIdxToTuple c) p.coordinate p.direction s ∧
      nearestFacet dom.mesh p = .ok (nf, p) ∧ nf.distanceToFacet = s ∧ nf.facet < 24 ∧
      dom.mesh.getFacetCoords p.cell nf.facet = .ok (p0, p1, p2) ∧
      InTriangle (1 / 10 ^ 9) p0 p1 p2 (along p.coordinate p.direction s) := by
  obtain ⟨s, hs, hexit⟩ := exit_exists (grid_box h) hr hd
  obtain ⟨nf, _, _, p0, p1, p2, h1, h2, h3, _, _, _, _, h7, h8, _⟩ :=
    C25_nearest_facet ho h hroot fuel hfuel hdom p hi hd hs hexit
  exact ⟨s, nf, p0, p1, p2, hs, hexit, h1, h2, h3, h7, h8⟩

/-- The hypotheses are met in the default problem: every cell, its centre and a slanted direction. -/
example (c : Nat) (hc : c < 1000) (q : Particle ℝ) : ∃ (dom : Domain ℝ) (i : Nat) (p : Particle ℝ),
    initMesh id 1001 (defaultProblem 1029384756) defaultMats = .ok [dom] ∧ p.cell = i ∧ CellAt dom i c ∧
    p.direction = ⟨2 / 3, -1 / 3, 2 / 3⟩ ∧
    p.direction.x ^ 2 + p.direction.y ^ 2 + p.direction.z ^ 2 = 1 ∧
    InOpenCell (defaultProblem 1029384756).grid ((defaultProblem 1029384756).grid.cellIdxToTuple c) p.coordinate := by
  obtain ⟨dom, cellAt, _, h1, _, h3, _, h5, _⟩ := C16_mesh (order := id) (fun _ => List.Perm.refl _)
    (default_single (by norm_num)) default_root 1001 (by rw [default_cells])
  obtain ⟨i, hi⟩ := List.getElem?_of_mem (h3.perm.mem_iff.2 (List.mem_range.2
    (show c < cells (defaultProblem 1029384756).grid by rw [default_cells]; exact hc)))
  have hg := grid_box (default_single (seed := 1029384756) (by norm_num))
  have px := hg.dx_pos
  have py := hg.dy_pos
  have pz := hg.dz_pos
  let r := boxCenter (defaultProblem 1029384756).grid ((defaultProblem 1029384756).grid.cellIdxToTuple c)
  refine ⟨dom, i, { q with cell := i, direction := ⟨2 / 3, -1 / 3, 2 / 3⟩, coordinate := r }, h1, rfl,
    (h5 i c).1 hi, rfl, ?_, ?_⟩
  · show (2 / 3 : ℝ) ^ 2 + (-1 / 3) ^ 2 + (2 / 3) ^ 2 = 1
    norm_num
  show InOpenCell _ _ (boxCenter _ _)
  unfold InOpenCell boxCenter
  refine ⟨⟨?_, ?_⟩, ⟨?_, ?_⟩, ?_, ?_⟩ <;> simp only <;> linarith
