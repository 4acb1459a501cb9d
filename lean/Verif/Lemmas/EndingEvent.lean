import Verif.Lemmas.EndingCross
/-!
# Tracking ends: a segment and its event
-/
open Flt FltReal GridSpec MeshSpec Flooding Rng
attribute [local irreducible] Rng.lcg Rng.sample Rng.spawn

/-- The particle goes on after a facet: it crosses it or is reflected. -/
theorem facet_kept {data : Data ℝ} {dom : Domain ℝ} {fl : Nat} {st st' : TrackState ℝ}
    (h : segmentEvent data dom fl .facetCrossing st = .ok (true, st')) :
    st'.extra = st.extra ∧ ∃ conn fa, dom.mesh.cellConnectivity[st.particle.cell]? = some conn ∧
      conn.facet[st.particle.facet]? = some fa ∧
      ((fa.subfacet.event = .transitOnProcessor ∧ ∃ d c f, fa.subfacet.adjacent = ⟨some d, some c, some f⟩ ∧
        st'.particle = { st.particle with domain := d, cell := c, facet := f, lastEvent := .facetCrossingTransitExit }) ∨
      (fa.subfacet.event = .boundaryReflection ∧ ∃ planes plane,
        dom.mesh.cellGeometry[st.particle.cell]? = some planes ∧ planes[st.particle.facet]? = some plane ∧
        st'.particle = reflectParticle { st.particle with lastEvent := .facetCrossingReflection } plane)) := by
  simp only [segmentEvent, facetBranch, bind_ok, idx_ok] at h
  obtain ⟨conn, h1, fa, h2, p, h3, h⟩ := h
  have key : st'.extra = st.extra ∧ ((fa.subfacet.event = .transitOnProcessor ∧ ∃ d c f,
        fa.subfacet.adjacent = ⟨some d, some c, some f⟩ ∧
        st'.particle = { st.particle with domain := d, cell := c, facet := f, lastEvent := .facetCrossingTransitExit }) ∨
      (fa.subfacet.event = .boundaryReflection ∧ ∃ planes plane,
        dom.mesh.cellGeometry[st.particle.cell]? = some planes ∧ planes[st.particle.facet]? = some plane ∧
        st'.particle = reflectParticle { st.particle with lastEvent := .facetCrossingReflection } plane)) := by
    rcases facetCrossingEvent_out h3 with ⟨e, d, c, f, ha, rfl⟩ | ⟨e, rfl⟩ | ⟨e, rfl⟩ | h4
    · simp only [pure_ok, Prod.mk.injEq, true_and] at h
      subst h
      exact ⟨rfl, .inl ⟨e, d, c, f, ha, rfl⟩⟩
    · simp [pure, Except.pure] at h
    · simp only [bind_ok, idx_ok, pure_ok, Prod.mk.injEq, true_and] at h
      obtain ⟨planes, g1, plane, g2, rfl⟩ := h
      exact ⟨rfl, .inr ⟨e, planes, plane, g1, g2, rfl⟩⟩
    · rw [h4.2] at h
      simp at h
  exact ⟨key.1, conn, fa, h1, h2, key.2⟩

theorem facet_extra {data : Data ℝ} {dom : Domain ℝ} {fl : Nat} {st st' : TrackState ℝ} {keep : Bool}
    (h : segmentEvent data dom fl .facetCrossing st = .ok (keep, st')) : st'.extra = st.extra := by
  simp only [segmentEvent, facetBranch, bind_ok] at h
  obtain ⟨conn, _, fa, _, p, _, h⟩ := h
  split at h
  · simp only [pure_ok, Prod.mk.injEq] at h; rw [← h.2]
  · simp only [bind_ok, pure_ok, Prod.mk.injEq] at h
    obtain ⟨_, _, _, _, _, rfl⟩ := h
    rfl
  · cases h
  · simp only [pure_ok, Prod.mk.injEq] at h; rw [← h.2]
  · cases h

/-- Bounds the segments to come. -/
noncomputable def segmentsLeft (g : Grid ℝ) (X : ℝ) (t : Nat × Nat × Nat) (p : Particle ℝ) : ℝ :=
  (2 * (g.nx + g.ny + g.nz) + 1) * collisionsLeft X p + crossingsLeft g t p.coordinate p.direction (reachOf p)

theorem collisionsLeft_congr {X : ℝ} {p q : Particle ℝ} (h1 : q.timeToCensus = p.timeToCensus)
    (h2 : q.numMeanFreePaths = p.numMeanFreePaths) : collisionsLeft X q = collisionsLeft X p := by
  unfold collisionsLeft reachOf sigmaOf
  rw [h1, h2]

theorem segmentsLeft_nonneg {g : Grid ℝ} (hg : BoxGrid g) {t : Nat × Nat × Nat} (ht : InGrid g t) {X : ℝ} (hX : 0 ≤ X)
    {p : Particle ℝ} (hp : TimeOk p) : 0 ≤ segmentsLeft g X t p :=
  add_nonneg (mul_nonneg (by positivity) (collisionsLeft_nonneg hX hp)) (crossingsLeft_nonneg hg ht _ _ (reachOf_nonneg hp))

theorem segmentsLeft_le {g : Grid ℝ} (hg : BoxGrid g) {t : Nat × Nat × Nat} (ht : InGrid g t) {X : ℝ}
    {p : Particle ℝ} (hp : TimeOk p) : segmentsLeft g X t p ≤ segmentBound g (reachOf p) X :=
  add_le_add (mul_le_mul_of_nonneg_left (collisionsLeft_le hp.opticalPath) (by positivity)) (crossingsLeft_le hg ht _ _ _)

section
variable {order : IterOrder} (ho : ∀ l, (order l).Perm l) {params : Params ℝ}
  {mats : List (Material ℝ)} (h : SingleUnit params mats) (hroot : params.rootCell < cells params.grid)
  (fuel : Nat) (hfuel : cells params.grid + 1 ≤ fuel) {dom : Domain ℝ}
  (hdom : initMesh order fuel params mats = .ok [dom])
include ho h hroot hfuel hdom

theorem cellAt_inGrid {i c : Nat} (hi : CellAt dom i c) : InGrid params.grid (params.grid.cellIdxToTuple c) := by
  obtain ⟨bc, cs, nodeOf, hb, _, hat, _⟩ := unit_mesh ho h hroot fuel hfuel hdom
  have hc := hb.lt ((hat _ _).2 hi)
  exact Grid.idx_inGrid hc

/-- A segment that ends on a facet. -/
theorem facet_segment {data : Data ℝ} {d : Domain ℝ} (hd : d.skeleton = dom.skeleton) (hx : NonnegTables data d)
    {p q : Particle ℝ} {c : Nat} (hp : TimeOk p) (hor : Ordinary data d params.grid p) (hb : reachOf p < 10 ^ 76)
    (hi : CellAt dom p.cell c) (hout : directOutcome data d p = .ok (.facetCrossing, q)) :
    q.cell = p.cell ∧ q.direction = p.direction ∧
    q.coordinate = along p.coordinate p.direction q.segmentPathLength ∧
    ∃ f k, k < 4 ∧ q.facet = 4 * Face.num f + k ∧ 0 < outward p.direction f ∧
      0 ≤ beyond params.grid (params.grid.cellIdxToTuple c) q.coordinate f := by
  obtain ⟨xs, nf, r, hxs, hxs0, hr, hn0, hn1, hfr, r5, r3, r6, he⟩ := direct_segment hx hp hout
  have hv := C37_speed.2.1 _ hp.energy
  change 0 < p.getSpeed ∧ p.getSpeed < _ at hv
  have hz : p.getSpeed * p.timeToCensus < 10 ^ 76 :=
    lt_of_le_of_lt (mul_le_mul_of_nonneg_right hv.2.le hp.timeToCensus) hb
  have hlt : Min.min (pathOf p * (if xs = 0 then 10 ^ 76 else 1 / xs))
      (Min.min (p.getSpeed * p.timeToCensus) nf.distanceToFacet) < 10 ^ 76 :=
    lt_of_le_of_lt ((min_le_right _ _).trans (min_le_left _ _)) hz
  obtain ⟨d1, d2⟩ := (he.outcome hlt).2.2.1 rfl
  have hL : q.segmentPathLength = nf.distanceToFacet := by
    rw [he.length, min_eq_right d2.le, min_eq_right d1.le]
  have hpf := prepareXs_frame p xs
  have hco := prepareXs_coordinate p xs
  have hi' : CellAt dom (prepareXs p xs).cell c := by rw [hpf.cell]; exact hi
  rw [mesh_skeleton hd] at hr
  obtain ⟨e1, f, k, hk, hfk, ho1, hb1⟩ := nearest_ahead ho h hroot fuel hfuel hdom hi' hr (d2.trans hz) (by
    have := hor.place c ((cellAt_skeleton hd).2 hi)
    unfold Astray at this ⊢
    rw [hco, hpf.direction, hpf.numSegments]
    exact this)
  have hpos : q.coordinate = along p.coordinate p.direction q.segmentPathLength := by
    have x1 := he.x
    have x2 := he.y
    have x3 := he.z
    rw [← he.length, e1, hco, r5] at x1 x2 x3
    unfold along
    rw [mul_comm q.segmentPathLength, mul_comm q.segmentPathLength, mul_comm q.segmentPathLength, ← x1, ← x2, ← x3]
  refine ⟨?_, by rw [he.direction, r5], hpos, f, k, hk, by rw [he.facet rfl, hfk], ?_, ?_⟩
  · obtain ⟨tr, hm⟩ := directOutcome_may hout
    exact (outcome_frame hm).cell
  · rw [hpf.direction] at ho1; exact ho1
  · rw [hpos, hL]
    rw [hco, hpf.direction] at hb1
    exact hb1

/-- The event at the end of that segment. -/
theorem facet_event {data : Data ℝ} {d : Domain ℝ} (hd : d.skeleton = dom.skeleton) {fl : Nat} {st st' : TrackState ℝ}
    {c : Nat} (hi : CellAt dom st.particle.cell c) {f : Face} {k : Nat} (hk : k < 4)
    (hf : st.particle.facet = 4 * Face.num f + k) (hout : 0 < outward st.particle.direction f)
    (hbe : 0 ≤ beyond params.grid (params.grid.cellIdxToTuple c) st.particle.coordinate f)
    (hev : segmentEvent data d fl .facetCrossing st = .ok (true, st')) (B : ℝ) :
    st'.extra = st.extra ∧ st'.particle.timeToCensus = st.particle.timeToCensus ∧
    st'.particle.numMeanFreePaths = st.particle.numMeanFreePaths ∧
    ∃ c', CellAt dom st'.particle.cell c' ∧
      crossingsLeft params.grid (params.grid.cellIdxToTuple c') st'.particle.coordinate st'.particle.direction B =
      crossingsLeft params.grid (params.grid.cellIdxToTuple c) st.particle.coordinate st.particle.direction B - 1 := by
  obtain ⟨hex, conn, fa, h1, h2, hcase⟩ := facet_kept hev
  rw [mesh_skeleton hd] at h1 hcase
  rw [hf] at h2
  obtain ⟨dom', cellAt, ev, g1, g2, g3, _, g5, _⟩ := C16_mesh ho h hroot fuel hfuel
  rw [hdom] at g1
  cases g1
  refine ⟨hex, ?_⟩
  rcases hcase with ⟨h3, dd, j, n, h4, e⟩ | ⟨h3, planes, plane, p1, p2, e⟩
  · rw [e]
    refine ⟨rfl, rfl, ?_⟩
    by_cases hb : OnBorder params.grid (params.grid.cellIdxToTuple c) f
    · have := (g3.border _ c conn f k fa ((g5 _ _).2 hi) h1 hk h2 hb).1
      have hbe := g2 f
      rw [← this, h3] at hbe
      exfalso
      revert hbe
      unfold borderEvent
      split <;> simp
    · obtain ⟨conn', _, fa', _, j', n', _, _, m1, m2, m3, m4, _⟩ :=
        facets_match ho h hroot fuel hfuel hdom hi f hk hb
      rw [h1] at m1
      cases m1
      rw [h2] at m2
      cases m2
      rw [h4] at m3
      cases m3
      obtain ⟨bc, cs, nodeOf, hbu, _, hat, _⟩ := unit_mesh ho h hroot fuel hfuel hdom
      have hc := hbu.lt ((hat _ _).2 hi)
      have hin := ((nbr_face hc f hk).2 hb).2.2
      refine ⟨_, m4, ?_⟩
      rw [Grid.tuple_idx hin.1 hin.2.1]
      exact crossingsLeft_transit _ hout hb B
  · rw [e]
    refine ⟨rfl, rfl, c, hi, ?_⟩
    have hb : OnBorder params.grid (params.grid.cellIdxToTuple c) f := by
      by_contra hb
      have := (g3.interior _ c conn f k fa ((g5 _ _).2 hi) h1 hk h2 hb).1
      rw [h3] at this
      cases this
    obtain ⟨bc, cs, nodeOf, hbu, _, hat, _⟩ := unit_mesh ho h hroot fuel hfuel hdom
    have hi' := (hat _ _).2 hi
    have hc := hbu.lt hi'
    rw [hbu.geom, List.getElem?_map, hi'] at p1
    cases p1
    have h24 : 4 * f.num + k < 24 := by have := num_lt f; omega
    rw [hf, List.getElem?_map, List.getElem?_range h24] at p2
    simp only [Option.map_some, Option.some.injEq] at p2
    rw [planeOf_eq (grid_box h) hc f hk] at p2
    rw [← p2]
    exact crossingsLeft_reflect (grid_box h) hout hb hbe B

/-- **The step.**  When the particle goes on, the bound on the segments decreases by one at least; and the particles
born in a collision can have one collision less. -/
theorem segment_step {data : Data ℝ} {d : Domain ℝ} (hd : d.skeleton = dom.skeleton) (hx : NonnegTables data d)
    {X : ℝ} (hX : 1 / 10 ^ 76 ≤ X) (hXs : ∀ c gr xs, directXs data d c gr = .ok xs → xs ≤ X)
    {p q : Particle ℝ} {c : Nat} (hp : TimeOk p) (hu : IsUnit3 p.direction) (hor : Ordinary data d params.grid p)
    (hb : reachOf p < 10 ^ 76) (hi : CellAt dom p.cell c) {o : SegOutcome} (hout : directOutcome data d p = .ok (o, q))
    {fl : Nat} {b : Balance} {keep : Bool} {st' : TrackState ℝ}
    (hev : segmentEvent data d fl o { particle := { q with numSegments := q.numSegments +. one }, balance := b, extra := [] }
      = .ok (keep, st')) :
    (keep = true → reachOf st'.particle ≤ reachOf p ∧ collisionsLeft X st'.particle ≤ collisionsLeft X p ∧
      ∃ c', CellAt dom st'.particle.cell c' ∧
        segmentsLeft params.grid X (params.grid.cellIdxToTuple c') st'.particle ≤
        segmentsLeft params.grid X (params.grid.cellIdxToTuple c) p - 1) ∧
    (∀ r ∈ st'.extra, CellAt dom r.cell c ∧ r.timeToCensus ≠ 0 ∧ reachOf r ≤ reachOf p ∧
      collisionsLeft X r ≤ collisionsLeft X p - 1) := by
  have hg := grid_box h
  have hX0 : 0 ≤ X := le_trans (by positivity) hX
  obtain ⟨hL0, hre, hcol, hfac⟩ := ordinary_segment hx hX hXs hp hor hb hout
  have hre' : reachOf q ≤ reachOf p := by linarith
  cases o with
  | census =>
    simp only [segmentEvent, Except.ok.injEq, Prod.mk.injEq] at hev
    obtain ⟨rfl, rfl⟩ := hev
    exact ⟨by simp, by simp⟩
  | facetCrossing =>
    obtain ⟨s1, s2, s3, f, k, hk, hfk, ho1, hb1⟩ := facet_segment ho h hroot fuel hfuel hdom hd hx hp hor hb hi hout
    obtain ⟨hpos, hsig⟩ := hfac rfl
    cases keep with
    | false =>
      refine ⟨by simp, ?_⟩
      rw [facet_extra hev]
      simp
    | true =>
      obtain ⟨e1, e2, e3, c', e4, e5⟩ := facet_event ho h hroot fuel hfuel hdom hd
        (st := { particle := { q with numSegments := q.numSegments +. one }, balance := b, extra := [] }) (c := c)
        (by rw [s1]; exact hi) hk hfk (by rw [s2]; exact ho1) hb1 hev (reachOf q)
      dsimp only at e1 e2 e3 e5
      have hcl : collisionsLeft X st'.particle ≤ collisionsLeft X p := by
        rw [collisionsLeft_congr e2 e3]
        unfold collisionsLeft
        have : X * reachOf q - sigmaOf q ≤ X * reachOf p - sigmaOf p := by
          have := mul_le_mul_of_nonneg_left hre hX0
          linarith
        have := mul_le_mul_of_nonneg_right this (show (0 : ℝ) ≤ 2 ^ 64 by positivity)
        linarith
      have hrs : reachOf st'.particle = reachOf q := by unfold reachOf; rw [e2]
      refine ⟨fun _ => ⟨by rw [hrs]; exact hre', hcl, c', e4, ?_⟩, by rw [e1]; simp⟩
      unfold segmentsLeft
      rw [hrs, e5, s3, s2]
      have h1 := crossingsLeft_move hg (params.grid.cellIdxToTuple c) p.coordinate hu hL0 hre
      have h2 := mul_le_mul_of_nonneg_left hcl
        (show (0 : ℝ) ≤ 2 * (params.grid.nx + params.grid.ny + params.grid.nz) + 1 by positivity)
      linarith
  | collision =>
    obtain ⟨hz, hsig⟩ := hcol rfl
    obtain ⟨hne, _⟩ := hor.collision q hout
    have hcell : q.cell = p.cell := by
      obtain ⟨tr, hm⟩ := directOutcome_may hout
      exact (outcome_frame hm).cell
    have key : ∀ r ∈ st'.particle :: st'.extra, r.cell = p.cell ∧ r.timeToCensus = q.timeToCensus ∧
        collisionsLeft X r ≤ collisionsLeft X p - 1 := by
      intro r hr
      have hx := segmentEvent_out hev (List.nil_append _).symm r hr
      have main : ∀ (mass : ℝ) (r : Particle ℝ),
          CollisionOut mass { q with numSegments := q.numSegments +. one } r →
          r.cell = p.cell ∧ r.timeToCensus = q.timeToCensus ∧ collisionsLeft X r ≤ collisionsLeft X p - 1 := by
        intro mass r hc
        have hfr := hc.fresh hz
        have ht : r.timeToCensus = q.timeToCensus := by
          cases hc with
          | same => rfl
          | scatter => exact (updateTrajectory_time _ _ _).2.2.1
          | fission => exact (updateTrajectory_time _ _ _).2.2.1
        refine ⟨by rw [hc.place.1]; exact hcell, ht, ?_⟩
        have hs : sigmaOf r = 1 / 2 ^ 64 := by
          unfold sigmaOf
          rcases hfr with hfr | hfr
          · rw [if_pos hfr]
          · rw [if_neg (by intro h0; rw [h0] at hfr; norm_num at hfr), min_eq_right hfr]
        have hr' : reachOf r = reachOf q := by unfold reachOf; rw [ht]
        unfold collisionsLeft
        rw [hs, hr']
        have : X * reachOf q - 1 / 2 ^ 64 ≤ X * reachOf p - sigmaOf p - 1 / 2 ^ 64 := by
          have := mul_le_mul_of_nonneg_left hre hX0
          linarith
        have := mul_le_mul_of_nonneg_right this (show (0 : ℝ) ≤ 2 ^ 64 by positivity)
        have e : (X * reachOf p - sigmaOf p - 1 / 2 ^ 64) * 2 ^ 64 = (X * reachOf p - sigmaOf p) * 2 ^ 64 - 1 := by ring
        linarith
      cases hx with
      | collide _ _ hc =>
        obtain ⟨k1, k2, k3⟩ := main _ _ hc
        exact ⟨k1, k2, (collisionsLeft_congr rfl rfl).trans_le k3⟩
      | born _ _ hc => exact main _ _ hc
    refine ⟨fun _ => ?_, fun r hr => ?_⟩
    · obtain ⟨k1, k2, k3⟩ := key _ List.mem_cons_self
      have hrs : reachOf st'.particle = reachOf q := by unfold reachOf; rw [k2]
      refine ⟨by rw [hrs]; exact hre', by linarith, c, by rw [k1]; exact hi, ?_⟩
      unfold segmentsLeft
      have h1 := crossingsLeft_collision hg (cellAt_inGrid ho h hroot fuel hfuel hdom hi) p.coordinate p.direction
        st'.particle.coordinate st'.particle.direction (show reachOf st'.particle ≤ reachOf p by rw [hrs]; exact hre')
      have h2 := mul_le_mul_of_nonneg_left k3
        (show (0 : ℝ) ≤ 2 * (params.grid.nx + params.grid.ny + params.grid.nz) + 1 by positivity)
      linarith
    · obtain ⟨k1, k2, k3⟩ := key _ (List.mem_cons_of_mem _ hr)
      exact ⟨by rw [k1]; exact hi, by rw [k2]; exact hne, by unfold reachOf at hre' ⊢; rw [k2]; exact hre', k3⟩

end
