import Verif.Lemmas.Stay
import Verif.Props.Segments
import Verif.Props.Directions
import Verif.Props.NoPanic
/-!
# C62: a particle is in the cell it is attributed to

Over the reals, in the mesh of a single-unit run.  The exceptions, at the edges of a cell and after ten
million segments, are those of `AtEdge` and `WornOut` (`Verif/Spec/Home.lean`).
-/
open Flt FltReal GridSpec MeshSpec Flooding
attribute [local irreducible] Rng.lcg Rng.sample Rng.spawn

theorem prepareXs_coordinate (p : Particle ℝ) (xs : ℝ) : (prepareXs p xs).coordinate = p.coordinate := by
  unfold prepareXs
  dsimp only
  split
  · unfold Particle.sampleNumMfp
    generalize Rng.sample (T := ℝ) _ = r
    obtain ⟨u, s⟩ := r
    rfl
  · rfl

theorem cellAt_skeleton {d d' : Domain ℝ} (h : d.skeleton = d'.skeleton) {i c : Nat} :
    CellAt d i c ↔ CellAt d' i c := by
  have key : ∀ {d d' : Domain ℝ}, d.skeleton = d'.skeleton → CellAt d i c → CellAt d' i c := by
    rintro d d' h ⟨st, h1, h2⟩
    obtain ⟨st', h3, h4⟩ := cells_skeleton h h1
    have := congrArg (fun c : CellState ℝ => c.id) h4
    exact ⟨st', h3, this ▸ h2⟩
  exact ⟨key h, key h.symm⟩

/-- A point of a cell on one of its inner faces is in the cell across the face. -/
theorem across_closed {g : Grid ℝ} {t : Nat × Nat × Nat} {r : Vec3 ℝ} {f : Face} (hr : InClosedCell g t r)
    (hf : beyond g t r f = 0) (hb : ¬ OnBorder g t f) (hg : BoxGrid g) : InClosedCell g (across t f) r := by
  have px := hg.dx_pos
  have py := hg.dy_pos
  have pz := hg.dz_pos
  obtain ⟨e1, e2, e3⟩ := across_step f hb
  obtain ⟨⟨h1, h2⟩, ⟨h3, h4⟩, h5, h6⟩ := hr
  unfold InClosedCell
  rw [e1, e2, e3]
  cases f <;> simp only [beyond, step] at hf ⊢ <;> push_cast <;>
    refine ⟨⟨?_, ?_⟩, ⟨?_, ?_⟩, ?_, ?_⟩ <;> linarith

theorem CollisionOut.place {mass : ℝ} {p q : Particle ℝ} (h : CollisionOut mass p q) :
    q.cell = p.cell ∧ q.coordinate = p.coordinate := by
  cases h with
  | same => exact ⟨rfl, rfl⟩
  | scatter => exact ⟨rfl, rfl⟩
  | fission => exact ⟨rfl, rfl⟩

section
variable {order : IterOrder} (ho : ∀ l, (order l).Perm l) {params : Params ℝ}
  {mats : List (Material ℝ)} (h : SingleUnit params mats) (hroot : params.rootCell < cells params.grid)
  (fuel : Nat) (hfuel : cells params.grid + 1 ≤ fuel) {dom : Domain ℝ}
  (hdom : initMesh order fuel params mats = .ok [dom])
include ho h hroot hfuel hdom

theorem unit_planes : UnitPlanes dom.mesh := by
  obtain ⟨bc, cs, nodeOf, hb, _, hat, _⟩ := unit_mesh ho h hroot fuel hfuel hdom
  intro planes hpl pl hp
  rw [hb.geom] at hpl
  obtain ⟨c, hc, rfl⟩ := List.mem_map.1 hpl
  obtain ⟨i, hi⟩ := List.getElem?_of_mem hc
  obtain ⟨n, hn, rfl⟩ := List.mem_map.1 hp
  obtain ⟨f, k, hk, rfl⟩ := face_of_facet (List.mem_range.1 hn)
  rw [planeOf_eq (grid_box h) (hb.lt hi) f hk]
  exact facePlane_unit _ _ f

/-- **C62** (source).  A particle drawn from the source is in the closed box of its cell. -/
theorem C62_sourced {data : Data ℝ} {d : Domain ℝ} (hd : d.skeleton = dom.skeleton) {w : ℝ} {i : Nat}
    {cell : CellState ℝ} {s : BitVec 64} {p : Particle ℝ} (hc : d.cells[i]? = some cell)
    (hp : sourceParticle data d w i cell s = .ok p) : ∃ c, AtHomeIn dom params.grid p c := by
  obtain ⟨bc, cs, nodeOf, hb, hlen, hat, _⟩ := unit_mesh ho h hroot fuel hfuel hdom
  have hf := sourceParticle_fields hp
  obtain ⟨cell', hc', he⟩ := cells_skeleton hd hc
  have hi : ∃ c, cs[i]? = some c := by
    have := (List.getElem?_eq_some_iff.1 hc').1
    have hl : cs.length = cells params.grid := by rw [hb.perm.length_eq, List.length_range]
    exact ⟨_, List.getElem?_eq_getElem (by omega)⟩
  obtain ⟨c, hi⟩ := hi
  have hci := (hat i c).1 hi
  obtain ⟨s1, s2, hgen⟩ := hf.coordinate
  obtain ⟨r, s3, h1, h2⟩ := C19_position_in_cell ho h hroot fuel hfuel hdom hci s1 cell.volume
  rw [mesh_skeleton hd, h1] at hgen
  cases hgen
  exact ⟨c, by rw [hf.cell]; exact hci, h2⟩

/-- **C62** (segment).  A particle in its cell `c`, neither at an edge nor worn out, moves on a straight
line inside the closed cell; if the segment ends with a facet crossing, it ends on the face of the facet,
where the line leaves the cell. -/
theorem C62_segment {data : Data ℝ} {d : Domain ℝ} (hd : d.skeleton = dom.skeleton) (hx : NonnegTables data d)
    {p q : Particle ℝ} {c : Nat} (hp : TimeOk p) (hu : IsUnit3 p.direction) (hh : AtHomeIn dom params.grid p c)
    (hedge : ¬ AtEdge params.grid (params.grid.cellIdxToTuple c) p.coordinate p.direction)
    (hworn : ¬ WornOut params.grid (params.grid.cellIdxToTuple c) p)
    {tr : List (Ev ℝ)} {o : SegOutcome} (hout : (outcome data d p).May tr (o, q)) :
    0 ≤ q.segmentPathLength ∧ q.cell = p.cell ∧
    q.coordinate = along p.coordinate p.direction q.segmentPathLength ∧
    (∀ u, 0 ≤ u → u ≤ q.segmentPathLength →
      InClosedCell params.grid (params.grid.cellIdxToTuple c) (along p.coordinate p.direction u)) ∧
    (o = .facetCrossing → ∃ f k, k < 4 ∧ q.facet = 4 * Face.num f + k ∧
      ExitsAt params.grid (params.grid.cellIdxToTuple c) p.coordinate p.direction q.segmentPathLength ∧
      LeavesBy params.grid (params.grid.cellIdxToTuple c) q.coordinate q.direction f) := by
  obtain ⟨xs, mfp, path, nf, r, hxs, hmfp, hpath, _, hnf, hf0, _, r1, r2, r3, r4, r5, _, he⟩ :=
    C22_outcome hx hp hout
  have hfr := prepareXs_frame p xs
  have hco := prepareXs_coordinate p xs
  obtain ⟨s, nf', f, k, hs0, hbig, hexit, hnear, hdist, hk, hfk, hleave⟩ :=
    nearest_exit ho h hroot fuel hfuel hdom (c := c) (prepareXs p xs) (by rw [hfr.cell]; exact hh.1)
      (by rw [hfr.direction]; exact hu) (by rw [hco]; exact hh.2) (by rw [hco, hfr.direction]; exact hedge)
      (by unfold WornOut; rw [hco, hfr.direction, hfr.numSegments]; exact hworn)
  rw [mesh_skeleton hd, hnear] at hnf
  cases hnf
  rw [hco, hfr.direction] at hexit hleave
  have hv : 0 < p.getSpeed := (C37_speed.2.1 _ hp.energy).1
  have hm : 0 < mfp := by
    rw [hmfp]; split
    · positivity
    · rename_i hne; have := lt_of_le_of_ne hxs (Ne.symm hne); positivity
  rw [hdist] at he
  have hlen := he.length
  set L := Min.min (path * mfp) (Min.min (p.getSpeed * p.timeToCensus) s) with hL
  have hL0 : 0 ≤ L := le_min (by positivity) (le_min (mul_nonneg hv.le hp.timeToCensus) hs0)
  have hLs : L ≤ s := (min_le_right _ _).trans (min_le_right _ _)
  have hpos : q.coordinate = along p.coordinate p.direction L := by
    have h1 := he.x
    have h2 := he.y
    have h3 := he.z
    rw [hco, hfr.direction, ← hL] at h1 h2 h3
    unfold along
    rw [mul_comm L, mul_comm L, mul_comm L, ← h1, ← h2, ← h3]
  rw [hlen]
  refine ⟨hL0, (outcome_frame hout).cell, hpos, fun u h0 h1 => hexit.inside u h0 (h1.trans hLs), fun hof => ?_⟩
  obtain ⟨_, _, h3⟩ := he.outcome (lt_of_le_of_lt hLs hbig)
  obtain ⟨h4, h5⟩ := h3.1 hof
  have hLe : L = s := by rw [hL, min_eq_right h5.le, min_eq_right h4.le]
  refine ⟨f, k, hk, by rw [he.facet hof, hfk], by rw [hLe]; exact hexit, ?_⟩
  rw [hpos, hLe, (outcome_frame hout).direction]
  exact hleave

/-- **C62** (event).  After the event of the segment, the particle and its fission products are in the closed
box of their cell. -/
theorem C62_event {data : Data ℝ} {d : Domain ℝ} (hd : d.skeleton = dom.skeleton) {p r : Particle ℝ} {c : Nat}
    (hh : AtHomeIn dom params.grid p c) {o : SegOutcome}
    (hface : o = .facetCrossing → ∃ f k, k < 4 ∧ p.facet = 4 * Face.num f + k ∧
      LeavesBy params.grid (params.grid.cellIdxToTuple c) p.coordinate p.direction f)
    (hev : EventOut data d p o r) : ∃ c', AtHomeIn dom params.grid r c' := by
  cases hev with
  | census => exact ⟨c, hh⟩
  | @transit conn fa dd j n h1 h2 h3 h4 =>
    obtain ⟨f, k, hk, hpf, hl⟩ := hface rfl
    rw [mesh_skeleton hd] at h1
    rw [hpf] at h2
    by_cases hb : OnBorder params.grid (params.grid.cellIdxToTuple c) f
    · obtain ⟨dom', cellAt, ev, g1, g2, g3, _, g5, _⟩ := C16_mesh ho h hroot fuel hfuel
      rw [hdom] at g1
      cases g1
      have := (g3.border p.cell c conn f k fa ((g5 _ _).2 hh.1) h1 hk h2 hb).1
      have hbe := g2 f
      rw [← this, h3] at hbe
      exfalso
      revert hbe
      unfold borderEvent
      split <;> simp
    · obtain ⟨conn', _, fa', _, j', n', _, _, m1, m2, m3, m4, _⟩ :=
        facets_match ho h hroot fuel hfuel hdom hh.1 f hk hb
      rw [h1] at m1
      cases m1
      rw [h2] at m2
      cases m2
      rw [h4] at m3
      cases m3
      obtain ⟨bc, cs, nodeOf, hbu, _, hat, _⟩ := unit_mesh ho h hroot fuel hfuel hdom
      have hc := hbu.lt ((hat _ _).2 hh.1)
      have hin := ((nbr_face hc f hk).2 hb).2.2
      refine ⟨_, m4, ?_⟩
      rw [Grid.tuple_idx hin.1 hin.2.1]
      exact across_closed hh.2 hl.1 hb (grid_box h)
  | escape => exact ⟨c, hh⟩
  | reflect => exact ⟨c, hh⟩
  | collide _ _ hc =>
    obtain ⟨a, b⟩ := hc.place
    exact ⟨c, by show CellAt dom _ c; rw [a]; exact hh.1, by show InClosedCell _ _ _; rw [b]; exact hh.2⟩
  | born _ _ hc =>
    obtain ⟨a, b⟩ := hc.place
    exact ⟨c, by rw [a]; exact hh.1, by rw [b]; exact hh.2⟩

/-- **C62** (history).  A particle that can exist in a simulation is in the closed box of its cell, unless it
comes from a particle that was in the closed box of its cell, but at an edge or worn out. -/
theorem C62_history {data : Data ℝ} {fl : Nat} (hy : TimeHyps data dom) {p : Particle ℝ}
    (hp : Reachable data dom fl p) :
    (∃ c, AtHomeIn dom params.grid p c) ∨
    ∃ q c, Reachable data dom fl q ∧ Descends data dom fl q p ∧ AtHomeIn dom params.grid q c ∧
      (AtEdge params.grid (params.grid.cellIdxToTuple c) q.coordinate q.direction ∨
        WornOut params.grid (params.grid.cellIdxToTuple c) q) := by
  have hpop : ∀ {p q : Particle ℝ}, PopFrame p q → (∃ c, AtHomeIn dom params.grid p c) →
      ∃ c, AtHomeIn dom params.grid q c := by
    rintro p q hf ⟨c, h1, h2⟩
    exact ⟨c, by rw [hf.cell]; exact h1, by rw [hf.coordinate]; exact h2⟩
  induction hp with
  | sourced hd hc hs => exact .inl (C62_sourced ho h hroot fuel hfuel hdom hd hc hs)
  | overRr _ ih =>
    rcases ih with ih | ⟨q, c, i1, i2, i3⟩
    · exact .inl (hpop (overPopulatedRr_frame _ _) ih)
    · exact .inr ⟨q, c, i1, .overRr i2, i3⟩
  | lowRr _ ih =>
    rcases ih with ih | ⟨q, c, i1, i2, i3⟩
    · exact .inl (hpop (lowWeightRr_frame _ _ _) ih)
    · exact .inr ⟨q, c, i1, .lowRr i2, i3⟩
  | split _ hsp hq ih =>
    rcases ih with ih | ⟨q, c, i1, i2, i3⟩
    · exact .inl (hpop (underPopulatedSplit_frame hsp _ hq) ih)
    · exact .inr ⟨q, c, i1, .split i2 hsp hq, i3⟩
  | prepared _ hg ih =>
    rcases ih with ⟨c, h1, h2⟩ | ⟨q, c, i1, i2, i3⟩
    · refine .inl ⟨c, ?_⟩
      simp only [gutsPrepare, bind_ok, pure_ok] at hg
      obtain ⟨g, _, rfl⟩ := hg
      constructor
      · dsimp only; split <;> exact h1
      · dsimp only; split <;> exact h2
    · exact .inr ⟨q, c, i1, .prepared i2 hg, i3⟩
  | @event d p tr o q b ex keep st' new r hd hr hout _ hev hnew hmem ih =>
    rcases ih with ⟨c, hh⟩ | ⟨q, c, i1, i2, i3⟩
    · by_cases hbad : AtEdge params.grid (params.grid.cellIdxToTuple c) p.coordinate p.direction ∨
        WornOut params.grid (params.grid.cellIdxToTuple c) p
      · exact .inr ⟨p, c, hr, .event hd .refl hout hev hnew hmem, hh, hbad⟩
      · rw [not_or] at hbad
        left
        obtain ⟨g1, g2, g3, g4, g5⟩ := C62_segment ho h hroot fuel hfuel hdom hd (hy.tables.skeleton hd)
          (C23_reachable hy hr).1 (C20_reachable (unit_planes ho h hroot fuel hfuel hdom) hr) hh hbad.1 hbad.2 hout
        refine C62_event ho h hroot fuel hfuel hdom hd (c := c) ⟨?_, ?_⟩ ?_ (segmentEvent_out hev hnew _ hmem)
        · show CellAt dom q.cell c
          rw [g2]; exact hh.1
        · show InClosedCell _ _ q.coordinate
          rw [g3]; exact g4 _ g1 le_rfl
        · intro hof
          obtain ⟨f, k, hk, hf, _, hl⟩ := g5 hof
          exact ⟨f, k, hk, hf, hl⟩
    · exact .inr ⟨q, c, i1, .event hd i2 hout hev hnew hmem, i3⟩

end

/-- **C62** (run).  In every run on a valid input, whatever the schedule, the particles present after any number
of cycles are in the closed box of their cell, except those that come from a particle that was at an edge or
worn out. -/
theorem C62_run {p : Params ℝ} (h : ValidInput p) {so : StrOrder} (hso : ∀ l, (so l).Perm l) {io : IterOrder}
    (hio : ∀ l, (io l).Perm l) (m : Machine) (hm : 1 ≤ m.defaultThreads) (fuel : Nat)
    (hfuel : cells p.grid + 1 ≤ fuel) {s : Started ℝ} (hs : startRun so io m fuel p = .ok (some s)) {fuel' n : Nat}
    {s1 : SimState ℝ} (hc : Cycles s.data s.exec s.opts fuel' n s.state s1) :
    ∀ r ∈ s1.container.all, (∃ c, AtHomeIn s.state.unit.dom p.grid r c) ∨
      ∃ q c, Reachable s.data s.state.unit.dom fuel' q ∧ Descends s.data s.state.unit.dom fuel' q r ∧
        AtHomeIn s.state.unit.dom p.grid q c ∧
        (AtEdge p.grid (p.grid.cellIdxToTuple c) q.coordinate q.direction ∨
          WornOut p.grid (p.grid.cellIdxToTuple c) q) := by
  obtain ⟨s', h1, h2, h3, _, _, _, mats, h4, h5⟩ := h.start hso hio m hm fuel hfuel
  rw [hs] at h1
  cases h1
  intro r hr
  exact C62_history hio h4 h.root fuel hfuel h5 h2.tracking.time ((cycles_reachable h3 hc).2 r hr)

/-! ### At an edge -/

/-- The test of a facet of the upper y face accepts a point slightly beyond its edge. -/
theorem edge_accepted {g : Grid ℝ} (hg : BoxGrid g) (hdx : 1 ≤ g.dx) (t : Nat × Nat × Nat) :
    distToSegment ⟨(t.1 + 1) * g.dx + 3 / 4 * (1 / 10 ^ 10), (t.2.1 + 1) * g.dy, t.2.2 * g.dz + g.dz / 2⟩
      (facePlane g t .yp) (facetPoint g t (4 * Face.num .yp + 3) 0, facetPoint g t (4 * Face.num .yp + 3) 1,
        facetPoint g t (4 * Face.num .yp + 3) 2) = true := by
  have px := hg.dx_pos
  have pz := hg.dz_pos
  have e0 : facetPoint g t (4 * Face.num .yp + 3) 0 = ⟨(t.1 + 1) * g.dx, (t.2.1 + 1) * g.dy, (t.2.2 + 1) * g.dz⟩ := by
    simp only [facetPoint, nodeIndirect, halves, halfPoint, Face.num, List.getD_cons_succ, List.getD_cons_zero,
      Nat.reduceMul, Nat.reduceAdd]
    push_cast
    norm_num
  have e1 : facetPoint g t (4 * Face.num .yp + 3) 1 = ⟨(t.1 + 1) * g.dx, (t.2.1 + 1) * g.dy, t.2.2 * g.dz⟩ := by
    simp only [facetPoint, nodeIndirect, halves, halfPoint, Face.num, List.getD_cons_succ, List.getD_cons_zero,
      Nat.reduceMul, Nat.reduceAdd]
    push_cast
    norm_num
  have e2 : facetPoint g t (4 * Face.num .yp + 3) 2 =
      ⟨(t.1 + 1 / 2) * g.dx, (t.2.1 + 1) * g.dy, (t.2.2 + 1 / 2) * g.dz⟩ := by
    simp only [facetPoint, nodeIndirect, halves, halfPoint, Face.num, List.getD_cons_succ, List.getD_cons_zero,
      Nat.reduceMul, Nat.reduceAdd]
    push_cast
    norm_num
  rw [e0, e1, e2]
  have hl : (Flt.lit 5 (-1) : ℝ) = 1 / 2 := by simp [lit_eq]; norm_num
  have h9 : (Flt.lit 1 (-9) : ℝ) = 1 / 10 ^ 9 := by simp [lit_eq]
  unfold distToSegment
  simp only [lt_eq, abs_eq, hl, facePlane, abs_zero, abs_one]
  rw [if_neg (by norm_num), if_pos (by norm_num)]
  rw [if_neg, if_neg]
  · unfold crossesTest abCrossAc
    simp only [lt_eq, add_eq, sub_eq, mul_eq, neg_eq, abs_eq, h9, Bool.or_eq_true, Bool.and_eq_true,
      decide_eq_true_eq]
    left
    have hprod : g.dz ≤ g.dx * g.dz := by nlinarith
    have hs : (t.2.2 * g.dz - (t.2.2 + 1) * g.dz) * ((t.1 + 1) * g.dx + 3 / 4 * (1 / 10 ^ 10) - (t.1 + 1) * g.dx)
        - ((t.1 + 1) * g.dx - (t.1 + 1) * g.dx) * (t.2.2 * g.dz + g.dz / 2 - (t.2.2 + 1) * g.dz)
        + (((t.2.2 + 1 / 2) * g.dz - t.2.2 * g.dz) * ((t.1 + 1) * g.dx + 3 / 4 * (1 / 10 ^ 10) - (t.1 + 1) * g.dx)
          - ((t.1 + 1 / 2) * g.dx - (t.1 + 1) * g.dx) * (t.2.2 * g.dz + g.dz / 2 - t.2.2 * g.dz))
        + (((t.2.2 + 1) * g.dz - (t.2.2 + 1 / 2) * g.dz) * ((t.1 + 1) * g.dx + 3 / 4 * (1 / 10 ^ 10) - (t.1 + 1 / 2) * g.dx)
          - ((t.1 + 1) * g.dx - (t.1 + 1 / 2) * g.dx) * (t.2.2 * g.dz + g.dz / 2 - (t.2.2 + 1 / 2) * g.dz))
        = g.dx * g.dz / 2 := by ring
    rw [hs, abs_of_pos (by positivity)]
    refine ⟨⟨?_, ?_⟩, ?_⟩
    · ring_nf; linarith
    · have : 0 < g.dx * g.dz := by positivity
      ring_nf; linarith
    · have : 0 < g.dx * g.dz := by positivity
      ring_nf; linarith
  · unfold outsideExtent
    simp only [lt_eq, add_eq, sub_eq, h9, Bool.or_eq_true, Bool.and_eq_true, decide_eq_true_eq, not_or, not_and, not_lt]
    refine ⟨fun _ => ?_, fun _ => ?_⟩
    · linarith
    · linarith
  · unfold outsideExtent
    simp only [lt_eq, add_eq, sub_eq, h9, Bool.or_eq_true, Bool.and_eq_true, decide_eq_true_eq, not_or, not_and, not_lt]
    refine ⟨fun hh => ?_, fun hh => ?_⟩
    · exfalso; linarith
    · exfalso; linarith

section
variable {order : IterOrder} (ho : ∀ l, (order l).Perm l) {params : Params ℝ}
  {mats : List (Material ℝ)} (h : SingleUnit params mats) (hroot : params.rootCell < cells params.grid)
  (fuel : Nat) (hfuel : cells params.grid + 1 ≤ fuel) {dom : Domain ℝ}
  (hdom : initMesh order fuel params mats = .ok [dom])
include ho h hroot hfuel hdom

/-- The search from a point of the upper x face, `1e-10` below the upper y face, in the direction of both:
the particle is sent to the y face, through the x face. -/
theorem edge_search (hdx : 1 ≤ params.grid.dx) (hdy : 1 ≤ params.grid.dy) {c : Nat} (p : Particle ℝ)
    (hi : CellAt dom p.cell c) (hdir : p.direction = ⟨3 / 5, 4 / 5, 0⟩)
    (hpos : p.coordinate = ⟨((params.grid.cellIdxToTuple c).1 + 1) * params.grid.dx,
      ((params.grid.cellIdxToTuple c).2.1 + 1) * params.grid.dy - 1 / 10 ^ 10,
      (params.grid.cellIdxToTuple c).2.2 * params.grid.dz + params.grid.dz / 2⟩) :
    InClosedCell params.grid (params.grid.cellIdxToTuple c) p.coordinate ∧
    ∃ nf k, nearestFacet dom.mesh p = .ok (nf, p) ∧ k < 4 ∧ nf.facet = 4 * Face.num .yp + k ∧
      nf.distanceToFacet = 5 / 4 * (1 / 10 ^ 10) := by
  obtain ⟨bc, cs, nodeOf, hb, _, hat, _⟩ := unit_mesh ho h hroot fuel hfuel hdom
  have hi' := (hat p.cell c).2 hi
  have hc := hb.lt hi'
  have hg := grid_box h
  have px := hg.dx_pos
  have py := hg.dy_pos
  have pz := hg.dz_pos
  set g := params.grid with hgdef
  set t := g.cellIdxToTuple c with ht
  have hr : InClosedCell g t p.coordinate := by
    rw [hpos]
    refine ⟨⟨?_, ?_⟩, ⟨?_, ?_⟩, ?_, ?_⟩ <;> simp only <;> linarith
  refine ⟨hr, ?_⟩
  set s : ℝ := 5 / 4 * (1 / 10 ^ 10) with hs
  have hs0 : 0 < s := by norm_num [hs]
  have hbig : s < 10 ^ 76 := by norm_num [hs]
  have hgeom : dom.mesh.cellGeometry[p.cell]? = some ((List.range 24).map (planeOf g c)) := by
    rw [hb.geom, List.getElem?_map, hi']; rfl
  set dists := (List.range 24).map fun n => facetDist g t p.coordinate p.direction n (planeOf g c n) with hdists
  have hget : ∀ n, n < 24 → dists[n]? = some (facetDist g t p.coordinate p.direction n (planeOf g c n)) := by
    intro n hn
    rw [hdists, List.getElem?_map, List.getElem?_range hn]; rfl
  have hbey : beyond g t p.coordinate .xp = 0 ∧ beyond g t p.coordinate .yp = -(1 / 10 ^ 10) := by
    rw [hpos]; constructor <;> simp only [beyond] <;> ring
  -- the value of a distance
  have hval : ∀ (f : Face) k, k < 4 → facetDist g t p.coordinate p.direction (4 * f.num + k)
      (planeOf g c (4 * f.num + k)) ≤ 0 ∨ facetDist g t p.coordinate p.direction (4 * f.num + k)
      (planeOf g c (4 * f.num + k)) = 10 ^ 76 ∨ (f = .yp ∧
        facetDist g t p.coordinate p.direction (4 * f.num + k) (planeOf g c (4 * f.num + k)) = s) := by
    intro f k hk
    rw [planeOf_eq hg hc f hk]
    unfold facetDist
    simp only [huge_eq]
    split_ifs with h1 h2
    · exact .inr (.inl rfl)
    · rw [at_eq_beyond, cos_eq_outward]
      rw [cos_eq_outward, hdir] at h1
      cases f
      · left; rw [hbey.1]; simp
      · exfalso; apply h1; norm_num [outward]
      · refine .inr (.inr ⟨rfl, ?_⟩)
        rw [hbey.2, hdir, hs]; norm_num [outward]
      · exfalso; apply h1; norm_num [outward]
      · exfalso; apply h1; norm_num [outward]
      · exfalso; apply h1; norm_num [outward]
    · exact .inr (.inl rfl)
  have hmin : ∀ x ∈ dists, 0 < x → s ≤ x := by
    intro x hx hx0
    obtain ⟨n, hn, rfl⟩ := List.mem_map.1 hx
    obtain ⟨f, k, hk, rfl⟩ := face_of_facet (List.mem_range.1 hn)
    rcases hval f k hk with hv | hv | ⟨_, hv⟩
    · exact absurd hx0 (not_lt.2 hv)
    · rw [hv]; exact hbig.le
    · rw [hv]
  have hone : dists[4 * Face.num .yp + 3]? = some s := by
    rw [hget _ (by decide), planeOf_eq hg hc .yp (by norm_num)]
    unfold facetDist
    have e1 : (facePlane g t .yp).cos p.direction = 4 / 5 := by rw [cos_eq_outward, hdir]; rfl
    have e2 : -(facePlane g t .yp).at p.coordinate / (facePlane g t .yp).cos p.direction = s := by
      rw [e1, at_eq_beyond, hbey.2, hs]; norm_num
    rw [if_neg (by rw [e1]; norm_num), e2, if_pos]
    have e3 : along p.coordinate p.direction s = ⟨(t.1 + 1) * g.dx + 3 / 4 * (1 / 10 ^ 10), (t.2.1 + 1) * g.dy,
        t.2.2 * g.dz + g.dz / 2⟩ := by
      rw [hpos, hdir, hs]
      unfold along
      simp only [Vec3.mk.injEq]
      refine ⟨?_, ?_, ?_⟩ <;> ring
    rw [e3]
    exact edge_accepted hg hdx t
  obtain ⟨hnd, hnf⟩ := computeNearest_spec hs0 hbig hone hmin
  set nf := computeNearest dists with hnfdef
  have hlt : nf.facet < 24 := by
    have := (List.getElem?_eq_some_iff.1 hnf).1
    rwa [hdists, List.length_map, List.length_range] at this
  have hloop : ∀ (fl : Nat) (tol move : ℝ),
      nfLoop dom.mesh ((List.range 24).map (planeOf g c)) p.coordinate p.direction tol (fl + 1) 0 move p
        = .ok (nf, p) := by
    intro fl tol move
    unfold nfLoop
    rw [facetDistances_eq hg hb hi' hr tol]
    simp only [bind, Except.bind, pure, Except.pure]
    rw [← hnfdef, hnd]
    simp only [beq_eq, huge_eq, le_eq, zero_eq]
    rw [if_neg]
    simp [hbig.ne, not_le.2 hs0]
  obtain ⟨f', k', hk', hfk⟩ := face_of_facet hlt
  rw [hget _ hlt, hfk] at hnf
  have hnf := Option.some.inj hnf
  have hyp : f' = .yp := by
    rcases hval f' k' hk' with hv | hv | ⟨hv, _⟩
    · rw [hnf] at hv; exact absurd hs0 (not_lt.2 hv)
    · rw [hnf] at hv; exact absurd hv hbig.ne
    · exact hv
  subst hyp
  refine ⟨nf, k', ?_, hk', hfk, hnd⟩
  unfold nearestFacet mctNf3dg
  rw [idx_ok.2 hgeom]
  simp only [bind, Except.bind, pure, Except.pure]
  rw [hloop 999]
  simp only [hnd, max_eq, zero_eq, le_eq, huge_eq, max_eq_left hs0.le]
  rw [assertB_ok.2 (by simpa using hbig.le)]
  simp only
  rw [← hnd]
  exact ()

/-- **C62 fails at an edge.**  A particle in its cell, on its upper x face and `1e-10` below its upper y face,
moves towards both.  If its next event is a facet crossing, then after it the particle is not in the closed
box of its cell any more: it went through the plane of the x face, and was given the cell across the y face. -/
theorem C62_edge_violated (hdx : 1 ≤ params.grid.dx) (hdy : 1 ≤ params.grid.dy) {data : Data ℝ}
    (hx : NonnegTables data dom) {p q r : Particle ℝ} {c : Nat} (hp : TimeOk p)
    (hi : CellAt dom p.cell c) (hdir : p.direction = ⟨3 / 5, 4 / 5, 0⟩)
    (hpos : p.coordinate = ⟨((params.grid.cellIdxToTuple c).1 + 1) * params.grid.dx,
      ((params.grid.cellIdxToTuple c).2.1 + 1) * params.grid.dy - 1 / 10 ^ 10,
      (params.grid.cellIdxToTuple c).2.2 * params.grid.dz + params.grid.dz / 2⟩)
    {tr : List (Ev ℝ)} (hout : (outcome data dom p).May tr (.facetCrossing, q))
    (hev : EventOut data dom q .facetCrossing r) :
    AtHomeIn dom params.grid p c ∧
    AtEdge params.grid (params.grid.cellIdxToTuple c) p.coordinate p.direction ∧
    ¬ ∃ c', AtHomeIn dom params.grid r c' := by
  have huniq : ∀ {i c1 c2}, CellAt dom i c1 → CellAt dom i c2 → c1 = c2 := by
    rintro i c1 c2 ⟨st, h1, h2⟩ ⟨st', h3, h4⟩
    rw [h1] at h3
    cases h3
    rw [h2] at h4
    exact Nat.eq_of_mul_eq_mul_right (by norm_num) h4
  obtain ⟨xs, mfp, path, nf, r', hxs, hmfp, hpath, _, hnf, hf0, _, r1, r2, r3, r4, r5, _, he⟩ :=
    C22_outcome hx hp hout
  have hfr := prepareXs_frame p xs
  have hco := prepareXs_coordinate p xs
  obtain ⟨hr, nf', k, hnear, hk, hfk, hdist⟩ := edge_search ho h hroot fuel hfuel hdom hdx hdy (c := c) (prepareXs p xs)
    (by rw [hfr.cell]; exact hi) (by rw [hfr.direction]; exact hdir) (by rw [hco]; exact hpos)
  rw [hnear] at hnf
  cases hnf
  rw [hco] at hr
  refine ⟨⟨hi, hr⟩, ⟨.xp, .yp, ⟨?_, ?_⟩, ?_, ?_, ?_⟩, ?_⟩
  · rw [hpos]; simp [beyond]
  · rw [hdir]; norm_num [outward]
  · rw [hpos]; norm_num [beyond]
  · rw [hdir]; norm_num [outward]
  · rw [beyond_along, hpos, hdir]; norm_num [beyond, outward]
  rw [hdist] at he
  have hlt : Min.min (path * mfp) (Min.min (p.getSpeed * p.timeToCensus) (5 / 4 * (1 / 10 ^ 10) : ℝ)) < 10 ^ 76 :=
    lt_of_le_of_lt ((min_le_right _ _).trans (min_le_right _ _)) (by norm_num)
  obtain ⟨_, _, h3⟩ := he.outcome hlt
  obtain ⟨h4, h5⟩ := h3.1 rfl
  have hqx : q.coordinate.x = ((params.grid.cellIdxToTuple c).1 + 1) * params.grid.dx + 3 / 4 * (1 / 10 ^ 10) := by
    rw [he.x, min_eq_right h5.le, min_eq_right h4.le, hco, hfr.direction, hpos, hdir]
    ring
  have hqf : q.facet = 4 * Face.num .yp + k := by rw [he.facet rfl, hfk]
  have hqc : q.cell = p.cell := (outcome_frame hout).cell
  have hout' : ∀ t : Nat × Nat × Nat, t.1 = (params.grid.cellIdxToTuple c).1 → ¬ InClosedCell params.grid t q.coordinate := by
    rintro t he ⟨⟨_, h2⟩, _⟩
    rw [he, hqx] at h2
    linarith
  rintro ⟨c', hc1, hc2⟩
  cases hev with
  | @transit conn fa dd j n g1 g2 g3 g4 =>
    dsimp only at hc1 hc2
    rw [hqc] at g1
    rw [hqf] at g2
    by_cases hb : OnBorder params.grid (params.grid.cellIdxToTuple c) .yp
    · obtain ⟨dom', cellAt, ev, m1, m2, m3, _, m5, _⟩ := C16_mesh ho h hroot fuel hfuel
      rw [hdom] at m1
      cases m1
      obtain ⟨b1, b2⟩ := m3.border p.cell c conn .yp k fa ((m5 _ _).2 hi) g1 hk g2 hb
      have b3 := m3.current p.cell conn _ fa g1 g2
      rw [b2, b3] at g4
      cases g4
      rw [huniq hc1 hi] at hc2
      exact hout' _ rfl hc2
    · obtain ⟨conn', _, fa', _, j', n', _, _, m1, m2, m3, m4, _⟩ :=
        facets_match ho h hroot fuel hfuel hdom hi .yp hk hb
      rw [g1] at m1
      cases m1
      rw [g2] at m2
      cases m2
      rw [g4] at m3
      cases m3
      obtain ⟨bc, cs, nodeOf, hbu, _, hat, _⟩ := unit_mesh ho h hroot fuel hfuel hdom
      have hin := ((nbr_face (hbu.lt ((hat _ _).2 hi)) .yp hk).2 hb).2.2
      rw [huniq hc1 m4, Grid.tuple_idx hin.1 hin.2.1] at hc2
      exact hout' (across _ .yp) (by simp [across]) hc2
  | escape =>
    dsimp only at hc1 hc2
    rw [hqc] at hc1
    rw [huniq hc1 hi] at hc2
    exact hout' _ rfl hc2
  | reflect =>
    simp only [reflectParticle] at hc1 hc2
    rw [hqc] at hc1
    rw [huniq hc1 hi] at hc2
    exact hout' _ rfl hc2

end

/-! ## Concrete cases -/

/-- The hypotheses of `C62_edge_violated` are met in every cell that has a neighbour across its upper y face. -/
theorem edge_happens {order : IterOrder} (ho : ∀ l, (order l).Perm l) {params : Params ℝ}
    {mats : List (Material ℝ)} (h : SingleUnit params mats) (hroot : params.rootCell < cells params.grid)
    (fuel : Nat) (hfuel : cells params.grid + 1 ≤ fuel) {dom : Domain ℝ}
    (hdom : initMesh order fuel params mats = .ok [dom]) (hdx : 1 ≤ params.grid.dx) (hdy : 1 ≤ params.grid.dy)
    {data : Data ℝ} (hs : SafeTracking data dom) (hgr : 0 < dom.numGroups) {i c : Nat} (hi : CellAt dom i c)
    (hb : ¬ OnBorder params.grid (params.grid.cellIdxToTuple c) .yp) :
    ∃ (p q r : Particle ℝ) (tr : List (Ev ℝ)), TimeOk p ∧ p.cell = i ∧ p.direction = ⟨3 / 5, 4 / 5, 0⟩ ∧
      p.coordinate = ⟨((params.grid.cellIdxToTuple c).1 + 1) * params.grid.dx,
        ((params.grid.cellIdxToTuple c).2.1 + 1) * params.grid.dy - 1 / 10 ^ 10,
        (params.grid.cellIdxToTuple c).2.2 * params.grid.dz + params.grid.dz / 2⟩ ∧
      (outcome data dom p).May tr (.facetCrossing, q) ∧ EventOut data dom q .facetCrossing r := by
  obtain ⟨st, hst, _⟩ := id hi
  have hc : i < dom.cells.length := (List.getElem?_eq_some_iff.1 hst).1
  obtain ⟨x, hx⟩ := hs.xs (c := i) (g := 0) hc hgr
  have hx0 : 0 ≤ x := hs.time.tables.directXs hx
  let d0 : Particle ℝ := Particle.default
  have hv : 0 < (Particle.speedOf 1 : ℝ) := (C37_speed.2.1 _ one_pos).1
  let p : Particle ℝ := { d0 with
    cell := i, energyGroup := 0, kineticEnergy := 1, numMeanFreePaths := x + 1,
    timeToCensus := 1 / Particle.speedOf 1, direction := ⟨3 / 5, 4 / 5, 0⟩,
    coordinate := ⟨((params.grid.cellIdxToTuple c).1 + 1) * params.grid.dx,
        ((params.grid.cellIdxToTuple c).2.1 + 1) * params.grid.dy - 1 / 10 ^ 10,
        (params.grid.cellIdxToTuple c).2.2 * params.grid.dz + params.grid.dz / 2⟩ }
  have hpt : TimeOk p := ⟨by show (0:ℝ) ≤ 1 / _; positivity, by show 0 ≤ x + 1; linarith, by show (0:ℝ) < 1; norm_num⟩
  have hfr := prepareXs_frame p x
  have hco := prepareXs_coordinate p x
  obtain ⟨_, nf, k, hnear, hk, hfk, hdist⟩ := edge_search ho h hroot fuel hfuel hdom hdx hdy (c := c) (prepareXs p x)
    (by rw [hfr.cell]; exact hi) (by rw [hfr.direction]) (by rw [hco])
  obtain ⟨p1, p2, p3, _⟩ := prepareXs_path (p := p) x hpt.opticalPath
  have hpath : (prepareXs p x).numMeanFreePaths = x + 1 := by
    unfold prepareXs
    simp only [beq_eq, zero_eq, decide_eq_true_eq]
    rw [if_neg (show ¬ x + 1 = 0 by linarith)]
  have hmfp : 0 < (prepareXs p x).meanFreePath := by
    rw [p3]; split_ifs with e
    · positivity
    · have := lt_of_le_of_ne hx0 (Ne.symm e); positivity
  have hcoll : 1 ≤ (prepareXs p x).numMeanFreePaths * (prepareXs p x).meanFreePath := by
    rw [hpath, p3]; split_ifs with e
    · rw [e]; norm_num
    · have := lt_of_le_of_ne hx0 (Ne.symm e)
      rw [mul_one_div, le_div_iff₀ this]; linarith
  have hcen : p.getSpeed * (prepareXs p x).timeToCensus = 1 := by
    rw [p2]
    show Particle.speedOf 1 * (1 / Particle.speedOf 1) = 1
    field_simp
  obtain ⟨o, q, hq⟩ := applyOutcome_ok (p := prepareXs p x) (speed := p.getSpeed) (force := false) (nf := nf)
    (fun _ => by linarith) (by rw [hcen]; norm_num) (by rw [hdist]; norm_num) (by rw [hdist]; norm_num)
  have hend := C22_segment (show 0 < p.getSpeed from hv)
    (show 0 ≤ (prepareXs p x).timeToCensus by rw [p2]; exact hpt.timeToCensus) (by rw [hdist]; norm_num) hq
  rw [hcen, hdist] at hend
  have hm : Min.min ((prepareXs p x).numMeanFreePaths * (prepareXs p x).meanFreePath)
      (Min.min 1 (5 / 4 * (1 / 10 ^ 10) : ℝ)) < 10 ^ 76 :=
    lt_of_le_of_lt ((min_le_right _ _).trans (min_le_right _ _)) (by norm_num)
  have ho' : o = .facetCrossing := (hend.outcome hm).2.2.2
    ⟨lt_of_lt_of_le (by norm_num) hcoll, by norm_num⟩
  subst ho'
  have hmay : (outcome data dom p).May [.load (i * dom.numGroups + 0) 0, .store (i * dom.numGroups + 0) x]
      (.facetCrossing, q) := by
    have hforce : prepareForced p = (false, p) := by
      unfold prepareForced
      simp [not_lt.2 hpt.opticalPath]
    unfold outcome
    rw [hforce]
    dsimp only
    have h1 : (cachedXs data dom p.cell p.energyGroup).May
        [.load (i * dom.numGroups + 0) 0, .store (i * dom.numGroups + 0) x] x := by
      unfold cachedXs
      refine Prog.May.load ?_
      rw [if_neg (by simp)]
      rw [show directXs data dom p.cell p.energyGroup = .ok x from hx]
      exact .store .ret
    have h2 : (Prog.ofExcept (T := ℝ) (outcomeWithXs dom p.getSpeed false p x)).May [] (.facetCrossing, q) := by
      have : outcomeWithXs dom p.getSpeed false p x = .ok (.facetCrossing, q) := by
        unfold outcomeWithXs; dsimp only; rw [hnear]; exact hq
      rw [this]
      exact .ret
    exact h1.bind h2
  have hqc : q.cell = i := (outcome_frame hmay).cell
  have hqf : q.facet = 4 * Face.num .yp + k := by rw [hend.facet rfl, hfk]
  obtain ⟨conn, _, fa, _, j, n', _, _, m1, m2, m3, _⟩ := facets_match ho h hroot fuel hfuel hdom hi .yp hk hb
  obtain ⟨dom', cellAt, ev, g1, _, g3, _, g5, _⟩ := C16_mesh ho h hroot fuel hfuel
  rw [hdom] at g1
  cases g1
  obtain ⟨b1, _⟩ := g3.interior i c conn .yp k fa ((g5 _ _).2 hi) m1 hk m2 hb
  exact ⟨p, q, _, _, hpt, rfl, rfl, rfl, hmay, .transit (by rw [hqc]; exact m1) (by rw [hqf]; exact m2) b1 m3⟩

/-- In the built-in problem, in its first cell, the search does send a particle out of its cell. -/
example : ∃ (s : Started ℝ) (p q r : Particle ℝ) (tr : List (Ev ℝ)),
    startRun List.reverse id ⟨4, true⟩ 1001 (builtinParams (chosen 4 10)) = .ok (some s) ∧
    (outcome s.data s.state.unit.dom p).May tr (.facetCrossing, q) ∧
    EventOut s.data s.state.unit.dom q .facetCrossing r ∧
    AtHomeIn s.state.unit.dom (builtinParams (chosen 4 10)).grid p 0 ∧
    ¬ ∃ c', AtHomeIn s.state.unit.dom (builtinParams (chosen 4 10)).grid r c' := by
  have hv := builtin_valid 4 10
  have hg : (builtinParams (chosen 4 10)).grid = Grid.new (T := ℝ) 10 10 10 100 100 100 := by
    show (defaultProblem 1029384756).grid = _
    simp [Params.grid, defaultProblem, SimulationParams.default]
  have hf : cells (builtinParams (chosen 4 10)).grid + 1 ≤ 1001 := le_of_eq (by
    rw [show cells (builtinParams (chosen 4 10)).grid = 1000 from default_cells 1029384756])
  obtain ⟨s, h1, h2, _, _, _, _, mats, h7, h8⟩ := hv.start (so := List.reverse) (fun l => List.reverse_perm l)
    (io := id) (fun l => .refl _) ⟨4, true⟩ (by norm_num) 1001 hf
  obtain ⟨dom', cellAt, ev, g1, _, g3, _, g5, _⟩ := C16_mesh (order := id) (fun l => .refl _) h7 hv.root 1001 hf
  rw [h8] at g1
  cases g1
  have hc0 : 0 ∈ List.range (cells (builtinParams (chosen 4 10)).grid) := by
    rw [show cells (builtinParams (chosen 4 10)).grid = 1000 from default_cells 1029384756]
    exact List.mem_range.2 (by norm_num)
  obtain ⟨i, hi⟩ := List.getElem?_of_mem (g3.perm.mem_iff.2 hc0)
  have hi := (g5 _ _).1 hi
  have hdx : 1 ≤ (builtinParams (chosen 4 10)).grid.dx := by rw [hg]; norm_num [Grid.new]
  have hdy : 1 ≤ (builtinParams (chosen 4 10)).grid.dy := by rw [hg]; norm_num [Grid.new]
  have hgr : 0 < s.state.unit.dom.numGroups := by
    have := h2.tracking.energy.groups
    omega
  obtain ⟨p, q, r, tr, a1, a2, a3, a4, a5, a6⟩ := edge_happens (order := id) (fun l => .refl _) h7 hv.root 1001 hf h8
    hdx hdy h2.tracking hgr hi (by
      rw [hg]; simp [OnBorder, Grid.new, Grid.cellIdxToTuple])
  obtain ⟨b1, _, b3⟩ := C62_edge_violated (order := id) (fun l => .refl _) h7 hv.root 1001 hf h8 hdx hdy
    h2.tracking.time.tables a1 (by rw [a2]; exact hi) a3 a4 a5 a6
  exact ⟨s, p, q, r, tr, h1, a5, a6, b1, b3⟩

/-- In the built-in problem, a particle at the centre of its first cell meets the hypotheses of `C62_segment`, and it
has a next event. -/
example : ∃ (s : Started ℝ) (p q : Particle ℝ) (tr : List (Ev ℝ)) (o : SegOutcome),
    startRun List.reverse id ⟨4, true⟩ 1001 (builtinParams (chosen 4 10)) = .ok (some s) ∧
    NonnegTables s.data s.state.unit.dom ∧ TimeOk p ∧ IsUnit3 p.direction ∧
    AtHomeIn s.state.unit.dom (builtinParams (chosen 4 10)).grid p 0 ∧
    ¬ AtEdge (builtinParams (chosen 4 10)).grid ((builtinParams (chosen 4 10)).grid.cellIdxToTuple 0)
      p.coordinate p.direction ∧
    ¬ WornOut (builtinParams (chosen 4 10)).grid ((builtinParams (chosen 4 10)).grid.cellIdxToTuple 0) p ∧
    (outcome s.data s.state.unit.dom p).May tr (o, q) := by
  have hv := builtin_valid 4 10
  have hf : cells (builtinParams (chosen 4 10)).grid + 1 ≤ 1001 := le_of_eq (by
    rw [show cells (builtinParams (chosen 4 10)).grid = 1000 from default_cells 1029384756])
  obtain ⟨s, h1, h2, _, _, _, _, mats, h7, h8⟩ := hv.start (so := List.reverse) (fun l => List.reverse_perm l)
    (io := id) (fun l => .refl _) ⟨4, true⟩ (by norm_num) 1001 hf
  obtain ⟨dom', cellAt, ev, g1, _, g3, g4, g5, _⟩ := C16_mesh (order := id) (fun l => .refl _) h7 hv.root 1001 hf
  rw [h8] at g1
  cases g1
  have hc0 : 0 ∈ List.range (cells (builtinParams (chosen 4 10)).grid) := by
    rw [show cells (builtinParams (chosen 4 10)).grid = 1000 from default_cells 1029384756]
    exact List.mem_range.2 (by norm_num)
  obtain ⟨i, hi⟩ := List.getElem?_of_mem (g3.perm.mem_iff.2 hc0)
  have hi := (g5 _ _).1 hi
  have hgr : 0 < s.state.unit.dom.numGroups := by
    have := h2.tracking.energy.groups
    omega
  obtain ⟨st, hst, _⟩ := id hi
  have hc : i < s.state.unit.dom.cells.length := (List.getElem?_eq_some_iff.1 hst).1
  have hg := grid_box h7
  have px := hg.dx_pos
  have py := hg.dy_pos
  have pz := hg.dz_pos
  set g := (builtinParams (chosen 4 10)).grid with hgd
  have hin : InOpenCell g (g.cellIdxToTuple 0) (boxCenter g (g.cellIdxToTuple 0)) := by
    unfold InOpenCell boxCenter
    refine ⟨⟨?_, ?_⟩, ⟨?_, ?_⟩, ?_, ?_⟩ <;> simp only <;> linarith
  have hno : ∀ d f, ¬ LeavesBy g (g.cellIdxToTuple 0) (boxCenter g (g.cellIdxToTuple 0)) d f := by
    rintro d f ⟨hl, _⟩
    obtain ⟨⟨a1, a2⟩, ⟨a3, a4⟩, a5, a6⟩ := hin
    cases f <;> simp only [beyond] at hl <;> linarith
  let d0 : Particle ℝ := Particle.default
  let p : Particle ℝ := { d0 with
    cell := i, energyGroup := 0, kineticEnergy := 1, numMeanFreePaths := 1, timeToCensus := 1,
    direction := ⟨2 / 3, -1 / 3, 2 / 3⟩, coordinate := boxCenter g (g.cellIdxToTuple 0) }
  have hpt : TimeOk p := ⟨by show (0:ℝ) ≤ 1; norm_num, by show (0:ℝ) ≤ 1; norm_num, by show (0:ℝ) < 1; norm_num⟩
  have hrun : ∃ x, (outcome s.data s.state.unit.dom p).run
      ⟨List.replicate (tableSize s.state.unit.dom) 0, [], []⟩ = .ok x := by
    refine ok_of_no_error fun e he => ?_
    exact outcome_safe h2.tracking hpt hc hgr (by rw [List.length_replicate]) (Prog.run_mayFail (G := fun _ _ => True) he
      (Prog.Stores.bind (cachedXs_stores (fun _ _ _ _ => trivial) _ _) fun _ => Prog.Stores.ofExcept _) fun _ _ _ => trivial)
  obtain ⟨⟨⟨o, q⟩, m⟩, hx⟩ := hrun
  obtain ⟨tr, hmay, _⟩ := Prog.run_may hx
  refine ⟨s, p, q, tr, o, h1, h2.tracking.time.tables, hpt, ?_, ⟨hi, ?_⟩, ?_, ?_, hmay⟩
  · show (2 / 3 : ℝ) ^ 2 + (-1 / 3) ^ 2 + (2 / 3) ^ 2 = 1
    norm_num
  · obtain ⟨⟨a1, a2⟩, ⟨a3, a4⟩, a5, a6⟩ := hin
    exact ⟨⟨a1.le, a2.le⟩, ⟨a3.le, a4.le⟩, a5.le, a6.le⟩
  · rintro ⟨f, _, hl, _⟩
    exact hno _ f hl
  · rintro ⟨_, f, hl⟩
    exact hno _ f hl
