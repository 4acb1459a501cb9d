import Verif.Lemmas.Stay
import Verif.Props.InCell
import Verif.Props.Possible
/-!
# C83: what becomes of a particle that finds no facet

Over the reals.  The search for the nearest facet tries again after moving the particle when it finds no facet
ahead, or when the particle is on a facet after more than ten million segments.
-/
open Flt FltReal GridSpec MeshSpec Flooding
attribute [local irreducible] Rng.lcg Rng.sample Rng.spawn

/-- What is left of the way to the centre after `n` moves, the first one by the fraction `m`. -/
noncomputable def leftAfter : ℕ → ℝ → ℝ
  | 0, _ => 1
  | n + 1, m => (1 - m) * leftAfter n (Min.min (1 / 100) (m * 2))

theorem leftAfter_double {n : ℕ} {m : ℝ} (h : m ≤ 1 / 200) :
    leftAfter (n + 1) m = (1 - m) * leftAfter n (m * 2) := by
  rw [leftAfter, min_eq_right (by linarith)]

theorem leftAfter_cap {n : ℕ} {m : ℝ} (h : 1 / 200 ≤ m) :
    leftAfter (n + 1) m = (1 - m) * (99 / 100) ^ n := by
  rw [leftAfter, min_eq_left (by linarith)]
  congr 1
  induction n with
  | zero => rw [leftAfter, pow_zero]
  | succ n ih => rw [leftAfter, min_eq_left (by norm_num), ih, pow_succ]; ring

set_option exponentiation.threshold 3000 in
theorem leftAfter_bounds :
    564 / 10 ^ 7 < leftAfter 1000 (1 / 2 / 10 ^ 10) ∧ leftAfter 1000 (1 / 2 / 10 ^ 10) < 565 / 10 ^ 7 := by
  have : leftAfter 1000 (1 / 2 / 10 ^ 10) =
      ((List.range 28).map fun k => 1 - (2 : ℝ) ^ k / (2 * 10 ^ 10)).prod * (99 / 100) ^ 972 := by
    iterate 27 rw [leftAfter_double (by norm_num)]
    rw [leftAfter_cap (by norm_num)]
    simp only [List.range, List.range.loop, List.map_cons, List.map_nil, List.prod_cons, List.prod_nil]
    generalize ((99 : ℝ) / 100) ^ 972 = z
    ring
  rw [this]
  simp only [List.range, List.range.loop, List.map_cons, List.map_nil, List.prod_cons, List.prod_nil]
  have e : ((99 : ℝ) / 100) ^ 972 = (((99 : ℝ) / 100) ^ 243) ^ 4 := by rw [← pow_mul]
  rw [e]
  have b1 : (8696655 : ℝ) / 10 ^ 8 < (99 / 100) ^ 243 := by norm_num
  have b2 : (99 / 100) ^ 243 < (8696656 : ℝ) / 10 ^ 8 := by norm_num
  have c1 : ((8696655 : ℝ) / 10 ^ 8) ^ 4 < ((99 / 100) ^ 243) ^ 4 := by gcongr
  have c2 : ((99 / 100) ^ 243) ^ 4 < ((8696656 : ℝ) / 10 ^ 8) ^ 4 := by gcongr
  generalize (((99 : ℝ) / 100) ^ 243) ^ 4 = z at c1 c2
  constructor
  · refine lt_trans ?_ (mul_lt_mul_of_pos_left c1 (by norm_num))
    norm_num
  · refine lt_trans (mul_lt_mul_of_pos_left c2 (by norm_num)) ?_
    norm_num

/-- The search has to be tried again: there is no facet ahead, or the particle is on a facet after more than ten
million segments. -/
def Lost (p : Particle ℝ) (d : ℝ) : Prop := d = 10 ^ 76 ∨ (10000000 < p.numSegments ∧ d ≤ 0)

theorem lost_iff (p : Particle ℝ) (d : ℝ) :
    ((d ==. Flt.huge) || ((p.numSegments >. Flt.ofNat 10000000) && (d <=. zero))) = true ↔ Lost p d := by
  simp only [beq_eq, huge_eq, lt_eq, ofNat_eq, le_eq, zero_eq, Bool.or_eq_true, decide_eq_true_eq,
    Bool.and_eq_true, Lost]
  norm_num

theorem nfLoop_found {mesh : Mesh ℝ} {planes : List (Plane ℝ)} {c d : Vec3 ℝ} {tol mf : ℝ} {fuel it : ℕ}
    {p : Particle ℝ} {dists : List ℝ} (hd : facetDistances mesh p.cell c d tol planes = .ok dists)
    (hl : ¬ Lost p (computeNearest dists).distanceToFacet) :
    nfLoop mesh planes c d tol (fuel + 1) it mf p = .ok (computeNearest dists, p) := by
  unfold nfLoop
  rw [hd]
  simp only [bind, Except.bind, pure, Except.pure]
  rw [if_neg (by rw [lost_iff]; exact hl)]

theorem nfLoop_lost {mesh : Mesh ℝ} {planes : List (Plane ℝ)} {c d : Vec3 ℝ} {tol : ℝ} {dists : List ℝ}
    {ctr : Vec3 ℝ} :
    ∀ (n it : ℕ) (mf : ℝ) (p : Particle ℝ), it + n + 1 = 1000 →
      facetDistances mesh p.cell c d tol planes = .ok dists → cellPosition3dg mesh p.cell = .ok ctr →
      Lost p (computeNearest dists).distanceToFacet →
      nfLoop mesh planes c d tol (n + 1) it mf p = .ok (computeNearest dists,
        { p with coordinate := ⟨ctr.x + leftAfter (n + 1) mf * (p.coordinate.x - ctr.x),
                                ctr.y + leftAfter (n + 1) mf * (p.coordinate.y - ctr.y),
                                ctr.z + leftAfter (n + 1) mf * (p.coordinate.z - ctr.z)⟩ }) := by
  intro n
  induction n with
  | zero =>
    intro it mf p hn hd hc hl
    unfold nfLoop
    rw [hd]
    simp only [bind, Except.bind, pure, Except.pure]
    rw [if_pos (by rw [lost_iff]; exact hl), hc]
    simp only
    rw [if_neg (by omega)]
    simp only [leftAfter, Vec3.add, Vec3.sub, Vec3.smul, add_eq, sub_eq, mul_eq]
    congr 4 <;> ring
  | succ n ih =>
    intro it mf p hn hd hc hl
    unfold nfLoop
    rw [hd]
    simp only [bind, Except.bind, pure, Except.pure]
    rw [if_pos (by rw [lost_iff]; exact hl), hc]
    simp only
    rw [if_pos (by omega), ih (it + 1) _ { p with coordinate := p.coordinate.add ((ctr.sub p.coordinate).smul mf) } (by omega)
      hd hc hl]
    simp only [leftAfter, Vec3.add, Vec3.sub, Vec3.smul, add_eq, sub_eq, mul_eq, min_eq, lit_eq, two_eq]
    have e : (((1 : ℕ) : ℝ) * (10 : ℝ) ^ (-2 : ℤ)) = 1 / 100 := by norm_num
    norm_num
    generalize leftAfter n _ = z
    refine ⟨?_, ?_, ?_⟩ <;> ring

theorem nfLoop_dists {mesh : Mesh ℝ} {planes : List (Plane ℝ)} {c d : Vec3 ℝ} {tol mf : ℝ} {fuel it : ℕ}
    {p p' : Particle ℝ} {nf : NearestFacet ℝ}
    (h : nfLoop mesh planes c d tol (fuel + 1) it mf p = .ok (nf, p')) :
    ∃ dists, facetDistances mesh p.cell c d tol planes = .ok dists ∧
      (Lost p (computeNearest dists).distanceToFacet → ∃ ctr, cellPosition3dg mesh p.cell = .ok ctr) := by
  simp only [nfLoop, bind_ok] at h
  obtain ⟨dists, hd, h⟩ := h
  refine ⟨dists, hd, fun hl => ?_⟩
  rw [if_pos (by rw [lost_iff]; exact hl)] at h
  simp only [bind_ok] at h
  obtain ⟨ctr, hc, _⟩ := h
  exact ⟨ctr, hc⟩

theorem nfLoop_result {mesh : Mesh ℝ} {planes : List (Plane ℝ)} {c d : Vec3 ℝ} {tol mf : ℝ}
    {p p' : Particle ℝ} {nf : NearestFacet ℝ} {dists : List ℝ}
    (h : nfLoop mesh planes c d tol (999 + 1) 0 mf p = .ok (nf, p'))
    (hd : facetDistances mesh p.cell c d tol planes = .ok dists) : nf = computeNearest dists := by
  by_cases hl : Lost p (computeNearest dists).distanceToFacet
  · obtain ⟨dists', hd', hc⟩ := nfLoop_dists h
    rw [hd] at hd'
    cases hd'
    obtain ⟨ctr, hc⟩ := hc hl
    rw [nfLoop_lost 999 0 _ p (by norm_num) hd hc hl] at h
    cases h
    rfl
  · rw [nfLoop_found hd hl] at h
    cases h
    rfl

theorem prepareXs_numSegments (p : Particle ℝ) (xs : ℝ) : (prepareXs p xs).numSegments = p.numSegments := by
  unfold prepareXs
  dsimp only
  split
  · unfold Particle.sampleNumMfp
    generalize Rng.sample (T := ℝ) _ = r
    obtain ⟨u, s⟩ := r
    rfl
  · rfl

/-- **C83** (what the search does to the particle).  The search changes the position only.  If a facet is found
ahead, and the particle is not on a facet after more than ten million segments, the particle stays where it is.
Otherwise it is brought to the centre of its cell: less than one part in ten thousand of the way is left. -/
theorem C83_rescue {mesh : Mesh ℝ} {p p' : Particle ℝ} {nf : NearestFacet ℝ}
    (h : nearestFacet mesh p = .ok (nf, p')) :
    p' = { p with coordinate := p'.coordinate } ∧
    ((nf.distanceToFacet < 10 ^ 76 ∧ (0 < nf.distanceToFacet ∨ p.numSegments ≤ 10000000) ∧
        p'.coordinate = p.coordinate) ∨
      ((nf.distanceToFacet = 10 ^ 76 ∨ (nf.distanceToFacet = 0 ∧ 10000000 < p.numSegments)) ∧
        ∃ ctr left, cellPosition3dg mesh p.cell = .ok ctr ∧ 564 / 10 ^ 7 < left ∧ left < 565 / 10 ^ 7 ∧
          p'.coordinate = ⟨ctr.x + left * (p.coordinate.x - ctr.x), ctr.y + left * (p.coordinate.y - ctr.y),
            ctr.z + left * (p.coordinate.z - ctr.z)⟩)) := by
  refine ⟨nearestFacet_frame h, ?_⟩
  simp only [nearestFacet, mctNf3dg, bind_ok, pure_ok, Prod.mk.injEq, Prod.exists, assertB_ok] at h
  obtain ⟨nf0, p0, ⟨pl, _, h⟩, _, hle, rfl, rfl⟩ := h
  simp only [max_eq, zero_eq, le_eq, huge_eq, decide_eq_true_eq] at hle ⊢
  obtain ⟨dists, hd, hctr⟩ := nfLoop_dists h
  have hb : (0 : ℝ) < 10 ^ 76 := by norm_num
  by_cases hl : Lost p (computeNearest dists).distanceToFacet
  · right
    obtain ⟨ctr, hc⟩ := hctr hl
    rw [nfLoop_lost 999 0 _ p (by norm_num) hd hc hl] at h
    cases h
    refine ⟨?_, ctr, leftAfter 1000 (1 / 2 / 10 ^ 10), hc, leftAfter_bounds.1, leftAfter_bounds.2, ?_⟩
    · rcases hl with hl | ⟨h1, h2⟩
      · left; rw [hl]; exact max_eq_left hb.le
      · right; exact ⟨max_eq_right h2, h1⟩
    · have e : ((Flt.lit 5 (-1) : ℝ) *. Flt.small) = 1 / 2 / 10 ^ 10 := by
        simp only [lit_eq, mul_eq, small_eq]; norm_num
      rw [e]
  · left
    rw [nfLoop_found hd hl] at h
    cases h
    refine ⟨?_, ?_, rfl⟩
    · refine lt_of_le_of_ne hle fun he => hl (.inl ?_)
      rcases max_choice (computeNearest dists).distanceToFacet 0 with h1 | h1
      · rw [h1] at he; exact he
      · rw [h1] at he; exact absurd he hb.ne
    · by_contra hcon
      rw [not_or, not_lt, not_le] at hcon
      exact hl (.inr ⟨hcon.2, (le_max_left _ _).trans hcon.1⟩)

section
variable {order : IterOrder} (ho : ∀ l, (order l).Perm l) {params : Params ℝ}
  {mats : List (Material ℝ)} (h : SingleUnit params mats) (hroot : params.rootCell < cells params.grid)
  (fuel : Nat) (hfuel : cells params.grid + 1 ≤ fuel) {dom : Domain ℝ}
  (hdom : initMesh order fuel params mats = .ok [dom])
include ho h hroot hfuel hdom

/-- **C83** (the cell is kept).  In the mesh of a run the search never fails on a particle which is in its cell, and
the particle is still in its cell after it, whether it has been moved or not. -/
theorem C83_home {p : Particle ℝ} {c : Nat} (hh : AtHomeIn dom params.grid p c) :
    ∃ nf p', nearestFacet dom.mesh p = .ok (nf, p') ∧ AtHomeIn dom params.grid p' c := by
  obtain ⟨bc, cs, nodeOf, hb, hlen, hat, _⟩ := unit_mesh ho h hroot fuel hfuel hdom
  have hi := (hat p.cell c).2 hh.1
  have hlt : p.cell < dom.cells.length := by
    obtain ⟨st, hst, _⟩ := hh.1
    exact (List.getElem?_eq_some_iff.1 hst).1
  obtain ⟨nf, p', hn, _⟩ := nearestFacet_ok (C50_sound_mesh ho h hroot fuel hfuel hdom) hlt
  obtain ⟨hfr, hcase⟩ := C83_rescue hn
  have hcell : p'.cell = p.cell := by rw [hfr]
  refine ⟨nf, p', hn, by rw [hcell]; exact hh.1, ?_⟩
  rcases hcase with ⟨_, _, he⟩ | ⟨_, ctr, left, hctr, l1, l2, he⟩
  · rw [he]; exact hh.2
  · rw [hb.position hi] at hctr
    cases hctr
    have hg := grid_box h
    have px := hg.dx_pos
    have py := hg.dy_pos
    have pz := hg.dz_pos
    have k1 : 0 < left := lt_trans (by norm_num) l1
    have k2 : left < 1 := lt_trans l2 (by norm_num)
    have key : ∀ {a dl r : ℝ}, 0 < dl → a * dl ≤ r → r ≤ (a + 1) * dl →
        a * dl ≤ a * dl + dl / 2 + left * (r - (a * dl + dl / 2)) ∧
        a * dl + dl / 2 + left * (r - (a * dl + dl / 2)) ≤ (a + 1) * dl := by
      intro a dl r hdl h1 h2
      constructor <;> nlinarith
    obtain ⟨⟨a1, a2⟩, ⟨a3, a4⟩, a5, a6⟩ := hh.2
    rw [he]
    exact ⟨key px a1 a2, key py a3 a4, key pz a5 a6⟩

/-- **C83** (after ten million segments).  In the mesh of a run, a particle which is on a face of its cell and leaving
by it, away from the edges, and has made more than ten million segments, is brought to the centre of its cell; the
search then still says that it is on the face. -/
theorem C83_worn {p : Particle ℝ} {c : Nat} {f : Face} (hh : AtHomeIn dom params.grid p c)
    (hd : p.direction.x ^ 2 + p.direction.y ^ 2 + p.direction.z ^ 2 = 1)
    (hedge : ¬ AtEdge params.grid (params.grid.cellIdxToTuple c) p.coordinate p.direction)
    (hleave : LeavesBy params.grid (params.grid.cellIdxToTuple c) p.coordinate p.direction f)
    (hseg : 10000000 < p.numSegments) :
    ∃ nf p' left f' k, nearestFacet dom.mesh p = .ok (nf, p') ∧ nf.distanceToFacet = 0 ∧
      k < 4 ∧ nf.facet = 4 * Face.num f' + k ∧
      LeavesBy params.grid (params.grid.cellIdxToTuple c) p.coordinate p.direction f' ∧
      564 / 10 ^ 7 < left ∧ left < 565 / 10 ^ 7 ∧
      (let o := boxCenter params.grid (params.grid.cellIdxToTuple c)
       p'.coordinate = ⟨o.x + left * (p.coordinate.x - o.x), o.y + left * (p.coordinate.y - o.y),
        o.z + left * (p.coordinate.z - o.z)⟩) := by
  have hh0 : CellAt dom ({ p with numSegments := 0 } : Particle ℝ).cell c := hh.1
  obtain ⟨s, nf0, f0, k, hs0, _, hexit, hn0, hd0, hk, hfk, hl0⟩ := nearest_exit ho h hroot fuel hfuel hdom
    { p with numSegments := 0 } hh0 hd hh.2 hedge (by rintro ⟨h1, _⟩; norm_num at h1)
  have hs : s = 0 := by
    refine le_antisymm (not_lt.1 fun hlt => ?_) hs0
    have h1 := (inClosed_iff.1 (hexit.inside s hs0 le_rfl)) f
    rw [at_eq_beyond, beyond_along] at h1
    have h2 := mul_pos hlt hleave.2
    have h3 := hleave.1
    simp only at h1
    linarith
  rw [hs] at hd0 hl0
  rw [along_zero] at hl0
  obtain ⟨nf, p', hn, hhome⟩ := C83_home ho h hroot fuel hfuel hdom hh
  obtain ⟨bc, cs, nodeOf, hb, hlen, hat, _⟩ := unit_mesh ho h hroot fuel hfuel hdom
  have hi := (hat p.cell c).2 hh.1
  have hsame : nf = nf0 := by
    simp only [nearestFacet, mctNf3dg, bind_ok, pure_ok, Prod.mk.injEq, Prod.exists, assertB_ok] at hn hn0
    obtain ⟨nf1, p1, ⟨pl1, hp1, h1⟩, _, _, rfl, rfl⟩ := hn
    obtain ⟨nf2, p2, ⟨pl2, hp2, h2⟩, _, _, rfl, _⟩ := hn0
    rw [hp1] at hp2
    cases hp2
    obtain ⟨dists, hdi, _⟩ := nfLoop_dists h1
    rw [nfLoop_result h1 hdi, nfLoop_result h2 hdi]
  obtain ⟨_, hcase⟩ := C83_rescue hn
  rcases hcase with ⟨_, hx, _⟩ | ⟨_, ctr, left, hctr, l1, l2, he⟩
  · rw [hsame, hd0] at hx
    rcases hx with hx | hx
    · exact absurd hx (lt_irrefl _)
    · exact absurd hseg (not_lt.2 hx)
  · rw [hb.position hi] at hctr
    cases hctr
    exact ⟨nf, p', left, f0, k, hn, by rw [hsame, hd0], hk, by rw [hsame, hfk], hl0, l1, l2, he⟩

/-- **C83** (the move is not undone).  When such a particle then crosses an inner face of its cell, it is given the
cell across the face while its position is near the centre of the cell it was in: it is not in the cell it is
attributed to any more. -/
theorem C83_misplaced {data : Data ℝ} (hx : NonnegTables data dom) {p q r : Particle ℝ} {c : Nat} {f : Face}
    (hp : TimeOk p) (hh : AtHomeIn dom params.grid p c)
    (hd : p.direction.x ^ 2 + p.direction.y ^ 2 + p.direction.z ^ 2 = 1)
    (hedge : ¬ AtEdge params.grid (params.grid.cellIdxToTuple c) p.coordinate p.direction)
    (hleave : LeavesBy params.grid (params.grid.cellIdxToTuple c) p.coordinate p.direction f)
    (hinner : ∀ f', LeavesBy params.grid (params.grid.cellIdxToTuple c) p.coordinate p.direction f' →
      ¬ OnBorder params.grid (params.grid.cellIdxToTuple c) f')
    (hseg : 10000000 < p.numSegments)
    {tr : List (Ev ℝ)} (hout : (outcome data dom p).May tr (.facetCrossing, q))
    (hev : EventOut data dom q .facetCrossing r) :
    InOpenCell params.grid (params.grid.cellIdxToTuple c) r.coordinate ∧
    ¬ ∃ c', AtHomeIn dom params.grid r c' := by
  have huniq : ∀ {i c1 c2}, CellAt dom i c1 → CellAt dom i c2 → c1 = c2 := by
    rintro i c1 c2 ⟨st, h1, h2⟩ ⟨st', h3, h4⟩
    rw [h1] at h3
    cases h3
    rw [h2] at h4
    exact Nat.eq_of_mul_eq_mul_right (by norm_num) h4
  obtain ⟨xs, mfp, path, nf, r', hxs, hmfp, hpath, _, hnf, hf0, _, r1, r2, r3, r4, r5, _, he⟩ :=
    C22_outcome hx hp hout
  have hfr := prepareXs_frame p xs
  have hco := prepareXs_coordinate p xs
  have hns : (prepareXs p xs).numSegments = p.numSegments := prepareXs_numSegments p xs
  obtain ⟨nf', p', left, f', k, hnear, hdist, hk, hfk, hl', l1, l2, hpos⟩ :=
    C83_worn ho h hroot fuel hfuel hdom (p := prepareXs p xs) (c := c) (f := f)
      ⟨by rw [hfr.cell]; exact hh.1, by rw [hco]; exact hh.2⟩ (by rw [hfr.direction]; exact hd)
      (by rw [hco, hfr.direction]; exact hedge) (by rw [hco, hfr.direction]; exact hleave) (by rw [hns]; exact hseg)
  rw [hnear] at hnf
  cases hnf
  rw [hco, hfr.direction] at hl'
  rw [hdist] at he
  have hlt : Min.min (path * mfp) (Min.min (p.getSpeed * p.timeToCensus) (0 : ℝ)) < 10 ^ 76 :=
    lt_of_le_of_lt ((min_le_right _ _).trans (min_le_right _ _)) (by norm_num)
  obtain ⟨_, _, h3⟩ := he.outcome hlt
  obtain ⟨h4, h5⟩ := h3.1 rfl
  have hx' := he.x
  have hy' := he.y
  have hz' := he.z
  rw [min_eq_right h5.le, min_eq_right h4.le, mul_zero, add_zero] at hx' hy' hz'
  have hqf : q.facet = 4 * Face.num f' + k := by rw [he.facet rfl, hfk]
  have hqc : q.cell = p.cell := (outcome_frame hout).cell
  have hg := grid_box h
  have px := hg.dx_pos
  have py := hg.dy_pos
  have pz := hg.dz_pos
  have k1 : 0 < left := lt_trans (by norm_num) l1
  have k2 : left < 1 := lt_trans l2 (by norm_num)
  have key : ∀ {a dl r : ℝ}, 0 < dl → a * dl ≤ r → r ≤ (a + 1) * dl →
      a * dl < a * dl + dl / 2 + left * (r - (a * dl + dl / 2)) ∧
      a * dl + dl / 2 + left * (r - (a * dl + dl / 2)) < (a + 1) * dl := by
    intro a dl r hdl h1 h2
    constructor <;> nlinarith
  have hopen : InOpenCell params.grid (params.grid.cellIdxToTuple c) q.coordinate := by
    obtain ⟨⟨a1, a2⟩, ⟨a3, a4⟩, a5, a6⟩ := hh.2
    simp only [hpos, hco] at hx' hy' hz'
    refine ⟨?_, ?_, ?_⟩
    · rw [hx']; exact key px a1 a2
    · rw [hy']; exact key py a3 a4
    · rw [hz']; exact key pz a5 a6
  have transit : ∀ (conn : CellConn) (fa : FacetAdj), dom.mesh.cellConnectivity[p.cell]? = some conn →
      conn.facet[4 * Face.num f' + k]? = some fa → fa.subfacet.event = .transitOnProcessor := by
    intro conn fa g1 g2
    obtain ⟨dom', cellAt, ev, m1, _, m3, _, m5, _⟩ := C16_mesh ho h hroot fuel hfuel
    rw [hdom] at m1
    cases m1
    exact (m3.interior p.cell c conn f' k fa ((m5 _ _).2 hh.1) g1 hk g2 (hinner f' hl')).1
  cases hev with
  | @transit conn fa dd j n g1 g2 g3 g4 =>
    refine ⟨hopen, ?_⟩
    rintro ⟨c', hc1, hc2⟩
    dsimp only at hc1 hc2
    rw [hqc] at g1
    rw [hqf] at g2
    have hb := hinner f' hl'
    obtain ⟨conn', _, fa', _, j', n', _, _, m1, m2, m3, m4, _⟩ :=
      facets_match ho h hroot fuel hfuel hdom hh.1 f' hk hb
    rw [g1] at m1
    cases m1
    rw [g2] at m2
    cases m2
    rw [g4] at m3
    cases m3
    obtain ⟨bc, cs, nodeOf, hbu, _, hat, _⟩ := unit_mesh ho h hroot fuel hfuel hdom
    have hin := ((nbr_face (hbu.lt ((hat _ _).2 hh.1)) f' hk).2 hb).2.2
    rw [huniq hc1 m4, Grid.tuple_idx hin.1 hin.2.1] at hc2
    obtain ⟨e1, e2, e3⟩ := across_step f' hb
    obtain ⟨⟨o1, o2⟩, ⟨o3, o4⟩, o5, o6⟩ := hopen
    obtain ⟨⟨b1, b2⟩, ⟨b3, b4⟩, b5, b6⟩ := hc2
    rw [e1] at b1 b2
    rw [e2] at b3 b4
    rw [e3] at b5 b6
    cases f' <;> simp only [step] at b1 b2 b3 b4 b5 b6 <;> linarith
  | @escape conn fa g1 g2 g3 =>
    rw [hqc] at g1
    rw [hqf] at g2
    rw [transit conn fa g1 g2] at g3
    cases g3
  | @reflect conn fa planes plane g1 g2 g3 =>
    rw [hqc] at g1
    rw [hqf] at g2
    rw [transit conn fa g1 g2] at g3
    cases g3
end

/-! ## Concrete cases -/

/-- The hypotheses of `C83_misplaced` are met in every cell that has a neighbour across its upper x face. -/
theorem worn_happens {order : IterOrder} (ho : ∀ l, (order l).Perm l) {params : Params ℝ}
    {mats : List (Material ℝ)} (h : SingleUnit params mats) (hroot : params.rootCell < cells params.grid)
    (fuel : Nat) (hfuel : cells params.grid + 1 ≤ fuel) {dom : Domain ℝ}
    (hdom : initMesh order fuel params mats = .ok [dom])
    {data : Data ℝ} (hs : SafeTracking data dom) (hgr : 0 < dom.numGroups) {i c : Nat} (hi : CellAt dom i c)
    (hb : ¬ OnBorder params.grid (params.grid.cellIdxToTuple c) .xp) :
    ∃ (p q r : Particle ℝ) (tr : List (Ev ℝ)), TimeOk p ∧ AtHomeIn dom params.grid p c ∧
      p.direction.x ^ 2 + p.direction.y ^ 2 + p.direction.z ^ 2 = 1 ∧
      ¬ AtEdge params.grid (params.grid.cellIdxToTuple c) p.coordinate p.direction ∧
      LeavesBy params.grid (params.grid.cellIdxToTuple c) p.coordinate p.direction .xp ∧
      (∀ f', LeavesBy params.grid (params.grid.cellIdxToTuple c) p.coordinate p.direction f' →
        ¬ OnBorder params.grid (params.grid.cellIdxToTuple c) f') ∧
      10000000 < p.numSegments ∧
      (outcome data dom p).May tr (.facetCrossing, q) ∧ EventOut data dom q .facetCrossing r := by
  obtain ⟨st, hst, _⟩ := id hi
  have hc : i < dom.cells.length := (List.getElem?_eq_some_iff.1 hst).1
  obtain ⟨x, hx⟩ := hs.xs (c := i) (g := 0) hc hgr
  have hx0 : 0 ≤ x := hs.time.tables.directXs hx
  let d0 : Particle ℝ := Particle.default
  have hv : 0 < (Particle.speedOf 1 : ℝ) := (C37_speed.2.1 _ one_pos).1
  have hg := grid_box h
  have px := hg.dx_pos
  have py := hg.dy_pos
  have pz := hg.dz_pos
  let p : Particle ℝ := { d0 with
    cell := i, energyGroup := 0, kineticEnergy := 1, numMeanFreePaths := x + 1, numSegments := 10000001,
    timeToCensus := 1 / Particle.speedOf 1, direction := ⟨1, 0, 0⟩,
    coordinate := ⟨((params.grid.cellIdxToTuple c).1 + 1) * params.grid.dx,
        (params.grid.cellIdxToTuple c).2.1 * params.grid.dy + params.grid.dy / 2,
        (params.grid.cellIdxToTuple c).2.2 * params.grid.dz + params.grid.dz / 2⟩ }
  have hpt : TimeOk p := ⟨by show (0:ℝ) ≤ 1 / _; positivity, by show 0 ≤ x + 1; linarith, by show (0:ℝ) < 1; norm_num⟩
  have hhome : AtHomeIn dom params.grid p c := by
    refine ⟨hi, ⟨?_, ?_⟩, ⟨?_, ?_⟩, ?_, ?_⟩ <;> simp only [p] <;> linarith
  have hunit : p.direction.x ^ 2 + p.direction.y ^ 2 + p.direction.z ^ 2 = 1 := by simp [p]
  have honly : ∀ f', 0 < outward p.direction f' → f' = .xp := by
    intro f' hf
    cases f' <;> simp [outward, p] at hf ⊢
    linarith
  have hb0 : beyond params.grid (params.grid.cellIdxToTuple c) p.coordinate .xp = 0 := by simp [beyond, p]
  have hleave : LeavesBy params.grid (params.grid.cellIdxToTuple c) p.coordinate p.direction .xp :=
    ⟨hb0, by simp [outward, p]⟩
  have hedge : ¬ AtEdge params.grid (params.grid.cellIdxToTuple c) p.coordinate p.direction := by
    rintro ⟨f, f', _, h2, h3, _⟩
    rw [honly f' h3, hb0] at h2
    exact lt_irrefl _ h2
  have hinner : ∀ f', LeavesBy params.grid (params.grid.cellIdxToTuple c) p.coordinate p.direction f' →
      ¬ OnBorder params.grid (params.grid.cellIdxToTuple c) f' := by
    intro f' hl
    rw [honly f' hl.2]
    exact hb
  have hfr := prepareXs_frame p x
  have hco := prepareXs_coordinate p x
  obtain ⟨nf, p', left, f', k, hnear, hdist, hk, hfk, hl', _, _, _⟩ :=
    C83_worn ho h hroot fuel hfuel hdom (p := prepareXs p x) (c := c) (f := .xp)
      ⟨by rw [hfr.cell]; exact hi, by rw [hco]; exact hhome.2⟩ (by rw [hfr.direction]; exact hunit)
      (by rw [hco, hfr.direction]; exact hedge) (by rw [hco, hfr.direction]; exact hleave)
      (by rw [prepareXs_numSegments]; show (10000000 : ℝ) < 10000001; norm_num)
  rw [hco, hfr.direction] at hl'
  obtain rfl := honly f' hl'.2
  have hpf := nearestFacet_frame hnear
  obtain ⟨p1, p2, p3, _⟩ := prepareXs_path (p := p) x hpt.opticalPath
  have hpath : p'.numMeanFreePaths = x + 1 := by
    rw [hpf]
    unfold prepareXs
    simp only [beq_eq, zero_eq, decide_eq_true_eq]
    rw [if_neg (show ¬ x + 1 = 0 by linarith)]
  have p3' : p'.meanFreePath = (prepareXs p x).meanFreePath := by rw [hpf]
  have p2' : p'.timeToCensus = (prepareXs p x).timeToCensus := by rw [hpf]
  have hcoll : 1 ≤ p'.numMeanFreePaths * p'.meanFreePath := by
    rw [hpath, p3', p3]; split_ifs with e
    · rw [e]; norm_num
    · have := lt_of_le_of_ne hx0 (Ne.symm e)
      rw [mul_one_div, le_div_iff₀ this]; linarith
  have hcen : p.getSpeed * p'.timeToCensus = 1 := by
    rw [p2', p2]
    show Particle.speedOf 1 * (1 / Particle.speedOf 1) = 1
    field_simp
  obtain ⟨o, q, hq⟩ := applyOutcome_ok (p := p') (speed := p.getSpeed) (force := false) (nf := nf)
    (fun _ => by linarith) (by rw [hcen]; norm_num) (by rw [hdist]) (by rw [hdist]; norm_num)
  have hend := C22_segment (show 0 < p.getSpeed from hv)
    (show 0 ≤ p'.timeToCensus by rw [p2', p2]; exact hpt.timeToCensus) (by rw [hdist]; norm_num) hq
  rw [hcen, hdist] at hend
  have hm : Min.min (p'.numMeanFreePaths * p'.meanFreePath) (Min.min 1 (0 : ℝ)) < 10 ^ 76 :=
    lt_of_le_of_lt ((min_le_right _ _).trans (min_le_right _ _)) (by norm_num)
  have ho' : o = .facetCrossing := (hend.outcome hm).2.2.2 ⟨lt_of_lt_of_le (by norm_num) hcoll, by norm_num⟩
  subst ho'
  have hmay : (outcome data dom p).May [.load (i * dom.numGroups + 0) 0, .store (i * dom.numGroups + 0) x]
      (.facetCrossing, q) := by
    have hforce : prepareForced p = (false, p) := by
      unfold prepareForced
      simp [not_lt.2 hpt.opticalPath]
    unfold outcome
    rw [hforce]
    dsimp only
    have h1 : (cachedXs data dom p.cell p.energyGroup).May
        [.load (i * dom.numGroups + 0) 0, .store (i * dom.numGroups + 0) x] x := by
      unfold cachedXs
      refine Prog.May.load ?_
      rw [if_neg (by simp)]
      rw [show directXs data dom p.cell p.energyGroup = .ok x from hx]
      exact .store .ret
    have h2 : (Prog.ofExcept (T := ℝ) (outcomeWithXs dom p.getSpeed false p x)).May [] (.facetCrossing, q) := by
      have : outcomeWithXs dom p.getSpeed false p x = .ok (.facetCrossing, q) := by
        unfold outcomeWithXs; dsimp only; rw [hnear]; exact hq
      rw [this]
      exact .ret
    exact h1.bind h2
  have hqc : q.cell = i := (outcome_frame hmay).cell
  have hqf : q.facet = 4 * Face.num .xp + k := by rw [hend.facet rfl, hfk]
  obtain ⟨conn, _, fa, _, j, n', _, _, m1, m2, m3, _⟩ := facets_match ho h hroot fuel hfuel hdom hi .xp hk hb
  obtain ⟨dom', cellAt, ev, g1, _, g3, _, g5, _⟩ := C16_mesh ho h hroot fuel hfuel
  rw [hdom] at g1
  cases g1
  obtain ⟨b1, _⟩ := g3.interior i c conn .xp k fa ((g5 _ _).2 hi) m1 hk m2 hb
  exact ⟨p, q, _, _, hpt, hhome, hunit, hedge, hleave, hinner, by show (10000000 : ℝ) < 10000001; norm_num, hmay,
    .transit (by rw [hqc]; exact m1) (by rw [hqf]; exact m2) b1 m3⟩

/-- In the built-in problem, a particle of the first cell which has made ten million and one segments is misplaced. -/
example : ∃ (s : Started ℝ) (p q r : Particle ℝ) (tr : List (Ev ℝ)),
    startRun List.reverse id ⟨4, true⟩ 1001 (builtinParams (chosen 4 10)) = .ok (some s) ∧
    AtHomeIn s.state.unit.dom (builtinParams (chosen 4 10)).grid p 0 ∧
    (outcome s.data s.state.unit.dom p).May tr (.facetCrossing, q) ∧
    EventOut s.data s.state.unit.dom q .facetCrossing r ∧
    ¬ ∃ c', AtHomeIn s.state.unit.dom (builtinParams (chosen 4 10)).grid r c' := by
  have hv := builtin_valid 4 10
  have hg : (builtinParams (chosen 4 10)).grid = Grid.new (T := ℝ) 10 10 10 100 100 100 := by
    show (defaultProblem 1029384756).grid = _
    simp [Params.grid, defaultProblem, SimulationParams.default]
  have hf : cells (builtinParams (chosen 4 10)).grid + 1 ≤ 1001 := le_of_eq (by
    rw [show cells (builtinParams (chosen 4 10)).grid = 1000 from default_cells 1029384756])
  obtain ⟨s, h1, h2, _, _, _, _, mats, h7, h8⟩ := hv.start (so := List.reverse) (fun l => List.reverse_perm l)
    (io := id) (fun l => .refl _) ⟨4, true⟩ (by norm_num) 1001 hf
  obtain ⟨dom', cellAt, ev, g1, _, g3, _, g5, _⟩ := C16_mesh (order := id) (fun l => .refl _) h7 hv.root 1001 hf
  rw [h8] at g1
  cases g1
  have hc0 : 0 ∈ List.range (cells (builtinParams (chosen 4 10)).grid) := by
    rw [show cells (builtinParams (chosen 4 10)).grid = 1000 from default_cells 1029384756]
    exact List.mem_range.2 (by norm_num)
  obtain ⟨i, hi⟩ := List.getElem?_of_mem (g3.perm.mem_iff.2 hc0)
  have hi := (g5 _ _).1 hi
  have hgr : 0 < s.state.unit.dom.numGroups := by
    have := h2.tracking.energy.groups
    omega
  obtain ⟨p, q, r, tr, a1, a2, a3, a4, a5, a6, a7, a8, a9⟩ := worn_happens (order := id) (fun l => .refl _) h7
    hv.root 1001 hf h8 h2.tracking hgr hi (by rw [hg]; simp [OnBorder, Grid.new, Grid.cellIdxToTuple])
  obtain ⟨_, b⟩ := C83_misplaced (order := id) (fun l => .refl _) h7 hv.root 1001 hf h8 h2.tracking.time.tables
    a1 a2 a3 a4 a5 a6 a7 a8 a9
  exact ⟨s, p, q, r, tr, h1, a2, a8, a9, b⟩
