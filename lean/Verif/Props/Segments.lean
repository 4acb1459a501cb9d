import Verif.Lemmas.Tracked
import Verif.Props.Energy
import Verif.Props.CrossSections
import Verif.Props.Draws
/-!
# C22 - C24: segments, time bookkeeping, advance per cycle

Exact real arithmetic.  The answers of the shared cross-section cache are arbitrary (`Prog.May`), so the
statements hold whatever the other threads do.

The remaining optical path of a draw equal to 0 is `-ln 0`: infinite in floats, 0 in the reals; both are
non-negative, which is all that is used here.
-/
open Rng FltReal
attribute [local irreducible] Rng.lcg Rng.sample Rng.spawn

/-! ## C22 -/

/-- Specification of the end of a segment: the particle `p` is at the distances `dc`, `dz`, `df` of its
next collision, of census and of the facet `facet`; the segment makes it `q` and ends with outcome `o`.
`mfp` is its mean free path. -/
structure SegmentEnd (p : Particle ℝ) (speed mfp dc dz df : ℝ) (facet : ℕ) (o : SegOutcome)
    (q : Particle ℝ) : Prop where
  /-- the length is the least distance -/
  length : q.segmentPathLength = min dc (min dz df)
  /-- the outcome is the nearest event; ties: collision, then census, then facet -/
  outcome : min dc (min dz df) < 10 ^ 76 →
    (o = .collision ↔ dc ≤ dz ∧ dc ≤ df) ∧
    (o = .census ↔ dz < dc ∧ dz ≤ df) ∧
    (o = .facetCrossing ↔ df < dc ∧ df < dz)
  x : q.coordinate.x = p.coordinate.x + p.direction.x * min dc (min dz df)
  y : q.coordinate.y = p.coordinate.y + p.direction.y * min dc (min dz df)
  z : q.coordinate.z = p.coordinate.z + p.direction.z * min dc (min dz df)
  direction : q.direction = p.direction
  timeToCensus : q.timeToCensus = p.timeToCensus - min dc (min dz df) / speed
  age : q.age = p.age + min dc (min dz df) / speed
  opticalPath : o ≠ .collision →
    q.numMeanFreePaths = p.numMeanFreePaths - min dc (min dz df) / mfp
  opticalPath_collision : o = .collision → q.numMeanFreePaths = 0
  facet : o = .facetCrossing → q.facet = facet
  census : o = .census → q.timeToCensus = 0

/-- The three distances are compared in the order collision, census, facet. -/
theorem distances_spec (dc dz df : ℝ) (hf : df ≤ 10 ^ 76) (h' : DistanceHandler ℝ)
    (hh : h' = (((DistanceHandler.default (T := ℝ)).update .collision dc).update .census dz).update
      .facetCrossing df) :
    h'.minDist = min dc (min dz df) ∧
    (min dc (min dz df) < 10 ^ 76 →
        (h'.outcome = .collision ↔ dc ≤ dz ∧ dc ≤ df) ∧ (h'.outcome = .census ↔ dz < dc ∧ dz ≤ df) ∧
        (h'.outcome = .facetCrossing ↔ df < dc ∧ df < dz)) ∧
    (h'.outcome = .census → h'.minDist = dz) := by
  have hm : ∀ (a b : ℝ), (if a < b then a else b) = min a b := fun a b => by
    split
    · rename_i h; exact (min_eq_left h.le).symm
    · rename_i h; exact (min_eq_right (not_lt.1 h)).symm
  have e : h'.minDist = min df (min dz (min dc (10 ^ 76))) ∧ h'.outcome =
      if df < min dz (min dc (10 ^ 76)) then .facetCrossing
      else if dz < min dc (10 ^ 76) then .census else .collision := by
    subst hh
    have e1 : (((DistanceHandler.default (T := ℝ)).update .collision dc)).minDist = min dc (10 ^ 76) ∧
        (((DistanceHandler.default (T := ℝ)).update .collision dc)).outcome = .collision := by
      unfold DistanceHandler.update DistanceHandler.default
      simp only [lt_eq, huge_eq, decide_eq_true_eq]
      rw [← hm]
      split <;> exact ⟨rfl, rfl⟩
    have e2 : ∀ (a : DistanceHandler ℝ) (o : SegOutcome) (d : ℝ),
        (a.update o d).minDist = min d a.minDist ∧
        (a.update o d).outcome = if d < a.minDist then o else a.outcome := by
      intro a o d
      unfold DistanceHandler.update
      simp only [lt_eq, decide_eq_true_eq]
      rw [← hm]
      cases o <;> dsimp only <;> split <;> exact ⟨rfl, rfl⟩
    refine ⟨?_, ?_⟩
    · rw [(e2 _ _ _).1, (e2 _ _ _).1, e1.1]
    · rw [(e2 _ _ _).2, (e2 _ _ _).2, (e2 _ _ _).1, e1.1, e1.2]
  obtain ⟨e1, e2⟩ := e
  have hmin : h'.minDist = min dc (min dz df) := by
    rw [e1]
    apply le_antisymm <;> simp only [le_min_iff, min_le_iff, le_refl, true_or, or_true, true_and, and_true]
    exact .inr (.inr hf)
  refine ⟨hmin, ?_, ?_⟩
  · intro hlt
    rw [e2]
    by_cases h1 : df < min dz (min dc (10 ^ 76))
    · rw [if_pos h1]
      simp only [lt_min_iff] at h1
      simp only [reduceCtorEq, false_iff, true_iff]
      exact ⟨fun h => by linarith [h.2], fun h => by linarith [h.2], h1.2.1, h1.1⟩
    · rw [if_neg h1]
      by_cases h2 : dz < min dc (10 ^ 76)
      · rw [if_pos h2]
        have h2' := h2
        simp only [lt_min_iff] at h2
        have : dz ≤ df := by
          have := not_lt.1 h1
          rwa [min_eq_left h2'.le] at this
        simp only [reduceCtorEq, false_iff, true_iff]
        exact ⟨fun h => by linarith [h.1, h2.1], ⟨h2.1, this⟩, fun h => by linarith [h.2]⟩
      · rw [if_neg h2]
        have hle := not_lt.1 h2
        have h1' := not_lt.1 h1
        rw [min_eq_right hle] at h1'
        simp only [reduceCtorEq, false_iff, true_iff]
        have hc : dc < 10 ^ 76 := by
          by_contra hc
          have hc := not_lt.1 hc
          rw [min_eq_right hc] at hle h1'
          have : (10 : ℝ) ^ 76 ≤ min dc (min dz df) := le_min hc (le_min hle h1')
          linarith
        rw [min_eq_left hc.le] at hle h1'
        exact ⟨⟨hle, h1'⟩, fun h => by linarith [h.1], fun h => by linarith [h.1]⟩
  · intro ho
    rw [e2] at ho
    split at ho
    · simp at ho
    · rename_i h1
      split at ho
      · rename_i h2
        rw [e1, min_eq_left h2.le]
        exact min_eq_right (by rw [min_eq_left h2.le] at h1; exact not_lt.1 h1)
      · simp at ho

/-- **C22.** Given its distances to collision (`optical path × mean free path`), to census
(`speed × time left`) and to the nearest facet, a particle goes to the nearest of them. -/
theorem C22_segment {p : Particle ℝ} {speed : ℝ} {nf : NearestFacet ℝ} {o : SegOutcome} {q : Particle ℝ}
    (hv : 0 < speed) (ht : 0 ≤ p.timeToCensus)
    (hf : nf.distanceToFacet ≤ 10 ^ 76) (h : applyOutcome p speed false nf = .ok (o, q)) :
    SegmentEnd p speed p.meanFreePath (p.numMeanFreePaths * p.meanFreePath) (speed * p.timeToCensus)
      nf.distanceToFacet nf.facet o q := by
  unfold applyOutcome at h
  simp only [mul_eq, Bool.false_eq_true, if_false, bind_ok, assertB_ok, le_eq, zero_eq, beq_eq, sub_eq,
    div_eq, add_eq, min_eq, max_eq, decide_eq_true_eq] at h
  generalize hdc : p.numMeanFreePaths * p.meanFreePath = dc at h
  generalize hdz : speed * p.timeToCensus = dz at h
  generalize hdf : nf.distanceToFacet = df at h hf
  have hdz0 : 0 ≤ dz := by rw [← hdz]; positivity
  have htz : dz / speed = p.timeToCensus := by rw [← hdz]; field_simp
  have hmin0 : min 0 p.timeToCensus = 0 := min_eq_left ht
  have hL : ∀ L, L ≤ dz → L / speed ≤ p.timeToCensus := fun L hL => by
    rw [← htz]; exact (div_le_div_iff_of_pos_right hv).2 hL
  have fin : ∀ (L : ℝ) (o' : SegOutcome) (r : Particle ℝ),
      L = min dc (min dz df) → 0 ≤ L →
      (min dc (min dz df) < 10 ^ 76 →
        (o' = .collision ↔ dc ≤ dz ∧ dc ≤ df) ∧ (o' = .census ↔ dz < dc ∧ dz ≤ df) ∧
        (o' = .facetCrossing ↔ df < dc ∧ df < dz)) →
      (r.segmentPathLength = L ∧ r.coordinate = p.coordinate ∧ r.direction = p.direction ∧
        r.age = p.age ∧
        (r.timeToCensus = if o' = .census then 0 else p.timeToCensus) ∧
        (o' ≠ .collision → r.numMeanFreePaths = p.numMeanFreePaths - L / p.meanFreePath) ∧
        (o' = .collision → r.numMeanFreePaths = 0) ∧
        (o' = .facetCrossing → r.facet = nf.facet)) →
      (o' = .census → L = dz) →
      ((if r.segmentPathLength = 0 then (pure (o', r) : Except Panic _)
        else pure (o', { r.moveAlongSegment with
          timeToCensus := max (r.moveAlongSegment.timeToCensus - r.moveAlongSegment.segmentPathLength / speed) 0
          age := r.moveAlongSegment.age + r.moveAlongSegment.segmentPathLength / speed })) = .ok (o, q)) →
      SegmentEnd p speed p.meanFreePath dc dz df nf.facet o q := by
    intro L o' r hLe hL0 hout ⟨r1, r2, r3, r4, r5, r6, r7, r8⟩ hcz h
    have hLdz : L ≤ dz := by rw [hLe]; exact (min_le_right _ _).trans (min_le_left _ _)
    have hLt := hL L hLdz
    by_cases h0 : r.segmentPathLength = 0
    · rw [if_pos h0] at h
      simp only [pure_ok, Prod.mk.injEq] at h
      obtain ⟨rfl, rfl⟩ := h
      have hLz : L = 0 := by rw [← r1]; exact h0
      have hcz0 : o' = .census → p.timeToCensus = 0 := fun ho => by
        rw [← htz, ← hcz ho, hLz, zero_div]
      constructor <;> try rw [← hLe]
      · exact r1
      · rw [hLe]; exact hout
      · rw [r2, hLz]; ring
      · rw [r2, hLz]; ring
      · rw [r2, hLz]; ring
      · exact r3
      · rw [r5, hLz, zero_div, sub_zero]
        split
        · rename_i ho; rw [hcz0 ho]
        · rfl
      · rw [r4, hLz, zero_div, add_zero]
      · exact r6
      · exact r7
      · exact r8
      · intro ho; rw [r5, if_pos ho]
    · rw [if_neg h0] at h
      simp only [pure_ok, Prod.mk.injEq] at h
      obtain ⟨rfl, rfl⟩ := h
      constructor <;> try rw [← hLe]
      · exact r1
      · rw [hLe]; exact hout
      · simp [Particle.moveAlongSegment, Vec3.add, Vec3.smul, r2, r3, r1]
      · simp [Particle.moveAlongSegment, Vec3.add, Vec3.smul, r2, r3, r1]
      · simp [Particle.moveAlongSegment, Vec3.add, Vec3.smul, r2, r3, r1]
      · exact r3
      · simp only [Particle.moveAlongSegment, r1, r5]
        split
        · rename_i ho
          rw [hcz ho, htz]
          have : (0 : ℝ) - p.timeToCensus ≤ 0 := by linarith
          rw [max_eq_right this]; ring
        · rw [max_eq_left (by linarith)]
      · simp only [Particle.moveAlongSegment, r1, r4]
      · exact r6
      · exact r7
      · exact r8
      · intro ho
        simp only [Particle.moveAlongSegment, r1, r5, if_pos ho, hcz ho, htz]
        exact max_eq_right (by linarith)
  generalize hh : ((DistanceHandler.default.update .collision dc).update .census dz).update
    .facetCrossing df = h' at h
  obtain ⟨hmin, hout, hcz⟩ := distances_spec dc dz df hf h' hh.symm
  obtain ⟨_, hpos, h⟩ := h
  refine fin h'.minDist h'.outcome _ hmin hpos hout ?_ hcz h
  cases h'.outcome <;> simp [hmin0]

/-- The search for the nearest facet, when it finds one, leaves the particle where it is (below ten million
segments). -/
theorem nearestFacet_still {mesh : Mesh ℝ} {p p' : Particle ℝ} {nf : NearestFacet ℝ}
    (h : nearestFacet mesh p = .ok (nf, p')) (hd : nf.distanceToFacet < 10 ^ 76)
    (hn : p.numSegments ≤ 10000000) : p' = p := by
  simp only [nearestFacet, mctNf3dg, bind_ok, pure_ok, Prod.mk.injEq, Prod.exists, assertB_ok] at h
  obtain ⟨nf0, p0, ⟨pl, _, h⟩, _, _, rfl, rfl⟩ := h
  have hd0 : nf0.distanceToFacet < 10 ^ 76 := lt_of_le_of_lt (le_max_left _ _) hd
  have main : ∀ (fuel it : ℕ) (mf : ℝ) (r : Particle ℝ) (c d : Vec3 ℝ) (tol : ℝ) (r' : Particle ℝ),
      r.numSegments ≤ 10000000 →
      nfLoop mesh pl c d tol fuel it mf r = .ok (nf0, r') → r' = r := by
    intro fuel
    induction fuel with
    | zero => intro it mf r c d tol r' _ h; simp [nfLoop] at h
    | succ n ih =>
      intro it mf r c d tol r' hr h
      have hsame : ∀ (m it' : ℕ) (mf' : ℝ) (a b : Particle ℝ) (dists : List ℝ) (nf1 : NearestFacet ℝ),
          facetDistances mesh a.cell c d tol pl = .ok dists →
          nfLoop mesh pl c d tol m it' mf' a = .ok (nf1, b) → nf1 = computeNearest dists := by
        intro m
        induction m with
        | zero => intro it' mf' a b dists nf1 _ h; simp [nfLoop] at h
        | succ m ihm =>
          intro it' mf' a b dists nf1 hdi h
          simp only [nfLoop, bind_ok] at h
          obtain ⟨dists', hd', h⟩ := h
          rw [hdi] at hd'
          obtain rfl := Except.ok.inj hd'
          split at h
          · simp only [bind_ok] at h
            obtain ⟨ctr, _, h⟩ := h
            split at h
            · refine ihm _ _ _ _ dists nf1 ?_ h
              exact hdi
            · simp only [pure_ok, Prod.mk.injEq] at h; exact h.1.symm
          · simp only [pure_ok, Prod.mk.injEq] at h; exact h.1.symm
      have h0 := h
      simp only [nfLoop, bind_ok] at h
      obtain ⟨dists, hdi, h⟩ := h
      have hnf := hsame _ _ _ _ _ dists nf0 hdi h0
      rw [if_neg] at h
      · simp only [pure_ok, Prod.mk.injEq] at h; exact h.2.symm
      · rw [← hnf]
        simp only [beq_eq, huge_eq, lt_eq, ofNat_eq, le_eq, zero_eq, Bool.or_eq_true, decide_eq_true_eq,
          Bool.and_eq_true, not_or, not_and]
        refine ⟨hd0.ne, fun hgt => ?_⟩
        norm_num at hgt
        linarith
  exact main _ _ _ _ _ _ _ _ hn h

/-- No entry of the tables of cross-sections, no atom fraction and no density is negative. -/
structure NonnegTables (data : Data ℝ) (dom : Domain ℝ) : Prop where
  density : ∀ cs ∈ dom.cells, 0 ≤ cs.cellNumberDensity
  fraction : ∀ m ∈ data.materials, ∀ iso ∈ m.iso, 0 ≤ iso.atomFraction
  tables : ∀ rs ∈ data.nuclear.isotopes, ∀ r ∈ rs, ∀ x ∈ r.crossSection, 0 ≤ x

theorem NonnegTables.directXs {data : Data ℝ} {dom : Domain ℝ} (h : NonnegTables data dom) {cell g : ℕ}
    {x : ℝ} (hx : directXs data dom cell g = .ok x) : 0 ≤ x := by
  simp only [_root_.directXs, weightedMacroXs, bind_ok, pure_ok, idx_ok] at hx
  obtain ⟨cs, hcs, mat, hmat, l, hl, rfl⟩ := hx
  rw [flt_sum_real]
  apply List.sum_nonneg
  intro y hy
  obtain ⟨i, _, hi⟩ := mapM_ok_mem hl hy
  simp only [macroscopicTotalXs, bind_ok, idx_ok] at hi
  obtain ⟨iso, hiso, hi⟩ := hi
  split at hi
  · simp only [pure_ok] at hi
    rw [← hi]; simp only [lit_eq]; positivity
  · simp only [NuclearData.getTotalCrossSection, groupCrossSections, bind_ok, idx_ok, pure_ok] at hi
    obtain ⟨micro, ⟨rs, hrs, lx, hlx, rfl⟩, rfl⟩ := hi
    simp only [mul_eq, flt_sum_real]
    refine mul_nonneg (mul_nonneg ?_ ?_) (List.sum_nonneg fun z hz => ?_)
    · exact h.fraction _ (List.mem_of_getElem? hmat) _ (List.mem_of_getElem? hiso)
    · exact h.density _ (List.mem_of_getElem? hcs)
    · obtain ⟨r, hr, hrz⟩ := mapM_ok_mem hlx hz
      exact h.tables _ (List.mem_of_getElem? hrs) _ hr _ (List.mem_of_getElem? (idx_ok.1 hrz))

theorem NonnegTables.skeleton {data : Data ℝ} {dom d : Domain ℝ} (h : NonnegTables data dom)
    (hd : d.skeleton = dom.skeleton) : NonnegTables data d where
  density cs hcs := by
    obtain ⟨i, hi⟩ := List.getElem?_of_mem hcs
    obtain ⟨c', hc', he⟩ := cells_skeleton hd hi
    have : cs.cellNumberDensity = c'.cellNumberDensity := by
      have := congrArg CellState.cellNumberDensity he
      exact this
    rw [this]
    exact h.density c' (List.mem_of_getElem? hc')
  fraction := h.fraction
  tables := h.tables

/-- What the time bookkeeping needs of a particle, and keeps. -/
structure TimeOk (p : Particle ℝ) : Prop where
  timeToCensus : 0 ≤ p.timeToCensus
  opticalPath : 0 ≤ p.numMeanFreePaths
  energy : 0 < p.kineticEnergy

theorem neg_log_nonneg (s : BitVec 64) : 0 ≤ (Flt.mul (Flt.neg Flt.one)
    (Flt.ln (Rng.sample (T := ℝ) s).1) : ℝ) := by
  obtain ⟨u0, u1⟩ := sample01 s
  simp only [mul_eq, neg_eq, one_eq, ln_eq]
  have := Real.log_nonpos u0 u1
  linarith

theorem sampleNumMfp_spec (p : Particle ℝ) : ∃ s n, 0 ≤ n ∧
    p.sampleNumMfp = { p with numMeanFreePaths := n, seed := s } := by
  have h := neg_log_nonneg p.seed
  unfold Particle.sampleNumMfp
  generalize Rng.sample (T := ℝ) p.seed = r at h
  obtain ⟨u, s⟩ := r
  exact ⟨s, _, h, rfl⟩

/-- **C22 for a whole segment computation**, including the look-up in the shared cache and the search for
the nearest facet, whatever the cache answers. The particle `p` is first given the cross-section `xs`
(hence a mean free path, and a fresh optical path if it has none left): this is `r`. -/
theorem C22_outcome {data : Data ℝ} {dom : Domain ℝ} (hx : NonnegTables data dom) {p : Particle ℝ}
    (hp : TimeOk p) {tr : List (Ev ℝ)} {o : SegOutcome} {q : Particle ℝ}
    (h : (outcome data dom p).May tr (o, q)) :
    ∃ xs mfp path nf, ∃ r : Particle ℝ,
      0 ≤ xs ∧ mfp = (if xs = 0 then 10 ^ 76 else 1 / xs) ∧
      0 ≤ path ∧ (p.numMeanFreePaths ≠ 0 → path = p.numMeanFreePaths) ∧
      nearestFacet dom.mesh (prepareXs p xs) = .ok (nf, r) ∧
      0 ≤ nf.distanceToFacet ∧ nf.distanceToFacet ≤ 10 ^ 76 ∧
      r.numMeanFreePaths = path ∧ r.meanFreePath = mfp ∧
      r.timeToCensus = p.timeToCensus ∧ r.age = p.age ∧ r.direction = p.direction ∧
      (nf.distanceToFacet < 10 ^ 76 → p.numSegments ≤ 10000000 → r.coordinate = p.coordinate) ∧
      SegmentEnd r p.getSpeed mfp (path * mfp) (p.getSpeed * p.timeToCensus) nf.distanceToFacet
        nf.facet o q := by
  unfold outcome at h
  dsimp only at h
  have hforce : prepareForced p = (false, p) := by
    unfold prepareForced
    simp [not_lt.2 hp.opticalPath]
  rw [hforce] at h
  dsimp only at h
  obtain ⟨t1, t2, xs, _, hxs, h2⟩ := h.bind_inv
  have hxs0 : 0 ≤ xs := by
    unfold cachedXs at hxs
    cases hxs with
    | @load _ _ v _ _ hl =>
      dsimp only at hl
      split at hl
      · rename_i hv
        have := (Prog.May.ret_inv hl).2
        subst this
        simp only [lt_eq, zero_eq, decide_eq_true_eq] at hv
        exact hv.le
      · split at hl
        · exact (Prog.May.fail_inv hl).elim
        · rename_i hd
          cases hl with
          | store hl =>
            have := (Prog.May.ret_inv hl).2
            subst this
            exact hx.directXs hd
  obtain ⟨_, h2⟩ := h2.ofExcept_inv
  simp only [outcomeWithXs, bind_ok, Prod.exists] at h2
  obtain ⟨nf, r, hr, h2⟩ := h2
  have hprep : ∃ path s, 0 ≤ path ∧ (p.numMeanFreePaths ≠ 0 → path = p.numMeanFreePaths) ∧
      prepareXs p xs = { p with
        totalCrossSection := xs, meanFreePath := if xs = 0 then 10 ^ 76 else 1 / xs,
        numMeanFreePaths := path, seed := s } := by
    unfold prepareXs
    simp only [beq_eq, zero_eq, huge_eq, one_eq, div_eq, decide_eq_true_eq]
    split
    · rename_i hz
      obtain ⟨s, n, hn, he⟩ := sampleNumMfp_spec { p with
        totalCrossSection := xs, meanFreePath := if xs = 0 then 10 ^ 76 else 1 / xs }
      exact ⟨n, s, hn, fun hne => absurd hz hne, he⟩
    · exact ⟨p.numMeanFreePaths, p.seed, hp.opticalPath, fun _ => rfl, rfl⟩
  obtain ⟨path, s, hpath, hpe, hprep⟩ := hprep
  have hfr := nearestFacet_frame hr
  have hnf : 0 ≤ nf.distanceToFacet ∧ nf.distanceToFacet ≤ 10 ^ 76 := by
    simp only [nearestFacet, bind_ok, pure_ok, Prod.mk.injEq, Prod.exists, assertB_ok] at hr
    obtain ⟨nf0, p0, _, _, ha, rfl, _⟩ := hr
    simp only [le_eq, huge_eq, decide_eq_true_eq] at ha
    refine ⟨?_, ha⟩
    simp only [max_eq, zero_eq]
    exact le_max_right _ _
  have hv : 0 < p.getSpeed := (C37_speed.2.1 _ hp.energy).1
  have r1 : r.numMeanFreePaths = path := by rw [hfr, hprep]
  have r2 : r.meanFreePath = if xs = 0 then 10 ^ 76 else 1 / xs := by rw [hfr, hprep]
  have r3 : r.timeToCensus = p.timeToCensus := by rw [hfr, hprep]
  have r4 : r.age = p.age := by rw [hfr, hprep]
  have r5 : r.direction = p.direction := by rw [hfr, hprep]
  refine ⟨xs, _, path, nf, r, hxs0, rfl, hpath, hpe, hr, hnf.1, hnf.2, r1, r2, r3, r4, r5, ?_, ?_⟩
  · intro hlt hns
    have := nearestFacet_still hr hlt (by rw [hprep]; exact hns)
    rw [this, hprep]
  · have := C22_segment hv (by rw [r3]; exact hp.timeToCensus) hnf.2 h2
    rw [r1, r2, r3] at this
    exact this

/-! ## C23 -/

/-- One segment keeps the books. -/
theorem outcome_time {data : Data ℝ} {dom : Domain ℝ} (hx : NonnegTables data dom) {p : Particle ℝ}
    (hp : TimeOk p) {tr : List (Ev ℝ)} {o : SegOutcome} {q : Particle ℝ}
    (h : (outcome data dom p).May tr (o, q)) :
    TimeOk q ∧ q.age + q.timeToCensus = p.age + p.timeToCensus ∧ p.age ≤ q.age ∧
      (o = .census → q.timeToCensus = 0) := by
  obtain ⟨xs, mfp, path, nf, r, hxs, hmfp, hpath, _, _, hf0, _, r1, r2, r3, r4, _, _, he⟩ :=
    C22_outcome hx hp h
  have hv : 0 < p.getSpeed := (C37_speed.2.1 _ hp.energy).1
  have hm : 0 < mfp := by
    rw [hmfp]; split
    · positivity
    · rename_i hne; have := lt_of_le_of_ne hxs (Ne.symm hne); positivity
  set L := min (path * mfp) (min (p.getSpeed * p.timeToCensus) nf.distanceToFacet) with hL
  have hL0 : 0 ≤ L := le_min (by positivity) (le_min (mul_nonneg hv.le hp.timeToCensus) hf0)
  have hLc : L ≤ path * mfp := min_le_left _ _
  have hLz : L ≤ p.getSpeed * p.timeToCensus := (min_le_right _ _).trans (min_le_left _ _)
  have hLt : L / p.getSpeed ≤ p.timeToCensus := by rw [div_le_iff₀ hv]; linarith
  have hLs : 0 ≤ L / p.getSpeed := by positivity
  have hLm : L / mfp ≤ path := by rw [div_le_iff₀ hm]; exact hLc
  refine ⟨⟨?_, ?_, ?_⟩, ?_, ?_, he.census⟩
  · rw [he.timeToCensus, r3, ← hL]; linarith
  · by_cases ho : o = .collision
    · rw [he.opticalPath_collision ho]
    · rw [he.opticalPath ho, r1, ← hL]; linarith
  · rw [(outcome_frame h).kineticEnergy]; exact hp.energy
  · rw [he.timeToCensus, he.age, r3, r4, ← hL]; ring
  · rw [he.age, r4, ← hL]; linarith

theorem updateTrajectory_time (p : Particle ℝ) (e a : ℝ) :
    (p.updateTrajectory e a).kineticEnergy = e ∧ (p.updateTrajectory e a).age = p.age ∧
    (p.updateTrajectory e a).timeToCensus = p.timeToCensus ∧
    0 ≤ (p.updateTrajectory e a).numMeanFreePaths := by
  unfold Particle.updateTrajectory
  generalize Rng.sample (T := ℝ) p.seed = r
  obtain ⟨u, s⟩ := r
  dsimp only
  generalize hq : Particle.rotateDirection (T := ℝ) _ _ _ _ _ = q
  obtain ⟨s', n, hn, he⟩ := sampleNumMfp_spec q
  rw [he]
  subst hq
  exact ⟨rfl, rfl, rfl, hn⟩

/-- A collision keeps the books, and a positive energy when the nucleus is heavier than the neutron. -/
theorem CollisionOut.time {mass : ℝ} (hm : 1 < mass) {p q : Particle ℝ} (h : CollisionOut mass p q)
    (hp : TimeOk p) : TimeOk q ∧ q.age = p.age ∧ q.timeToCensus = p.timeToCensus := by
  cases h with
  | same s => exact ⟨⟨hp.1, hp.2, hp.3⟩, rfl, rfl⟩
  | scatter s id s1 s2 =>
    obtain ⟨u0, u1⟩ := sample01 s1
    obtain ⟨h1, h2, h3, h4⟩ := updateTrajectory_time { p with seed := s, identifier := id }
      (Flt.mul p.kineticEnergy (Flt.sub Flt.one (Flt.mul (Rng.sample (T := ℝ) s1).1 (Flt.div Flt.one mass))))
      (Flt.sub (Flt.mul (Rng.sample (T := ℝ) s2).1 Flt.two) Flt.one)
    refine ⟨⟨by rw [h3]; exact hp.1, h4, ?_⟩, h2, h3⟩
    rw [h1]
    generalize (Rng.sample (T := ℝ) s1).1 = u at u0 u1
    simp only [mul_eq, sub_eq, one_eq, div_eq]
    have hi : 1 / mass < 1 := by rw [div_lt_one (by linarith)]; exact hm
    have hi0 : 0 < 1 / mass := by positivity
    have : u * (1 / mass) < 1 := by nlinarith
    exact mul_pos hp.3 (by linarith)
  | fission s id s1 s2 =>
    obtain ⟨u0, u1⟩ := sample01 s1
    obtain ⟨h1, h2, h3, h4⟩ := updateTrajectory_time { p with seed := s, identifier := id }
      (Flt.mul (Flt.mul (Flt.ofNat 20) (Flt.div (Flt.add (Rng.sample (T := ℝ) s1).1 Flt.one) Flt.two))
        (Flt.div (Flt.add (Rng.sample (T := ℝ) s1).1 Flt.one) Flt.two))
      (Flt.sub (Flt.mul (Rng.sample (T := ℝ) s2).1 Flt.two) Flt.one)
    refine ⟨⟨by rw [h3]; exact hp.1, h4, ?_⟩, h2, h3⟩
    rw [h1]
    generalize (Rng.sample (T := ℝ) s1).1 = u at u0 u1
    simp only [mul_eq, one_eq, div_eq, add_eq, two_eq, ofNat_eq]
    push_cast
    positivity

/-- An event keeps the books, for the particle and for its offspring. -/
theorem EventOut.time {data : Data ℝ} {dom : Domain ℝ} (hm : ∀ m ∈ data.materials, 1 < m.mass)
    {p q : Particle ℝ} {o : SegOutcome} (h : EventOut data dom p o q) (hp : TimeOk p) :
    TimeOk q ∧ q.age = p.age ∧ q.timeToCensus = p.timeToCensus := by
  cases h with
  | census => exact ⟨hp, rfl, rfl⟩
  | transit => exact ⟨⟨hp.1, hp.2, hp.3⟩, rfl, rfl⟩
  | escape => exact ⟨⟨hp.1, hp.2, hp.3⟩, rfl, rfl⟩
  | reflect => exact ⟨⟨hp.1, hp.2, hp.3⟩, rfl, rfl⟩
  | collide _ hmat hc _ =>
    obtain ⟨h1, h2, h3⟩ := hc.time (hm _ (List.mem_of_getElem? hmat)) hp
    exact ⟨⟨h1.1, h1.2, h1.3⟩, h2, h3⟩
  | born _ hmat hc => exact hc.time (hm _ (List.mem_of_getElem? hmat)) hp

/-- **C23.** At every moment of the tracking of a particle: its age plus its time to census has not
changed, its time to census and its optical path are not negative (so no collision is forced), and the
particles it has produced by fission have the same age plus time to census. -/
theorem C23_tracking {data : Data ℝ} {dom : Domain ℝ} {fuel : ℕ} (hx : NonnegTables data dom)
    (hm : ∀ m ∈ data.materials, 1 < m.mass) {st0 st : TrackState ℝ} (hp : TimeOk st0.particle)
    (h : Visited data dom fuel st0 st) :
    st.particle.age + st.particle.timeToCensus = st0.particle.age + st0.particle.timeToCensus ∧
    st0.particle.age ≤ st.particle.age ∧
    0 ≤ st.particle.timeToCensus ∧ 0 ≤ st.particle.numMeanFreePaths ∧ 0 < st.particle.kineticEnergy ∧
    (prepareForced st.particle).1 = false ∧
    ∃ born, st.extra = st0.extra ++ born ∧ ∀ r ∈ born,
      r.age + r.timeToCensus = st0.particle.age + st0.particle.timeToCensus ∧
      0 ≤ r.timeToCensus ∧ 0 ≤ r.numMeanFreePaths ∧ 0 < r.kineticEnergy ∧ st0.particle.age ≤ r.age := by
  have hforce : ∀ p : Particle ℝ, 0 ≤ p.numMeanFreePaths → (prepareForced p).1 = false := by
    intro p hp
    unfold prepareForced
    simp [not_lt.2 hp]
  induction h with
  | start => exact ⟨rfl, le_rfl, hp.1, hp.2, hp.3, hforce _ hp.2, [], by simp, by simp⟩
  | @step st st1 st2 tr o p keep _ ho hst1 hev ih =>
    obtain ⟨i1, i2, i3, i4, i5, _, born, i6, i7⟩ := ih
    obtain ⟨t1, t2, t3, _⟩ := outcome_time hx ⟨i3, i4, i5⟩ ho
    obtain ⟨new, hnew⟩ := segmentEvent_extra hev
    have hout := segmentEvent_out hev hnew
    have hp1 : TimeOk st1.particle := by rw [hst1]; exact ⟨t1.1, t1.2, t1.3⟩
    have ha1 : st1.particle.age = p.age := by rw [hst1]
    have hc1 : st1.particle.timeToCensus = p.timeToCensus := by rw [hst1]
    have he1 : st1.extra = st.extra := by rw [hst1]
    obtain ⟨e1, e2, e3⟩ := (hout st2.particle (by simp)).time hm hp1
    refine ⟨by rw [e2, e3, ha1, hc1, t2, i1], by rw [e2, ha1]; linarith, e1.1, e1.2, e1.3,
      hforce _ e1.2, born ++ new, by rw [hnew, he1, i6, List.append_assoc], ?_⟩
    intro r hr
    rcases List.mem_append.1 hr with hr | hr
    · exact i7 r hr
    · obtain ⟨f1, f2, f3⟩ := (hout r (by simp [hr])).time hm hp1
      exact ⟨by rw [f2, f3, ha1, hc1, t2, i1], f1.1, f1.2, f1.3, by rw [f2, ha1]; linarith⟩

/-- **C23, census.** A particle whose tracking ends by census has exactly no time left. -/
theorem C23_census {data : Data ℝ} {dom : Domain ℝ} {fuel : ℕ} (hx : NonnegTables data dom)
    (hm : ∀ m ∈ data.materials, 1 < m.mass) {os : List SegOutcome} {st st' : TrackState ℝ}
    (hp : TimeOk st.particle) (h : TrackRun data dom fuel os st st') (ho : os.getLast? = some .census) :
    st'.particle.timeToCensus = 0 ∧
    st'.particle.age = st.particle.age + st.particle.timeToCensus := by
  have h1 : st'.particle.timeToCensus = 0 := by
    induction h with
    | @last o st st1 st' tr p hout hst1 hev =>
      simp only [List.getLast?_singleton, Option.some.injEq] at ho
      subst ho
      obtain ⟨_, _, _, t⟩ := outcome_time hx hp hout
      simp only [segmentEvent, Except.ok.injEq, Prod.mk.injEq] at hev
      rw [← hev.2, hst1]
      exact t rfl
    | @more o os st st1 st2 st' tr p hout hst1 hev hrest ih =>
      have hne : os ≠ [] := by cases hrest <;> simp
      have hv := C23_tracking hx hm hp (.step .start hout hst1 hev)
      refine ih ⟨hv.2.2.1, hv.2.2.2.1, hv.2.2.2.2.1⟩ ?_
      rwa [List.getLast?_cons_of_ne_nil hne] at ho
  have := (C23_tracking hx hm hp h.visited).1
  exact ⟨h1, by linarith⟩

/-- What C23 and C24 ask of the problem: a positive time step, positive source energies, nuclei heavier than
the neutron and no negative cross-section. -/
structure TimeHyps (data : Data ℝ) (dom : Domain ℝ) : Prop where
  dt : 0 < data.dt
  eMin : 0 < data.eMin
  eMin_le : data.eMin ≤ data.eMax
  mass : ∀ m ∈ data.materials, 1 < m.mass
  tables : NonnegTables data dom

/-- **C23, all particles.** Every particle that can exist in a simulation meets the hypotheses of the
theorems above; its age is not negative and its time to census is at most `dt`. -/
theorem C23_reachable {data : Data ℝ} {dom : Domain ℝ} {fuel : ℕ} (hy : TimeHyps data dom)
    {p : Particle ℝ} (h : Reachable data dom fuel p) :
    TimeOk p ∧ 0 ≤ p.age ∧ p.timeToCensus ≤ data.dt := by
  refine h.cases (P := fun p => TimeOk p ∧ 0 ≤ p.age ∧ p.timeToCensus ≤ data.dt) ?_ ?_ ?_ ?_
  · intro d w i cell p _ _ h
    obtain ⟨s1, hs1⟩ := h.energy
    obtain ⟨s2, hs2⟩ := h.mfp
    obtain ⟨s3, hs3⟩ := h.timeToCensus
    obtain ⟨u0, u1⟩ := sample01 s1
    obtain ⟨v0, v1⟩ := sample01 s3
    simp only [mul_eq, add_eq, sub_eq] at hs1 hs3
    have h1 := hy.eMin
    have h2 := hy.eMin_le
    have h3 := hy.dt
    refine ⟨⟨?_, ?_, ?_⟩, ?_, ?_⟩
    · rw [hs3]; positivity
    · rw [hs2]; exact neg_log_nonneg s2
    · rw [hs1]; nlinarith
    · rw [h.age, zero_eq]
    · rw [hs3]; nlinarith
  · rintro p q ⟨hp, ha, ht⟩ hf
    refine ⟨⟨?_, ?_, ?_⟩, ?_, ?_⟩
    · rw [hf.timeToCensus]; exact hp.1
    · rw [hf.numMeanFreePaths]; exact hp.2
    · rw [hf.kineticEnergy]; exact hp.3
    · rw [hf.age]; exact ha
    · rw [hf.timeToCensus]; exact ht
  · rintro p q ⟨hp, ha, ht⟩ h
    simp only [gutsPrepare, bind_ok, pure_ok] at h
    obtain ⟨g, _, rfl⟩ := h
    simp only [le_eq, zero_eq, decide_eq_true_eq, add_eq, max_eq]
    have h3 := hy.dt
    split
    · exact ⟨⟨by simp only; linarith [hp.1], hp.2, hp.3⟩, le_max_right _ _, by simp only; linarith⟩
    · exact ⟨⟨hp.1, hp.2, hp.3⟩, le_max_right _ _, ht⟩
  · rintro d p tr o q r hd ⟨hp, ha, ht⟩ ho _ he
    obtain ⟨t1, t2, t3, _⟩ := outcome_time (hy.tables.skeleton hd) hp ho
    have hq : TimeOk { q with numSegments := Flt.add q.numSegments Flt.one } := ⟨t1.1, t1.2, t1.3⟩
    obtain ⟨e1, e2, e3⟩ := he.time hy.mass hq
    simp only at e2 e3
    exact ⟨e1, by rw [e2]; linarith, by rw [e3]; linarith⟩

/-! ## C24 -/

/-- Preparation of a particle at the beginning of its tracking. -/
theorem gutsPrepare_time {data : Data ℝ} {p q : Particle ℝ} (hp : TimeOk p) (ha : 0 ≤ p.age)
    (hdt : 0 < data.dt) (h : gutsPrepare data p = .ok q) :
    TimeOk q ∧ q.age = p.age ∧
      q.timeToCensus = if p.timeToCensus = 0 then data.dt else p.timeToCensus := by
  simp only [gutsPrepare, bind_ok, pure_ok] at h
  obtain ⟨g, _, rfl⟩ := h
  simp only [le_eq, zero_eq, decide_eq_true_eq, add_eq, max_eq]
  by_cases h0 : p.timeToCensus = 0
  · rw [if_pos h0, if_pos h0.le]
    exact ⟨⟨by simp only; linarith, hp.2, hp.3⟩, max_eq_left ha, by simp only; rw [h0, zero_add]⟩
  · rw [if_neg h0, if_neg (not_le.2 (lt_of_le_of_ne hp.1 (Ne.symm h0)))]
    exact ⟨⟨hp.1, hp.2, hp.3⟩, max_eq_left ha, rfl⟩

/-- **C24.** Processing one particle in a cycle makes its age grow by at most `dt`, by any path and under any
schedule.  Here for every particle that can exist in a simulation. -/
theorem C24_advance {data : Data ℝ} {dom d : Domain ℝ} {fuel : ℕ} (hy : TimeHyps data dom)
    (hd : d.skeleton = dom.skeleton) {st st' : TrackState ℝ} {tr : List (Ev ℝ)}
    (hr : Reachable data dom fuel st.particle) (h : (trackGuts data d fuel st).May tr st') :
    st.particle.age ≤ st'.particle.age ∧ st'.particle.age ≤ st.particle.age + data.dt := by
  obtain ⟨hp, ha, ht⟩ := C23_reachable hy hr
  unfold trackGuts at h
  obtain ⟨t1, t2, q, _, hq, h2⟩ := h.bind_inv
  obtain ⟨_, hq⟩ := hq.ofExcept_inv
  obtain ⟨os, hrun⟩ := trackLoop_run h2
  obtain ⟨q1, q2, q3⟩ := gutsPrepare_time hp ha hy.dt hq
  have hv := C23_tracking (hy.tables.skeleton hd) hy.mass (st0 := { st with particle := q }) q1 hrun.visited
  simp only at hv
  obtain ⟨v1, v2, v3, _⟩ := hv
  have hle : q.timeToCensus ≤ data.dt := by
    rw [q3]; split
    · exact le_rfl
    · exact ht
  constructor <;> linarith

/-- Specification: `Line data d fuel p q`: in one cycle, `q` is met on the way of the particle `p` or of
its offspring, offspring of offspring, ..., where each of them was born before census. -/
inductive Line (data : Data ℝ) (d : Domain ℝ) (fuel : ℕ) (p : Particle ℝ) : Particle ℝ → Prop where
  | start {q} : gutsPrepare data p = .ok q → Line data d fuel p q
  | tracked {st0 st : TrackState ℝ} : Line data d fuel p st0.particle → Visited data d fuel st0 st →
      Line data d fuel p st.particle
  | born {st0 st : TrackState ℝ} {r r'} : Line data d fuel p st0.particle → Visited data d fuel st0 st →
      st0.extra = [] → r ∈ st.extra → 0 < r.timeToCensus → gutsPrepare data r = .ok r' →
      Line data d fuel p r'

/-- **C24, offspring.** As long as no offspring is born exactly at census, a particle and all its
descendants of the cycle end at most `dt` later than the particle began. -/
theorem C24_offspring_partial {data : Data ℝ} {dom d : Domain ℝ} {fuel : ℕ} (hy : TimeHyps data dom)
    (hd : d.skeleton = dom.skeleton) {p q : Particle ℝ} (hr : Reachable data dom fuel p)
    (h : Line data d fuel p q) :
    p.age ≤ q.age ∧ q.age + q.timeToCensus ≤ p.age + data.dt ∧ q.age ≤ p.age + data.dt := by
  obtain ⟨hp, ha, ht⟩ := C23_reachable hy hr
  have main : TimeOk q ∧ p.age ≤ q.age ∧ q.age + q.timeToCensus ≤ p.age + data.dt := by
    induction h with
    | start h =>
      obtain ⟨q1, q2, q3⟩ := gutsPrepare_time hp ha hy.dt h
      refine ⟨q1, by rw [q2], ?_⟩
      rw [q2, q3]; split <;> linarith
    | tracked _ hv ih =>
      obtain ⟨i1, i2, i3⟩ := ih
      obtain ⟨v1, v2, v3, v4, v5, _⟩ := C23_tracking (hy.tables.skeleton hd) hy.mass i1 hv
      exact ⟨⟨v3, v4, v5⟩, by linarith, by linarith⟩
    | @born st0 st r r' _ hv he hm hpos hg ih =>
      obtain ⟨i1, i2, i3⟩ := ih
      obtain ⟨_, _, _, _, _, _, bs, hbs, hall⟩ := C23_tracking (hy.tables.skeleton hd) hy.mass i1 hv
      rw [he, List.nil_append] at hbs
      obtain ⟨b1, b2, b3, b4, b5⟩ := hall r (hbs ▸ hm)
      obtain ⟨q1, q2, q3⟩ := gutsPrepare_time ⟨b2, b3, b4⟩ (by linarith) hy.dt hg
      rw [if_neg hpos.ne'] at q3
      exact ⟨q1, by rw [q2]; linarith, by rw [q2, q3]; linarith⟩
  exact ⟨main.2.1, main.2.2, by linarith [main.1.1]⟩

/-- **C24 fails for offspring born at census.** If the distances to collision and to census are the same,
the segment ends with a collision that leaves exactly no time to census; a fission product of this
collision is then given a whole further time step in the same cycle. -/
theorem C24_violated_at_census {data : Data ℝ} (hdt : 0 < data.dt) {p q r r' : Particle ℝ} {speed mass : ℝ}
    {nf : NearestFacet ℝ} (hv : 0 < speed) (hp : TimeOk p) (ha : 0 ≤ p.age) (hm : 1 < mass)
    (htie : p.numMeanFreePaths * p.meanFreePath = speed * p.timeToCensus)
    (hfar : speed * p.timeToCensus ≤ nf.distanceToFacet) (hf : nf.distanceToFacet < 10 ^ 76)
    {o : SegOutcome} (h : applyOutcome p speed false nf = .ok (o, q)) (hqe : 0 < q.kineticEnergy)
    (hc : CollisionOut mass q r) (hg : gutsPrepare data r = .ok r') :
    o = .collision ∧ q.timeToCensus = 0 ∧ r.timeToCensus = 0 ∧
    r'.age + r'.timeToCensus = (p.age + p.timeToCensus) + data.dt := by
  have hs := C22_segment hv hp.1 hf.le h
  have hL : min (p.numMeanFreePaths * p.meanFreePath) (min (speed * p.timeToCensus) nf.distanceToFacet) =
      speed * p.timeToCensus := by rw [htie, min_eq_left hfar, min_self]
  have ho : o = .collision := (hs.outcome (by rw [hL]; linarith)).1.2 ⟨htie.le, by rw [htie]; exact hfar⟩
  have hdiv : speed * p.timeToCensus / speed = p.timeToCensus := by field_simp
  have hq0 : q.timeToCensus = 0 := by rw [hs.timeToCensus, hL, hdiv, sub_self]
  have hqa : q.age = p.age + p.timeToCensus := by rw [hs.age, hL, hdiv]
  have hqo : q.numMeanFreePaths = 0 := hs.opticalPath_collision ho
  obtain ⟨c1, c2, c3⟩ := hc.time hm ⟨hq0.ge, hqo.ge, hqe⟩
  have hr0 : r.timeToCensus = 0 := by rw [c3, hq0]
  obtain ⟨g1, g2, g3⟩ := gutsPrepare_time c1 (by rw [c2, hqa]; linarith [hp.1]) hdt hg
  refine ⟨ho, hq0, hr0, ?_⟩
  rw [g2, g3, if_pos hr0, c2, hqa]

/-! ## Concrete cases -/

namespace SegmentsExample

/-- A particle one mean free path of 2 from its next collision, with 3 time units left. -/
noncomputable def p : Particle ℝ := { (Particle.default : Particle ℝ) with
  direction := ⟨1, 0, 0⟩, kineticEnergy := 1, timeToCensus := 3, numMeanFreePaths := 1, meanFreePath := 2 }

/-- At speed 1, with a facet at distance 5: the collision comes first, after a length of 2. -/
example : ∃ q, applyOutcome p 1 false { facet := 4, distanceToFacet := 5, dotProduct := 0 } =
    .ok (.collision, q) ∧ q.segmentPathLength = 2 ∧ q.timeToCensus = 1 ∧ q.age = 2 ∧ q.coordinate.x = 2 := by
  have e : ∃ o q, applyOutcome p 1 false { facet := 4, distanceToFacet := 5, dotProduct := 0 } = .ok (o, q) := by
    unfold applyOutcome
    simp only [bind_ok]
    have hpos : (0 : ℝ) ≤ min (p.numMeanFreePaths * p.meanFreePath) (min (1 * p.timeToCensus) 5) := by
      simp [p]
    generalize hh : (((DistanceHandler.default (T := ℝ)).update .collision
      (Flt.mul p.numMeanFreePaths p.meanFreePath)).update .census (Flt.mul 1 p.timeToCensus)).update
      .facetCrossing 5 = h'
    have hmin := (distances_spec _ _ _ (by norm_num) h' hh.symm).1
    simp only [mul_eq] at hmin
    simp only [Bool.false_eq_true, if_false, assertB_ok, le_eq, zero_eq, decide_eq_true_eq, hmin, hpos,
      beq_eq]
    cases h'.outcome <;> dsimp only <;> split <;> exact ⟨_, _, (), trivial, rfl⟩
  obtain ⟨o, q, h⟩ := e
  have hs := C22_segment one_pos (by simp [p]) (by norm_num) h
  have hL : min (p.numMeanFreePaths * p.meanFreePath) (min (1 * p.timeToCensus) 5) = 2 := by
    simp [p]
    norm_num
  have ho : o = .collision := (hs.outcome (by rw [hL]; norm_num)).1.2 (by simp [p]; norm_num)
  subst ho
  refine ⟨q, h, ?_, ?_, ?_, ?_⟩
  · rw [hs.length, hL]
  · rw [hs.timeToCensus, hL]; simp [p]; norm_num
  · rw [hs.age, hL]; simp [p, Particle.default]
  · rw [hs.x, hL]; simp [p, Particle.default, Vec3.zero]

/-- This particle meets the hypotheses of C23. -/
example : TimeOk p := ⟨by simp [p], by simp [p], by simp [p]⟩

/-- The data of the reaction example meet the hypotheses of C23 and C24, in any mesh without negative density. -/
example (dom : Domain ℝ) (h : ∀ cs ∈ dom.cells, 0 ≤ cs.cellNumberDensity) :
    TimeHyps CrossSectionsExample.data dom where
  dt := by simp [CrossSectionsExample.data]
  eMin := by simp [CrossSectionsExample.data]
  eMin_le := by simp [CrossSectionsExample.data]
  mass := by simp [CrossSectionsExample.data, CrossSectionsExample.mat]
  tables := ⟨h, by simp [CrossSectionsExample.data, CrossSectionsExample.mat], by
    simp [CrossSectionsExample.data, CrossSectionsExample.scat, CrossSectionsExample.fiss]⟩

end SegmentsExample
