import Verif.Spec.Flight
import Verif.Props.Segments
/-! Lemmas on flights without collision, over the reals. -/
open FltReal
attribute [local irreducible] Rng.lcg Rng.sample Rng.spawn

/-- The end of `applyOutcome`, once the outcome and the length are known. -/
noncomputable def segEnd (p : Particle ℝ) (speed : ℝ) (nf : NearestFacet ℝ) (o : SegOutcome) (L : ℝ) : Particle ℝ :=
  let p := { p with normalDot := nf.dotProduct }
  let p := { p with segmentPathLength := L }
  let p := { p with numMeanFreePaths := p.numMeanFreePaths - p.segmentPathLength / p.meanFreePath }
  let p := match o with
    | .collision => { p with numMeanFreePaths := 0, lastEvent := .collision }
    | .facetCrossing => { p with facet := nf.facet, lastEvent := .facetCrossingTransitExit }
    | .census => { p with timeToCensus := min 0 p.timeToCensus, lastEvent := .census }
  if p.segmentPathLength = 0 then p else
  let p := p.moveAlongSegment
  let t := p.segmentPathLength / speed
  let p := { p with timeToCensus := p.timeToCensus - t, age := p.age + t }
  { p with timeToCensus := max p.timeToCensus 0 }

/-- The three distances, in the order of the program. -/
noncomputable def handler (dc dz df : ℝ) : DistanceHandler ℝ :=
  (((DistanceHandler.default (T := ℝ)).update .collision dc).update .census dz).update .facetCrossing df

theorem handler_spec (dc dz df : ℝ) :
    (handler dc dz df).minDist = min df (min dz (min dc (10 ^ 76))) ∧ (handler dc dz df).outcome =
      if df < min dz (min dc (10 ^ 76)) then .facetCrossing
      else if dz < min dc (10 ^ 76) then .census else .collision := by
  have hm : ∀ (a b : ℝ), (if a < b then a else b) = min a b := fun a b => by
    split
    · rename_i h; exact (min_eq_left h.le).symm
    · rename_i h; exact (min_eq_right (not_lt.1 h)).symm
  have e1 : (((DistanceHandler.default (T := ℝ)).update .collision dc)).minDist = min dc (10 ^ 76) ∧
      (((DistanceHandler.default (T := ℝ)).update .collision dc)).outcome = .collision := by
    unfold DistanceHandler.update DistanceHandler.default
    simp only [lt_eq, huge_eq, decide_eq_true_eq]
    rw [← hm]
    split <;> exact ⟨rfl, rfl⟩
  have e2 : ∀ (a : DistanceHandler ℝ) (o : SegOutcome) (d : ℝ),
      (a.update o d).minDist = min d a.minDist ∧
      (a.update o d).outcome = if d < a.minDist then o else a.outcome := by
    intro a o d
    unfold DistanceHandler.update
    simp only [lt_eq, decide_eq_true_eq]
    rw [← hm]
    cases o <;> dsimp only <;> split <;> exact ⟨rfl, rfl⟩
  unfold handler
  refine ⟨?_, ?_⟩
  · rw [(e2 _ _ _).1, (e2 _ _ _).1, e1.1]
  · rw [(e2 _ _ _).2, (e2 _ _ _).2, (e2 _ _ _).1, e1.1, e1.2]

theorem applyOutcome_eq (p : Particle ℝ) (speed : ℝ) (nf : NearestFacet ℝ) :
    applyOutcome p speed false nf =
      if 0 ≤ (handler (p.numMeanFreePaths * p.meanFreePath) (speed * p.timeToCensus) nf.distanceToFacet).minDist then
        .ok ((handler (p.numMeanFreePaths * p.meanFreePath) (speed * p.timeToCensus) nf.distanceToFacet).outcome,
          segEnd p speed nf
            (handler (p.numMeanFreePaths * p.meanFreePath) (speed * p.timeToCensus) nf.distanceToFacet).outcome
            (handler (p.numMeanFreePaths * p.meanFreePath) (speed * p.timeToCensus) nf.distanceToFacet).minDist)
      else .error .assertFailed := by
  unfold applyOutcome handler
  simp only [mul_eq, Bool.false_eq_true, if_false]
  generalize ((DistanceHandler.default.update .collision (p.numMeanFreePaths * p.meanFreePath)).update .census
    (speed * p.timeToCensus)).update .facetCrossing nf.distanceToFacet = h
  by_cases hp : 0 ≤ h.minDist
  · rw [if_pos hp]
    simp only [le_eq, zero_eq, hp, decide_true, assertB, if_true, bind, Except.bind, pure, Except.pure, sub_eq, div_eq,
      beq_eq, min_eq, max_eq, add_eq, segEnd]
    cases h.outcome <;> dsimp only <;> by_cases h0 : h.minDist = 0 <;> simp only [h0, decide_true, decide_false, if_true, if_false, Bool.false_eq_true, Particle.moveAlongSegment]
  · rw [if_neg hp]
    simp only [le_eq, zero_eq, hp, decide_false, assertB, Bool.false_eq_true, if_false, bind, Except.bind]

/-! ### Changing the depth and the generator -/

theorem segEnd_withDepth (p : Particle ℝ) (speed : ℝ) (nf : NearestFacet ℝ) (o : SegOutcome) (L τ : ℝ) (s : BitVec 64)
    (ho : o ≠ .collision) :
    segEnd (p.withDepth τ s) speed nf o L = (segEnd p speed nf o L).withDepth (τ - L / p.meanFreePath) s := by
  cases o with
  | collision => exact absurd rfl ho
  | facetCrossing => unfold segEnd Particle.withDepth Particle.moveAlongSegment; dsimp only; split <;> rfl
  | census => unfold segEnd Particle.withDepth Particle.moveAlongSegment; dsimp only; split <;> rfl

theorem segEnd_fields (p : Particle ℝ) (speed : ℝ) (nf : NearestFacet ℝ) (o : SegOutcome) (L : ℝ) (ho : o ≠ .collision)
    (ht : 0 ≤ p.timeToCensus) :
    (segEnd p speed nf o L).segmentPathLength = L ∧
    (segEnd p speed nf o L).numMeanFreePaths = p.numMeanFreePaths - L / p.meanFreePath ∧
    (segEnd p speed nf o L).kineticEnergy = p.kineticEnergy ∧ 0 ≤ (segEnd p speed nf o L).timeToCensus := by
  cases o with
  | collision => exact absurd rfl ho
  | facetCrossing =>
    unfold segEnd Particle.moveAlongSegment; dsimp only
    split
    · exact ⟨rfl, rfl, rfl, ht⟩
    · exact ⟨rfl, rfl, rfl, le_max_right _ _⟩
  | census =>
    unfold segEnd Particle.moveAlongSegment; dsimp only
    split
    · exact ⟨rfl, rfl, rfl, le_min le_rfl ht⟩
    · exact ⟨rfl, rfl, rfl, le_max_right _ _⟩

theorem segEnd_length (p : Particle ℝ) (speed : ℝ) (nf : NearestFacet ℝ) (o : SegOutcome) (L : ℝ) :
    (segEnd p speed nf o L).segmentPathLength = L := by
  unfold segEnd Particle.moveAlongSegment
  cases o <;> dsimp only <;> split <;> rfl

theorem nfLoop_withDepth (mesh : Mesh ℝ) (planes : List (Plane ℝ)) (c d : Vec3 ℝ) (tol : ℝ) (τ : ℝ) (s : BitVec 64) :
    ∀ (fuel it : ℕ) (mf : ℝ) (p : Particle ℝ),
      nfLoop mesh planes c d tol fuel it mf (p.withDepth τ s) =
        (nfLoop mesh planes c d tol fuel it mf p).map fun r => (r.1, r.2.withDepth τ s) := by
  intro fuel
  induction fuel with
  | zero => intro it mf p; rfl
  | succ n ih =>
    intro it mf p
    unfold nfLoop
    rw [show (p.withDepth τ s).cell = p.cell from rfl, show (p.withDepth τ s).numSegments = p.numSegments from rfl]
    cases hd : facetDistances mesh p.cell c d tol planes with
    | error e => rfl
    | ok dists =>
      dsimp only [bind, Except.bind]
      split
      · cases hc : cellPosition3dg mesh p.cell with
        | error e => rfl
        | ok v =>
          dsimp only
          split
          · exact ih _ _ { p with coordinate := _ }
          · rfl
      · rfl

theorem nearestFacet_withDepth (mesh : Mesh ℝ) (p : Particle ℝ) (τ : ℝ) (s : BitVec 64) :
    nearestFacet mesh (p.withDepth τ s) = (nearestFacet mesh p).map fun r => (r.1, r.2.withDepth τ s) := by
  unfold nearestFacet mctNf3dg
  dsimp only
  rw [show (p.withDepth τ s).cell = p.cell from rfl, show (p.withDepth τ s).coordinate = p.coordinate from rfl,
    show (p.withDepth τ s).direction = p.direction from rfl]
  cases hi : idx mesh.cellGeometry p.cell with
  | error e => rfl
  | ok planes =>
    dsimp only [bind, Except.bind]
    rw [nfLoop_withDepth]
    generalize nfLoop mesh planes p.coordinate p.direction _ 1000 0 _ p = r
    rcases r with e | r
    · rfl
    · dsimp only [Except.map]
      generalize assertB _ = a
      cases a <;> rfl

theorem gutsPrepare_withDepth (data : Data ℝ) (p : Particle ℝ) (τ : ℝ) (s : BitVec 64) :
    gutsPrepare data (p.withDepth τ s) = (gutsPrepare data p).map fun r => r.withDepth τ s := by
  unfold gutsPrepare Particle.withDepth
  dsimp only
  split <;> dsimp only [bind, Except.bind] <;> cases getEnergyGroups data.nuclear.energies p.kineticEnergy <;> rfl

theorem facetBranch_withDepth (dom : Domain ℝ) (q : Particle ℝ) (b : Balance) (ex : List (Particle ℝ)) (τ : ℝ)
    (s : BitVec 64) :
    facetBranch dom { particle := q.withDepth τ s, balance := b, extra := ex } =
      (facetBranch dom { particle := q, balance := b, extra := ex }).map fun r =>
        (r.1, { r.2 with particle := r.2.particle.withDepth τ s }) := by
  unfold facetBranch
  change (idx dom.mesh.cellConnectivity q.cell >>= fun conn => idx conn.facet q.facet >>= fun fa => _) = _
  cases idx dom.mesh.cellConnectivity q.cell with
  | error e => rfl
  | ok conn =>
    dsimp only [bind, Except.bind]
    cases idx conn.facet q.facet with
    | error e => rfl
    | ok fa =>
      dsimp only
      have hf : facetCrossingEvent (q.withDepth τ s) fa.subfacet =
          (facetCrossingEvent q fa.subfacet).map fun r => r.withDepth τ s := by
        unfold facetCrossingEvent
        cases fa.subfacet.event with
        | transitOnProcessor =>
          dsimp only [bind, Except.bind]
          cases unwrap fa.subfacet.adjacent.domain <;> cases unwrap fa.subfacet.adjacent.cell <;>
            cases unwrap fa.subfacet.adjacent.facet <;> rfl
        | transitOffProcessor =>
          dsimp only [bind, Except.bind]
          cases unwrap fa.subfacet.adjacent.domain <;> cases unwrap fa.subfacet.adjacent.cell <;>
            cases unwrap fa.subfacet.adjacent.facet <;> rfl
        | boundaryEscape => rfl
        | boundaryReflection => rfl
        | undefined => rfl
      rw [hf]
      cases facetCrossingEvent q fa.subfacet with
      | error e => rfl
      | ok p =>
        dsimp only [Except.map]
        have hl : (p.withDepth τ s).lastEvent = p.lastEvent := rfl
        have hcell : (p.withDepth τ s).cell = p.cell := rfl
        have hfac : (p.withDepth τ s).facet = p.facet := rfl
        rw [hl, hcell, hfac]
        cases p.lastEvent <;> try rfl
        dsimp only
        cases idx dom.mesh.cellGeometry p.cell with
        | error e => rfl
        | ok planes =>
          dsimp only
          cases idx planes p.facet <;> rfl

/-! ### One leg -/

/-- The particle once its cross-section is known. -/
noncomputable def withXs (p : Particle ℝ) (x : ℝ) : Particle ℝ := { p with totalCrossSection := x, meanFreePath := 1 / x }

theorem directOutcome_eq {data : Data ℝ} {dom : Domain ℝ} {p : Particle ℝ} {x : ℝ} (hτ : 0 < p.numMeanFreePaths)
    (hx : directXs data dom p.cell p.energyGroup = .ok x) (hx0 : 0 < x) :
    directOutcome data dom p =
      (nearestFacet dom.mesh (withXs p x)).bind fun r => applyOutcome r.2 p.getSpeed false r.1 := by
  have h1 : prepareForced p = (false, p) := by
    unfold prepareForced
    simp only [lt_eq, zero_eq, decide_eq_false (not_lt.2 hτ.le), Bool.false_eq_true, if_false]
  have h2 : prepareXs p x = withXs p x := by
    unfold prepareXs withXs
    simp only [beq_eq, zero_eq, decide_eq_false hx0.ne', Bool.false_eq_true, if_false, div_eq, one_eq,
      decide_eq_false hτ.ne']
  unfold directOutcome
  rw [h1]
  dsimp only
  rw [hx]
  dsimp only [bind, Except.bind]
  unfold outcomeWithXs
  dsimp only
  rw [h2]
  rfl

/-- What the distances of a leg decide. -/
theorem handler_flies {dc dz df : ℝ} (ho : (handler dc dz df).outcome ≠ .collision) :
    (handler dc dz df).minDist = min dz df ∧ min dz df < dc ∧ min dz df < 10 ^ 76 := by
  obtain ⟨h1, h2⟩ := handler_spec dc dz df
  rw [h2] at ho
  split at ho
  · rename_i h
    simp only [lt_min_iff] at h
    rw [h1, min_eq_left (le_min h.1.le (le_min h.2.1.le h.2.2.le)), min_eq_right h.1.le]
    exact ⟨rfl, h.2⟩
  · rename_i hn
    split at ho
    · rename_i h
      have hdf : dz ≤ df := by
        have := not_lt.1 hn
        rwa [min_eq_left h.le] at this
      rw [h1, min_eq_left h.le, min_eq_right hdf, min_eq_left hdf]
      exact ⟨rfl, lt_min_iff.1 h⟩
    · exact absurd rfl ho

theorem handler_same {dc dz df dc' : ℝ} (ho : (handler dc dz df).outcome ≠ .collision) (h : min dz df < dc') :
    (handler dc' dz df).outcome = (handler dc dz df).outcome ∧ (handler dc' dz df).minDist = min dz df := by
  obtain ⟨_, h2, h3⟩ := handler_flies ho
  have key : ∀ d, min dz df < d → ((handler d dz df).outcome = if df < dz then .facetCrossing else .census) ∧
      (handler d dz df).minDist = min dz df := by
    intro d hd
    obtain ⟨e1, e2⟩ := handler_spec d dz df
    have hlt : min dz df < min d (10 ^ 76) := lt_min hd h3
    rw [e1, e2]
    by_cases hf : df < dz
    · rw [min_eq_right hf.le] at hlt
      rw [if_pos hf, if_pos (lt_min hf hlt), min_eq_right hf.le, min_eq_left (le_min hf.le hlt.le)]
      exact ⟨rfl, rfl⟩
    · have hf' := not_lt.1 hf
      rw [min_eq_left hf'] at hlt
      rw [if_neg hf, if_neg, if_pos hlt, min_eq_left hlt.le, min_eq_right hf', min_eq_left hf']
      · exact ⟨rfl, rfl⟩
      · rw [min_eq_left hlt.le]; exact hf
  exact ⟨(key dc' h).1.trans (key dc h2).1.symm, (key dc' h).2⟩

theorem handler_collides {dc dz df : ℝ} (h : dc ≤ min dz df) (hm : min dz df < 10 ^ 76) :
    (handler dc dz df).outcome = .collision ∧ (handler dc dz df).minDist = dc := by
  obtain ⟨e1, e2⟩ := handler_spec dc dz df
  have h1 : dc ≤ dz := h.trans (min_le_left _ _)
  have h2 : dc ≤ df := h.trans (min_le_right _ _)
  have h3 : dc ≤ 10 ^ 76 := h.trans hm.le
  rw [e1, e2, min_eq_left h3, min_eq_right h1, min_eq_right h2, if_neg (not_lt.2 h2), if_neg (not_lt.2 h1)]
  exact ⟨rfl, rfl⟩

variable {data : Data ℝ} {dom : Domain ℝ}

/-- A leg, from the distances. -/
theorem NextLeg.parts {p : Particle ℝ} {leg : Leg} {o : SegOutcome} {q : Particle ℝ} (hτ : 0 < p.numMeanFreePaths)
    (hx0 : 0 < leg.xs) (h : NextLeg data dom p leg o q) :
    ∃ nf p1, nearestFacet dom.mesh (withXs p leg.xs) = .ok (nf, p1) ∧
      p1 = { withXs p leg.xs with coordinate := p1.coordinate } ∧ 0 ≤ nf.distanceToFacet ∧
      o = (handler (p.numMeanFreePaths * (1 / leg.xs)) (p.getSpeed * p.timeToCensus) nf.distanceToFacet).outcome ∧
      leg.length = (handler (p.numMeanFreePaths * (1 / leg.xs)) (p.getSpeed * p.timeToCensus) nf.distanceToFacet).minDist ∧
      q = segEnd p1 p.getSpeed nf o leg.length := by
  have hs := h.segment
  rw [directOutcome_eq hτ h.xs hx0] at hs
  cases hn : nearestFacet dom.mesh (withXs p leg.xs) with
  | error e => rw [hn] at hs; cases hs
  | ok r =>
    obtain ⟨nf, p1⟩ := r
    rw [hn] at hs
    have hs : applyOutcome p1 p.getSpeed false nf = .ok (o, q) := hs
    have hfr := nearestFacet_frame hn
    have hd : 0 ≤ nf.distanceToFacet := by
      simp only [nearestFacet, bind_ok, pure_ok, Prod.mk.injEq, Prod.exists, assertB_ok] at hn
      obtain ⟨nf0, p0, _, _, _, rfl, _⟩ := hn
      dsimp only
      rw [max_eq, zero_eq]
      exact le_max_right _ _
    rw [applyOutcome_eq] at hs
    have e1 : p1.numMeanFreePaths = p.numMeanFreePaths := by rw [hfr]; rfl
    have e2 : p1.meanFreePath = 1 / leg.xs := by rw [hfr]; rfl
    have e3 : p1.timeToCensus = p.timeToCensus := by rw [hfr]; rfl
    rw [e1, e2, e3] at hs
    split at hs
    · simp only [Except.ok.injEq, Prod.mk.injEq] at hs
      obtain ⟨ho, hq⟩ := hs
      have hl : leg.length = (handler (p.numMeanFreePaths * (1 / leg.xs)) (p.getSpeed * p.timeToCensus)
          nf.distanceToFacet).minDist := by
        rw [← h.length, ← hq, segEnd_length]
      refine ⟨nf, p1, rfl, hfr, hd, ho.symm, hl, ?_⟩
      rw [← hq, ← ho, ← hl]
    · cases hs

theorem getSpeed_pos {p : Particle ℝ} (h : 0 < p.kineticEnergy) : 0 < p.getSpeed := (C37_speed.2.1 _ h).1

/-- A leg without collision. -/
theorem NextLeg.flies {p : Particle ℝ} {leg : Leg} {o : SegOutcome} {q : Particle ℝ} (hc : CanFly data dom p)
    (hτ : 0 < p.numMeanFreePaths) (h : NextLeg data dom p leg o q) (ho : o ≠ .collision) :
    0 ≤ leg.length ∧ 0 < leg.xs ∧ q.numMeanFreePaths = p.numMeanFreePaths - leg.length * leg.xs ∧
      0 < q.numMeanFreePaths ∧ CanFly data dom q ∧
      ∀ (τ : ℝ) (s : BitVec 64), 0 < τ →
        (leg.length * leg.xs < τ →
          NextLeg data dom (p.withDepth τ s) leg o (q.withDepth (τ - leg.length * leg.xs) s)) ∧
        (τ ≤ leg.length * leg.xs → ∃ r, NextLeg data dom (p.withDepth τ s) ⟨τ / leg.xs, leg.xs⟩ .collision r) := by
  have hx0 : 0 < leg.xs := hc.xs _ _ _ h.xs
  obtain ⟨nf, p1, hn, hfr, hd, ho', hl, hq⟩ := h.parts hτ hx0
  have hv := getSpeed_pos hc.energy
  have hz : 0 ≤ p.getSpeed * p.timeToCensus := mul_nonneg hv.le hc.time
  rw [ho'] at ho
  obtain ⟨hm, hlt, hH⟩ := handler_flies ho
  rw [hm] at hl
  have hl0 : 0 ≤ leg.length := by rw [hl]; exact le_min hz hd
  have e1 : p1.numMeanFreePaths = p.numMeanFreePaths := by rw [hfr]; rfl
  have e2 : p1.meanFreePath = 1 / leg.xs := by rw [hfr]; rfl
  have e3 : p1.timeToCensus = p.timeToCensus := by rw [hfr]; rfl
  have e4 : p1.kineticEnergy = p.kineticEnergy := by rw [hfr]; rfl
  have hdiv : ∀ a : ℝ, a / (1 / leg.xs) = a * leg.xs := fun a => by field_simp
  rw [← ho'] at ho
  obtain ⟨_, f2, f3, f4⟩ := segEnd_fields p1 p.getSpeed nf o leg.length ho (e3 ▸ hc.time)
  rw [← hq, e1, e2, hdiv] at f2
  rw [← hq, e4] at f3
  rw [← hq] at f4
  refine ⟨hl0, hx0, f2, ?_, ⟨f3 ▸ hc.energy, f4, hc.step, hc.xs⟩, ?_⟩
  · rw [f2, hl]
    have := mul_lt_mul_of_pos_right hlt hx0
    have e : p.numMeanFreePaths * (1 / leg.xs) * leg.xs = p.numMeanFreePaths := by field_simp
    rw [e] at this
    linarith
  · intro τ s hτ'
    have hn' : nearestFacet dom.mesh (withXs (p.withDepth τ s) leg.xs) = .ok (nf, p1.withDepth τ s) := by
      have := nearestFacet_withDepth dom.mesh (withXs p leg.xs) τ s
      rw [hn] at this
      exact this
    have hout : directOutcome data dom (p.withDepth τ s) = applyOutcome (p1.withDepth τ s) p.getSpeed false nf := by
      rw [directOutcome_eq (p := p.withDepth τ s) (x := leg.xs) hτ' h.xs hx0, hn']
      rfl
    rw [applyOutcome_eq] at hout
    have g1 : (p1.withDepth τ s).numMeanFreePaths = τ := rfl
    have g2 : (p1.withDepth τ s).meanFreePath = 1 / leg.xs := e2
    have g3 : (p1.withDepth τ s).timeToCensus = p.timeToCensus := e3
    rw [g1, g2, g3] at hout
    constructor
    · intro hlt'
      have hdc : min (p.getSpeed * p.timeToCensus) nf.distanceToFacet < τ * (1 / leg.xs) := by
        rw [← hl, mul_one_div, lt_div_iff₀ hx0]; exact hlt'
      rw [ho'] at ho
      obtain ⟨k1, k2⟩ := handler_same ho hdc
      rw [k1, k2, ← ho', ← hl, if_pos hl0] at hout
      refine ⟨h.xs, ?_, ?_⟩
      · rw [hout, segEnd_withDepth _ _ _ _ _ _ _ (ho' ▸ ho), e2, hdiv, ← hq]
      · change q.segmentPathLength = _
        exact h.length
    · intro hle
      have hdc : τ * (1 / leg.xs) ≤ min (p.getSpeed * p.timeToCensus) nf.distanceToFacet := by
        rw [← hl, mul_one_div, div_le_iff₀ hx0]; exact hle
      obtain ⟨k1, k2⟩ := handler_collides hdc hH
      rw [k1, k2, if_pos (by positivity)] at hout
      exact ⟨_, h.xs, hout, by rw [segEnd_length, mul_one_div]⟩

/-- A leg that ends with a collision. -/
theorem NextLeg.collides {p : Particle ℝ} {leg : Leg} {q : Particle ℝ} (hx0 : 0 < leg.xs)
    (hτ : 0 < p.numMeanFreePaths) (h : NextLeg data dom p leg .collision q) (hl : leg.length < 10 ^ 76) :
    leg.length * leg.xs = p.numMeanFreePaths := by
  obtain ⟨nf, p1, hn, hfr, hd, ho', hl', hq⟩ := h.parts hτ hx0
  obtain ⟨e1, e2⟩ := handler_spec (p.numMeanFreePaths * (1 / leg.xs)) (p.getSpeed * p.timeToCensus) nf.distanceToFacet
  rw [e2] at ho'
  rw [e1] at hl'
  have hdc : leg.length = p.numMeanFreePaths * (1 / leg.xs) := by
    generalize p.numMeanFreePaths * (1 / leg.xs) = dc at ho' hl' ⊢
    generalize p.getSpeed * p.timeToCensus = dz at ho' hl'
    generalize nf.distanceToFacet = df at ho' hl'
    split at ho'
    · cases ho'
    · rename_i h1
      split at ho'
      · cases ho'
      · rename_i h2
        have h2 := not_lt.1 h2
        rw [min_eq_right h2] at h1 hl'
        rw [min_eq_right (not_lt.1 h1)] at hl'
        by_contra hne
        rcases min_choice dc ((10 : ℝ) ^ 76) with hc | hc
        · exact hne (hl'.trans hc)
        · rw [hc] at hl'; linarith
  rw [hdc]
  field_simp

/-! ### From one leg to the next -/

theorem GoesOn.flies {o : SegOutcome} {q p' : Particle ℝ} (h : GoesOn data dom o q p') (hc : CanFly data dom q) :
    p'.numMeanFreePaths = q.numMeanFreePaths ∧ CanFly data dom p' ∧
      ∀ (τ : ℝ) (s : BitVec 64), GoesOn data dom o (q.withDepth τ s) (p'.withDepth τ s) := by
  rcases h with ⟨ho, st, hf, rfl⟩ | ⟨ho, hg⟩
  · have hfields : st.particle.numMeanFreePaths = q.numMeanFreePaths ∧
        st.particle.kineticEnergy = q.kineticEnergy ∧ st.particle.timeToCensus = q.timeToCensus := by
      have hcross : ∀ {a b : Particle ℝ} {sub : SubfacetAdj}, facetCrossingEvent a sub = .ok b →
          b.numMeanFreePaths = a.numMeanFreePaths ∧ b.kineticEnergy = a.kineticEnergy ∧
          b.timeToCensus = a.timeToCensus := by
        intro a b sub h
        unfold facetCrossingEvent at h
        split at h
        all_goals first
          | (cases h; exact ⟨rfl, rfl, rfl⟩)
          | cases h
          | (simp only [bind_ok, pure_ok] at h
             obtain ⟨_, _, _, _, _, _, rfl⟩ := h
             exact ⟨rfl, rfl, rfl⟩)
      unfold facetBranch at hf
      simp only [bind_ok] at hf
      obtain ⟨conn, _, fa, _, p, hp, hf⟩ := hf
      have h3 := hcross hp
      split at hf
      · simp only [pure_ok, Prod.mk.injEq, true_and] at hf
        subst hf
        exact h3
      · simp only [bind_ok, pure_ok, Prod.mk.injEq, true_and] at hf
        obtain ⟨_, _, _, _, rfl⟩ := hf
        exact h3
      · cases hf
      · simp only [pure_ok, Prod.mk.injEq, Bool.false_eq_true, false_and] at hf
      · cases hf
    obtain ⟨f1, f2, f3⟩ := hfields
    refine ⟨f1, ⟨f2 ▸ hc.energy, f3 ▸ hc.time, hc.step, hc.xs⟩, fun τ s => .inl ⟨ho, { st with particle := st.particle.withDepth τ s }, ?_, rfl⟩⟩
    have := facetBranch_withDepth dom { q with numSegments := q.numSegments + 1 } {} [] τ s
    rw [hf] at this
    exact this
  · have hfields : p'.numMeanFreePaths = q.numMeanFreePaths ∧ p'.kineticEnergy = q.kineticEnergy ∧
        0 ≤ p'.timeToCensus := by
      unfold gutsPrepare at hg
      simp only [bind_ok, pure_ok] at hg
      obtain ⟨g, _, rfl⟩ := hg
      dsimp only
      split
      · exact ⟨rfl, rfl, add_nonneg hc.time hc.step⟩
      · exact ⟨rfl, rfl, hc.time⟩
    obtain ⟨f1, f2, f3⟩ := hfields
    refine ⟨f1, ⟨f2 ▸ hc.energy, f3, hc.step, hc.xs⟩, fun τ s => .inr ⟨ho, ?_⟩⟩
    have := gutsPrepare_withDepth data { q with numSegments := q.numSegments + 1 } τ s
    rw [hg] at this
    exact this

theorem opticalDepth_nil : opticalDepth [] = 0 := rfl

theorem opticalDepth_cons (a : Leg) (l : List Leg) : opticalDepth (a :: l) = a.length * a.xs + opticalDepth l := by
  simp [opticalDepth]

theorem opticalDepth_append (l l' : List Leg) : opticalDepth (l ++ l') = opticalDepth l + opticalDepth l' := by
  simp [opticalDepth]

/-- A whole flight. -/
theorem Flies.depth {p : Particle ℝ} {legs : List Leg} {r : Particle ℝ} (h : Flies data dom p legs r)
    (hc : CanFly data dom p) (hτ : 0 < p.numMeanFreePaths) :
    0 ≤ opticalDepth legs ∧ r.numMeanFreePaths = p.numMeanFreePaths - opticalDepth legs ∧ 0 < r.numMeanFreePaths ∧
      CanFly data dom r ∧
      ∀ (τ : ℝ) (s : BitVec 64), opticalDepth legs < τ →
        Flies data dom (p.withDepth τ s) legs (r.withDepth (τ - opticalDepth legs) s) := by
  induction h with
  | here p =>
    refine ⟨le_rfl, by rw [opticalDepth_nil]; ring, hτ, hc, fun τ s _ => ?_⟩
    rw [opticalDepth_nil, sub_zero]
    exact .here _
  | @leg p leg o q p' legs r h1 ho hg _ ih =>
    obtain ⟨l0, x0, e1, e2, e3, e4⟩ := h1.flies hc hτ ho
    obtain ⟨g1, g2, g3⟩ := hg.flies e3
    obtain ⟨i0, i1, i2, i3, i4⟩ := ih g2 (g1 ▸ e2)
    have hlx : 0 ≤ leg.length * leg.xs := mul_nonneg l0 x0.le
    rw [opticalDepth_cons]
    refine ⟨by linarith, by rw [i1, g1, e1]; ring, i2, i3, fun τ s hτ' => ?_⟩
    have hpos : leg.length * leg.xs < τ := by linarith
    have := i4 (τ - leg.length * leg.xs) s (by linarith)
    rw [← sub_sub]
    exact .leg ((e4 τ s (by linarith)).1 hpos) ho (g3 _ s) this

/-! ### A flight is determined by the particle -/

theorem NextLeg.unique {p : Particle ℝ} {a a' : Leg} {o o' : SegOutcome} {q q' : Particle ℝ}
    (h : NextLeg data dom p a o q) (h' : NextLeg data dom p a' o' q') : a = a' ∧ o = o' ∧ q = q' := by
  have h1 := h.segment
  rw [h'.segment] at h1
  cases h1
  have h2 := h.xs
  rw [h'.xs] at h2
  cases a; cases a'
  cases h2
  have := h.length.symm.trans h'.length
  dsimp only at this
  subst this
  exact ⟨rfl, rfl, rfl⟩

theorem GoesOn.unique {o : SegOutcome} {q p p' : Particle ℝ} (h : GoesOn data dom o q p) (h' : GoesOn data dom o q p') :
    p = p' := by
  rcases h with ⟨ho, st, hf, rfl⟩ | ⟨ho, hg⟩ <;> rcases h' with ⟨ho', st', hf', rfl⟩ | ⟨ho', hg'⟩
  · rw [hf] at hf'; cases hf'; rfl
  · rw [ho] at ho'; cases ho'
  · rw [ho] at ho'; cases ho'
  · rw [hg] at hg'; cases hg'; rfl

theorem Flies.unique {p : Particle ℝ} {legs : List Leg} {q q' : Particle ℝ} (h : Flies data dom p legs q)
    (h' : Flies data dom p legs q') : q = q' := by
  induction h with
  | here p => cases h'; rfl
  | leg h1 _ h3 _ ih =>
    cases h' with
    | leg g1 _ g3 g4 =>
      obtain ⟨_, rfl, rfl⟩ := h1.unique g1
      cases h3.unique g3
      exact ih g4
