import Verif.Lemmas.FloatInv
import Verif.Lemmas.IeeeBounds
/-!
# The flight of one segment in floating-point arithmetic

The distance that is chosen is finite, not above the distance to census, and below the distance to the collision
unless a collision is chosen.  What is left of the optical path is then not negative, although the product that gave
the distance and the quotient that gives back the optical path are both rounded.
-/
set_option linter.unusedSectionVars false
open Flt Ieee
attribute [local irreducible] Rng.lcg Rng.sample Rng.spawn
variable {T : Type} [Flt T] [Ieee T] {data : Data T} {dom : Domain T}

theorem pos_iff {a : T} : (zero <. a) = true ↔ ∃ x, val a = some x ∧ 0 < x := by
  rw [lt_iff]
  constructor
  · rintro ⟨x, y, hx, hy, h⟩
    rw [fin_zero] at hx
    cases hx
    exact ⟨y, hy, by simpa using h⟩
  · rintro ⟨y, hy, h⟩
    exact ⟨_, y, fin_zero, hy, by simpa using h⟩

/-- What is left of an optical path `n` after a distance that is below `n` mean free paths. -/
theorem nn_remaining {n m path : T} {x : ℝ} (hn : Nn n) (hm : (zero <. m) = true) (hp : IsFin path x)
    (hlt : ∀ c, val (n *. m) = some c → (x : EReal) < c) : Nn (n -. path /. m) := by
  obtain ⟨M, hM, M0⟩ := pos_iff.1 hm
  intro z hz
  rw [val_sub, val_div _ _ (by rw [hM]; intro h; exact M0.ne' (Option.some.inj h)), hp, hM] at hz
  unfold ieeeDiv at hz
  dsimp only at hz
  rw [if_neg (fun h => h.1.elim (EReal.coe_ne_top _) (EReal.coe_ne_bot _))] at hz
  cases hN : val n with
  | none => rw [hN] at hz; simp [ieeeAdd] at hz
  | some N =>
    have N0 := hn N hN
    have key : (x : EReal) / M ≤ N := by
      by_contra hcon
      have hcon := not_le.1 hcon
      rcases eq_or_ne M ⊤ with rfl | hMt
      · rw [EReal.div_top] at hcon
        exact absurd N0 (not_le.2 hcon)
      · have hMb : M ≠ ⊥ := by rintro rfl; simp at M0
        lift M to ℝ using ⟨hMt, hMb⟩
        have M0' : 0 < M := by exact_mod_cast M0
        rw [← EReal.coe_div] at hcon
        have hNt : N ≠ ⊤ := by rintro rfl; simp at hcon
        have hNb : N ≠ ⊥ := by rintro rfl; simp at N0
        lift N to ℝ using ⟨hNt, hNb⟩
        have h1 : N < x / M := by exact_mod_cast hcon
        have h2 : N * M ≤ x := by rw [lt_div_iff₀ M0'] at h1; exact h1.le
        have h3 := hlt _ (fin_mul hN hM)
        have h4 : rnd T ((N * M : ℝ) : EReal) ≤ rnd T (x : EReal) := rnd_mono (EReal.coe_le_coe_iff.2 h2)
        rw [show rnd T (x : EReal) = x from hp.rep] at h4
        exact absurd h3 (not_lt.2 h4)
    have key' : rnd T ((x : EReal) / M) ≤ N := by
      rw [← rnd_val n N hN]
      exact rnd_mono key
    rw [hN] at hz
    change ieeeAdd _ (some N) (some (-rnd T ((x : EReal) / M))) = some z at hz
    unfold ieeeAdd at hz
    dsimp only at hz
    split at hz
    · cases hz
    · rename_i hinf
      cases hz
      refine rnd_nonneg ?_
      rw [← sub_eq_add_neg]
      refine (EReal.sub_nonneg ?_ (.inl fun h => by rw [h] at N0; simp at N0)).2 key'
      by_contra hcon
      push Not at hcon
      exact hinf (.inl ⟨hcon.1, by rw [hcon.2]; rfl⟩)

/-! ### The distance that is chosen -/

/-- One more distance. -/
theorem update_fin {h : DistanceHandler T} {x : ℝ} (hx : IsFin h.minDist x) (x0 : 0 ≤ x) {d : T} (hd : Nn d)
    (o : SegOutcome) : ∃ y : ℝ, IsFin (h.update o d).minDist y ∧ 0 ≤ y ∧ y ≤ x ∧
      (∀ c, val d = some c → (y : EReal) ≤ c) ∧
      ((h.update o d).outcome = h.outcome ∨ (h.update o d).outcome = o ∧ y < x) := by
  have key : ∀ (k : DistanceHandler T), k.minDist = h.minDist → k.outcome = h.outcome →
      ∃ y : ℝ, IsFin (if (d <. k.minDist) = true then { k with minDist := d, outcome := o } else k).minDist y ∧
        0 ≤ y ∧ y ≤ x ∧ (∀ c, val d = some c → (y : EReal) ≤ c) ∧
        ((if (d <. k.minDist) = true then { k with minDist := d, outcome := o } else k).outcome = h.outcome ∨
          (if (d <. k.minDist) = true then { k with minDist := d, outcome := o } else k).outcome = o ∧ y < x) := by
    intro k h1 h2
    rw [h1]
    split
    · rename_i hlt
      obtain ⟨c, x', hc, hx', hlt⟩ := (lt_iff _ _).1 hlt
      rw [hx] at hx'
      cases hx'
      have c0 := hd c hc
      have ct : c ≠ ⊤ := by rintro rfl; simp at hlt
      have cb : c ≠ ⊥ := by rintro rfl; simp at c0
      lift c to ℝ using ⟨ct, cb⟩
      have hlt : c < x := by exact_mod_cast hlt
      exact ⟨c, hc, by exact_mod_cast c0, hlt.le, fun c' h' => by rw [hc] at h'; cases h'; exact le_rfl,
        .inr ⟨rfl, hlt⟩⟩
    · rename_i hlt
      refine ⟨x, by rw [h1]; exact hx, x0, le_rfl, fun c hc => ?_, .inl h2⟩
      by_contra hcon
      exact hlt ((lt_iff _ _).2 ⟨c, x, hc, hx, not_le.1 hcon⟩)
  unfold DistanceHandler.update
  cases o <;> exact key _ rfl rfl

/-- The chosen distance is finite, not above the distance to census, and below the distance to the collision when a
collision is not chosen. -/
theorem chosen_distance {coll cens fac : T} (h1 : Nn coll) (h2 : Nn cens) (h3 : Nn fac) {h : DistanceHandler T}
    (hh : h = (((DistanceHandler.default (T := T)).update .collision coll).update .census cens).update
      .facetCrossing fac) :
    ∃ x : ℝ, IsFin h.minDist x ∧ 0 ≤ x ∧ (∀ c, val cens = some c → (x : EReal) ≤ c) ∧
      (h.outcome ≠ .collision → ∀ c, val coll = some c → (x : EReal) < c) := by
  subst hh
  obtain ⟨z, hz, z0⟩ := val_huge (T := T)
  obtain ⟨a, ha, a0, _, a2, a3⟩ := update_fin (h := DistanceHandler.default) hz z0.le h1 .collision
  obtain ⟨b, hb, b0, b1, b2, b3⟩ := update_fin ha a0 h2 .census
  obtain ⟨c, hc, c0, c1, c2, c3⟩ := update_fin hb b0 h3 .facetCrossing
  have o1 : ((DistanceHandler.default (T := T)).update .collision coll).outcome = .collision :=
    a3.elim id fun h => h.1
  refine ⟨c, hc, c0, fun d hd => (EReal.coe_le_coe_iff.2 c1).trans (b2 d hd), fun ho d hd => ?_⟩
  refine lt_of_lt_of_le (EReal.coe_lt_coe_iff.2 ?_) (a2 d hd)
  rcases c3 with c3 | ⟨_, c3⟩
  · rcases b3 with b3 | ⟨_, b3⟩
    · exact absurd (c3.trans (b3.trans o1)) ho
    · linarith
  · linarith

/-! ### What a segment leaves -/

/-- What a segment does to the optical path, the time to census and the age. -/
structure SegmentSigns (o : SegOutcome) (p q : Particle T) : Prop where
  path : (zero <=. q.segmentPathLength) = true
  depth : Nn q.numMeanFreePaths
  time : (zero <=. q.timeToCensus) = true
  shorter : (q.timeToCensus <=. p.timeToCensus) = true
  age : Nn q.age
  older : (q.age <. p.age) = false
  census : o = .census → (q.timeToCensus ==. zero) = true

theorem age_older {a t : T} (ht : Nn t) : (a +. t <. a) = false := by
  rw [← Bool.not_eq_true, lt_iff]
  rintro ⟨y, x, hy, hx, hlt⟩
  rw [val_add, hx] at hy
  cases h2 : val t with
  | none => rw [h2] at hy; simp [ieeeAdd] at hy
  | some z =>
    rw [h2] at hy
    unfold ieeeAdd at hy
    dsimp only at hy
    split at hy
    · cases hy
    · cases hy
      have := rnd_mono (T := T) (le_add_of_nonneg_right (ht z h2) : x ≤ x + z)
      rw [rnd_val a x hx] at this
      exact absurd hlt (not_lt.2 this)

theorem not_lt_self (a : T) : (a <. a) = false := by
  rw [← Bool.not_eq_true, lt_iff]
  rintro ⟨y, x, hy, hx, hlt⟩
  rw [hx] at hy
  cases hy
  exact lt_irrefl _ hlt

/-- The time left after a segment that took `t`. -/
theorem time_left {a t : T} {x : ℝ} (ha : IsFin a x) (x0 : 0 ≤ x) (ht : Nn t) :
    ∃ y : ℝ, IsFin (Flt.max (a -. t) zero) y ∧ 0 ≤ y ∧ y ≤ x := by
  have hmax : val (Flt.max (a -. t) zero) = match val (a -. t) with
      | some x => some (Max.max x 0)
      | none => some 0 := by
    rw [val_max, fin_zero]
    cases val (a -. t) <;> simp
  cases h : val (a -. t) with
  | none =>
    rw [h] at hmax
    exact ⟨0, by unfold IsFin; rw [hmax]; rfl, le_rfl, x0⟩
  | some w =>
    rw [h] at hmax
    dsimp only at hmax
    have hw : w ≤ x := by
      rw [val_sub, ha] at h
      cases h2 : val t with
      | none => rw [h2] at h; simp [ieeeAdd] at h
      | some z =>
        rw [h2] at h
        change ieeeAdd _ (some (x : EReal)) (some (-z)) = _ at h
        unfold ieeeAdd at h
        dsimp only at h
        rw [if_neg (fun h => h.elim (fun h => EReal.coe_ne_top _ h.1) (fun h => EReal.coe_ne_bot _ h.1))] at h
        cases h
        have hle : (x : EReal) + -z ≤ x := by
          have := add_le_add_right (show -z ≤ 0 by rw [← neg_zero]; exact EReal.neg_le_neg_iff.2 (ht z h2)) (x : EReal)
          rwa [add_zero] at this
        have := rnd_mono (T := T) hle
        rwa [show rnd T (x : EReal) = x from ha.rep] at this
    have l0 : (0 : EReal) ≤ Max.max w 0 := le_max_right _ _
    have l1 : Max.max w 0 ≤ (x : EReal) := max_le hw (by exact_mod_cast x0)
    generalize Max.max w 0 = y at hmax l0 l1
    have ct : y ≠ ⊤ := by rintro rfl; simp at l1
    have cb : y ≠ ⊥ := by rintro rfl; simp at l0
    lift y to ℝ using ⟨ct, cb⟩
    exact ⟨y, hmax, by exact_mod_cast l0, by exact_mod_cast l1⟩

/-- The time of a segment is not negative, and is a quotient by a speed that is not zero, when the segment is not
above the distance to census and not zero. -/
theorem segment_time {speed t path : T} {x τ : ℝ} (hs : Nn speed) (ht : IsFin t τ) (hp : IsFin path x)
    (h0 : 0 < x) (hle : ∀ c, val (speed *. t) = some c → (x : EReal) ≤ c) : Nn (path /. speed) := by
  have hne : val speed ≠ some 0 := by
    intro h
    have hv : IsFin speed 0 := h
    have := hle _ (fin_mul hv ht)
    rw [zero_mul, show rnd T ((0 : ℝ) : EReal) = ((0 : ℝ) : EReal) from rep_zero] at this
    have : x ≤ 0 := by exact_mod_cast this
    linarith
  intro z hz
  rw [val_div _ _ hne, hp] at hz
  cases h1 : val speed with
  | none => rw [h1] at hz; simp [ieeeDiv] at hz
  | some v =>
    rw [h1] at hz
    unfold ieeeDiv at hz
    dsimp only at hz
    rw [if_neg (fun h => h.1.elim (EReal.coe_ne_top _) (EReal.coe_ne_bot _))] at hz
    cases hz
    exact rnd_nonneg (EReal.div_nonneg (by exact_mod_cast h0.le) (hs v h1))

theorem moveAlongSegment_signs (p : Particle T) : p.moveAlongSegment.segmentPathLength = p.segmentPathLength ∧
    p.moveAlongSegment.numMeanFreePaths = p.numMeanFreePaths ∧ p.moveAlongSegment.timeToCensus = p.timeToCensus ∧
    p.moveAlongSegment.age = p.age := ⟨rfl, rfl, rfl, rfl⟩

theorem applyOutcome_signs {p : Particle T} {speed : T} {nf : NearestFacet T} {o : SegOutcome} {q : Particle T}
    (h : applyOutcome p speed false nf = .ok (o, q)) (hd : Nn p.numMeanFreePaths) (hm : (zero <. p.meanFreePath) = true)
    {τ : ℝ} (ht : IsFin p.timeToCensus τ) (t0 : 0 ≤ τ) (ha : Nn p.age) (hs : Nn speed) (hf : Nn nf.distanceToFacet) :
    SegmentSigns o p q := by
  obtain ⟨M, hM, M0⟩ := pos_iff.1 hm
  have hmn : Nn p.meanFreePath := fun y hy => by rw [hM] at hy; cases hy; exact M0.le
  simp only [applyOutcome, bind_ok, assertB_ok] at h
  obtain ⟨_, _, h⟩ := h
  simp only [Bool.false_eq_true, if_false] at h
  obtain ⟨x, hx, x0, x1, x2⟩ := chosen_distance (hd.mul hmn) (hs.mul (ht.nn t0)) hf rfl
  generalize (((DistanceHandler.default (T := T)).update .collision _).update .census _).update .facetCrossing _ = k
    at h hx x2
  have hzero : (k.minDist ==. zero) = true ↔ x = 0 := by
    rw [beq_iff]
    constructor
    · rintro ⟨y, h1, h2⟩
      rw [hx] at h1
      rw [fin_zero] at h2
      cases h1
      exact_mod_cast (Option.some.inj h2).symm
    · rintro rfl
      exact ⟨_, hx, fin_zero⟩
  have hpath : (zero <=. k.minDist) = true := (le_fin fin_zero hx).2 x0
  have hmin : IsFin (Flt.min zero p.timeToCensus) 0 := by
    have := fin_min (fin_zero (T := T)) ht
    rwa [min_eq_left t0] at this
  have hrem : k.outcome ≠ .collision → Nn (p.numMeanFreePaths -. k.minDist /. p.meanFreePath) := fun ho =>
    nn_remaining hd hm hx (x2 ho)
  have hfz : IsFin (zero : T) 0 := fin_zero
  have htt : (p.timeToCensus <=. p.timeToCensus) = true := (le_fin ht ht).2 le_rfl
  have htp : (zero <=. p.timeToCensus) = true := (le_fin fin_zero ht).2 t0
  have h0p : (Flt.min zero p.timeToCensus <=. p.timeToCensus) = true := (le_fin hmin ht).2 t0
  have beq0 : ∀ {a : T}, IsFin a 0 → (a ==. zero) = true := fun h => (beq_iff _ _).2 ⟨_, h, fin_zero⟩
  by_cases hz : (k.minDist ==. zero) = true
  · cases hko : k.outcome <;> rw [hko] at h <;> dsimp only at h <;> rw [if_pos hz] at h <;>
      (simp only [pure_ok, Prod.mk.injEq] at h; obtain ⟨rfl, rfl⟩ := h)
    · exact ⟨hpath, nn_zero, htp, htt, ha, not_lt_self _, by simp⟩
    · exact ⟨hpath, hrem (by rw [hko]; simp), htp, htt, ha, not_lt_self _, by simp⟩
    · exact ⟨hpath, hrem (by rw [hko]; simp), (le_fin fin_zero hmin).2 le_rfl, h0p, ha, not_lt_self _,
        fun _ => beq0 hmin⟩
  · have xpos : 0 < x := lt_of_le_of_ne x0 fun h => hz (hzero.2 h.symm)
    have hst := segment_time hs ht hx xpos x1
    have hage := ha.add hst
    have hold := age_older (a := p.age) hst
    cases hko : k.outcome <;> rw [hko] at h <;> dsimp only at h <;> rw [if_neg hz] at h <;>
      (simp only [pure_ok, Prod.mk.injEq] at h; obtain ⟨rfl, rfl⟩ := h)
    · obtain ⟨y, hy, y0, y1⟩ := time_left ht t0 hst
      exact ⟨hpath, nn_zero, (le_fin fin_zero hy).2 y0, (le_fin hy ht).2 y1, hage, hold, by simp⟩
    · obtain ⟨y, hy, y0, y1⟩ := time_left ht t0 hst
      exact ⟨hpath, hrem (by rw [hko]; simp), (le_fin fin_zero hy).2 y0, (le_fin hy ht).2 y1, hage, hold, by simp⟩
    · obtain ⟨y, hy, y0, y1⟩ := time_left hmin le_rfl hst
      have : y = 0 := le_antisymm y1 y0
      subst this
      exact ⟨hpath, hrem (by rw [hko]; simp), (le_fin fin_zero hy).2 y0, (le_fin hy ht).2 t0, hage, hold,
        fun _ => beq0 hy⟩

theorem nearestFacet_nn {mesh : Mesh T} {p q : Particle T} {nf : NearestFacet T}
    (h : nearestFacet mesh p = .ok (nf, q)) : Nn nf.distanceToFacet := by
  simp only [nearestFacet, bind_ok, pure_ok, Prod.exists, Prod.mk.injEq] at h
  obtain ⟨_, _, _, _, _, rfl, _⟩ := h
  exact nn_max _

theorem prepareXs_flight (hR : Reciprocal T) {p : Particle T} {xs : T} (hx : Usable xs) :
    (zero <. (prepareXs p xs).meanFreePath) = true ∧ (prepareXs p xs).age = p.age := by
  have hmfp : (zero <. (if (xs ==. zero) = true then (Flt.huge : T) else one /. xs)) = true := by
    split
    · obtain ⟨x, hx, h0⟩ := val_huge (T := T)
      exact (lt_fin fin_zero hx).2 h0
    · rename_i hz
      obtain ⟨v, hv, h0⟩ := hx
      refine hR _ _ hv (lt_of_le_of_ne h0 fun h => hz ?_)
      subst h
      exact (beq_iff _ _).2 ⟨_, hv, fin_zero⟩
  unfold prepareXs
  dsimp only
  split
  · unfold Particle.sampleNumMfp
    dsimp only
    generalize Rng.sample (T := T) p.seed = r
    obtain ⟨u', s⟩ := r
    exact ⟨hmfp, rfl⟩
  · exact ⟨hmfp, rfl⟩

/-- What is kept for every particle: the optical path left and the age are not negative, the time to census is finite,
between zero and the time step. -/
structure FlightOk (data : Data T) (p : Particle T) : Prop where
  depth : Nn p.numMeanFreePaths
  time : ∃ t dt : ℝ, IsFin p.timeToCensus t ∧ IsFin data.dt dt ∧ 0 ≤ t ∧ t ≤ dt
  age : Nn p.age

theorem outcome_signs (h : FloatTracking data dom) (hR : Reciprocal T) {p : Particle T} (hp : FlightOk data p)
    {tr : List (Ev T)} {o : SegOutcome} {q : Particle T} (hm : (outcome data dom p).May tr (o, q))
    (hl : Ev.LoadsIn (CacheAnswer data dom) tr) : SegmentSigns o p q := by
  obtain ⟨t, dt, ht, hdt, t0, t1⟩ := hp.time
  have hforce : prepareForced p = (false, p) := by
    unfold prepareForced
    rw [nn_iff.2 hp.depth]
    rfl
  unfold outcome at hm
  rw [hforce] at hm
  dsimp only at hm
  obtain ⟨t1, t2, xs, rfl, hx, h2⟩ := hm.bind_inv
  have hxs := cachedXs_usable h hx hl.left
  obtain ⟨_, h2⟩ := h2.ofExcept_inv
  simp only [outcomeWithXs, bind_ok, Prod.exists] at h2
  obtain ⟨nf, r, hr, h2⟩ := h2
  have hfr := nearestFacet_frame hr
  obtain ⟨e1, e2, _, _⟩ := prepareXs_nn hp.depth hxs
  obtain ⟨e3, e4⟩ := prepareXs_flight hR (p := p) hxs
  have rd : Nn r.numMeanFreePaths := by rw [hfr]; exact e1
  have rm : (zero <. r.meanFreePath) = true := by rw [hfr]; exact e3
  have rt : r.timeToCensus = p.timeToCensus := by rw [hfr]; exact e2
  have ra : r.age = p.age := by rw [hfr]; exact e4
  have key := applyOutcome_signs h2 rd rm (τ := t) (by rw [rt]; exact ht) t0 (by rw [ra]; exact hp.age)
    (speed_nn _) (nearestFacet_nn hr)
  exact ⟨key.path, key.depth, key.time, by rw [← rt]; exact key.shorter, key.age, by rw [← ra]; exact key.older,
    key.census⟩

theorem SegmentSigns.flight {o : SegOutcome} {p q : Particle T} (h : SegmentSigns o p q) (hp : FlightOk data p) :
    FlightOk data q := by
  obtain ⟨t, dt, ht, hdt, t0, t1⟩ := hp.time
  refine ⟨h.depth, ?_, h.age⟩
  obtain ⟨a, b, ha, hb, hab⟩ := (le_iff _ _).1 h.time
  obtain ⟨b', c, hb', hc, hbc⟩ := (le_iff _ _).1 h.shorter
  rw [fin_zero] at ha
  rw [ht] at hc
  rw [hb] at hb'
  cases ha
  cases hb'
  cases hc
  have ct : b ≠ ⊤ := by rintro rfl; simp at hbc
  have cb : b ≠ ⊥ := by rintro rfl; simp at hab
  lift b to ℝ using ⟨ct, cb⟩
  exact ⟨b, dt, hb, hdt, by exact_mod_cast hab, le_trans (by exact_mod_cast hbc) t1⟩

theorem updateTrajectory_flight (p : Particle T) (e a : T) : Nn (p.updateTrajectory e a).numMeanFreePaths ∧
    (p.updateTrajectory e a).timeToCensus = p.timeToCensus ∧ (p.updateTrajectory e a).age = p.age := by
  unfold Particle.updateTrajectory
  generalize Rng.sample (T := T) p.seed = r
  obtain ⟨u, s⟩ := r
  dsimp only
  unfold Particle.sampleNumMfp
  dsimp only
  generalize hq : Rng.sample (T := T) _ = r
  obtain ⟨v, s'⟩ := r
  refine ⟨?_, rfl, rfl⟩
  obtain ⟨w, hw, w0, w1⟩ := fin_draw (T := T) (Particle.seed _)
  rw [hq] at hw
  exact nn_neg_ln hw w0 w1

theorem CollisionOut.flight {mass : T} {p q : Particle T} (h : CollisionOut mass p q) (hp : FlightOk data p) :
    FlightOk data q := by
  have key : ∀ (s : BitVec 64) (id : BitVec 64) (e a : T), FlightOk data
      (({ p with seed := s, identifier := id } : Particle T).updateTrajectory e a) := by
    intro s id e a
    obtain ⟨h1, h2, h3⟩ := updateTrajectory_flight ({ p with seed := s, identifier := id } : Particle T) e a
    exact ⟨h1, by rw [h2]; exact hp.time, by rw [h3]; exact hp.age⟩
  cases h with
  | same => exact ⟨hp.1, hp.2, hp.3⟩
  | scatter => exact key _ _ _ _
  | fission => exact key _ _ _ _

/-- Every particle that can exist in a run. -/
theorem flightOk_reachable {fuel : Nat} (h : FloatTracking data dom) (hR : Reciprocal T) {p : Particle T}
    (hr : ReachableBy (CacheAnswer data) data dom fuel p) : FlightOk data p := by
  obtain ⟨dt, hdt, dt0⟩ := h.dt
  refine hr.cases (P := FlightOk data) ?_ ?_ ?_ ?_
  · intro d w i cell p _ _ hs
    obtain ⟨s, hs1⟩ := hs.mfp
    obtain ⟨s', hs2⟩ := hs.timeToCensus
    obtain ⟨u, hu, u0, u1⟩ := fin_draw (T := T) s
    obtain ⟨u', hu', u0', u1'⟩ := fin_draw (T := T) s'
    obtain ⟨t, ht, t0, t1⟩ := scale hdt hu' dt0 u0' u1'
    exact ⟨by rw [hs1]; exact nn_neg_ln hu u0 u1, ⟨t, dt, by rw [hs2]; exact ht, hdt, t0, t1⟩,
      by rw [hs.age]; exact nn_zero⟩
  · intro p q hp hf
    exact ⟨by rw [hf.numMeanFreePaths]; exact hp.depth, by rw [hf.timeToCensus]; exact hp.time,
      by rw [hf.age]; exact hp.age⟩
  · intro p q hp hq
    obtain ⟨t, dt', ht, hdt', t0, t1⟩ := hp.time
    simp only [gutsPrepare, bind_ok, pure_ok] at hq
    obtain ⟨g, hg, rfl⟩ := hq
    refine ⟨?_, ?_, nn_max _⟩
    · show Nn (if Flt.le p.timeToCensus Flt.zero = true then
        ({ p with timeToCensus := Flt.add p.timeToCensus data.dt } : Particle T) else p).numMeanFreePaths
      split <;> exact hp.depth
    · show ∃ t dt : ℝ, IsFin (if Flt.le p.timeToCensus Flt.zero = true then
        ({ p with timeToCensus := Flt.add p.timeToCensus data.dt } : Particle T) else p).timeToCensus t ∧ _
      split
      · rename_i hle
        have : t = 0 := le_antisymm ((le_fin ht fin_zero).1 hle) t0
        subst this
        refine ⟨dt, dt, ?_, hdt, dt0, le_rfl⟩
        have := fin_add ht hdt
        rw [zero_add, show rnd T (dt : EReal) = dt from hdt.rep] at this
        exact this
      · exact ⟨t, dt', ht, hdt', t0, t1⟩
  · intro d p tr o q r hd hp ho hl he
    have hk := (outcome_signs (h.skeleton hd) hR hp ho hl).flight hp
    have hq : FlightOk data { q with numSegments := q.numSegments +. one } := ⟨hk.1, hk.2, hk.3⟩
    cases he with
    | census => exact hq
    | transit => exact ⟨hq.1, hq.2, hq.3⟩
    | escape => exact ⟨hq.1, hq.2, hq.3⟩
    | reflect => exact ⟨hq.1, hq.2, hq.3⟩
    | collide _ hm hc hg =>
      have := hc.flight hq
      exact ⟨this.1, this.2, this.3⟩
    | born _ hm hc => exact hc.flight hq
