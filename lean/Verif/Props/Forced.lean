import Verif.Props.Segments
import Verif.Lemmas.SomeCollision
/-!
# C22: forced collisions

A particle that comes to a segment with a negative optical path is made to collide at once.  No run on a valid input does
that (C23), but `outcome` is public.
-/
open Flt FltReal Rng
attribute [local irreducible] Rng.lcg Rng.sample Rng.spawn

/-- **C22** (forced).  From a negative optical path the segment is a collision after a distance of `10^-13`, whatever the
distances to the facets, to census and to collision, and no number is drawn for the length of a flight. -/
theorem C22_forced {data : Data ℝ} {dom : Domain ℝ} {p : Particle ℝ} (hp : p.numMeanFreePaths < 0)
    {tr : List (Ev ℝ)} {o : SegOutcome} {q : Particle ℝ} (h : (outcome data dom p).May tr (o, q)) :
    o = .collision ∧ q.lastEvent = .collision ∧ q.segmentPathLength = 1 / 10 ^ 13 ∧ q.numMeanFreePaths = 0 ∧
      q.seed = p.seed ∧ q.age = p.age + 1 / 10 ^ 13 / p.getSpeed ∧
      q.timeToCensus = Max.max (p.timeToCensus - 1 / 10 ^ 13 / p.getSpeed) 0 := by
  unfold outcome at h
  dsimp only at h
  have hforce : prepareForced p = (true, { p with numMeanFreePaths := Flt.small }) := by
    unfold prepareForced
    simp [hp]
  rw [hforce] at h
  dsimp only at h
  obtain ⟨t1, t2, xs, _, _, h2⟩ := h.bind_inv
  obtain ⟨_, h2⟩ := h2.ofExcept_inv
  simp only [outcomeWithXs, bind_ok, Prod.exists] at h2
  obtain ⟨nf, r, hnf, h2⟩ := h2
  have hr := nearestFacet_frame hnf
  have hx : prepareXs { p with numMeanFreePaths := (Flt.small : ℝ) } xs =
      { p with numMeanFreePaths := (Flt.small : ℝ), totalCrossSection := xs,
               meanFreePath := if xs ==. zero then Flt.huge else one /. xs } := by
    unfold prepareXs
    dsimp only
    rw [if_neg (by simp)]
  rw [hx] at hr
  have e1 : r.seed = p.seed := by rw [hr]
  have e2 : r.age = p.age := by rw [hr]
  have e3 : r.timeToCensus = p.timeToCensus := by rw [hr]
  clear hr hnf hx hforce
  simp only [applyOutcome, bind_ok, assertB_ok, if_true, DistanceHandler.forceCollision] at h2
  obtain ⟨_, _, h2⟩ := h2
  rw [if_neg (by simp)] at h2
  simp only [pure_ok, Prod.mk.injEq] at h2
  obtain ⟨rfl, rfl⟩ := h2
  simp only [Particle.moveAlongSegment]
  refine ⟨trivial, trivial, by simp, by simp, e1, ?_, ?_⟩
  · simp [e2]
  · simp [e3]

/-- A case: a particle of the small problem whose optical path is made negative. -/
example : ∃ (data : Data ℝ) (dom : Domain ℝ) (p : Particle ℝ) (tr : List (Ev ℝ)) (o : SegOutcome) (q : Particle ℝ),
    p.numMeanFreePaths < 0 ∧ (outcome data dom p).May tr (o, q) := by
  obtain ⟨dt, hdt, s, _, hs, _⟩ := small_run
  have hso : ∀ l : List String, l.reverse.Perm l := fun l => List.reverse_perm l
  obtain ⟨p, _, _, hp, _⟩ := some_collision (small_valid hdt) (so := List.reverse) hso (io := id) (fun l => .refl _)
    ⟨4, true⟩ (by norm_num) (by rw [small_cells]) hs 10
  obtain ⟨s', h1, h2, _⟩ := (small_valid hdt).start (so := List.reverse) hso (io := id) (fun l => .refl _) ⟨4, true⟩
    (by norm_num) 2 (by rw [small_cells])
  rw [hs] at h1
  cases h1
  have hr := hp.weaken (G' := fun _ _ _ => True) fun _ _ _ _ => trivial
  have hi := reachable_index h2.tracking.mesh hr
  obtain ⟨xs, hxs⟩ := h2.tracking.xs hi.cell (C27_reachable h2.tracking.energy hr).2.2
  obtain ⟨tk, _, _⟩ := C23_reachable h2.tracking.time hr
  set p' : Particle ℝ := { p with numMeanFreePaths := -1 } with hp'
  set r : Particle ℝ := { p with numMeanFreePaths := (Flt.small : ℝ) } with hr'
  have hforce : prepareForced p' = (true, r) := by
    unfold prepareForced
    simp [hp', hr']
  obtain ⟨nf, q, hnf, n0, n1⟩ := nearestFacet_ok h2.tracking.mesh (p := prepareXs r xs)
    (by rw [(prepareXs_frame r xs).cell]; exact hi.cell)
  obtain ⟨o, t, ht⟩ := applyOutcome_ok (p := q) (speed := p'.getSpeed) (force := true) (nf := nf) (by simp)
    (by
      refine mul_nonneg (speed_nonneg _) ?_
      rw [nearestFacet_frame hnf]
      show 0 ≤ (prepareXs r xs).timeToCensus
      rw [(prepareXs_path xs (by simp [hr'])).2.1]
      exact tk.timeToCensus) n0 n1
  have hd : directOutcome s.data s.state.unit.dom p' = .ok (o, t) := by
    unfold directOutcome
    dsimp only
    rw [hforce]
    exact bind_ok.2 ⟨xs, hxs, bind_ok.2 ⟨_, hnf, ht⟩⟩
  obtain ⟨tr, hm, _⟩ := directOutcome_answer (by simp) hd
  exact ⟨_, _, p', tr, o, t, by simp [hp'], hm⟩
