import Verif.Props.EndToEnd
import Verif.Lemmas.Sourced
/-!
# A collision that a run can meet

Used to show that the theorems on collisions are not empty: in every run on a valid input some particle that the run can
meet collides.  (The particle is drawn from the source with a state of the generator whose draw of the optical path is
one, so that it collides at once.)
-/
open Flt FltReal GridSpec MeshSpec Rng
attribute [local irreducible] Rng.lcg Rng.sample Rng.spawn

theorem applyOutcome_seed {p : Particle ℝ} {speed : ℝ} {force : Bool} {nf : NearestFacet ℝ}
    {o : SegOutcome} {p' : Particle ℝ} (h : applyOutcome p speed force nf = .ok (o, p')) : p'.seed = p.seed := by
  simp only [applyOutcome, bind_ok, assertB_ok] at h
  obtain ⟨_, _, h⟩ := h
  generalize (if force = true then _ else _ : DistanceHandler ℝ) = hd at h
  obtain ⟨hc, hf, hce, hm, ho⟩ := hd
  cases ho <;> (dsimp only at h; split at h) <;>
    (simp only [pure_ok, Prod.mk.injEq] at h; obtain ⟨_, rfl⟩ := h; rfl)

/-- Games that a particle loses move its generator on by any number of draws. -/
theorem reachable_seed {data : Data ℝ} {dom : Domain ℝ} {fuel : Nat} {G : Domain ℝ → Nat → ℝ → Prop} {p : Particle ℝ}
    (hp : ReachableBy G data dom fuel p) (t : BitVec 64) : ReachableBy G data dom fuel { p with seed := t } := by
  obtain ⟨k, ⟨_, hk⟩, _⟩ := C02_visits_all (T := ℝ) p.seed t
  have key : ∀ k, ReachableBy G data dom fuel { p with seed := (fun s => (Rng.sample (T := ℝ) s).2)^[k] p.seed } := by
    intro k
    induction k with
    | zero => exact hp
    | succ k ih =>
      have h := ReachableBy.overRr (f := (-1 : ℝ)) ih
      have e : ((fun s => (Rng.sample (T := ℝ) s).2)^[k + 1] p.seed) =
          (Rng.sample (T := ℝ) ((fun s => (Rng.sample (T := ℝ) s).2)^[k] p.seed)).2 := by
        rw [Function.iterate_succ_apply']
      rw [e]
      generalize (fun s => (Rng.sample (T := ℝ) s).2)^[k] p.seed = s at h ⊢
      have h0 := (C01_sample_range s).1
      unfold Particle.overPopulatedRr at h
      dsimp only at h
      generalize Rng.sample (T := ℝ) s = r at h h0 ⊢
      obtain ⟨u, s'⟩ := r
      dsimp only at h h0 ⊢
      rw [if_pos (by simp; linarith)] at h
      exact h
  rw [← hk]
  exact key k

theorem top_draw : ∃ t : BitVec 64, draw t = 1 ∧ draw (lcg t) < 1 := by
  obtain ⟨t, ht⟩ := lcg_surjective (BitVec.allOnes 64)
  have hs : ∀ s : BitVec 64, (Rng.sample (T := ℝ) s).2 = lcg s := fun s => by unfold Rng.sample; rfl
  refine ⟨t, (C01_sample_range t).2.2.1.2 ?_, lt_of_le_of_ne (draw_le_one _) fun h => ?_⟩
  · rw [hs, ht]
    decide
  · have := (C01_sample_range (lcg t)).2.2.1.1 h
    rw [hs, ht] at this
    revert this
    unfold lcg
    decide

theorem some_collision {p : Params ℝ} (h : ValidInput p) {so : StrOrder} (hso : ∀ l, (so l).Perm l) {io : IterOrder}
    (hio : ∀ l, (io l).Perm l) (m : Machine) (ht : 1 ≤ m.defaultThreads) {fuel : Nat}
    (hfuel : cells p.grid + 1 ≤ fuel) {s : Started ℝ} (hs : startRun so io m fuel p = .ok (some s)) (fuel' : Nat) :
    ∃ q r tr, ReachableBy (CacheAnswer s.data) s.data s.state.unit.dom fuel' q ∧
      (outcome s.data s.state.unit.dom q).May tr (.collision, r) ∧
      Ev.LoadsIn (CacheAnswer s.data s.state.unit.dom) tr ∧ draw r.seed < 1 := by
  obtain ⟨s', h1, h2, h3, _⟩ := h.start hso hio m ht fuel hfuel
  rw [hs] at h1
  cases h1
  have hsafe := h2.tracking
  obtain ⟨t, ht1, ht2⟩ := top_draw
  obtain ⟨cell, hcell, _⟩ := h2.emits
  obtain ⟨i, hi⟩ := List.getElem?_of_mem hcell
  have hil : i < s.state.unit.dom.cells.length := (List.getElem?_eq_some_iff.1 hi).1
  -- a first state that leads to `t` where the optical path is drawn
  obtain ⟨t1, e1⟩ := lcg_surjective t
  obtain ⟨t2, e2⟩ := lcg_surjective t1
  obtain ⟨t3, e3⟩ := lcg_surjective t2
  obtain ⟨t4, e4⟩ := lcg_surjective t3
  obtain ⟨t5, e5⟩ := lcg_surjective t4
  obtain ⟨t6, e6⟩ := lcg_surjective t5
  obtain ⟨t7, e7⟩ := lcg_surjective t6
  obtain ⟨s0, e0⟩ := (C03_spawn_bijective (T := ℝ)).1.surjective t7
  obtain ⟨p0, hp0⟩ := sourceParticle_ok (data := s.data) hsafe.mesh hil 1 cell s0
  have r0 : ReachableBy (CacheAnswer s.data) s.data s.state.unit.dom fuel' p0 := .sourced rfl hi hp0
  obtain ⟨s4, d1, d2, _, _⟩ := sourceParticle_draws hp0
  have e0 : (Rng.spawn s0).1 = t7 := e0
  rw [e0] at d1
  have d3 := generateCoordinate3dg_seed d1
  have hsm : ∀ s : BitVec 64, (Rng.sample (T := ℝ) s).2 = lcg s := fun s => by unfold Rng.sample; rfl
  rw [e7, e6, e5, e4] at d3
  rw [d3, hsm, hsm, hsm, e3, e2, e1] at d2
  have hz0 : p0.numMeanFreePaths = 0 := by
    rw [d2, show (Rng.sample (T := ℝ) t).1 = 1 from ht1]; simp
  obtain ⟨q0, hq0⟩ := hsafe.prepare p0
  have rq := reachable_seed (.prepared r0 hq0) t
  set q : Particle ℝ := { q0 with seed := t } with hq
  have hzq : q.numMeanFreePaths = 0 := (gutsPrepare_fields hq0).2.1.trans hz0
  have hr' := rq.weaken (G' := fun _ _ _ => True) fun _ _ _ _ => trivial
  obtain ⟨tk, _, _⟩ := C23_reachable hsafe.time hr'
  have hidx := reachable_index hsafe.mesh hr'
  have hgp := (C27_reachable hsafe.energy hr').2.2
  obtain ⟨xs, hxs⟩ := hsafe.xs hidx.cell hgp
  have hxs0 := hsafe.time.tables.directXs hxs
  obtain ⟨o, r, hor⟩ := outcomeWithXs_ok hsafe.mesh (p := q) hidx.cell hxs0 (speed_nonneg q.kineticEnergy) tk.timeToCensus
    tk.opticalPath
  have hforce : prepareForced q = (false, q) := by
    unfold prepareForced
    simp [hzq]
  have hd : directOutcome s.data s.state.unit.dom q = .ok (o, r) := by
    unfold directOutcome
    dsimp only
    rw [hforce]
    exact bind_ok.2 ⟨xs, hxs, hor⟩
  obtain ⟨xs', nf, r1, _, _, hnf, n0, _, hr1, _, hct, _, hend⟩ := direct_segment hsafe.time.tables tk hd
  have hpath : pathOf q = 0 := by
    unfold pathOf
    rw [if_pos hzq, show (Rng.sample (T := ℝ) q.seed).1 = 1 from ht1]
    simp
  have hdz : 0 ≤ q.getSpeed * q.timeToCensus := mul_nonneg (speed_nonneg _) tk.timeToCensus
  rw [hpath, zero_mul] at hend
  have ho : o = .collision := (hend.outcome (by rw [min_eq_left (le_min hdz n0)]; positivity)).1.2 ⟨hdz, n0⟩
  subst ho
  have hseed : r.seed = lcg t := by
    simp only [outcomeWithXs, bind_ok, Prod.exists] at hor
    obtain ⟨nf', r2, hnf', hap⟩ := hor
    rw [applyOutcome_seed hap, nearestFacet_frame hnf']
    show (prepareXs q xs).seed = _
    unfold prepareXs
    dsimp only
    rw [if_pos (by simp [hzq])]
    unfold Particle.sampleNumMfp
    dsimp only
    rw [hsm]
  obtain ⟨tr, hm, hl⟩ := directOutcome_answer (by simp) hd
  exact ⟨q, r, tr, rq, hm, hl, by rw [hseed]; exact ht2⟩
