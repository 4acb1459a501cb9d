import Verif.Lemmas.FloatTrack
/-!
# Energies, times and collisions in floating-point arithmetic
-/
set_option linter.unusedSectionVars false
open Flt Ieee
attribute [local irreducible] Rng.lcg Rng.sample Rng.spawn
variable {T : Type} [Flt T] [Ieee T] {data : Data T} {dom : Domain T}

/-- What is kept for every particle: the time to census is not negative, the energy is finite, in `[0, eMax]`, and
the energy group exists. -/
structure FloatOk (data : Data T) (dom : Domain T) (p : Particle T) : Prop where
  time : Nn p.timeToCensus
  energy : ∃ e hi : ℝ, IsFin p.kineticEnergy e ∧ IsFin data.eMax hi ∧ 0 ≤ e ∧ e ≤ hi
  group : p.energyGroup < dom.numGroups

theorem FloatTracking.skeleton {d : Domain T} (h : FloatTracking data dom) (hd : d.skeleton = dom.skeleton) :
    FloatTracking data d := by
  have hg := numGroups_skeleton hd
  have cell : ∀ cs ∈ d.cells, ∃ c' ∈ dom.cells, cs.material = c'.material ∧
      cs.cellNumberDensity = c'.cellNumberDensity := by
    intro cs hcs
    obtain ⟨i, hi⟩ := List.getElem?_of_mem hcs
    obtain ⟨c', hc', he⟩ := cells_skeleton hd hi
    exact ⟨c', List.mem_of_getElem? hc', by have := congrArg (fun c : CellState T => c.material) he; exact this,
      by have := congrArg (fun c : CellState T => c.cellNumberDensity) he; exact this⟩
  refine ⟨h.dt, h.energies, h.sourced, h.mass, ?_, ?_, ?_, h.mesh.skeleton hd, ?_, h.isotope, ?_, h.nuBar, ?_, ?_⟩
  · rw [hg]; exact h.groups
  · rw [hg]; exact h.levels
  · rw [hg]; exact h.last
  · intro cs hcs
    obtain ⟨c', hc', e1, _⟩ := cell cs hcs
    rw [e1]; exact h.material c' hc'
  · rw [hg]; exact h.sizes
  · intro c g v hv
    rw [directXs_of_skeleton hd] at hv
    exact h.xs c g v hv
  · intro cs hcs
    obtain ⟨c', hc', _, e2⟩ := cell cs hcs
    rw [e2]; exact h.reaction c' hc'

theorem FloatTracking.group (h : FloatTracking data dom) (e : T) :
    ∃ g, getEnergyGroups data.nuclear.energies e = .ok g ∧ ((data.eMax <. e) = false → g < dom.numGroups) :=
  energyGroups_total h.groups h.levels h.last e

theorem FloatTracking.group_lt (h : FloatTracking data dom) {e : T} {x hi : ℝ} (hx : IsFin e x)
    (hh : IsFin data.eMax hi) (hle : x ≤ hi) {g : Nat} (hg : getEnergyGroups data.nuclear.energies e = .ok g) :
    g < dom.numGroups := by
  obtain ⟨g', hg', hlt⟩ := h.group e
  rw [hg] at hg'
  cases hg'
  refine hlt ?_
  rw [← Bool.not_eq_true, lt_fin hh hx]
  exact not_lt.2 hle

/-! ### Energies -/

theorem inv_mass {m : T} (h : (one <=. m) = true) : ∃ y, IsFin (one /. m) y ∧ 0 ≤ y ∧ y ≤ 1 := by
  obtain ⟨x, y, hx, hy, hle⟩ := (le_iff _ _).1 h
  rw [fin_one] at hx
  cases hx
  rcases eq_or_ne y ⊤ with rfl | ht
  · refine ⟨0, ?_, le_rfl, zero_le_one⟩
    unfold IsFin
    rw [val_div _ _ (by rw [hy]; simp), fin_one, hy]
    unfold ieeeDiv
    dsimp only
    rw [if_neg (fun h => h.1.elim (EReal.coe_ne_top _) (EReal.coe_ne_bot _))]
    have : ((1 : ℝ) : EReal) / ⊤ = ((0 : ℝ) : EReal) := by rw [EReal.div_top]; rfl
    rw [this]
    exact congrArg some rep_zero
  · have hb : y ≠ ⊥ := by rintro rfl; exact EReal.coe_ne_bot _ (le_bot_iff.1 hle)
    lift y to ℝ using ⟨ht, hb⟩
    have h1 : (1 : ℝ) ≤ y := EReal.coe_le_coe_iff.1 hle
    have hpos : 0 < y := by linarith
    obtain ⟨z, hz, z0, z1⟩ := rnd_between (T := T) rep_zero rep_one (t := 1 / y) (by positivity)
      (by rw [div_le_one hpos]; exact h1)
    exact ⟨z, by unfold IsFin; rw [fin_div fin_one hy hpos.ne', hz], z0, z1⟩

theorem scatter_energy {e m u : T} {x w : ℝ} (he : IsFin e x) (h0 : 0 ≤ x) (hm : (one <=. m) = true)
    (hu : IsFin u w) (u0 : 0 ≤ w) (u1 : w ≤ 1) :
    ∃ z, IsFin (e *. (one -. u *. (one /. m))) z ∧ 0 ≤ z ∧ z ≤ x := by
  obtain ⟨y, hy, y0, y1⟩ := inv_mass hm
  obtain ⟨v, hv, v0, v1⟩ := scale hu hy u0 y0 y1
  obtain ⟨t, ht, t0, t1⟩ := one_sub hv v0 (v1.trans u1)
  exact scale he ht h0 t0 t1

theorem fission_energy {u : T} {w : ℝ} (hu : IsFin u w) (u0 : 0 ≤ w) (u1 : w ≤ 1) :
    ∃ z, IsFin (Flt.ofNat 20 *. ((u +. one) /. two) *. ((u +. one) /. two)) z ∧ 0 ≤ z ∧ z ≤ 20 := by
  have r2 : Rep T 2 := fin_two.rep
  obtain ⟨s, hs, s0, s1⟩ := rnd_between (T := T) rep_zero r2 (t := w + 1) (by linarith) (by linarith)
  have hs' : IsFin (u +. one) s := by unfold IsFin; rw [fin_add hu fin_one, hs]
  obtain ⟨q, hq, q0, q1⟩ := rnd_between (T := T) rep_zero rep_one (t := s / 2) (by linarith) (by linarith)
  have hq' : IsFin ((u +. one) /. two) q := by unfold IsFin; rw [fin_div hs' fin_two (by norm_num), hq]
  have h20 : IsFin (Flt.ofNat 20 : T) 20 := by simpa using fin_ofNat (T := T) (n := 20) (by norm_num)
  obtain ⟨a, ha, a0, a1⟩ := scale h20 hq' (by norm_num) q0 q1
  obtain ⟨b, hb, b0, b1⟩ := scale ha hq' a0 q0 q1
  exact ⟨b, hb, b0, b1.trans a1⟩

theorem source_energy (h : FloatTracking data dom) {u : T} {w : ℝ} (hu : IsFin u w) (u0 : 0 ≤ w) (u1 : w ≤ 1) :
    ∃ z hi, IsFin (u *. (data.eMax -. data.eMin) +. data.eMin) z ∧ IsFin data.eMax hi ∧ 0 ≤ z ∧ z ≤ hi := by
  obtain ⟨lo, hi, hlo, hhi, l0, lh, _⟩ := h.energies
  obtain ⟨d, hd, d0, _⟩ := rnd_between (T := T) rep_zero hhi.rep (t := hi - lo) (by linarith) (by linarith)
  have hd' : IsFin (data.eMax -. data.eMin) d := by unfold IsFin; rw [fin_sub hhi hlo, hd]
  obtain ⟨s, hs, s0, s1⟩ := scale' hd' hu d0 u0 u1
  obtain ⟨x, y, hx, hy, hle⟩ := (le_iff _ _).1 h.sourced
  rw [hhi] at hy
  cases hy
  rw [fin_add hd' hlo] at hx
  cases hx
  have hsum := fin_add hs hlo
  have hmono : rnd T ((s + lo : ℝ) : EReal) ≤ rnd T ((d + lo : ℝ) : EReal) :=
    rnd_mono (EReal.coe_le_coe_iff.2 (by linarith))
  have hub := hmono.trans hle
  have hlb : (0 : EReal) ≤ rnd T ((s + lo : ℝ) : EReal) := rnd_nonneg (by exact_mod_cast (by linarith : 0 ≤ s + lo))
  have hb : rnd T ((s + lo : ℝ) : EReal) ≠ ⊥ := fun hh => by rw [hh] at hlb; simp at hlb
  have ht : rnd T ((s + lo : ℝ) : EReal) ≠ ⊤ := fun hh => by rw [hh] at hub; simp at hub
  generalize rnd T ((s + lo : ℝ) : EReal) = z at hsum hub hlb hb ht
  lift z to ℝ using ⟨ht, hb⟩
  exact ⟨z, hi, hsum, hhi, by exact_mod_cast hlb, by exact_mod_cast hub⟩

theorem updateTrajectory_float (p : Particle T) (e a : T) :
    (p.updateTrajectory e a).kineticEnergy = e ∧ (p.updateTrajectory e a).energyGroup = p.energyGroup ∧
    (p.updateTrajectory e a).timeToCensus = p.timeToCensus := by
  unfold Particle.updateTrajectory
  generalize Rng.sample (T := T) p.seed = r
  obtain ⟨u, s⟩ := r
  dsimp only
  unfold Particle.sampleNumMfp
  generalize Rng.sample (T := T) _ = r
  obtain ⟨u, s⟩ := r
  exact ⟨rfl, rfl, rfl⟩

theorem CollisionOut.float {mass : T} {p q : Particle T} (h : CollisionOut mass p q) (hm : (one <=. mass) = true)
    {x hi : ℝ} (hp : IsFin p.kineticEnergy x) (h0 : 0 ≤ x) (h1 : x ≤ hi) (h20 : 20 ≤ hi) :
    (∃ z, IsFin q.kineticEnergy z ∧ 0 ≤ z ∧ z ≤ hi) ∧ q.energyGroup = p.energyGroup ∧
    q.timeToCensus = p.timeToCensus := by
  cases h with
  | same => exact ⟨⟨x, hp, h0, h1⟩, rfl, rfl⟩
  | scatter s id s1 s2 =>
    obtain ⟨u, hu, u0, u1⟩ := fin_draw (T := T) s1
    obtain ⟨z, hz, z0, z1⟩ := scatter_energy hp h0 hm hu u0 u1
    obtain ⟨e1, e2, e3⟩ := updateTrajectory_float { p with seed := s, identifier := id }
      (Flt.mul p.kineticEnergy (Flt.sub Flt.one (Flt.mul (Rng.sample (T := T) s1).1 (Flt.div Flt.one mass))))
      (Flt.sub (Flt.mul (Rng.sample (T := T) s2).1 Flt.two) Flt.one)
    exact ⟨⟨z, by rw [e1]; exact hz, z0, z1.trans h1⟩, e2, e3⟩
  | fission s id s1 s2 =>
    obtain ⟨u, hu, u0, u1⟩ := fin_draw (T := T) s1
    obtain ⟨z, hz, z0, z1⟩ := fission_energy hu u0 u1
    obtain ⟨e1, e2, e3⟩ := updateTrajectory_float { p with seed := s, identifier := id }
      (Flt.mul (Flt.mul (Flt.ofNat 20) (Flt.div (Flt.add (Rng.sample (T := T) s1).1 Flt.one) Flt.two))
        (Flt.div (Flt.add (Rng.sample (T := T) s1).1 Flt.one) Flt.two))
      (Flt.sub (Flt.mul (Rng.sample (T := T) s2).1 Flt.two) Flt.one)
    exact ⟨⟨z, by rw [e1]; exact hz, z0, z1.trans h20⟩, e2, e3⟩

theorem prepared_float (h : FloatTracking data dom) {p q : Particle T} (hp : FloatOk data dom p)
    (hq : gutsPrepare data p = .ok q) : FloatOk data dom q := by
  obtain ⟨dt, hdt, dt0⟩ := h.dt
  simp only [gutsPrepare, bind_ok, pure_ok] at hq
  obtain ⟨g, hg, rfl⟩ := hq
  have hk : (if Flt.le p.timeToCensus Flt.zero = true then
      ({ p with timeToCensus := Flt.add p.timeToCensus data.dt } : Particle T) else p).kineticEnergy =
      p.kineticEnergy := by split <;> rfl
  have ht : Nn (if Flt.le p.timeToCensus Flt.zero = true then
      ({ p with timeToCensus := Flt.add p.timeToCensus data.dt } : Particle T) else p).timeToCensus := by
    split
    · exact hp.time.add (hdt.nn dt0)
    · exact hp.time
  obtain ⟨e, hi, he, hhi, e0, e1⟩ := hp.energy
  rw [hk] at hg
  exact ⟨ht, ⟨e, hi, by show IsFin (if _ then _ else _ : Particle T).kineticEnergy e; rw [hk]; exact he, hhi, e0, e1⟩,
    h.group_lt he hhi e1 hg⟩

/-- Every particle that can exist in a run has a finite energy in range and a time to census that is not
negative. -/
theorem floatOk_reachable {fuel : Nat} (h : FloatTracking data dom) {p : Particle T}
    (hr : ReachableBy (CacheAnswer data) data dom fuel p) : FloatOk data dom p := by
  obtain ⟨dt, hdt, dt0⟩ := h.dt
  obtain ⟨_, hi, _, hhi, _, _, h20⟩ := h.energies
  refine hr.cases (P := FloatOk data dom) ?_ ?_ ?_ ?_
  · intro d w i cell p _ _ hs
    obtain ⟨s, hs1⟩ := hs.energy
    obtain ⟨s', hs2⟩ := hs.timeToCensus
    obtain ⟨u, hu, u0, u1⟩ := fin_draw (T := T) s
    obtain ⟨u', hu', u0', _⟩ := fin_draw (T := T) s'
    refine ⟨?_, ?_, by rw [hs.energyGroup]; exact h.groups⟩
    · rw [hs2]; exact (hdt.nn dt0).mul (hu'.nn u0')
    · rw [hs1]; exact source_energy h hu u0 u1
  · intro p q hp hf
    exact ⟨by rw [hf.timeToCensus]; exact hp.time, by rw [hf.kineticEnergy]; exact hp.energy,
      by rw [hf.energyGroup]; exact hp.group⟩
  · intro p q hp hq
    exact prepared_float h hp hq
  · intro d p tr o q r hd hp ho hl he
    have hf := outcome_frame ho
    have hk := (outcome_keeps (h.skeleton hd) hp.time ho hl).1
    have hq : FloatOk data dom { q with numSegments := q.numSegments +. one } :=
      ⟨hk, by show ∃ e hi : ℝ, IsFin q.kineticEnergy e ∧ _; rw [hf.kineticEnergy]; exact hp.energy,
        by show q.energyGroup < _; rw [hf.energyGroup]; exact hp.group⟩
    obtain ⟨e, hi', he', hhi', e0, e1⟩ := hq.energy
    have : hi' = hi := hhi'.inj hhi
    subst this
    cases he with
    | census => exact hq
    | transit => exact ⟨hq.1, hq.2, hq.3⟩
    | escape => exact ⟨hq.1, hq.2, hq.3⟩
    | reflect => exact ⟨hq.1, hq.2, hq.3⟩
    | collide _ hm hc hg =>
      obtain ⟨⟨z, hz, z0, z1⟩, c1, c2⟩ := hc.float (h.mass _ (List.mem_of_getElem? hm)) he' e0 e1 h20
      exact ⟨by show Nn _; rw [c2]; exact hq.1, ⟨z, hi', hz, hhi, z0, z1⟩, h.group_lt hz hhi z1 hg⟩
    | born _ hm hc =>
      obtain ⟨⟨z, hz, z0, z1⟩, c1, c2⟩ := hc.float (h.mass _ (List.mem_of_getElem? hm)) he' e0 e1 h20
      exact ⟨by rw [c2]; exact hq.1, ⟨z, hi', hz, hhi, z0, z1⟩, by rw [c1]; exact hq.3⟩
