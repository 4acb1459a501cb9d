import Verif.Lemmas.WideReal
import Verif.Lemmas.Flight
import Verif.Props.NoPanic
import Verif.Props.Start
import Mathlib.Analysis.SpecialFunctions.Integrals.Basic
/-!
# C74 — flights between collisions

A particle collides when the optical depth of its flight, added over cells, reflections and cycles, reaches the number
of mean free paths it has drawn.  With the program's draw the flights without collision follow the law of Beer and
Lambert, and the length travelled in a leg, which the flux tally adds up, has the mean this law gives.
-/
open Rng FltReal MeasureTheory
attribute [local irreducible] Rng.lcg Rng.sample Rng.spawn
set_option linter.unusedSectionVars false

variable {data : Data ℝ} {dom : Domain ℝ}

/-- **C74, bookkeeping.** Along a flight without collision the number of mean free paths left is the number at the
start less the optical depth flown; it stays positive. -/
theorem C74_optical_depth {p q : Particle ℝ} {legs : List Leg} (hc : CanFly data dom p) (hτ : 0 < p.numMeanFreePaths)
    (h : Flies data dom p legs q) :
    q.numMeanFreePaths = p.numMeanFreePaths - opticalDepth legs ∧ opticalDepth legs < p.numMeanFreePaths ∧
      0 ≤ opticalDepth legs := by
  obtain ⟨h0, h1, h2, _⟩ := h.depth hc hτ
  exact ⟨h1, by rw [h1] at h2; linarith, h0⟩

/-- **C74, place of the collision.** The particle collides exactly when the optical depth reaches the number of mean
free paths at the start of the flight (the program cannot tell distances beyond `10^76` cm). -/
theorem C74_collision {p q r : Particle ℝ} {legs : List Leg} {leg : Leg} (hc : CanFly data dom p)
    (hτ : 0 < p.numMeanFreePaths) (h : Flies data dom p legs q) (hl : NextLeg data dom q leg .collision r)
    (hfar : leg.length < 10 ^ 76) : opticalDepth (legs ++ [leg]) = p.numMeanFreePaths := by
  obtain ⟨_, h1, h2, h3, _⟩ := h.depth hc hτ
  have := hl.collides (h3.xs _ _ _ hl.xs) h2 hfar
  rw [opticalDepth_append, opticalDepth_cons, opticalDepth_nil, this, h1]
  ring

/-- The particle flies along `legs` and then all of `leg` without colliding. -/
def Survives (data : Data ℝ) (dom : Domain ℝ) (p : Particle ℝ) (legs : List Leg) (leg : Leg) : Prop :=
  ∃ q o r, Flies data dom p legs q ∧ NextLeg data dom q leg o r ∧ o ≠ .collision

/-- The particle flies along `legs` and then collides at the distance `d` in a medium of cross-section `leg.xs`. -/
def CollidesIn (data : Data ℝ) (dom : Domain ℝ) (p : Particle ℝ) (legs : List Leg) (leg : Leg) (d : ℝ) : Prop :=
  ∃ q r, Flies data dom p legs q ∧ NextLeg data dom q ⟨d, leg.xs⟩ .collision r

theorem CanFly.withDepth {p : Particle ℝ} (h : CanFly data dom p) (τ : ℝ) (s : BitVec 64) :
    CanFly data dom (p.withDepth τ s) := ⟨h.energy, h.time, h.step, h.xs⟩

theorem CanFly.ofDepth {p : Particle ℝ} {τ : ℝ} {s : BitVec 64} (h : CanFly data dom (p.withDepth τ s)) :
    CanFly data dom p := ⟨h.energy, h.time, h.step, h.xs⟩

/-- What a flight that can be made without collision decides. -/
theorem Survives.parts {p : Particle ℝ} {legs : List Leg} {leg : Leg} (h : Survives data dom p legs leg)
    (hc : CanFly data dom p) (hτ : 0 < p.numMeanFreePaths) :
    0 ≤ opticalDepth legs ∧ 0 ≤ leg.length ∧ 0 < leg.xs ∧
      opticalDepth (legs ++ [leg]) = opticalDepth legs + leg.length * leg.xs ∧
      opticalDepth (legs ++ [leg]) < p.numMeanFreePaths := by
  obtain ⟨q, o, r, h1, h2, ho⟩ := h
  obtain ⟨d0, d1, d2, d3, _⟩ := h1.depth hc hτ
  obtain ⟨l0, x0, e1, e2, _⟩ := h2.flies d3 d2 ho
  have e : opticalDepth (legs ++ [leg]) = opticalDepth legs + leg.length * leg.xs := by
    rw [opticalDepth_append, opticalDepth_cons, opticalDepth_nil, add_zero]
  exact ⟨d0, l0, x0, e, by rw [e]; rw [e1, d1] at e2; linarith⟩

/-- **C74, what the number of mean free paths decides.** Take a flight that some number of mean free paths makes without
collision.  With any other number `τ > 0`, the particle makes the same flight without collision if `τ` exceeds its
optical depth; it collides in the last leg, where the optical depth reaches `τ`, if `τ` lies between the optical depths
at the two ends of this leg; otherwise it does not reach the last leg. -/
theorem C74_any_depth {p : Particle ℝ} {legs : List Leg} {leg : Leg} {τ₀ : ℝ} {s₀ : BitVec 64} (hτ₀ : 0 < τ₀)
    (hc : CanFly data dom p) (h : Survives data dom (p.withDepth τ₀ s₀) legs leg) {τ : ℝ} (hτ : 0 < τ) (s : BitVec 64) :
    (Survives data dom (p.withDepth τ s) legs leg ↔ opticalDepth (legs ++ [leg]) < τ) ∧
    (∀ d, CollidesIn data dom (p.withDepth τ s) legs leg d ∧ d < 10 ^ 76 ↔
      opticalDepth legs < τ ∧ τ ≤ opticalDepth (legs ++ [leg]) ∧ d = (τ - opticalDepth legs) / leg.xs) ∧
    (τ ≤ opticalDepth legs → ¬ ∃ q, Flies data dom (p.withDepth τ s) legs q) := by
  obtain ⟨k0, k1, k2, k3, k4⟩ := h.parts (hc.withDepth _ _) hτ₀
  obtain ⟨q, o, r, h1, h2, ho⟩ := h
  obtain ⟨d0, d1, d2, d3, d4⟩ := h1.depth (hc.withDepth _ _) hτ₀
  obtain ⟨l0, x0, e1, e2, e3, e4⟩ := h2.flies d3 d2 ho
  have hfar : leg.length < 10 ^ 76 := by
    obtain ⟨nf, p1, _, _, _, a4, a5, _⟩ := h2.parts d2 x0
    rw [a4] at ho
    obtain ⟨b1, _, b3⟩ := handler_flies ho
    rw [a5, b1]
    exact b3
  have hno : ∀ q', Flies data dom (p.withDepth τ s) legs q' → opticalDepth legs < τ := by
    intro q' hq
    exact (C74_optical_depth (hc.withDepth τ s) hτ hq).2.1
  have hfly : opticalDepth legs < τ → Flies data dom (p.withDepth τ s) legs (q.withDepth (τ - opticalDepth legs) s) :=
    fun hlt => d4 τ s hlt
  refine ⟨⟨fun hs => (hs.parts (hc.withDepth _ _) hτ).2.2.2.2, fun hlt => ?_⟩, fun d => ⟨?_, ?_⟩, ?_⟩
  · have hlt' : opticalDepth legs < τ := by
      have := mul_nonneg k1 k2.le
      linarith
    exact ⟨_, o, _, hfly hlt', (e4 (τ - opticalDepth legs) s (by linarith)).1 (by linarith), ho⟩
  · rintro ⟨⟨q', r', g1, g2⟩, hd⟩
    have hlt := hno q' g1
    cases (hfly hlt).unique g1
    have hdep : d * leg.xs = τ - opticalDepth legs :=
      NextLeg.collides (leg := ⟨d, leg.xs⟩) (p := q.withDepth (τ - opticalDepth legs) s) k2
        (by show 0 < τ - opticalDepth legs; linarith) g2 hd
    refine ⟨hlt, ?_, by rw [← hdep]; field_simp⟩
    by_contra hgt
    rw [not_le, k3] at hgt
    have := (e4 (τ - opticalDepth legs) s (by linarith)).1 (by linarith)
    obtain ⟨_, hc', _⟩ := this.unique g2
    exact ho hc'
  · rintro ⟨hlt, hle, rfl⟩
    obtain ⟨r', hr⟩ := (e4 (τ - opticalDepth legs) s (by linarith)).2 (by linarith)
    refine ⟨⟨_, r', hfly hlt, hr⟩, lt_of_le_of_lt ?_ hfar⟩
    rw [div_le_iff₀ k2]
    linarith
  · rintro hle ⟨q', hq⟩
    linarith [hno q' hq]

/-! ### The law of Beer and Lambert -/

/-- **C74, law of the flights.** With the depth `-ln u` of a number `u` uniform in `(0, 1)`, the probability that the
particle makes a flight without collision is the exponential of minus the optical depth of the flight. -/
theorem C74_law {p : Particle ℝ} {legs : List Leg} {leg : Leg} {τ₀ : ℝ} {s₀ : BitVec 64} (hτ₀ : 0 < τ₀)
    (hc : CanFly data dom p) (h : Survives data dom (p.withDepth τ₀ s₀) legs leg) (s : BitVec 64) :
    volume {u : ℝ | 0 < u ∧ u < 1 ∧ Survives data dom (p.withDepth (-Real.log u) s) legs leg} =
      ENNReal.ofReal (Real.exp (-opticalDepth (legs ++ [leg]))) := by
  obtain ⟨k0, k1, k2, k3, _⟩ := h.parts (hc.withDepth _ _) hτ₀
  have hD : 0 ≤ opticalDepth (legs ++ [leg]) := by rw [k3]; positivity
  have hle : Real.exp (-opticalDepth (legs ++ [leg])) ≤ 1 := Real.exp_le_one_iff.2 (by linarith)
  have e : {u : ℝ | 0 < u ∧ u < 1 ∧ Survives data dom (p.withDepth (-Real.log u) s) legs leg} =
      Set.Ioo 0 (Real.exp (-opticalDepth (legs ++ [leg]))) := by
    ext u
    simp only [Set.mem_ofPred_eq, Set.mem_Ioo]
    constructor
    · rintro ⟨h0, h1, hs⟩
      have := (C74_any_depth hτ₀ hc h (by have := Real.log_neg h0 h1; linarith) s).1.1 hs
      exact ⟨h0, (Real.log_lt_iff_lt_exp h0).1 (by linarith)⟩
    · rintro ⟨h0, h1⟩
      have h1' : u < 1 := lt_of_lt_of_le h1 hle
      refine ⟨h0, h1', (C74_any_depth hτ₀ hc h (by have := Real.log_neg h0 h1'; linarith) s).1.2 ?_⟩
      have := (Real.log_lt_iff_lt_exp h0).2 h1
      linarith
  rw [e, Real.volume_Ioo, sub_zero]

/-- **C74, law of the flights with the program's generator.** Among the `2^64` states of the generator, those with which
the particle makes the flight without collision are the fraction `exp (-depth)`, up to `2^-52`.  The state whose draw is
0 counts as an infinite flight; with a draw of 1 the depth is 0 and the program draws again. -/
theorem C74_states {p : Particle ℝ} {legs : List Leg} {leg : Leg} {τ₀ : ℝ} {s₀ : BitVec 64} (hτ₀ : 0 < τ₀)
    (hc : CanFly data dom p) (h : Survives data dom (p.withDepth τ₀ s₀) legs leg) :
    |(({s : BitVec 64 | draw s = 0 ∨ (draw s ≠ 1 ∧
        Survives data dom (({ p with seed := s } : Particle ℝ).sampleNumMfp) legs leg)}.ncard : ℕ) : ℝ) -
      Real.exp (-opticalDepth (legs ++ [leg])) * 2 ^ 64| ≤ 2 ^ 12 := by
  obtain ⟨k0, k1, k2, k3, _⟩ := h.parts (hc.withDepth _ _) hτ₀
  have hD : 0 ≤ opticalDepth (legs ++ [leg]) := by rw [k3]; positivity
  have hle : Real.exp (-opticalDepth (legs ++ [leg])) ≤ 1 := Real.exp_le_one_iff.2 (by linarith)
  have e : {s : BitVec 64 | draw s = 0 ∨ (draw s ≠ 1 ∧
        Survives data dom (({ p with seed := s } : Particle ℝ).sampleNumMfp) legs leg)} =
      {s | draw s < Real.exp (-opticalDepth (legs ++ [leg]))} := by
    ext s
    simp only [Set.mem_ofPred_eq]
    by_cases h0 : draw s = 0
    · simp only [h0, true_or, true_iff]; exact Real.exp_pos _
    · simp only [h0, false_or]
      have hpos : 0 < draw s := lt_of_le_of_ne (draw_nonneg _) (Ne.symm h0)
      have hs : (({ p with seed := s } : Particle ℝ).sampleNumMfp) =
          p.withDepth (-Real.log (draw s)) (Rng.sample (T := ℝ) s).2 := by
        unfold Particle.sampleNumMfp Particle.withDepth
        simp only [sample_fst, mul_eq, neg_eq, ln_eq, one_eq]
        congr 1
        ring
      rw [hs]
      constructor
      · rintro ⟨h1, h2⟩
        have hlt : draw s < 1 := lt_of_le_of_ne (draw_le_one s) h1
        have := (C74_any_depth hτ₀ hc h (by have := Real.log_neg hpos hlt; linarith) _).1.1 h2
        exact (Real.log_lt_iff_lt_exp hpos).1 (by linarith)
      · intro hlt
        have h1 : draw s < 1 := lt_of_lt_of_le hlt hle
        refine ⟨h1.ne, (C74_any_depth hτ₀ hc h (by have := Real.log_neg hpos h1; linarith) _).1.2 ?_⟩
        have := (Real.log_lt_iff_lt_exp hpos).2 hlt
        linarith
  rw [e]
  exact count_draw_lt (Real.exp_pos _).le hle

/-! ### The track length -/

/-- The length that the particle travels in the leg `leg` that follows `legs`: all of it, or up to its collision, or
nothing if it collides before. -/
inductive Travels (data : Data ℝ) (dom : Domain ℝ) (p : Particle ℝ) (legs : List Leg) (leg : Leg) : ℝ → Prop where
  | whole : Survives data dom p legs leg → Travels data dom p legs leg leg.length
  | part {d : ℝ} : CollidesIn data dom p legs leg d → d < 10 ^ 76 → Travels data dom p legs leg d
  | none : (¬ ∃ q, Flies data dom p legs q) → Travels data dom p legs leg 0

/-- **C74, length travelled.** For each depth `τ` there is one length travelled in the leg. -/
theorem C74_travels {p : Particle ℝ} {legs : List Leg} {leg : Leg} {τ₀ : ℝ} {s₀ : BitVec 64} (hτ₀ : 0 < τ₀)
    (hc : CanFly data dom p) (h : Survives data dom (p.withDepth τ₀ s₀) legs leg) {τ : ℝ} (hτ : 0 < τ) (s : BitVec 64)
    (d : ℝ) :
    Travels data dom (p.withDepth τ s) legs leg d ↔
      d = if τ ≤ opticalDepth legs then 0 else min leg.length ((τ - opticalDepth legs) / leg.xs) := by
  obtain ⟨k0, k1, k2, k3, _⟩ := h.parts (hc.withDepth _ _) hτ₀
  obtain ⟨a1, a2, a3⟩ := C74_any_depth hτ₀ hc h hτ s
  have hlx := mul_nonneg k1 k2.le
  constructor
  · rintro (hs | ⟨hs, hd⟩ | hs)
    · have hlt := a1.1 hs
      rw [if_neg (by linarith), min_eq_left]
      rw [le_div_iff₀ k2]; linarith
    · obtain ⟨b1, b2, b3⟩ := (a2 d).1 ⟨hs, hd⟩
      rw [if_neg (by linarith), min_eq_right]
      · exact b3
      · rw [div_le_iff₀ k2]; linarith
    · rw [if_pos]
      by_contra hlt
      rw [not_le] at hlt
      by_cases hD : opticalDepth (legs ++ [leg]) < τ
      · obtain ⟨q, _, _, hq, _⟩ := a1.2 hD
        exact hs ⟨q, hq⟩
      · obtain ⟨⟨q, _, hq, _⟩, _⟩ := (a2 _).2 ⟨hlt, not_lt.1 hD, rfl⟩
        exact hs ⟨q, hq⟩
  · rintro rfl
    split
    · rename_i hle
      exact .none (a3 hle)
    · rename_i hlt
      rw [not_le] at hlt
      by_cases hD : opticalDepth (legs ++ [leg]) < τ
      · rw [min_eq_left (by rw [le_div_iff₀ k2]; linarith)]
        exact .whole (a1.2 hD)
      · have hD := not_lt.1 hD
        rw [min_eq_right (by rw [div_le_iff₀ k2]; linarith)]
        obtain ⟨b1, b2⟩ := (a2 _).2 ⟨hlt, hD, rfl⟩
        exact .part b1 b2

theorem integral_track {D m x : ℝ} (hD : 0 ≤ D) (hm : 0 ≤ m) (hx : 0 < x) {f : ℝ → ℝ}
    (hf : ∀ u, 0 < u → u < 1 → f u = if -Real.log u ≤ D then 0 else min m ((-Real.log u - D) / x)) :
    ∫ u in (0 : ℝ)..1, f u = (Real.exp (-D) - Real.exp (-(D + m * x))) / x := by
  have hmx := mul_nonneg hm hx.le
  set a := Real.exp (-(D + m * x)) with ha
  set b := Real.exp (-D) with hb
  have a0 : 0 < a := Real.exp_pos _
  have b0 : 0 < b := Real.exp_pos _
  have ab : a ≤ b := Real.exp_le_exp.2 (by linarith)
  have b1 : b ≤ 1 := Real.exp_le_one_iff.2 (by linarith)
  have hEa : Set.EqOn (fun _ => m) f (Set.uIoo 0 a) := by
    intro u hu
    rw [Set.uIoo_of_le a0.le] at hu
    have := (Real.log_lt_iff_lt_exp hu.1).2 hu.2
    dsimp only
    rw [hf u hu.1 (by linarith [hu.2]), if_neg (by linarith), min_eq_left]
    rw [le_div_iff₀ hx]; linarith
  have hEb : Set.EqOn (fun u => (-Real.log u - D) / x) f (Set.uIoo a b) := by
    intro u hu
    rw [Set.uIoo_of_le ab] at hu
    have u0 : 0 < u := a0.trans hu.1
    have h1 := (Real.log_lt_iff_lt_exp u0).2 hu.2
    have h2 := (Real.lt_log_iff_exp_lt u0).2 hu.1
    dsimp only
    rw [hf u u0 (by linarith [hu.2]), if_neg (by linarith), min_eq_right]
    rw [div_le_iff₀ hx]; linarith
  have hEc : Set.EqOn (fun _ => (0 : ℝ)) f (Set.uIoo b 1) := by
    intro u hu
    rw [Set.uIoo_of_le b1] at hu
    have u0 : 0 < u := b0.trans hu.1
    have h2 := (Real.lt_log_iff_exp_lt u0).2 hu.1
    dsimp only
    rw [hf u u0 hu.2, if_pos (by linarith)]
  have ilog : IntervalIntegrable (fun u => (-Real.log u - D) / x) volume a b :=
    ((intervalIntegral.intervalIntegrable_log').neg.sub intervalIntegrable_const).div_const _
  have i1 : IntervalIntegrable f volume 0 a := (intervalIntegrable_const (c := m)).congr_uIoo hEa
  have i2 : IntervalIntegrable f volume a b := ilog.congr_uIoo hEb
  have i3 : IntervalIntegrable f volume b 1 := (intervalIntegrable_const (c := (0 : ℝ))).congr_uIoo hEc
  rw [← intervalIntegral.integral_add_adjacent_intervals (i1.trans i2) i3,
    ← intervalIntegral.integral_add_adjacent_intervals i1 i2,
    ← intervalIntegral.integral_congr_uIoo hEa, ← intervalIntegral.integral_congr_uIoo hEb,
    ← intervalIntegral.integral_congr_uIoo hEc]
  rw [intervalIntegral.integral_const, intervalIntegral.integral_const, intervalIntegral.integral_div,
    intervalIntegral.integral_sub (f := fun u => -Real.log u) (intervalIntegral.intervalIntegrable_log').neg
      intervalIntegrable_const,
    intervalIntegral.integral_neg, integral_log, intervalIntegral.integral_const]
  have la : Real.log a = -(D + m * x) := Real.log_exp _
  have lb : Real.log b = -D := Real.log_exp _
  rw [la, lb]
  simp only [smul_eq_mul]
  field_simp
  ring

theorem integral_attenuation {D m x : ℝ} (hx : 0 < x) :
    ∫ y in (0 : ℝ)..m, Real.exp (-(D + x * y)) = (Real.exp (-D) - Real.exp (-(D + m * x))) / x := by
  have hd : ∀ y ∈ Set.uIcc 0 m, HasDerivAt (fun y => -Real.exp (-(D + x * y)) / x) (Real.exp (-(D + x * y))) y := by
    intro y _
    have h1 : HasDerivAt (fun y : ℝ => -(D + x * y)) (-(x * 1)) y :=
      (((hasDerivAt_id y).const_mul x).const_add D).neg
    have := (h1.exp.neg).div_const x
    have e : -(Real.exp (-(D + x * y)) * -(x * 1)) / x = Real.exp (-(D + x * y)) := by field_simp
    rw [e] at this
    exact this
  rw [intervalIntegral.integral_eq_sub_of_hasDerivAt hd]
  · rw [mul_comm m x]
    simp only [mul_zero, add_zero]
    ring
  · exact (Continuous.intervalIntegrable (by fun_prop) _ _)

/-- **C74, track length.** The mean of the length travelled in a leg is the integral, along the leg, of the probability
to get there without collision: the quantity that the flux tally adds up is an unbiased estimate of the attenuated
flux. -/
theorem C74_track_length {p : Particle ℝ} {legs : List Leg} {leg : Leg} {τ₀ : ℝ} {s₀ : BitVec 64} (hτ₀ : 0 < τ₀)
    (hc : CanFly data dom p) (h : Survives data dom (p.withDepth τ₀ s₀) legs leg) (s : BitVec 64) {travelled : ℝ → ℝ}
    (ht : ∀ u, 0 < u → u < 1 → Travels data dom (p.withDepth (-Real.log u) s) legs leg (travelled u)) :
    ∫ u in (0 : ℝ)..1, travelled u = ∫ y in (0 : ℝ)..leg.length, Real.exp (-(opticalDepth legs + leg.xs * y)) := by
  obtain ⟨k0, k1, k2, k3, _⟩ := h.parts (hc.withDepth _ _) hτ₀
  rw [integral_attenuation k2]
  refine integral_track k0 k1 k2 fun u h0 h1 => ?_
  exact (C74_travels hτ₀ hc h (by have := Real.log_neg h0 h1; linarith) s _).1 (ht u h0 h1)

/-! ### Valid inputs -/

/-- Every flight can be prolonged by a leg without collision, if the number of mean free paths is large enough. -/
theorem Flies.prolonged (hs : SafeTracking data dom) {p q : Particle ℝ} {legs : List Leg} (hc : CanFly data dom p)
    (hτ : 0 < p.numMeanFreePaths) (h : Flies data dom p legs q) (hcell : q.cell < dom.cells.length)
    (hgroup : q.energyGroup < dom.numGroups) (hfar : q.getSpeed * q.timeToCensus < 10 ^ 76) (s : BitVec 64) :
    ∃ τ₀ leg, 0 < τ₀ ∧ Survives data dom (p.withDepth τ₀ s) legs leg := by
  obtain ⟨d0, d1, d2, d3, d4⟩ := h.depth hc hτ
  obtain ⟨x, hx⟩ := hs.xs hcell hgroup
  have x0 := d3.xs _ _ _ hx
  obtain ⟨nf, r, hr, n0, _⟩ := nearestFacet_ok hs.mesh (p := withXs q x) hcell
  have hfr := nearestFacet_frame hr
  have hv := getSpeed_pos d3.energy
  have hz : 0 ≤ q.getSpeed * q.timeToCensus := mul_nonneg hv.le d3.time
  set dz := q.getSpeed * q.timeToCensus with hdz
  set m := min dz nf.distanceToFacet with hm
  have m0 : 0 ≤ m := le_min hz n0
  have m1 : m < 10 ^ 76 := lt_of_le_of_lt (min_le_left _ _) hfar
  have hτ' : 0 < m * x + 1 := by positivity
  have hr' : nearestFacet dom.mesh (withXs (q.withDepth (m * x + 1) s) x) = .ok (nf, r.withDepth (m * x + 1) s) := by
    have := nearestFacet_withDepth dom.mesh (withXs q x) (m * x + 1) s
    rw [hr] at this
    exact this
  have hout : directOutcome data dom (q.withDepth (m * x + 1) s) =
      applyOutcome (r.withDepth (m * x + 1) s) q.getSpeed false nf := by
    rw [directOutcome_eq (p := q.withDepth (m * x + 1) s) (x := x) hτ' hx x0, hr']
    rfl
  rw [applyOutcome_eq] at hout
  have g1 : (r.withDepth (m * x + 1) s).numMeanFreePaths = m * x + 1 := rfl
  have g2 : (r.withDepth (m * x + 1) s).meanFreePath = 1 / x := by
    show r.meanFreePath = _
    rw [hfr]; rfl
  have g3 : (r.withDepth (m * x + 1) s).timeToCensus = q.timeToCensus := by
    show r.timeToCensus = _
    rw [hfr]; rfl
  rw [g1, g2, g3, ← hdz] at hout
  have hlt : m < (m * x + 1) * (1 / x) := by
    rw [mul_one_div, lt_div_iff₀ x0]; linarith
  obtain ⟨k1, k2⟩ := handler_spec ((m * x + 1) * (1 / x)) dz nf.distanceToFacet
  have hmin : (handler ((m * x + 1) * (1 / x)) dz nf.distanceToFacet).minDist = m := by
    rw [k1, ← min_assoc, min_comm nf.distanceToFacet dz, min_eq_left]
    exact le_min hlt.le m1.le
  have hne : (handler ((m * x + 1) * (1 / x)) dz nf.distanceToFacet).outcome ≠ .collision := by
    rw [k2]
    split
    · exact fun h => nomatch h
    · rename_i hn
      rw [if_pos]
      · exact fun h => nomatch h
      · by_contra hge
        rw [not_lt] at hn hge
        have : min ((m * x + 1) * (1 / x)) ((10 : ℝ) ^ 76) ≤ m := by
          rw [min_eq_right hge] at hn
          exact le_min hge hn
        have : m < min ((m * x + 1) * (1 / x)) ((10 : ℝ) ^ 76) := lt_min hlt m1
        linarith
  rw [hmin, if_pos m0] at hout
  have hfl := d4 (opticalDepth legs + (m * x + 1)) s (by linarith)
  rw [add_sub_cancel_left] at hfl
  exact ⟨opticalDepth legs + (m * x + 1), ⟨m, x⟩, by linarith, q.withDepth (m * x + 1) s, _, _, hfl,
    ⟨hx, hout, segEnd_length _ _ _ _ _⟩, hne⟩

/-- A material with matter in it: isotopes, the three kinds of reactions and a positive cross-section. -/
structure Filled (mp : MaterialParams ℝ) : Prop where
  isotopes : 0 < mp.nIsotopes
  reactions : 3 ≤ mp.nReactions
  total : 0 < mp.totalCrossSection

theorem raw_pos (q : Polynomial5 ℝ) (l : List ℝ) (n : ℝ) (hn : 0 ≤ n)
    (hl : 0 < n ∨ ∃ e ∈ l.tail, 1 ≤ e) :
    (∀ x ∈ (realRaw q l n).1, 0 < x) ∧ 0 < (realRaw q l n).2 := by
  induction l generalizing n with
  | nil =>
    rcases hl with h | ⟨e, he, _⟩
    · simpa [realRaw] using h
    · simp at he
  | cons e0 l ih =>
    cases l with
    | nil =>
      rcases hl with h | ⟨e, he, _⟩
      · simpa [realRaw] using h
      · simp at he
    | cons e1 rest =>
      unfold realRaw
      dsimp only
      have hp : 0 < ((10 : ℝ) ^ (q.val (Flt.log10 (Flt.div (Flt.add e0 e1) Flt.two))) : ℝ) := by
        positivity
      generalize ((10 : ℝ) ^ (q.val (Flt.log10 (Flt.div (Flt.add e0 e1) Flt.two))) : ℝ) = v at hp
      have hm : 0 ≤ (if (Flt.le (Flt.one : ℝ) e1 && Flt.beq n Flt.zero) = true then v else n) := by
        split
        · exact hp.le
        · exact hn
      have hnext : 0 < (if (Flt.le (Flt.one : ℝ) e1 && Flt.beq n Flt.zero) = true then v else n) ∨
          ∃ e ∈ (e1 :: rest).tail, 1 ≤ e := by
        by_cases h0 : 0 < n
        · left; split <;> assumption
        · have hn0 : n = 0 := le_antisymm (not_lt.1 h0) hn
          rcases hl with h | ⟨e, he, h1⟩
          · exact absurd h h0
          · rcases List.mem_cons.1 he with rfl | he
            · left
              rw [if_pos]
              · exact hp
              · simp [hn0, h1]
            · exact .inr ⟨e, he, h1⟩
      obtain ⟨h1, h2⟩ := ih _ hm hnext
      refine ⟨?_, h2⟩
      intro x hx
      rcases List.mem_cons.1 hx with rfl | hx
      · exact hp
      · exact h1 x hx

theorem isotopeReactions_pos {energies : List ℝ} {sp : IsotopeSpec ℝ} {nu : ℝ} (he : ∃ e ∈ energies.tail, 1 ≤ e)
    (ht : 0 < sp.totalCrossSection) (hf : 0 ≤ sp.fissionRatio) (hs : 0 ≤ sp.scatteringRatio)
    (ha : 0 ≤ sp.absorptionRatio) (hsum : 0 < sp.scatteringRatio + sp.absorptionRatio + sp.fissionRatio)
    (hn : 3 ≤ sp.nReactions) :
    ∃ r ∈ isotopeReactions energies sp nu, ∀ x ∈ r.crossSection, 0 < x := by
  have key : ∀ (ty : ReactionType) (q : Polynomial5 ℝ) (x : ℝ), 0 < x →
      ∀ y ∈ (Reaction.new ty nu energies q x).crossSection, 0 < y := by
    intro ty q x hx y hy
    obtain ⟨h1, h2⟩ := raw_pos q energies 0 le_rfl (.inr he)
    rw [Reaction.new_real] at hy
    dsimp only at hy
    obtain ⟨z, hz, rfl⟩ := List.mem_map.1 hy
    rw [mul_eq, div_eq]
    rw [zero_eq] at hz ⊢
    exact mul_pos (h1 z hz) (div_pos hx h2)
  have hcount : 0 < (reactionCounts sp.nReactions).1 ∧ 0 < (reactionCounts sp.nReactions).2.1 ∧
      0 < (reactionCounts sp.nReactions).2.2 := by
    have : 0 < sp.nReactions / 3 := Nat.div_pos hn (by norm_num)
    unfold reactionCounts
    split <;> refine ⟨?_, ?_, ?_⟩ <;> dsimp only <;> omega
  obtain ⟨c1, c2, c3⟩ := hcount
  have c1 : (0 : ℝ) < (reactionCounts sp.nReactions).1 := by exact_mod_cast c1
  have c2 : (0 : ℝ) < (reactionCounts sp.nReactions).2.1 := by exact_mod_cast c2
  have c3 : (0 : ℝ) < (reactionCounts sp.nReactions).2.2 := by exact_mod_cast c3
  have hw : 0 < sp.fissionRatio + sp.scatteringRatio + sp.absorptionRatio := by linarith
  unfold isotopeReactions
  dsimp only
  by_cases hs' : 0 < sp.scatteringRatio
  · refine ⟨_, List.mem_map.2 ⟨0, List.mem_range.2 (by omega), rfl⟩, ?_⟩
    refine key _ _ _ ?_
    simp only [div_eq, mul_eq, add_eq, ofNat_eq]
    positivity
  · by_cases hf' : 0 < sp.fissionRatio
    · refine ⟨_, List.mem_map.2 ⟨1, List.mem_range.2 (by omega), rfl⟩, ?_⟩
      refine key _ _ _ ?_
      simp only [div_eq, mul_eq, add_eq, ofNat_eq]
      positivity
    · have ha' : 0 < sp.absorptionRatio := by linarith
      refine ⟨_, List.mem_map.2 ⟨2, List.mem_range.2 (by omega), rfl⟩, ?_⟩
      refine key _ _ _ ?_
      simp only [div_eq, mul_eq, add_eq, ofNat_eq]
      positivity

theorem directXs_pos (h : NonnegTables data dom) (hiso : ∀ m ∈ data.materials, m.iso ≠ [])
    (hpos : ∀ m ∈ data.materials, ∀ iso ∈ m.iso, ∀ rs, data.nuclear.isotopes[iso.gid]? = some rs →
      ∃ r ∈ rs, ∀ x ∈ r.crossSection, 0 < x) {cell g : ℕ}
    {x : ℝ} (hx : directXs data dom cell g = .ok x) : 0 < x := by
  simp only [directXs, weightedMacroXs, bind_ok, pure_ok, idx_ok] at hx
  obtain ⟨cs, hcs, mat, hmat, l, hl, rfl⟩ := hx
  rw [flt_sum_real]
  have hm := List.mem_of_getElem? hmat
  apply List.sum_pos
  · intro y hy
    obtain ⟨i, _, hi⟩ := mapM_ok_mem hl hy
    simp only [macroscopicTotalXs, bind_ok, idx_ok] at hi
    obtain ⟨iso, hiso, hi⟩ := hi
    split at hi
    · simp only [pure_ok] at hi
      rw [← hi]; simp only [lit_eq]; positivity
    · rename_i hz
      simp only [NuclearData.getTotalCrossSection, groupCrossSections, bind_ok, idx_ok, pure_ok] at hi
      obtain ⟨micro, ⟨rs, hrs, lx, hlx, rfl⟩, rfl⟩ := hi
      simp only [beq_eq, zero_eq, Bool.or_eq_true, decide_eq_true_eq, not_or] at hz
      have hi' := List.mem_of_getElem? hiso
      have f0 := lt_of_le_of_ne (h.fraction _ hm _ hi') (Ne.symm hz.1)
      have d0 := lt_of_le_of_ne (h.density _ (List.mem_of_getElem? hcs)) (Ne.symm hz.2)
      simp only [mul_eq, flt_sum_real]
      refine mul_pos (mul_pos f0 d0) ?_
      obtain ⟨r, hr, hr0⟩ := hpos _ hm _ hi' rs hrs
      obtain ⟨j, hj⟩ := List.getElem?_of_mem hr
      obtain ⟨z, hz, hrz⟩ := mapM_ok_getElem hlx j r hj
      have hz0 := hr0 z (List.mem_of_getElem? (idx_ok.1 hrz))
      refine lt_of_lt_of_le hz0 (List.single_le_sum (fun y hy => ?_) _ (List.mem_of_getElem? hz))
      obtain ⟨r', hr', hrz'⟩ := mapM_ok_mem hlx hy
      exact h.tables _ (List.mem_of_getElem? hrs) _ hr' _ (List.mem_of_getElem? (idx_ok.1 hrz'))
  · intro hnil
    have := mapM_ok_length hl
    rw [hnil, List.length_range] at this
    exact hiso _ hm (List.length_eq_zero_iff.1 this.symm)

/-- In a run started on a valid input whose materials have matter in them, every cross-section is positive. -/
theorem started_xs_pos {p : Params ℝ} (h : ValidInput p) (hfull : ∀ k mp, p.materials.get? k = some mp → Filled mp)
    {so : StrOrder} (hso : ∀ l, (so l).Perm l) {io : IterOrder} {m : Machine} {fuel : Nat} {s : Started ℝ}
    (hs : startRun so io m fuel p = .ok (some s)) {d : Domain ℝ} (htab : NonnegTables s.data d) {cell group : Nat}
    {x : ℝ} (hx : directXs s.data d cell group = .ok x) : 0 < x := by
  obtain ⟨nd, mats, e1, _, e3, e4⟩ := initNuclearData_ok h.named h.consistent hso
  have hdata : s.data = p.data nd mats := by
    obtain ⟨_, _, _, hrun⟩ := startRun_some hs
    unfold initRun at hrun
    obtain ⟨info, hi, hrun⟩ := bind_ok.1 hrun
    obtain ⟨data, hd, hrun⟩ := bind_ok.1 hrun
    obtain ⟨c, hc, hrun⟩ := bind_ok.1 hrun
    obtain ⟨units, hun, hrun⟩ := bind_ok.1 hrun
    obtain ⟨u, hu, hrun⟩ := bind_ok.1 hrun
    cases pure_ok.1 hrun
    obtain ⟨nd', mats', hn, rfl⟩ := initData_ok hd
    rw [e1] at hn
    cases hn
    rfl
  have hmat : ∀ m ∈ mats, ∃ mp first, p.materials.get? mp.name = some mp ∧ MaterialFrom p nd first mp m := by
    intro m hm
    obtain ⟨mp, h1, first, h2⟩ := e4.mem hm
    obtain ⟨k, hk⟩ := (mem_valuesIn hso).1 h1
    have := h.named.materials.own _ _ hk
    subst this
    exact ⟨mp, first, hk, h2⟩
  obtain ⟨l1, l2, l3, _⟩ := C26_levels h.groups h.energies.1 h.energies.2.1
  have htail : ∃ e ∈ nd.energies.tail, 1 ≤ e := by
    refine ⟨p.simulation.eMax, ?_, by linarith [h.energies.2.2]⟩
    rw [e3]
    have hg := h.groups
    apply List.mem_of_getElem? (i := p.simulation.nGroups - 1)
    rw [List.getElem?_tail, Nat.sub_add_cancel hg]
    exact l3
  refine directXs_pos htab ?_ ?_ hx
  · rw [hdata]
    intro m hm
    obtain ⟨mp, first, hk, hf⟩ := hmat m hm
    have := (hfull _ _ hk).isotopes
    rw [hf.isotopes]
    intro hnil
    have := congrArg List.length hnil
    simp at this
    omega
  · rw [hdata]
    intro m hm iso hi rs hrs
    obtain ⟨mp, first, hk, hf⟩ := hmat m hm
    obtain ⟨sp, nu, hfrom, hr⟩ := hf.reactions
    have hrs' := (hr iso hi).2
    have hrs : nd.isotopes[iso.gid]? = some rs := hrs
    rw [hrs] at hrs'
    cases hrs'
    obtain ⟨r1, r2, r3⟩ := (h.materials _ mp hk).ratios
    obtain ⟨q1, q2, q3⟩ := hfrom.ratios
    refine isotopeReactions_pos htail ?_ ?_ ?_ ?_ ?_ ?_
    · rw [hfrom.total]; exact (hfull _ _ hk).total
    · rw [q1]; exact r3
    · rw [q2]; exact r1
    · rw [q3]; exact r2
    · rw [q1, q2, q3]; exact (h.materials _ mp hk).someRatio
    · rw [hfrom.nReactions]; exact (hfull _ _ hk).reactions

/-- **C74, valid inputs.** In a run started on a valid input whose materials have matter in them, every particle with
energy and time left, in a cell of the mesh, can fly: the theorems above apply to it. -/
theorem C74_valid {p : Params ℝ} (h : ValidInput p) (hfull : ∀ k mp, p.materials.get? k = some mp → Filled mp)
    {so : StrOrder} (hso : ∀ l, (so l).Perm l) {io : IterOrder} (hio : ∀ l, (io l).Perm l) (m : Machine)
    (hm : 1 ≤ m.defaultThreads) (fuel : Nat) (hfuel : GridSpec.cells p.grid + 1 ≤ fuel) {s : Started ℝ}
    (hs : startRun so io m fuel p = .ok (some s)) (hfar : Flt.lightSpeed * p.simulation.dt < 10 ^ 76)
    {q : Particle ℝ} (he : 0 < q.kineticEnergy) (ht : 0 ≤ q.timeToCensus ∧ q.timeToCensus ≤ p.simulation.dt)
    (hcell : q.cell < s.state.unit.dom.cells.length) (hgroup : q.energyGroup < s.state.unit.dom.numGroups) :
    CanFly s.data s.state.unit.dom q ∧
    ∃ τ₀ leg, 0 < τ₀ ∧ Survives s.data s.state.unit.dom (q.withDepth τ₀ q.seed) [] leg := by
  obtain ⟨s', hs', h2, _⟩ := h.start hso hio m hm fuel hfuel
  rw [hs] at hs'
  cases hs'
  have hsafe := h2.tracking
  have hxs : ∀ cell group x, directXs s.data s.state.unit.dom cell group = .ok x → 0 < x :=
    fun _ _ _ hx => started_xs_pos h hfull hso hs hsafe.time.tables hx
  have hcan : CanFly s.data s.state.unit.dom q := ⟨he, ht.1, hsafe.time.dt.le, hxs⟩
  refine ⟨hcan, ?_⟩
  obtain ⟨τ₀, leg, h1, h2⟩ := Flies.prolonged hsafe (hcan.withDepth 1 q.seed) (by show (0 : ℝ) < 1; norm_num)
    (.here (q.withDepth 1 q.seed)) hcell hgroup (by
      show q.getSpeed * q.timeToCensus < 10 ^ 76
      refine lt_of_le_of_lt (mul_le_mul (C37_speed.2.1 _ he).2.le ht.2 ht.1 ?_) hfar
      exact ((C37_speed.2.1 _ he).1.trans (C37_speed.2.1 _ he).2).le) q.seed
  exact ⟨τ₀, leg, h1, h2⟩

/-- It applies to the built-in problem: a particle of 1 MeV that enters its first cell. -/
example : ∃ s : Started ℝ, startRun List.reverse id ⟨4, true⟩ 1001 (builtinParams (chosen 4 10)) = .ok (some s) ∧
    ∀ q : Particle ℝ, q.kineticEnergy = 1 → q.timeToCensus = (chosen 4 10).dt → q.cell = 0 → q.energyGroup = 7 →
      CanFly s.data s.state.unit.dom q ∧
      ∃ τ₀ leg, 0 < τ₀ ∧ Survives s.data s.state.unit.dom (q.withDepth τ₀ q.seed) [] leg := by
  have hv := builtin_valid 4 10
  have hf : GridSpec.cells (builtinParams (chosen 4 10)).grid + 1 ≤ 1001 := le_of_eq (by
    rw [show GridSpec.cells (builtinParams (chosen 4 10)).grid = 1000 from default_cells 1029384756])
  obtain ⟨s, h1, h2, _, h4, _, _, mats, h7, h8⟩ := hv.start (so := List.reverse) (fun l => List.reverse_perm l) (io := id)
    (fun l => .refl _) ⟨4, true⟩ (by norm_num) 1001 hf
  refine ⟨s, h1, fun q e1 e2 e3 e4 => ?_⟩
  have hdt : (builtinParams (chosen 4 10)).simulation.dt = 1 / 10 ^ 8 := by
    show (SimulationParams.default : SimulationParams ℝ).dt = _
    simp [SimulationParams.default]
  obtain ⟨dom, _, _, _, m1, _, _, _, m5, m6, _⟩ := Flooding.initMesh_spec (order := id) (fun l => .refl _) h7 hv.root 1001 hf
  rw [h8] at m1
  cases m1
  refine C74_valid hv ?_ (so := List.reverse) (fun l => List.reverse_perm l) (io := id)
    (fun l => .refl _) ⟨4, true⟩ (by norm_num) 1001 hf h1 ?_ (by rw [e1]; norm_num) ?_ ?_ ?_
  · intro k mp hk
    obtain ⟨mp0, hmat, q1, q2, q3⟩ : ∃ mp : MaterialParams ℝ,
        (builtinParams (chosen 4 10)).materials = [("source_material", mp)] ∧
        mp.nIsotopes = 10 ∧ mp.nReactions = 9 ∧ mp.totalCrossSection = 1 := by
      refine ⟨_, rfl, rfl, rfl, ?_⟩
      simp [MaterialParams.default]
    rw [hmat, HMap.get?_cons] at hk
    split at hk
    · cases hk
      exact ⟨by rw [q1]; norm_num, by rw [q2]; norm_num, by rw [q3]; norm_num⟩
    · cases hk
  · rw [hdt]
    norm_num [Flt.lightSpeed]
  · rw [e2]
    show 0 ≤ (builtinParams (chosen 4 10)).simulation.dt ∧ (builtinParams (chosen 4 10)).simulation.dt ≤ _
    rw [hdt]
    norm_num
  · rw [e3, m6]
    show 0 < GridSpec.cells (builtinParams (chosen 4 10)).grid
    rw [show GridSpec.cells (builtinParams (chosen 4 10)).grid = 1000 from default_cells 1029384756]
    norm_num
  · rw [e4, m5]
    show 7 < 230
    norm_num
