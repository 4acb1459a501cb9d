import Verif.Lemmas.Uniform
import Verif.Model.Cycle
import Verif.Lemmas.Tracking
import Mathlib.MeasureTheory.Integral.IntervalIntegral.Basic
import Mathlib.MeasureTheory.Measure.Lebesgue.Basic
/-!
# C31 - C34, C36, C37: yields, splitting, roulette, flight lengths and speed

Exact real arithmetic.  `Rng.draw seed` is the sample drawn from the state `seed`.  Each random
decision is first given as a function of the draw; its mean is then computed for an ideal uniform
draw (an integral over `[0, 1]`) and by counting over the `2^64` states of the generator.
-/
open Rng MeasureTheory
attribute [local irreducible] Rng.lcg Rng.sample Rng.spawn

/-! ## Helper lemmas -/

theorem sample_fst (s : BitVec 64) : (Rng.sample (T := ℝ) s).1 = draw s := rfl

/-- Integral of a function with two values. -/
theorem integral_two_values {f : ℝ → ℝ} {a c d : ℝ} (ha0 : 0 ≤ a) (ha1 : a ≤ 1)
    (hc : ∀ u, 0 < u → u < a → f u = c) (hd : ∀ u, a < u → u < 1 → f u = d) :
    ∫ u in (0 : ℝ)..1, f u = a * c + (1 - a) * d := by
  have hEc : Set.EqOn (fun _ => c) f (Set.uIoo 0 a) := by
    intro u hu
    rw [Set.uIoo_of_le ha0] at hu
    exact (hc u hu.1 hu.2).symm
  have hEd : Set.EqOn (fun _ => d) f (Set.uIoo a 1) := by
    intro u hu
    rw [Set.uIoo_of_le ha1] at hu
    exact (hd u hu.1 hu.2).symm
  have i1 : IntervalIntegrable f volume 0 a :=
    (intervalIntegrable_const (c := c)).congr_uIoo hEc
  have i2 : IntervalIntegrable f volume a 1 :=
    (intervalIntegrable_const (c := d)).congr_uIoo hEd
  rw [← intervalIntegral.integral_add_adjacent_intervals i1 i2,
    ← intervalIntegral.integral_congr_uIoo hEc, ← intervalIntegral.integral_congr_uIoo hEd,
    intervalIntegral.integral_const, intervalIntegral.integral_const]
  simp

theorem unwrap_some {α : Type} (a : α) : unwrap (some a) = .ok a := rfl

/-! ## C31 -/

/-- **C31.** For a mean yield `ν ≥ 0` and a draw `u` with `ν + u < 5`, a fission ends normally and
yields the integer part of `ν + u`: `⌊ν⌋` or `⌊ν⌋ + 1` neutrons, of which all but the colliding
particle are new particles. -/
theorem C31_yield (p : Particle ℝ) (r : Reaction ℝ) (mass : ℝ) (hr : r.rtype = .fission)
    (h0 : 0 ≤ r.nuBar) (h5 : r.nuBar + draw p.seed < 5) :
    ∃ n p' extra, p.sampleCollision r mass = .ok (n, p', extra) ∧
      n = ⌊r.nuBar + draw p.seed⌋₊ ∧ (n = ⌊r.nuBar⌋₊ ∨ n = ⌊r.nuBar⌋₊ + 1) ∧
      extra.length = n - 1 := by
  have hu0 := draw_nonneg p.seed
  have hu1 := draw_le_one p.seed
  have hto : Flt.toUsize (Flt.add r.nuBar (Rng.sample (T := ℝ) p.seed).1) =
      some ⌊r.nuBar + draw p.seed⌋₊ := by
    rw [FltReal.toUsize_eq, sample_fst, FltReal.add_eq, if_pos ⟨by linarith, by norm_num; linarith⟩]
  have hn : ⌊r.nuBar + draw p.seed⌋₊ = ⌊r.nuBar⌋₊ ∨ ⌊r.nuBar + draw p.seed⌋₊ = ⌊r.nuBar⌋₊ + 1 := by
    have h1 : ⌊r.nuBar⌋₊ ≤ ⌊r.nuBar + draw p.seed⌋₊ := Nat.floor_mono (by linarith)
    have h2 : ⌊r.nuBar + draw p.seed⌋₊ ≤ ⌊r.nuBar + 1⌋₊ := Nat.floor_mono (by linarith)
    rw [Nat.floor_add_one h0] at h2
    omega
  have hlt : ⌊r.nuBar + draw p.seed⌋₊ < 5 := by
    rw [Nat.floor_lt (by linarith)]; exact_mod_cast h5
  generalize ⌊r.nuBar + draw p.seed⌋₊ = n at *
  unfold Particle.sampleCollision
  rw [hr]
  simp only [hto, unwrap_some, bind, Except.bind, pure, Except.pure]
  by_cases h0' : n = 0
  · rw [if_pos h0']
    subst h0'
    exact ⟨_, _, _, rfl, rfl, hn, by simp⟩
  rw [if_neg h0']
  by_cases h1 : n = 1
  · rw [if_pos h1]
    subst h1
    exact ⟨_, _, _, rfl, rfl, hn, by simp⟩
  rw [if_neg h1]
  have : assertB (decide (n < 5)) = .ok () := by simp [assertB, hlt]
  rw [this]
  refine ⟨_, _, _, rfl, rfl, hn, ?_⟩
  simp [drawFissions_length, spawnSeeds_length]

/-- **C31**, error branch: a yield of five or more stops the program. -/
theorem C31_five_or_more_stops (p : Particle ℝ) (r : Reaction ℝ) (mass : ℝ)
    (hr : r.rtype = .fission) (h5 : 5 ≤ r.nuBar + draw p.seed) :
    ∃ e, p.sampleCollision r mass = .error e := by
  unfold Particle.sampleCollision
  rw [hr]
  simp only [bind, Except.bind]
  rw [FltReal.toUsize_eq, sample_fst, FltReal.add_eq]
  by_cases h : -1 < r.nuBar + draw p.seed ∧ r.nuBar + draw p.seed < 2 ^ 64
  · rw [if_pos h]
    have hge : 5 ≤ ⌊r.nuBar + draw p.seed⌋₊ := Nat.le_floor (by exact_mod_cast h5)
    rw [unwrap_some]
    dsimp only
    rw [if_neg (by omega), if_neg (by omega)]
    have : assertB (decide (⌊r.nuBar + draw p.seed⌋₊ < 5)) = .error .assertFailed := by
      simp [assertB]; omega
    rw [this]
    exact ⟨_, rfl⟩
  · rw [if_neg h]
    exact ⟨_, rfl⟩

/-- **C31**, error branch: a mean yield of -1 or less with no draw to lift it stops the program. -/
theorem C31_invalid_stops (p : Particle ℝ) (r : Reaction ℝ) (mass : ℝ) (hr : r.rtype = .fission)
    (h : r.nuBar + draw p.seed ≤ -1) : p.sampleCollision r mass = .error .unwrapNone := by
  unfold Particle.sampleCollision
  rw [hr]
  simp only [bind, Except.bind]
  rw [FltReal.toUsize_eq, sample_fst, FltReal.add_eq, if_neg (by rintro ⟨h1, _⟩; linarith)]
  rfl

theorem floor_add_draw {ν u : ℝ} (h0 : 0 ≤ ν) (hu0 : 0 ≤ u) (hu1 : u ≤ 1) :
    ⌊ν + u⌋₊ = if 1 - Int.fract ν ≤ u then ⌊ν⌋₊ + 1 else ⌊ν⌋₊ := by
  have hf : ν = (⌊ν⌋₊ : ℝ) + Int.fract ν := by
    have h1 : ((⌊ν⌋₊ : ℕ) : ℝ) = ((⌊ν⌋ : ℤ) : ℝ) := by
      rw [← Int.natCast_floor_eq_floor h0]; norm_cast
    rw [h1]; exact (Int.floor_add_fract ν).symm
  have hf1 := Int.fract_lt_one ν
  have hf0 := Int.fract_nonneg ν
  split
  · next h =>
    rw [Nat.floor_eq_iff (by linarith)]
    push_cast
    constructor <;> linarith
  · next h =>
    rw [Nat.floor_eq_iff (by linarith)]
    constructor <;> linarith

/-- **C31**, mean: the yield averages to `ν` over a uniform draw. -/
theorem C31_mean {ν : ℝ} (h0 : 0 ≤ ν) : ∫ u in (0 : ℝ)..1, ((⌊ν + u⌋₊ : ℕ) : ℝ) = ν := by
  have hf1 := Int.fract_lt_one ν
  have hf0 := Int.fract_nonneg ν
  rw [integral_two_values (a := 1 - Int.fract ν) (c := (⌊ν⌋₊ : ℝ)) (d := (⌊ν⌋₊ : ℝ) + 1)
    (by linarith) (by linarith)]
  · have h1 : ((⌊ν⌋₊ : ℕ) : ℝ) = ((⌊ν⌋ : ℤ) : ℝ) := by
      rw [← Int.natCast_floor_eq_floor h0]; norm_cast
    have h2 := Int.floor_add_fract ν
    rw [h1]
    linear_combination h2
  · intro u hu hlt
    rw [floor_add_draw h0 hu.le (by linarith), if_neg (by linarith)]
  · intro u hu hlt
    rw [floor_add_draw h0 (by linarith) hlt.le, if_pos hu.le]
    push_cast; ring

/-- **C31**, the generator itself: of its `2^64` states, the fraction that yields `⌊ν⌋ + 1` neutrons
is the fractional part of `ν`, up to `2^-52`; all others yield `⌊ν⌋` by `C31_yield`. -/
theorem C31_mean_over_states (p : Particle ℝ) (r : Reaction ℝ) (mass : ℝ) (hr : r.rtype = .fission)
    (h0 : 0 ≤ r.nuBar) (h4 : r.nuBar < 4) :
    |(({s : BitVec 64 | ∃ p' extra, ({ p with seed := s } : Particle ℝ).sampleCollision r mass =
        .ok (⌊r.nuBar⌋₊ + 1, p', extra)}.ncard : ℕ) : ℝ) - Int.fract r.nuBar * 2 ^ 64| ≤ 2 ^ 12 := by
  have hf1 := Int.fract_lt_one r.nuBar
  have hf0 := Int.fract_nonneg r.nuBar
  have e : {s : BitVec 64 | ∃ p' extra, ({ p with seed := s } : Particle ℝ).sampleCollision r mass =
        .ok (⌊r.nuBar⌋₊ + 1, p', extra)} = {s | ¬ draw s < 1 - Int.fract r.nuBar} := by
    ext s
    obtain ⟨n, p', extra, h1, h2, _⟩ := C31_yield { p with seed := s } r mass hr h0
      (by have := draw_le_one s; show r.nuBar + draw s < 5; linarith)
    rw [floor_add_draw h0 (draw_nonneg _) (draw_le_one _)] at h2
    simp only [Set.mem_ofPred_eq, h1, Except.ok.injEq, Prod.mk.injEq, not_lt]
    dsimp only at h2
    constructor
    · rintro ⟨_, _, h3, _⟩
      by_contra hc
      rw [if_neg hc] at h2
      omega
    · intro h
      rw [if_pos h] at h2
      exact ⟨_, _, h2, rfl, rfl⟩
  rw [e, ncard_compl_seed]
  have := count_draw_lt (x := 1 - Int.fract r.nuBar) (by linarith) (by linarith)
  rw [abs_le] at this ⊢
  constructor <;> linarith

/-- The default mean yield 2.4 and any generator state meet the hypotheses. -/
example (p : Particle ℝ) : 0 ≤ (2.4 : ℝ) ∧ (2.4 : ℝ) + draw p.seed < 5 := by
  have := draw_le_one p.seed
  refine ⟨by norm_num, ?_⟩
  norm_num; linarith

/-! ## C32 -/

/-- Number of copies made when splitting by `f` with the draw `u`. -/
noncomputable def copiesFor (f u : ℝ) : Nat := if u ≤ Int.fract f then ⌊f⌋₊ else ⌊f⌋₊ - 1

/-- **C32.** Splitting by `f > 1` leaves the particle with weight `w/f` (only seed and weight are
changed) and makes `⌊f⌋` or `⌊f⌋ - 1` copies of it, which differ from it only by seed and
identifier. -/
theorem C32_split (p : Particle ℝ) {f : ℝ} (h1 : 1 < f) (hf : f < 2 ^ 64) :
    ∃ p' copies, p.underPopulatedSplit f = .ok (p', copies) ∧
      p' = { p with seed := p'.seed, weight := p.weight / f } ∧
      (∀ q ∈ copies, q = { p' with seed := q.seed, identifier := q.identifier } ∧
        q.weight = p.weight / f) ∧
      copies.length = copiesFor f (draw p.seed) := by
  have hfl1 : (1 : ℤ) ≤ ⌊f⌋ := Int.le_floor.2 (by exact_mod_cast h1.le)
  have hcast : ((⌊f⌋ : ℤ) : ℝ) = ((⌊f⌋₊ : ℕ) : ℝ) := by
    rw [← Int.natCast_floor_eq_floor (by linarith)]; norm_cast
  have hle : ((⌊f⌋ : ℤ) : ℝ) ≤ f := Int.floor_le f
  have hge : (1 : ℝ) ≤ ((⌊f⌋ : ℤ) : ℝ) := by exact_mod_cast hfl1
  have hnat : 1 ≤ ⌊f⌋₊ := Nat.le_floor (by exact_mod_cast h1.le)
  have hto : Flt.toUsize (if Flt.lt (Flt.sub f (Flt.floor f)) (Rng.sample (T := ℝ) p.seed).1 = true
      then Flt.sub (Flt.floor f) Flt.one else Flt.floor f) = some (copiesFor f (draw p.seed)) := by
    rw [FltReal.toUsize_eq, sample_fst]
    simp only [FltReal.lt_eq, FltReal.sub_eq, FltReal.floor_eq, FltReal.one_eq, decide_eq_true_eq]
    rw [Int.self_sub_floor]
    unfold copiesFor
    by_cases h : draw p.seed ≤ Int.fract f
    · rw [if_neg (not_lt.2 h), if_pos h, if_pos ⟨by linarith, by linarith⟩, hcast, Nat.floor_natCast]
    · rw [if_pos (not_le.1 h), if_neg h, if_pos ⟨by linarith, by linarith⟩, hcast,
        show ((⌊f⌋₊ : ℕ) : ℝ) - 1 = ((⌊f⌋₊ - 1 : ℕ) : ℝ) by rw [Nat.cast_sub hnat]; simp,
        Nat.floor_natCast]
  unfold Particle.underPopulatedSplit
  simp only [hto, unwrap_some, bind, Except.bind, pure, Except.pure]
  refine ⟨_, _, rfl, rfl, ?_, ?_⟩
  · intro q hq
    rw [List.mem_map] at hq
    obtain ⟨sd, _, rfl⟩ := hq
    exact ⟨rfl, rfl⟩
  · rw [List.length_map, spawnSeeds_length]

/-- **C32**, mean number of copies over a uniform draw: `f - 1`. -/
theorem C32_mean_copies {f : ℝ} (h1 : 1 < f) :
    ∫ u in (0 : ℝ)..1, ((copiesFor f u : ℕ) : ℝ) = f - 1 := by
  have hf1 := Int.fract_lt_one f
  have hf0 := Int.fract_nonneg f
  have hnat : 1 ≤ ⌊f⌋₊ := Nat.le_floor (by exact_mod_cast h1.le)
  have hcast : ((⌊f⌋₊ : ℕ) : ℝ) = ((⌊f⌋ : ℤ) : ℝ) := by
    rw [← Int.natCast_floor_eq_floor (by linarith)]; norm_cast
  rw [integral_two_values (a := Int.fract f) (c := (⌊f⌋₊ : ℝ)) (d := (⌊f⌋₊ : ℝ) - 1) hf0 hf1.le]
  · have := Int.floor_add_fract f
    rw [hcast]; linear_combination this
  · intro u _ hu; rw [copiesFor, if_pos hu.le]
  · intro u hu _; rw [copiesFor, if_neg (by linarith), Nat.cast_sub hnat]; simp

/-- **C32**, expected total weight after the split: the weight before it. -/
theorem C32_expected_weight {f : ℝ} (h1 : 1 < f) (w : ℝ) :
    ∫ u in (0 : ℝ)..1, (w / f + ((copiesFor f u : ℕ) : ℝ) * (w / f)) = w := by
  have hf1 := Int.fract_lt_one f
  have hf0 := Int.fract_nonneg f
  have hnat : 1 ≤ ⌊f⌋₊ := Nat.le_floor (by exact_mod_cast h1.le)
  have hcast : ((⌊f⌋₊ : ℕ) : ℝ) = ((⌊f⌋ : ℤ) : ℝ) := by
    rw [← Int.natCast_floor_eq_floor (by linarith)]; norm_cast
  rw [integral_two_values (a := Int.fract f) (c := w / f + (⌊f⌋₊ : ℝ) * (w / f))
    (d := w / f + ((⌊f⌋₊ : ℝ) - 1) * (w / f)) hf0 hf1.le]
  · have := Int.floor_add_fract f
    rw [hcast]
    have h2 : ((⌊f⌋ : ℤ) : ℝ) = f - Int.fract f := by linarith
    rw [h2]
    have hne : f ≠ 0 := by linarith
    field_simp
    ring
  · intro u _ hu; rw [copiesFor, if_pos hu.le]
  · intro u hu _; rw [copiesFor, if_neg (by linarith), Nat.cast_sub hnat]; simp

/-- **C32**, the generator itself: the states that give the larger number of copies are the fraction
`fract f` of all states, up to `2^-52`. -/
theorem C32_copies_over_states (p : Particle ℝ) {f : ℝ} (h1 : 1 < f) (hf : f < 2 ^ 64) :
    |(({s : BitVec 64 | ∃ p' copies, ({ p with seed := s } : Particle ℝ).underPopulatedSplit f =
        .ok (p', copies) ∧ copies.length = ⌊f⌋₊}.ncard : ℕ) : ℝ) - Int.fract f * 2 ^ 64| ≤ 2 ^ 12 := by
  have hnat : 1 ≤ ⌊f⌋₊ := Nat.le_floor (by exact_mod_cast h1.le)
  have e : {s : BitVec 64 | ∃ p' copies, ({ p with seed := s } : Particle ℝ).underPopulatedSplit f =
        .ok (p', copies) ∧ copies.length = ⌊f⌋₊} = {s | draw s ≤ Int.fract f} := by
    ext s
    obtain ⟨p', copies, h2, _, _, h3⟩ := C32_split { p with seed := s } h1 hf
    simp only [Set.mem_ofPred_eq, h2, Except.ok.injEq, Prod.mk.injEq]
    simp only [copiesFor] at h3
    constructor
    · rintro ⟨_, _, ⟨rfl, rfl⟩, h4⟩
      by_contra hc
      rw [if_neg hc] at h3
      omega
    · intro h
      rw [if_pos h] at h3
      exact ⟨_, _, ⟨rfl, rfl⟩, h3⟩
  rw [e]
  exact count_draw_le (Int.fract_nonneg f) (Int.fract_lt_one f).le

/-- Splitting by 2.5 makes two copies for a small draw, one for a large one. -/
example : copiesFor 2.5 0.25 = 2 ∧ copiesFor 2.5 0.75 = 1 := by
  have h1 : ⌊(2.5 : ℝ)⌋₊ = 2 := by rw [Nat.floor_eq_iff] <;> norm_num
  have h2 : Int.fract (2.5 : ℝ) = 0.5 := by
    rw [Int.fract_eq_iff]; exact ⟨by norm_num, by norm_num, 2, by norm_num⟩
  unfold copiesFor
  rw [h1, h2]
  norm_num

/-! ## C33 -/

/-- **C33**, over-population game: the particle survives exactly when the draw is at most `f`, with
weight `w/f`; nothing but seed and weight changes. -/
theorem C33_over_population (p : Particle ℝ) (f : ℝ) :
    ((p.overPopulatedRr f).2 = true ↔ draw p.seed ≤ f) ∧
    ((p.overPopulatedRr f).2 = true →
      (p.overPopulatedRr f).1 = { p with seed := (Rng.sample (T := ℝ) p.seed).2,
                                         weight := p.weight / f }) := by
  unfold Particle.overPopulatedRr
  simp only [FltReal.lt_eq, sample_fst, FltReal.div_eq]
  by_cases h : f < draw p.seed
  · simp [h]
  · simp [h, not_lt.1 h]

/-- **C33**, low-weight game: above the cut-off `c * source weight` the particle is returned
untouched; at or below it survives exactly when the draw is at most `c`, with weight `w/c`. -/
theorem C33_low_weight (p : Particle ℝ) (c src : ℝ) :
    (c * src < p.weight → p.lowWeightRr c src = (p, true)) ∧
    (p.weight ≤ c * src →
      ((p.lowWeightRr c src).2 = true ↔ draw p.seed ≤ c) ∧
      ((p.lowWeightRr c src).2 = true →
        (p.lowWeightRr c src).1 = { p with seed := (Rng.sample (T := ℝ) p.seed).2,
                                           weight := p.weight / c })) := by
  unfold Particle.lowWeightRr
  simp only [FltReal.le_eq, sample_fst, FltReal.div_eq, FltReal.mul_eq, decide_eq_true_eq]
  constructor
  · intro h; rw [if_neg (not_le.2 h)]
  · intro h
    rw [if_pos h]
    by_cases hd : draw p.seed ≤ c
    · simp [hd]
    · simp [hd]

/-- **C33**, probability and expected weight of a game won with the draws `u ≤ f`, for a uniform
draw: `f` and the weight before the game. -/
theorem C33_expected_weight {f : ℝ} (h0 : 0 < f) (h1 : f ≤ 1) (w : ℝ) :
    volume {u : ℝ | 0 ≤ u ∧ u ≤ 1 ∧ u ≤ f} = ENNReal.ofReal f ∧
    ∫ u in (0 : ℝ)..1, (if u ≤ f then w / f else 0) = w := by
  constructor
  · have : {u : ℝ | 0 ≤ u ∧ u ≤ 1 ∧ u ≤ f} = Set.Icc 0 f := by
      ext u; simp only [Set.mem_ofPred_eq, Set.mem_Icc]
      constructor
      · rintro ⟨a, _, b⟩; exact ⟨a, b⟩
      · rintro ⟨a, b⟩; exact ⟨a, by linarith, b⟩
    rw [this, Real.volume_Icc, sub_zero]
  · rw [integral_two_values (a := f) (c := w / f) (d := 0) h0.le h1]
    · field_simp; ring
    · intro u _ hu; rw [if_pos hu.le]
    · intro u hu _; rw [if_neg (by linarith)]

/-- **C33**, the generator itself: of its `2^64` states, the fraction that lets a particle survive
the over-population game is `f` up to `2^-52`. -/
theorem C33_over_population_states (p : Particle ℝ) {f : ℝ} (h0 : 0 ≤ f) (h1 : f ≤ 1) :
    |(({s : BitVec 64 | (({ p with seed := s } : Particle ℝ).overPopulatedRr f).2 = true}.ncard : ℕ)
      : ℝ) - f * 2 ^ 64| ≤ 2 ^ 12 := by
  have e : {s : BitVec 64 | (({ p with seed := s } : Particle ℝ).overPopulatedRr f).2 = true} =
      {s | draw s ≤ f} := by
    ext s; exact (C33_over_population _ f).1
  rw [e]; exact count_draw_le h0 h1

/-- **C33**, the generator itself, for the low-weight game. -/
theorem C33_low_weight_states (p : Particle ℝ) {c src : ℝ} (h0 : 0 ≤ c) (h1 : c ≤ 1)
    (hw : p.weight ≤ c * src) :
    |(({s : BitVec 64 | (({ p with seed := s } : Particle ℝ).lowWeightRr c src).2 = true}.ncard : ℕ)
      : ℝ) - c * 2 ^ 64| ≤ 2 ^ 12 := by
  have e : {s : BitVec 64 | (({ p with seed := s } : Particle ℝ).lowWeightRr c src).2 = true} =
      {s | draw s ≤ c} := by
    ext s; exact ((C33_low_weight { p with seed := s } c src).2 hw).1
  rw [e]; exact count_draw_le h0 h1

/-- The default cut-off 0.001 and a unit source weight: a particle of weight 0.0005 plays the game,
one of weight 0.5 does not. -/
example : (0.0005 : ℝ) ≤ 0.001 * 1 ∧ (0.001 : ℝ) * 1 < 0.5 ∧ (0 : ℝ) ≤ 0.001 ∧ (0.001 : ℝ) ≤ 1 := by
  norm_num

/-! ## C34 -/

/-- **C34**, without load balancing: the factor times the population is the target, and the factor
is below, equal to or above 1 exactly when the population is above, at or below the target. -/
theorem C34_global (target n local_ units : Nat) (hn : 0 < n) :
    ∃ f : ℝ, computeSplitFactor target n local_ units false = .ok f ∧
      f * n = target ∧ (f < 1 ↔ target < n) ∧ (f = 1 ↔ n = target) ∧ (1 < f ↔ n < target) := by
  have hn' : (0 : ℝ) < n := by exact_mod_cast hn
  refine ⟨(target : ℝ) / n, rfl, by field_simp, ?_, ?_, ?_⟩
  · rw [div_lt_one hn']; exact Nat.cast_lt
  · rw [div_eq_one_iff_eq hn'.ne']; constructor
    · intro h; exact_mod_cast h.symm
    · intro h; exact_mod_cast h.symm
  · rw [one_lt_div hn']; exact Nat.cast_lt

/-- **C34**, with load balancing: a unit aims at its share of the target, rounded up, and an empty
unit gets the factor 1. -/
theorem C34_load_balanced (target n local_ units : Nat) (hu : 0 < units) (ht : target < 2 ^ 63) :
    ∃ f : ℝ, computeSplitFactor target n local_ units true = .ok f ∧
      (local_ = 0 → f = 1) ∧
      (0 < local_ → ∃ share : Nat, (target : ℝ) ≤ share * units ∧ (share : ℝ) * units < target + units ∧
        f * local_ = share ∧ (f < 1 ↔ share < local_) ∧ (f = 1 ↔ local_ = share) ∧
        (1 < f ↔ local_ < share)) := by
  have hu' : (0 : ℝ) < units := by exact_mod_cast hu
  by_cases hl : local_ = 0
  · refine ⟨1, ?_, fun _ => rfl, fun h => absurd hl h.ne'⟩
    unfold computeSplitFactor
    simp [hl]
  have hl0 : 0 < local_ := Nat.pos_of_ne_zero hl
  have hl' : (0 : ℝ) < local_ := by exact_mod_cast hl0
  set x : ℝ := (target : ℝ) / units with hx
  have hx0 : 0 ≤ x := by positivity
  have hxt : x ≤ target := div_le_self (by positivity) (by exact_mod_cast hu)
  have hceil : ((⌈x⌉ : ℤ) : ℝ) = ((⌈x⌉₊ : ℕ) : ℝ) := by
    rw [← Int.natCast_ceil_eq_ceil hx0]; norm_cast
  have hclt : ((⌈x⌉₊ : ℕ) : ℝ) < x + 1 := Nat.ceil_lt_add_one hx0
  have hcle : x ≤ ((⌈x⌉₊ : ℕ) : ℝ) := Nat.le_ceil x
  have hto : Flt.toUsize (Flt.ceil x) = some ⌈x⌉₊ := by
    rw [FltReal.toUsize_eq, FltReal.ceil_eq, hceil, Nat.floor_natCast, if_pos]
    have : (target : ℝ) + 1 < 2 ^ 64 := by exact_mod_cast (by omega : target + 1 < 2 ^ 64)
    constructor
    · linarith
    · linarith
  refine ⟨(⌈x⌉₊ : ℝ) / local_, ?_, fun h => absurd h hl, fun _ => ⟨⌈x⌉₊, ?_, ?_, by field_simp, ?_, ?_, ?_⟩⟩
  · unfold computeSplitFactor
    simp only [if_true, hl, ne_eq, not_false_eq_true, FltReal.div_eq, FltReal.ofNat_eq]
    rw [← hx, hto]
    rfl
  · rw [hx, div_le_iff₀ hu'] at hcle; exact hcle
  · have : ((⌈x⌉₊ : ℕ) : ℝ) * units < (x + 1) * units := mul_lt_mul_of_pos_right hclt hu'
    have hxu : x * units = target := by rw [hx]; field_simp
    linarith
  · rw [div_lt_one hl']; exact Nat.cast_lt
  · rw [div_eq_one_iff_eq hl'.ne']; constructor
    · intro h; exact_mod_cast h.symm
    · intro h; exact_mod_cast h.symm
  · rw [one_lt_div hl']; exact Nat.cast_lt

/-- 800 particles for a target of 1000: the population is to be split by 1.25. -/
example : (1.25 : ℝ) * (800 : Nat) = (1000 : Nat) ∧ (800 : Nat) < 1000 := by norm_num

/-! ## C36 -/

/-- **C36.** Unless the draw is 0, the sampled number of mean free paths is `-ln u`, is non-negative,
and exceeds `t` exactly when the draw is below `exp (-t)`. -/
theorem C36_flight (p : Particle ℝ) (hu : draw p.seed ≠ 0) :
    0 ≤ p.sampleNumMfp.numMeanFreePaths ∧
    ∀ t : ℝ, t < p.sampleNumMfp.numMeanFreePaths ↔ draw p.seed < Real.exp (-t) := by
  have h0 : 0 < draw p.seed := lt_of_le_of_ne (draw_nonneg _) (Ne.symm hu)
  have e : p.sampleNumMfp.numMeanFreePaths = -Real.log (draw p.seed) := by
    unfold Particle.sampleNumMfp
    simp only [sample_fst, FltReal.mul_eq, FltReal.neg_eq, FltReal.ln_eq, FltReal.one_eq]
    ring
  rw [e]
  refine ⟨by have := Real.log_nonpos (draw_nonneg p.seed) (draw_le_one p.seed); linarith, fun t => ?_⟩
  rw [← Real.log_lt_iff_lt_exp h0]
  constructor <;> intro h <;> linarith

/-- **C36**, only the generator state 0 (reached from exactly one state) gives a zero draw.  There the
program computes `-ln 0`, which is infinite in floating point; the real-number model has no such
value, which is why the draw 0 is excluded above. -/
theorem C36_zero_draw :
    (∀ s : BitVec 64, draw s = 0 ↔ (Rng.sample (T := ℝ) s).2 = 0) ∧ ∃! s : BitVec 64, draw s = 0 := by
  have h : ∀ s : BitVec 64, draw s = 0 ↔ lcg s = 0 := fun s => by
    have := (C01_sample_range s).2.2.2
    simpa [Rng.sample, draw] using this
  refine ⟨fun s => (C01_sample_range s).2.2.2, ?_⟩
  obtain ⟨s, hs⟩ := lcg_surjective 0
  exact ⟨s, (h s).2 hs, fun t ht => lcg_injective (((h t).1 ht).trans hs.symm)⟩

/-- **C36**, distribution for a uniform draw: the flight exceeds `t` with probability `exp (-t)`. -/
theorem C36_exponential {t : ℝ} (ht : 0 ≤ t) :
    volume {u : ℝ | 0 < u ∧ u ≤ 1 ∧ t < -Real.log u} = ENNReal.ofReal (Real.exp (-t)) := by
  have hle : Real.exp (-t) ≤ 1 := Real.exp_le_one_iff.2 (by linarith)
  have : {u : ℝ | 0 < u ∧ u ≤ 1 ∧ t < -Real.log u} = Set.Ioo 0 (Real.exp (-t)) := by
    ext u
    simp only [Set.mem_ofPred_eq, Set.mem_Ioo]
    constructor
    · rintro ⟨h0, _, h⟩
      exact ⟨h0, (Real.log_lt_iff_lt_exp h0).1 (by linarith)⟩
    · rintro ⟨h0, h⟩
      exact ⟨h0, by linarith, by have := (Real.log_lt_iff_lt_exp h0).2 h; linarith⟩
  rw [this, Real.volume_Ioo, sub_zero]

/-- **C36**, the generator itself: among its `2^64` states, those giving a flight longer than `t` (the
infinite flight of the zero draw included) are the fraction `exp (-t)`, up to `2^-52`. -/
theorem C36_exponential_states (p : Particle ℝ) {t : ℝ} (ht : 0 ≤ t) :
    |(({s : BitVec 64 | draw s = 0 ∨
        t < (({ p with seed := s } : Particle ℝ).sampleNumMfp).numMeanFreePaths}.ncard : ℕ) : ℝ) -
      Real.exp (-t) * 2 ^ 64| ≤ 2 ^ 12 := by
  have hle : Real.exp (-t) ≤ 1 := Real.exp_le_one_iff.2 (by linarith)
  have e : {s : BitVec 64 | draw s = 0 ∨
        t < (({ p with seed := s } : Particle ℝ).sampleNumMfp).numMeanFreePaths} =
      {s | draw s < Real.exp (-t)} := by
    ext s
    simp only [Set.mem_ofPred_eq]
    by_cases h : draw s = 0
    · simp only [h, true_or, true_iff]; exact Real.exp_pos _
    · simp only [h, false_or]
      exact (C36_flight { p with seed := s } h).2 t
  rw [e]
  exact count_draw_lt (Real.exp_pos _).le hle

/-! ## C37 -/

/-- The rest energy of the particle and the speed of light, as set in the program. -/
theorem constants_pos : (0 : ℝ) < Flt.neutronMassEnergy ∧ (0 : ℝ) < Flt.lightSpeed := by
  constructor <;> simp [Flt.neutronMassEnergy, Flt.lightSpeed]

/-- **C37.** A particle at rest has speed 0, any positive energy gives a positive speed below the speed
of light, and more energy gives more speed.  The value is the relativistic one: `v = c √(1 - (m/(E+m))²)`. -/
theorem C37_speed :
    Particle.speedOf (0 : ℝ) = 0 ∧
    (∀ e : ℝ, 0 < e → 0 < Particle.speedOf e ∧ Particle.speedOf e < Flt.lightSpeed) ∧
    (∀ e e' : ℝ, 0 ≤ e → e < e' → Particle.speedOf e < Particle.speedOf e') ∧
    (∀ e : ℝ, 0 ≤ e → Particle.speedOf e =
      Flt.lightSpeed * √(1 - ((Flt.neutronMassEnergy : ℝ) / (e + Flt.neutronMassEnergy)) ^ 2)) := by
  obtain ⟨hm, hc⟩ := constants_pos
  have hv : ∀ e : ℝ, 0 ≤ e → Particle.speedOf e =
      Flt.lightSpeed * √(1 - ((Flt.neutronMassEnergy : ℝ) / (e + Flt.neutronMassEnergy)) ^ 2) := by
    intro e he
    unfold Particle.speedOf
    simp only [FltReal.mul_eq, FltReal.add_eq, FltReal.div_eq, FltReal.sqrt_eq, FltReal.two_eq]
    congr 2
    have : e + Flt.neutronMassEnergy ≠ 0 := by linarith
    field_simp
    ring
  have hlt : ∀ e e' : ℝ, 0 ≤ e → e < e' → Particle.speedOf e < Particle.speedOf e' := by
    intro e e' he h
    rw [hv e he, hv e' (by linarith)]
    apply mul_lt_mul_of_pos_left _ hc
    apply Real.sqrt_lt_sqrt
    · have h1 : (Flt.neutronMassEnergy : ℝ) / (e + Flt.neutronMassEnergy) ≤ 1 := by
        rw [div_le_one (by linarith)]; linarith
      have h2 : (0 : ℝ) ≤ Flt.neutronMassEnergy / (e + Flt.neutronMassEnergy) := by positivity
      nlinarith
    · have h1 : (Flt.neutronMassEnergy : ℝ) / (e' + Flt.neutronMassEnergy) <
          Flt.neutronMassEnergy / (e + Flt.neutronMassEnergy) := by
        apply div_lt_div_of_pos_left hm <;> linarith
      have h2 : (0 : ℝ) ≤ Flt.neutronMassEnergy / (e' + Flt.neutronMassEnergy) := by
        apply div_nonneg hm.le; linarith
      nlinarith
  have h0 : Particle.speedOf (0 : ℝ) = 0 := by
    rw [hv 0 le_rfl, zero_add, div_self hm.ne']
    simp
  refine ⟨h0, fun e he => ⟨by rw [← h0]; exact hlt 0 e le_rfl he, ?_⟩, hlt, hv⟩
  rw [hv e he.le]
  have h1 : (0 : ℝ) < Flt.neutronMassEnergy / (e + Flt.neutronMassEnergy) := by positivity
  calc Flt.lightSpeed * √(1 - ((Flt.neutronMassEnergy : ℝ) / (e + Flt.neutronMassEnergy)) ^ 2)
      < Flt.lightSpeed * 1 := by
        apply mul_lt_mul_of_pos_left _ hc
        rw [Real.sqrt_lt' one_pos]
        nlinarith
    _ = _ := mul_one _

/-- A 1 MeV and a 20 MeV neutron. -/
example : Particle.speedOf (1 : ℝ) < Particle.speedOf 20 := C37_speed.2.2.1 1 20 (by norm_num) (by norm_num)

/-- **C37**, the value in centimetres per second for an energy in MeV: the rest energy is 939.565 MeV and the speed
of light 299792 km/s, and no particle of positive energy reaches the latter. -/
theorem C37_value (e : ℝ) (he : 0 ≤ e) :
    Particle.speedOf e = 29979200000 * √(1 - (939.565 / (e + 939.565)) ^ 2) ∧ Particle.speedOf e < 29979200000 := by
  have hm : (Flt.neutronMassEnergy : ℝ) = 939.565 := by simp [Flt.neutronMassEnergy]; norm_num
  have hc : (Flt.lightSpeed : ℝ) = 29979200000 := by simp [Flt.lightSpeed]; norm_num
  obtain ⟨h0, hlt, _, hv⟩ := C37_speed
  rw [hm, hc] at hv
  rw [hc] at hlt
  refine ⟨hv e he, ?_⟩
  rcases he.eq_or_lt with rfl | h
  · rw [h0]; norm_num
  · exact (hlt e h).2
