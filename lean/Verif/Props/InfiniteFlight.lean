import Verif.Props.Draws
import Verif.Props.NoSource
/-!
# C36: flight lengths with the rounding of the machine

Over the reals a draw of zero has to be set aside.  With `f32` and `f64` it gives an infinite flight, and every other draw
a finite one of at most 45 mean free paths.
-/
open Flt Rng
attribute [local irreducible] Rng.lcg

namespace Num
variable {F : Format}

theorem neg_one_mul_val {a : Num F} :
    (∀ x : ℝ, a.val = some (x : EReal) → (Flt.neg one *. a : Num F).val = some ((-x : ℝ) : EReal)) ∧
    (a.val = some ⊥ → (Flt.neg one *. a : Num F).val = some ⊤) := by
  have h1 : (Flt.neg one : Num F).val = some ((-1 : ℝ) : EReal) := by
    have : (one : Num F).val = some ((1 : ℝ) : EReal) := by
      show some (F.rnd (((1 : ℕ) : ℝ) : EReal)) = _
      have := rnd_int (F := F) (n := 1) (by norm_num) (by norm_num)
      push_cast at this ⊢
      rw [this]
    rw [show (Flt.neg one : Num F).val = (one : Num F).val.map (- ·) from rfl, this]
    simp
  constructor
  · intro x hx
    rw [show (Flt.neg one *. a : Num F).val = _ from mul_val _ _, h1, hx]
    unfold ieeeMul
    dsimp only
    have e : ((-1 : ℝ) : EReal) * (x : EReal) = -(x : EReal) := by
      rw [← EReal.coe_mul, ← EReal.coe_neg]; norm_num
    rw [if_neg, e, F.rnd_neg, a.rep _ hx, EReal.coe_neg]
    rintro (⟨_, h | h⟩ | ⟨_, h | h⟩)
    · exact EReal.coe_ne_top _ h
    · exact EReal.coe_ne_bot _ h
    · exact EReal.coe_ne_top _ h
    · exact EReal.coe_ne_bot _ h
  · intro hx
    rw [show (Flt.neg one *. a : Num F).val = _ from mul_val _ _, h1, hx]
    unfold ieeeMul
    dsimp only
    rw [if_neg (by simp), EReal.coe_mul_bot_of_neg (by norm_num)]
    rfl

theorem ofSeed_zero : (Flt.ofSeed 0 : Num F).val = some ((0 : ℝ) : EReal) := by
  obtain ⟨x, y, z, h1, h2, h3, h4, _⟩ := ofSeed_steps (F := F) 0
  have : y = 0 := by
    rw [show (0 : BitVec 64).toNat = 0 from rfl, Nat.cast_zero, EReal.coe_zero, Format.rnd_zero] at h2
    exact_mod_cast h2.symm
  subst this
  have : z = 0 := by
    rw [mul_zero, EReal.coe_zero, Format.rnd_zero] at h3
    exact_mod_cast h3.symm
  subst this
  rw [EReal.coe_zero, Format.rnd_zero] at h4
  rw [h1, ← h4, EReal.coe_zero]

theorem ofSeed_pos {s : BitVec 64} (hs : s ≠ 0) :
    ∃ x : ℝ, (Flt.ofSeed s : Num F).val = some (x : EReal) ∧ 2 ^ (-64 : ℤ) ≤ x ∧ x ≤ 1 := by
  obtain ⟨x, y, z, h1, h2, h3, h4, _, hx⟩ := ofSeed_steps (F := F) s
  have hn : 1 ≤ s.toNat := by
    rcases Nat.eq_zero_or_pos s.toNat with h | h
    · exact absurd (BitVec.eq_of_toNat_eq (by simpa using h)) hs
    · exact h
  have hs' : (s.toNat : ℝ) ≤ 2 ^ (64 : ℤ) := by
    have h : (s.toNat : ℝ) ≤ ((2 ^ 64 : ℕ) : ℝ) := by exact_mod_cast s.isLt.le
    exact h.trans (by norm_num)
  obtain ⟨y', e1, y0, y1⟩ := rnd_real (F := binary64) (k := 0) (by norm_num) (by norm_num)
    (by rw [zpow_zero]; exact_mod_cast hn) hs'
  obtain rfl : y = y' := by rw [e1] at h2; exact_mod_cast h2.symm
  rw [zpow_zero] at y0
  have b0 : (2 : ℝ) ^ (-64 : ℤ) ≤ 1 / 2 ^ 64 * y := by
    rw [show (2 : ℝ) ^ (-64 : ℤ) = 1 / 2 ^ 64 by norm_num]
    nlinarith [show (0 : ℝ) < 1 / 2 ^ 64 by norm_num]
  have b1 : 1 / 2 ^ 64 * y ≤ 2 ^ (0 : ℤ) := by
    rw [zpow_zero, one_div, inv_mul_le_iff₀ (by positivity)]
    have : (2 : ℝ) ^ (64 : ℤ) = 2 ^ 64 := by norm_num
    linarith
  obtain ⟨z', e2, z0, z1⟩ := rnd_real (F := binary64) (by norm_num) (by norm_num) b0 b1
  obtain rfl : z = z' := by rw [e2] at h3; exact_mod_cast h3.symm
  obtain ⟨x', e3, x0, _⟩ := rnd_real (F := F) (by norm_num) (by norm_num) z0 z1
  obtain rfl : x = x' := by rw [e3] at h4; exact_mod_cast h4.symm
  exact ⟨x, h1, x0, hx⟩

end Num

/-- **C36** (rounded).  In `f32` and `f64` the number of mean free paths of a flight is infinite when the generator reaches
the state 0, which it does from one state only, and otherwise it is a number between 0 and 45. -/
theorem C36_rounded {F : Format} (p : Particle (Num F)) :
    (lcg p.seed = 0 → p.sampleNumMfp.numMeanFreePaths.val = some ⊤) ∧
    (lcg p.seed ≠ 0 → ∃ x : ℝ, p.sampleNumMfp.numMeanFreePaths.val = some (x : EReal) ∧ 0 ≤ x ∧ x ≤ 45) ∧
    ∃! s : BitVec 64, lcg s = 0 := by
  have hval : p.sampleNumMfp.numMeanFreePaths = (Flt.neg one) *. Flt.ln (Flt.ofSeed (lcg p.seed) : Num F) := rfl
  refine ⟨fun h => ?_, fun h => ?_, ?_⟩
  · rw [hval, h]
    refine Num.neg_one_mul_val.2 ?_
    have := Num.lift_coe (f := fun x => if 0 < x then some ((Real.log x : ℝ) : EReal) else if x = 0 then some ⊥ else none)
      (lo := none) (hi := some ⊤) (Num.ofSeed_zero (F := F))
    refine this.trans ?_
    simp
    rfl
  · obtain ⟨x, h1, h2, h3⟩ := Num.ofSeed_pos (F := F) h
    have hx : 0 < x := lt_of_lt_of_le (by positivity) h2
    have hl := Num.lift_coe (f := fun x => if 0 < x then some ((Real.log x : ℝ) : EReal) else if x = 0 then some ⊥ else none)
      (lo := none) (hi := some ⊤) h1
    rw [if_pos hx] at hl
    have a := Real.log_le_log (by positivity) h2
    rw [Real.log_zpow] at a
    have l2 := Real.log_two_lt_d9
    have b := Real.log_nonpos hx.le h3
    push_cast at a
    obtain ⟨y, hy, y0, y1⟩ := Num.rnd_ints (F := F) (x := Real.log x) (m := -45) (n := 0) (by norm_num) (by norm_num)
      (by push_cast; linarith) (by push_cast; linarith)
    push_cast at y0 y1
    refine ⟨-y, ?_, by linarith, by linarith⟩
    rw [hval]
    exact Num.neg_one_mul_val.1 y (hl.trans (by simp [hy]))
  · obtain ⟨s, hs⟩ := lcg_surjective 0
    exact ⟨s, hs, fun t ht => lcg_injective (ht.trans hs.symm)⟩

/-- **C36** (infinite flight).  A particle with an infinite number of mean free paths does not collide: a segment that is not
forced ends on a facet or at census, and the number stays infinite. -/
theorem C36_never_collides {F : Format} {p : Particle (Num F)} (hinf : p.numMeanFreePaths.val = some ⊤)
    {m c : ℝ} (hm : p.meanFreePath.val = some (m : EReal)) (hm0 : 2 ^ (-20 : ℤ) ≤ m)
    {speed : Num F} (hc : (speed *. p.timeToCensus).val = some (c : EReal)) (hc0 : c ≤ 2 ^ (70 : ℤ))
    (hhuge : ((speed *. p.timeToCensus) <. (Flt.huge : Num F)) = true)
    {nf : NearestFacet (Num F)} {o : SegOutcome} {r : Particle (Num F)}
    (h : applyOutcome p speed false nf = .ok (o, r)) : o ≠ .collision ∧ r.numMeanFreePaths.val = some ⊤ := by
  have hmpos : 0 < m := lt_of_lt_of_le (by positivity) hm0
  have hcol : (p.numMeanFreePaths *. p.meanFreePath).val = some ⊤ := by
    rw [show (p.numMeanFreePaths *. p.meanFreePath).val = _ from Num.mul_val _ _, hinf, hm]
    unfold ieeeMul
    dsimp only
    rw [if_neg (by simp [hmpos.ne']), EReal.top_mul_coe_of_pos hmpos]
    rfl
  have hlt : ((p.numMeanFreePaths *. p.meanFreePath) <. (Flt.huge : Num F)) = false := by
    rw [← Bool.not_eq_true]
    intro hh
    obtain ⟨x, y, h1, _, h3⟩ := (Num.cmp_iff _ _ _).1 hh
    rw [hcol] at h1
    cases h1
    exact not_top_lt h3
  -- the number that is left after a flight of a length up to `c`
  have hleft : ∀ (d : Num F) (x : ℝ), d.val = some (x : EReal) → 0 ≤ x → x ≤ c →
      (p.numMeanFreePaths -. d /. p.meanFreePath).val = some ⊤ := by
    intro d x hd x0 x1
    obtain ⟨y, hy⟩ : ∃ y : ℝ, (d /. p.meanFreePath).val = some (y : EReal) := by
      rw [show (d /. p.meanFreePath).val = _ from Num.div_val _ _ (by rw [hm]; simp [hmpos.ne']), hd, hm]
      have hq0 : 0 ≤ x / m := div_nonneg x0 hmpos.le
      have hq1 : x / m ≤ 2 ^ (90 : ℤ) := by
        rw [div_le_iff₀ hmpos]
        calc x ≤ 2 ^ (70 : ℤ) := x1.trans hc0
          _ = 2 ^ (90 : ℤ) * 2 ^ (-20 : ℤ) := by norm_num
          _ ≤ 2 ^ (90 : ℤ) * m := by gcongr
      obtain ⟨t, ht, _, _⟩ := Num.rnd_real (F := F) (k := 90) (m := 90) (x := (2 : ℝ) ^ (90 : ℤ)) (by norm_num) (by norm_num)
        le_rfl le_rfl
      have m0 : (0 : EReal) ≤ F.rnd ((x / m : ℝ) : EReal) := by
        rw [← Num.rnd_zero' (F := F)]; exact F.rnd_mono (by exact_mod_cast hq0)
      have m1 : F.rnd ((x / m : ℝ) : EReal) ≤ t := by
        rw [← ht]; exact F.rnd_mono (by exact_mod_cast hq1)
      refine ⟨(F.rnd ((x / m : ℝ) : EReal)).toReal, ?_⟩
      unfold ieeeDiv
      dsimp only
      rw [if_neg (by simp), ← EReal.coe_div, EReal.coe_toReal]
      · exact fun e => EReal.coe_ne_top t (top_le_iff.1 (e ▸ m1))
      · intro e; rw [e] at m0; simp at m0
    rw [show (p.numMeanFreePaths -. d /. p.meanFreePath).val = _ from Num.add_val _ _,
      show (Num.opp (d /. p.meanFreePath)).val = (d /. p.meanFreePath).val.map (- ·) from rfl, hy, hinf]
    unfold ieeeAdd
    simp only [Option.map_some]
    rw [if_neg (by simp), ← EReal.coe_neg, EReal.top_add_coe]
    rfl
  simp only [applyOutcome, bind_ok, assertB_ok, DistanceHandler.update, DistanceHandler.default, hlt, hhuge,
    Bool.false_eq_true, if_false, if_true] at h
  obtain ⟨_, hpos, h⟩ := h
  -- the length of the segment
  have hlen : ∀ d : Num F, (d >=. zero) = true → (d = speed *. p.timeToCensus ∨ (d <. (speed *. p.timeToCensus)) = true) →
      ∃ x : ℝ, d.val = some (x : EReal) ∧ 0 ≤ x ∧ x ≤ c := by
    intro d h0 h1
    obtain ⟨z, e, hz, he, hze⟩ := (Num.cmp_iff _ _ _).1 h0
    have : z = 0 := by
      have e0 : (zero : Num F).val = some (F.rnd (((0 : ℕ) : ℝ) : EReal)) := rfl
      rw [Nat.cast_zero, EReal.coe_zero, Num.rnd_zero'] at e0
      rw [e0] at hz
      exact (Option.some.inj hz).symm
    subst this
    have hec : e ≤ (c : EReal) := by
      rcases h1 with rfl | h1
      · rw [hc] at he; exact (Option.some.inj he).ge
      · obtain ⟨a, b, ha, hb, hab⟩ := (Num.cmp_iff _ _ _).1 h1
        rw [ha] at he
        rw [hc] at hb
        cases he; cases hb
        exact hab.le
    have n1 : e ≠ ⊤ := fun h => EReal.coe_ne_top c (top_le_iff.1 (h ▸ hec))
    have n2 : e ≠ ⊥ := fun h => by rw [h] at hze; simp at hze
    refine ⟨e.toReal, by rw [EReal.coe_toReal n1 n2]; exact he, ?_, ?_⟩
    · exact EReal.toReal_nonneg hze
    · have := EReal.toReal_le_toReal hec n2 (EReal.coe_ne_top c)
      simpa using this
  by_cases hf : (nf.distanceToFacet <. (speed *. p.timeToCensus)) = true
  · simp only [hf, if_true] at h hpos
    obtain ⟨x, hx, x0, x1⟩ := hlen _ hpos (.inr hf)
    have := hleft _ x hx x0 x1
    split at h <;> (simp only [pure_ok, Prod.mk.injEq] at h; obtain ⟨rfl, rfl⟩ := h; exact ⟨by simp, this⟩)
  · simp only [hf, Bool.false_eq_true, if_false] at h hpos
    obtain ⟨x, hx, x0, x1⟩ := hlen _ hpos (.inl rfl)
    have := hleft _ x hx x0 x1
    split at h <;> (simp only [pure_ok, Prod.mk.injEq] at h; obtain ⟨rfl, rfl⟩ := h; exact ⟨by simp, this⟩)

/-- A case: the generator is in the state before 0 when the path is drawn, and the particle then reaches a facet. -/
example (F : Format) (hF : 1 ≤ F.huge) (p : Particle (Num F)) : ∃ (q : Particle (Num F)) (o : SegOutcome) (r : Particle (Num F)),
    q.numMeanFreePaths.val = some ⊤ ∧ q.meanFreePath.val = some ((1 : ℝ) : EReal) ∧
    (one *. q.timeToCensus).val = some ((1 : ℝ) : EReal) ∧
    ((one *. q.timeToCensus) <. (Flt.huge : Num F)) = true ∧
    applyOutcome q one false ⟨0, zero, zero⟩ = .ok (o, r) := by
  obtain ⟨s, hs, _⟩ := (C36_rounded p).2.2
  have h1 := (C36_rounded { p with seed := s }).1 hs
  have one_val : (one : Num F).val = some ((1 : ℝ) : EReal) := by
    show some (F.rnd (((1 : ℕ) : ℝ) : EReal)) = _
    have := Num.rnd_int (F := F) (n := 1) (by norm_num) (by norm_num)
    push_cast at this ⊢
    rw [this]
  have zero_val : (zero : Num F).val = some ((0 : ℝ) : EReal) := by
    show some (F.rnd (((0 : ℕ) : ℝ) : EReal)) = _
    rw [Nat.cast_zero, EReal.coe_zero, Num.rnd_zero']
  have hmul : (one *. (one : Num F)).val = some ((1 : ℝ) : EReal) := by
    rw [show (one *. (one : Num F)).val = _ from Num.mul_val _ _, one_val]
    unfold ieeeMul
    dsimp only
    rw [if_neg (by simp), ← EReal.coe_mul, one_mul, (one : Num F).rep _ one_val]
  have hhuge : ((one *. (one : Num F)) <. (Flt.huge : Num F)) = true := by
    refine (Num.cmp_iff _ _ _).2 ⟨_, _, hmul, rfl, ?_⟩
    have h10 : (10 : ℝ) ≤ 10 ^ F.huge := le_self_pow₀ (by norm_num) (by omega)
    have h2 := F.rnd_mono (EReal.coe_le_coe_iff.2 h10)
    have h3 := Num.rnd_int (F := F) (n := 10) (by norm_num) (by norm_num)
    push_cast at h3
    rw [h3] at h2
    exact lt_of_lt_of_le (by exact_mod_cast (by norm_num : (1 : ℝ) < 10)) h2
  set q : Particle (Num F) := { (({ p with seed := s } : Particle (Num F)).sampleNumMfp) with
    meanFreePath := one, timeToCensus := one } with hq
  have hlt : ((q.numMeanFreePaths *. q.meanFreePath) <. (Flt.huge : Num F)) = false := by
    rw [← Bool.not_eq_true]
    intro hh
    obtain ⟨x, y, g1, _, g3⟩ := (Num.cmp_iff _ _ _).1 hh
    have : (q.numMeanFreePaths *. q.meanFreePath).val = some ⊤ := by
      rw [show (q.numMeanFreePaths *. q.meanFreePath).val = _ from Num.mul_val _ _, show q.numMeanFreePaths.val = _ from h1,
        show q.meanFreePath.val = _ from one_val]
      unfold ieeeMul
      dsimp only
      rw [if_neg (by simp), EReal.top_mul_coe_of_pos (by norm_num)]
      rfl
    rw [this] at g1
    cases g1
    exact not_top_lt g3
  have hf : ((zero : Num F) <. (one *. (one : Num F))) = true :=
    (Num.cmp_iff _ _ _).2 ⟨_, _, zero_val, hmul, by exact_mod_cast (by norm_num : (0 : ℝ) < 1)⟩
  have hz : ((zero : Num F) >=. zero) = true := (Num.cmp_iff _ _ _).2 ⟨_, _, zero_val, zero_val, le_rfl⟩
  have he : ((zero : Num F) ==. zero) = true := (Num.cmp_iff _ _ _).2 ⟨_, _, zero_val, zero_val, rfl⟩
  refine ⟨q, .facetCrossing, ?_⟩
  suffices h : ∃ r, applyOutcome q one false ⟨0, zero, zero⟩ = .ok (.facetCrossing, r) by
    obtain ⟨r, hr⟩ := h
    exact ⟨r, h1, one_val, hmul, hhuge, hr⟩
  have hhuge' : ((one *. q.timeToCensus) <. (Flt.huge : Num F)) = true := hhuge
  have hf' : ((zero : Num F) <. (one *. q.timeToCensus)) = true := hf
  clear hq
  clear_value q
  simp only [applyOutcome, DistanceHandler.update, DistanceHandler.default, hlt, hhuge', hf', Bool.false_eq_true, if_false,
    if_true, hz, he, assertB]
  exact ⟨_, rfl⟩
