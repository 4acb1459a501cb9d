import Verif.Spec.Rounding
import Verif.Lemmas.Binary
/-!
The rounding error of one addition, and of a sum.
-/
open Flt

theorem roundEven_near (q : ℝ) : |(roundEven q : ℝ) - q| ≤ 1 / 2 := by
  have h := Int.floor_add_fract q
  have h0 := Int.fract_nonneg q
  have h1 := Int.fract_lt_one q
  unfold roundEven
  split_ifs <;> rw [abs_le] <;> push_cast <;> constructor <;> linarith

namespace Format
variable {F : Format}

theorem eps_pos : 0 < F.eps := by unfold eps; positivity

theorem eps_le : F.eps ≤ 1 / 2 ^ 24 := by
  unfold eps
  have : (2 : ℝ) ^ 24 ≤ 2 ^ F.prec := pow_le_pow_right₀ (by norm_num) F.prec_ge
  gcongr

theorem drift_nonneg (n : ℕ) : 0 ≤ F.drift n := by
  unfold drift
  have := one_le_pow₀ (a := 1 + F.eps) (by have := F.eps_pos; linarith) (n := n)
  linarith

theorem drift_mono {m n : ℕ} (h : m ≤ n) : F.drift m ≤ F.drift n := by
  unfold drift
  have := pow_le_pow_right₀ (a := 1 + F.eps) (by have := F.eps_pos; linarith) h
  linarith

/-- The rounding is off by at most half a unit of the last digit. -/
theorem round_near (x : ℝ) : |F.round x - x| ≤ 2 ^ F.ulp x / 2 := by
  have h := roundEven_near (x / 2 ^ F.ulp x)
  have hp : (0 : ℝ) < 2 ^ F.ulp x := by positivity
  have e : F.round x - x = ((roundEven (x / 2 ^ F.ulp x) : ℝ) - x / 2 ^ F.ulp x) * 2 ^ F.ulp x := by
    unfold round
    rw [sub_mul, div_mul_cancel₀ _ hp.ne']
  rw [e, abs_mul, abs_of_pos hp]
  calc _ ≤ 1 / 2 * (2 : ℝ) ^ F.ulp x := by gcongr
    _ = _ := by ring

/-- A multiple of the smallest number is rounded with a relative error of at most `eps`: there is no underflow. -/
theorem round_rel {x : ℝ} {k : ℤ} (hk : x = k * 2 ^ F.low) : |F.round x - x| ≤ F.eps * |x| := by
  by_cases h0 : x = 0
  · rw [h0, round_zero]; simp
  by_cases hu : F.ulp x ≤ F.low
  · rw [round_of_ulp hk hu, sub_self, abs_zero]
    have := F.eps_pos
    positivity
  · have hulp : F.ulp x = Int.log 2 |x| - (F.prec - 1) := by
      unfold ulp at hu ⊢
      omega
    have hl := Int.zpow_log_le_self (b := 2) (by norm_num) (abs_pos.2 h0)
    push_cast at hl
    refine (round_near x).trans ?_
    rw [hulp, eps, zpow_sub₀ (by norm_num), zpow_sub₀ (by norm_num), zpow_natCast, zpow_one]
    have hp : (0 : ℝ) < 2 ^ F.prec := by positivity
    rw [show (2 : ℝ) ^ Int.log 2 |x| / (2 ^ F.prec / 2) / 2 = 1 / 2 ^ F.prec * 2 ^ Int.log 2 |x| by field_simp]
    gcongr

/-- Numbers of the format are multiples of the smallest one, and so are their sums. -/
theorem Fits.multiple {y : ℝ} (h : F.Fits y) : ∃ k : ℤ, y = k * 2 ^ F.low := by
  obtain ⟨m, e, _, he, rfl⟩ := h
  refine ⟨m * 2 ^ (e - F.low).toNat, ?_⟩
  push_cast
  rw [mul_assoc, ← zpow_natCast, Int.toNat_of_nonneg (by omega), ← zpow_add₀ (by norm_num)]
  congr 2
  omega

theorem Fits.sum_rel {x y : ℝ} (hx : F.Fits x) (hy : F.Fits y) : |F.round (x + y) - (x + y)| ≤ F.eps * |x + y| := by
  obtain ⟨a, ha⟩ := hx.multiple
  obtain ⟨b, hb⟩ := hy.multiple
  exact round_rel (k := a + b) (by rw [ha, hb]; push_cast; ring)

end Format

namespace Num
variable {F : Format}

theorem Finite.val {a : Num F} (h : a.Finite) : a.val = some ((a.real : ℝ) : EReal) := by
  obtain ⟨x, hx⟩ := h
  unfold real
  rw [hx]
  simp

theorem real_eq {a : Num F} {x : ℝ} (h : a.val = some (x : EReal)) : a.real = x := by
  unfold real
  rw [h]
  simp

theorem Finite.fits {a : Num F} (h : a.Finite) : F.Fits a.real ∧ |a.real| ≤ F.top :=
  Format.fits_of_rnd (a.rep _ h.val)

/-- A sum is finite exactly when its terms are and the rounded sum is not beyond the largest number; it is then
the rounding of the exact sum. -/
theorem add_finite {a b : Num F} :
    (a +. b).Finite ↔ a.Finite ∧ b.Finite ∧ |F.round (a.real + b.real)| ≤ F.top := by
  have hv := Num.add_val a b
  change (a +. b).val = _ at hv
  constructor
  · rintro ⟨x, hx⟩
    rw [hv] at hx
    unfold ieeeAdd at hx
    split at hx
    · next s t hs ht =>
      split_ifs at hx with hc
      have hx := Option.some.inj hx
      have hsum : s ≠ ⊤ ∧ s ≠ ⊥ ∧ t ≠ ⊤ ∧ t ≠ ⊥ := by
        refine ⟨?_, ?_, ?_, ?_⟩ <;> rintro rfl
        · have : t ≠ ⊥ := fun e => hc (.inl ⟨rfl, e⟩)
          rw [EReal.top_add_of_ne_bot this, F.rnd_top] at hx
          exact EReal.coe_ne_top x hx.symm
        · rw [EReal.bot_add, F.rnd_bot] at hx
          exact EReal.coe_ne_bot x hx.symm
        · have : s ≠ ⊥ := fun e => hc (.inr ⟨e, rfl⟩)
          rw [EReal.add_top_of_ne_bot this, F.rnd_top] at hx
          exact EReal.coe_ne_top x hx.symm
        · rw [EReal.add_bot, F.rnd_bot] at hx
          exact EReal.coe_ne_bot x hx.symm
      obtain ⟨h1, h2, h3, h4⟩ := hsum
      lift s to ℝ using ⟨h1, h2⟩
      lift t to ℝ using ⟨h3, h4⟩
      refine ⟨⟨s, hs⟩, ⟨t, ht⟩, ?_⟩
      rw [real_eq hs, real_eq ht]
      rw [← EReal.coe_add, F.rnd_coe] at hx
      unfold Format.clamp at hx
      split_ifs at hx with g1 g2
      · exact absurd hx.symm (EReal.coe_ne_top x)
      · exact absurd hx.symm (EReal.coe_ne_bot x)
      · exact abs_le.2 ⟨by linarith, by linarith⟩
    · cases hx
  · rintro ⟨ha, hb, ht⟩
    refine ⟨F.round (a.real + b.real), ?_⟩
    rw [hv, ha.val, hb.val]
    unfold ieeeAdd
    dsimp only
    rw [if_neg (by simp), ← EReal.coe_add, F.rnd_coe]
    rw [abs_le] at ht
    unfold Format.clamp
    rw [if_neg (by linarith), if_neg (by linarith)]

theorem add_real {a b : Num F} (h : (a +. b).Finite) : (a +. b).real = F.round (a.real + b.real) := by
  obtain ⟨ha, hb, ht⟩ := add_finite.1 h
  refine real_eq ?_
  have hv := Num.add_val a b
  change (a +. b).val = _ at hv
  rw [hv, ha.val, hb.val]
  unfold ieeeAdd
  dsimp only
  rw [if_neg (by simp), ← EReal.coe_add, F.rnd_coe]
  rw [abs_le] at ht
  unfold Format.clamp
  rw [if_neg (by linarith), if_neg (by linarith)]

theorem add_error {a b : Num F} (h : (a +. b).Finite) :
    |(a +. b).real - (a.real + b.real)| ≤ F.eps * |a.real + b.real| := by
  obtain ⟨ha, hb, _⟩ := add_finite.1 h
  rw [add_real h]
  exact ha.fits.1.sum_rel hb.fits.1

theorem foldl_finite {l : List (Num F)} {a : Num F} (h : (l.foldl Flt.add a).Finite) :
    a.Finite ∧ ∀ b ∈ l, b.Finite := by
  induction l generalizing a with
  | nil => exact ⟨h, by simp⟩
  | cons b l ih =>
    obtain ⟨h1, h2⟩ := ih h
    obtain ⟨ha, hb, _⟩ := add_finite.1 h1
    refine ⟨ha, fun c hc => ?_⟩
    rcases List.mem_cons.1 hc with rfl | hc
    · exact hb
    · exact h2 c hc

theorem foldl_error {l : List (Num F)} {a : Num F} (h : (l.foldl Flt.add a).Finite) :
    |(l.foldl Flt.add a).real - (a.real + exactSum l)| ≤ F.drift l.length * (|a.real| + exactMass l) := by
  induction l generalizing a with
  | nil => simp [exactSum, exactMass, Format.drift]
  | cons b l ih =>
    have hab := (foldl_finite (l := l) h).1
    have h1 := ih h
    have h2 := add_error hab
    have he := F.eps_pos
    have hd := F.drift_nonneg l.length
    have hm : 0 ≤ exactMass l := List.sum_nonneg (by
      intro x hx
      obtain ⟨c, _, rfl⟩ := List.mem_map.1 hx
      exact abs_nonneg _)
    have h3 : |(a +. b).real| ≤ (1 + F.eps) * (|a.real| + |b.real|) := by
      have e : (a +. b).real = ((a +. b).real - (a.real + b.real)) + (a.real + b.real) := by ring
      have t := abs_add_le a.real b.real
      rw [e]
      refine (abs_add_le _ _).trans ?_
      nlinarith
    have hs : exactSum (b :: l) = b.real + exactSum l := by simp [exactSum]
    have hM : exactMass (b :: l) = |b.real| + exactMass l := by simp [exactMass]
    rw [hs, hM]
    have e : (List.foldl Flt.add a (b :: l)).real - (a.real + (b.real + exactSum l)) =
        ((l.foldl Flt.add (a +. b)).real - ((a +. b).real + exactSum l)) + ((a +. b).real - (a.real + b.real)) := by
      change (l.foldl Flt.add (a +. b)).real - _ = _
      ring
    rw [e]
    refine (abs_add_le _ _).trans ?_
    have hd' : F.drift (b :: l).length = F.drift l.length * (1 + F.eps) + F.eps := by
      unfold Format.drift
      rw [List.length_cons, pow_succ]; ring
    rw [hd']
    have t := abs_add_le a.real b.real
    have p1 : F.drift l.length * |(a +. b).real| ≤ F.drift l.length * ((1 + F.eps) * (|a.real| + |b.real|)) := by gcongr
    have p2 : F.eps * |a.real + b.real| ≤ F.eps * (|a.real| + |b.real|) := by gcongr
    have p3 : 0 ≤ F.drift l.length * F.eps * exactMass l := by positivity
    have p4 : 0 ≤ F.eps * exactMass l := by positivity
    nlinarith

/-- Sums of numbers that are not negative: each addition is off by a factor of at most `1 ± eps`. -/
theorem foldl_ratio {l : List (Num F)} {a : Num F} (h : (l.foldl Flt.add a).Finite) (ha : 0 ≤ a.real)
    (hl : ∀ b ∈ l, 0 ≤ b.real) :
    (1 - F.eps) ^ l.length * (a.real + exactSum l) ≤ (l.foldl Flt.add a).real ∧
    (l.foldl Flt.add a).real ≤ (1 + F.eps) ^ l.length * (a.real + exactSum l) := by
  induction l generalizing a with
  | nil => simp [exactSum]
  | cons b l ih =>
    have hab := (foldl_finite (l := l) h).1
    have h2 := add_error hab
    have hb : 0 ≤ b.real := hl b (by simp)
    have he := F.eps_pos
    have he1 := F.eps_le
    rw [abs_of_nonneg (by linarith : 0 ≤ a.real + b.real), abs_le] at h2
    have he2 : F.eps ≤ 1 := he1.trans (by norm_num)
    have hab0 : 0 ≤ (a +. b).real := by nlinarith
    obtain ⟨i1, i2⟩ := ih h hab0 (fun c hc => hl c (List.mem_cons_of_mem _ hc))
    have hs : exactSum (b :: l) = b.real + exactSum l := by simp [exactSum]
    have hS : 0 ≤ exactSum l := List.sum_nonneg (by
      intro x hx
      obtain ⟨c, hc, rfl⟩ := List.mem_map.1 hx
      exact hl c (List.mem_cons_of_mem _ hc))
    rw [hs, List.length_cons, pow_succ, pow_succ]
    have q0 : 0 ≤ (1 - F.eps) ^ l.length := pow_nonneg (by linarith) _
    have q1 : 0 ≤ (1 + F.eps) ^ l.length := pow_nonneg (by linarith) _
    have r0 : (1 - F.eps) * (a.real + (b.real + exactSum l)) ≤ (a +. b).real + exactSum l := by nlinarith
    have r1 : (a +. b).real + exactSum l ≤ (1 + F.eps) * (a.real + (b.real + exactSum l)) := by nlinarith
    constructor
    · calc _ = (1 - F.eps) ^ l.length * ((1 - F.eps) * (a.real + (b.real + exactSum l))) := by ring
        _ ≤ (1 - F.eps) ^ l.length * ((a +. b).real + exactSum l) := by gcongr
        _ ≤ _ := i1
    · calc _ ≤ (1 + F.eps) ^ l.length * ((a +. b).real + exactSum l) := i2
        _ ≤ (1 + F.eps) ^ l.length * ((1 + F.eps) * (a.real + (b.real + exactSum l))) := by gcongr
        _ = _ := by ring

/-- A sum that stays below the largest number is finite, in any order. -/
theorem foldl_no_overflow {l : List (Num F)} {a : Num F} (ha : a.Finite) (hl : ∀ b ∈ l, b.Finite)
    (h : (1 + F.eps) ^ l.length * (|a.real| + exactMass l) ≤ F.top) : (l.foldl Flt.add a).Finite := by
  induction l generalizing a with
  | nil => exact ha
  | cons b l ih =>
    have he := F.eps_pos
    have hb := hl b (by simp)
    have hm : 0 ≤ exactMass l := List.sum_nonneg (by
      intro x hx
      obtain ⟨c, _, rfl⟩ := List.mem_map.1 hx
      exact abs_nonneg _)
    have hM : exactMass (b :: l) = |b.real| + exactMass l := by simp [exactMass]
    rw [hM, List.length_cons, pow_succ] at h
    have hr : |F.round (a.real + b.real)| ≤ (1 + F.eps) * (|a.real| + |b.real|) := by
      have h2 := ha.fits.1.sum_rel hb.fits.1
      have e : F.round (a.real + b.real) = (F.round (a.real + b.real) - (a.real + b.real)) + (a.real + b.real) := by ring
      have t := abs_add_le a.real b.real
      rw [e]
      refine (abs_add_le _ _).trans ?_
      nlinarith
    have hp1 : 1 ≤ (1 + F.eps) ^ l.length := one_le_pow₀ (by linarith)
    have hstep : (1 + F.eps) ^ l.length * ((1 + F.eps) * (|a.real| + |b.real|) + exactMass l) ≤ F.top := by
      refine le_trans ?_ h
      have : (1 + F.eps) * (|a.real| + |b.real|) + exactMass l ≤ (1 + F.eps) * (|a.real| + (|b.real| + exactMass l)) := by
        nlinarith
      calc _ ≤ (1 + F.eps) ^ l.length * ((1 + F.eps) * (|a.real| + (|b.real| + exactMass l))) := by gcongr
        _ = _ := by ring
    have hfin : (a +. b).Finite := by
      refine add_finite.2 ⟨ha, hb, hr.trans ?_⟩
      refine le_trans ?_ hstep
      have h0 : 0 ≤ (1 + F.eps) * (|a.real| + |b.real|) + exactMass l := by positivity
      nlinarith
    refine ih hfin (fun c hc => hl c (List.mem_cons_of_mem _ hc)) ?_
    refine le_trans ?_ hstep
    rw [← add_real hfin] at hr
    gcongr

end Num
