import Verif.Lemmas.RelError
import Verif.Model.Report
import Mathlib.Tactic.Positivity
/-!
# Rounding errors of the ratings of the timers
-/
open Flt
namespace Ieee
variable {T : Type} [Flt T] [Ieee T]

theorem rel_nat {n : ℕ} (hn : n ≤ 2 ^ 60) : Rel (Flt.ofNat n : T) n 1 := by
  have hm : Mid (n : ℝ) := by
    rcases Nat.eq_zero_or_pos n with h | h
    · left; exact_mod_cast h
    · right
      have h1 : (1 : ℝ) ≤ n := by exact_mod_cast h
      have h2 : (n : ℝ) ≤ 2 ^ 60 := by exact_mod_cast hn
      refine ⟨le_trans (by norm_num) h1, h2.trans (by norm_num)⟩
  obtain ⟨z, hz, z0, z1⟩ := rnd_mid (T := T) (k := 0) (w := n) hm (by norm_num) (by simp) (by simp)
  exact ⟨z, fin_of_rnd (val_ofNat n) hz, z0, z1⟩

/-- The exact number of seconds of a number of nanoseconds is far from the limits of the format. -/
theorem mid_seconds {n : ℕ} (hn : n ≤ 2 ^ 60) : Mid ((n : ℝ) / 10 ^ 9) := by
  rcases Nat.eq_zero_or_pos n with h | h
  · left; simp [h]
  · right
    have h1 : (1 : ℝ) ≤ n := by exact_mod_cast h
    have h2 : (n : ℝ) ≤ 2 ^ 60 := by exact_mod_cast hn
    refine ⟨?_, ?_⟩
    · rw [le_div_iff₀ (by positivity)]
      exact le_trans (by norm_num) h1
    · rw [div_le_iff₀ (by positivity)]
      exact h2.trans (by norm_num)

theorem seconds_rel {d : ℕ} (hd : d ≤ 2 ^ 60) : Rel (asSecs d : T) (d / 10 ^ 9) 4 := by
  have h1 : d / 10 ^ 9 ≤ 2 ^ 60 := (Nat.div_le_self _ _).trans hd
  have h2 : d % 10 ^ 9 ≤ 2 ^ 60 := (Nat.mod_le _ _).trans hd
  have q : ((10 ^ 9 : ℕ) : ℝ) = 10 ^ 9 := by norm_num
  have hb := Rel.div (rel_nat (T := T) h2) (rel_nat (T := T) (n := 10 ^ 9) (by norm_num)) (Nat.cast_nonneg _)
    (by rw [q]; positivity) (by rw [q]; exact mid_seconds h2) (by norm_num)
  have e : ((d / 10 ^ 9 : ℕ) : ℝ) + ((d % 10 ^ 9 : ℕ) : ℝ) / ((10 ^ 9 : ℕ) : ℝ) = d / 10 ^ 9 := by
    have h : ((10 ^ 9 * (d / 10 ^ 9) + d % 10 ^ 9 : ℕ) : ℝ) = d := by rw [Nat.div_add_mod]
    rw [q, ← h]
    push_cast
    ring
  have := Rel.add ((rel_nat (T := T) h1).mono (Nat.cast_nonneg _) (by norm_num : 1 ≤ 3)) hb
    (by rw [e]; exact mid_seconds hd) (by norm_num)
  rw [e] at this
  exact this

/-- The number that keeps the divisor away from zero. -/
theorem guard_small : ∃ t : ℝ, IsFin (Flt.lit 1 (-80) : T) t ∧ 0 ≤ t ∧ t ≤ 2 ^ (-100 : ℤ) := by
  have h0 := rndLit_exact (T := T) 0 0 (by norm_num) (by norm_num) (by norm_num)
  have h1 := rndLit_exact (T := T) 1 (-100) (by norm_num) (by norm_num) (by norm_num)
  have m0 := rndLit_mono (T := T) (a := (((0 : ℕ) : ℝ) * 2 ^ (0 : ℤ) : ℝ)) (b := (((1 : ℕ) : ℝ) * 10 ^ (-80 : ℤ) : ℝ))
    (by rw [EReal.coe_le_coe_iff]; norm_num)
  have m1 := rndLit_mono (T := T) (a := (((1 : ℕ) : ℝ) * 10 ^ (-80 : ℤ) : ℝ)) (b := (((1 : ℕ) : ℝ) * 2 ^ (-100 : ℤ) : ℝ))
    (by rw [EReal.coe_le_coe_iff]; norm_num)
  rw [h0] at m0
  rw [h1] at m1
  have hv := val_lit (T := T) 1 (-80)
  generalize rndLit T (((1 : ℕ) : ℝ) * 10 ^ (-80 : ℤ) : ℝ) = z at m0 m1 hv
  induction z using EReal.rec with
  | bot => simp at m0
  | top => simp at m1
  | coe t =>
    rw [EReal.coe_le_coe_iff] at m0 m1
    exact ⟨t, hv, by simpa using m0, by simpa using m1⟩

theorem efficiency_rel {x : SectionTimer} (hle : x.avg ≤ x.max) (h0 : 0 < x.max) (hm : x.max ≤ 2 ^ 60) :
    Rel (efficiency x : T) (100 * (x.avg / x.max)) 12 := by
  have ha := seconds_rel (T := T) (hle.trans hm)
  obtain ⟨u, hu, u1, u2⟩ := seconds_rel (T := T) hm
  obtain ⟨t, ht, t0, t1⟩ := guard_small (T := T)
  have hm1 : (1 : ℝ) ≤ x.max := by exact_mod_cast h0
  have hm2 : (x.max : ℝ) ≤ 2 ^ 60 := by exact_mod_cast hm
  have hmpos : (0 : ℝ) < x.max / 10 ^ 9 := by positivity
  have p4 := pow_pos rho_pos 4
  have r4 : 1 ≤ rho ^ 4 := one_le_pow₀ rho_one
  obtain ⟨z, hz, z0, z1⟩ := rnd_mid (T := T) (k := 5) (w := u + t) (mid_seconds hm) (by norm_num)
    (by
      have : (x.max : ℝ) / 10 ^ 9 / rho ^ 5 ≤ x.max / 10 ^ 9 / rho ^ 4 :=
        div_le_div_of_nonneg_left hmpos.le p4 (pow_le_pow_right₀ rho_one (by norm_num))
      linarith)
    (by
      have e : (x.max : ℝ) / 10 ^ 9 * rho ^ 5 = x.max / 10 ^ 9 * rho ^ 4 + x.max / 10 ^ 9 * rho ^ 4 * 2 ^ (-22 : ℤ) := by
        have : rho ^ 5 = rho ^ 4 * (1 + 2 ^ (-22 : ℤ)) := pow_succ rho 4
        rw [this, mul_add, mul_add, mul_one, ← mul_assoc]
      have : (2 : ℝ) ^ (-100 : ℤ) ≤ x.max / 10 ^ 9 * rho ^ 4 * 2 ^ (-22 : ℤ) := by
        calc (2 : ℝ) ^ (-100 : ℤ) ≤ 1 / 10 ^ 9 * 1 * 2 ^ (-22 : ℤ) := by norm_num
          _ ≤ x.max / 10 ^ 9 * rho ^ 4 * 2 ^ (-22 : ℤ) := by gcongr
      rw [e]
      exact add_le_add u2 (t1.trans this))
  have hd : Rel ((asSecs x.max : T) +. Flt.lit 1 (-80)) (x.max / 10 ^ 9) 6 :=
    ⟨z, fin_of_rnd (fin_add hu ht) hz, z0, z1⟩
  have hh : Rel (Flt.lit 100 0 : T) 100 0 := by
    have := isI_lit (T := T) (m := 100) (by norm_num)
    exact IsFin.rel (by simpa [IsI] using this)
  have ha0 : (0 : ℝ) ≤ x.avg / 10 ^ 9 := by positivity
  have hma : (x.avg : ℝ) ≤ x.max := by exact_mod_cast hle
  have hn := Rel.mul hh ha (by norm_num) ha0
    (by
      rcases Nat.eq_zero_or_pos x.avg with h | h
      · left; simp [h]
      · right
        have h1 : (1 : ℝ) ≤ x.avg := by exact_mod_cast h
        refine ⟨?_, ?_⟩
        · calc (2 : ℝ) ^ (-60 : ℤ) ≤ 100 * (1 / 10 ^ 9) := by norm_num
            _ ≤ 100 * ((x.avg : ℝ) / 10 ^ 9) := by gcongr
        · calc 100 * ((x.avg : ℝ) / 10 ^ 9) ≤ 100 * (2 ^ 60 / 10 ^ 9) := by gcongr; exact hma.trans hm2
            _ ≤ 2 ^ (60 : ℤ) := by norm_num) (by norm_num)
  have e : 100 * ((x.avg : ℝ) / 10 ^ 9) / (x.max / 10 ^ 9) = 100 * (x.avg / x.max) := by
    field_simp
  have := Rel.div hn hd (by positivity) hmpos
    (by
      rw [e]
      rcases Nat.eq_zero_or_pos x.avg with h | h
      · left; simp [h]
      · right
        have h1 : (1 : ℝ) ≤ x.avg := by exact_mod_cast h
        refine ⟨?_, ?_⟩
        · calc (2 : ℝ) ^ (-60 : ℤ) ≤ 100 * (1 / 2 ^ 60) := by norm_num
            _ ≤ 100 * ((x.avg : ℝ) / x.max) := by gcongr
        · have : (x.avg : ℝ) / x.max ≤ 1 := (div_le_one (by linarith)).2 hma
          calc 100 * ((x.avg : ℝ) / x.max) ≤ 100 * 1 := by gcongr
            _ ≤ 2 ^ (60 : ℤ) := by norm_num) (by norm_num)
  rw [e] at this
  exact this

theorem merit_rel {t : Timers} {segments : ℕ} (hs : segments ≤ 2 ^ 60) (h0 : 0 < (t.sec .cycleTracking).tot)
    (ht : (t.sec .cycleTracking).tot ≤ 2 ^ 60) (hr : segments ≤ 2 ^ 30 * (t.sec .cycleTracking).tot) :
    Rel (figureOfMerit segments t : T) (segments / ((t.sec .cycleTracking).tot / 10 ^ 9)) 6 := by
  unfold figureOfMerit
  generalize (t.sec .cycleTracking).tot = d at h0 ht hr
  have d1 : (1 : ℝ) ≤ d := by exact_mod_cast h0
  have d2 : (d : ℝ) ≤ 2 ^ 60 := by exact_mod_cast ht
  have hp : (0 : ℝ) < d / 10 ^ 9 := by positivity
  refine Rel.div (rel_nat hs) (seconds_rel ht) (Nat.cast_nonneg _) hp ?_ (by norm_num)
  rcases Nat.eq_zero_or_pos segments with h | h
  · left; simp [h]
  · right
    have h1 : (1 : ℝ) ≤ segments := by exact_mod_cast h
    have h2 : (segments : ℝ) ≤ 2 ^ 30 * d := by exact_mod_cast hr
    refine ⟨?_, ?_⟩
    · rw [le_div_iff₀ hp]
      calc (2 : ℝ) ^ (-60 : ℤ) * (d / 10 ^ 9) ≤ 2 ^ (-60 : ℤ) * (2 ^ 60 / 10 ^ 9) := by gcongr
        _ ≤ 1 := by norm_num
        _ ≤ _ := h1
    · rw [div_le_iff₀ hp]
      calc (segments : ℝ) ≤ 2 ^ 30 * d := h2
        _ = (2 ^ 30 * 10 ^ 9) * (d / 10 ^ 9) := by field_simp
        _ ≤ 2 ^ (60 : ℤ) * (d / 10 ^ 9) := by
          refine mul_le_mul_of_nonneg_right ?_ hp.le
          norm_num

theorem Rel.close {a : T} {x : ℝ} {k : ℕ} (h : Rel a x k) (hx : 0 ≤ x) (hk : k ≤ 12) :
    ∃ y, IsFin a y ∧ |y - x| ≤ x / 10 ^ 5 := by
  obtain ⟨y, hy, h1, h2⟩ := h
  have hp := pow_pos rho_pos k
  have hr : rho ^ k ≤ 1 + 1 / 10 ^ 5 := by
    refine (pow_le_pow_right₀ rho_one hk).trans ?_
    unfold rho
    norm_num
  refine ⟨y, hy, abs_le.2 ⟨?_, ?_⟩⟩
  · have : x * (1 - 1 / 10 ^ 5) ≤ x / rho ^ k := by
      rw [le_div_iff₀ hp]
      calc x * (1 - 1 / 10 ^ 5) * rho ^ k ≤ x * (1 - 1 / 10 ^ 5) * (1 + 1 / 10 ^ 5) := by
            refine mul_le_mul_of_nonneg_left hr (mul_nonneg hx (by norm_num))
        _ ≤ x := by nlinarith
    linarith
  · have : x * rho ^ k ≤ x * (1 + 1 / 10 ^ 5) := mul_le_mul_of_nonneg_left hr hx
    linarith

end Ieee
