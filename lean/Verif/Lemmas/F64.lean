import Verif.Model.Rng
import Mathlib.Tactic.Linarith
import Mathlib.Tactic.Ring
import Mathlib.Data.Nat.Log
/-! Lemmas on the conversion of 64-bit integers to binary64. -/

namespace Rng

theorem u64ToF64_big {n p : Nat} (hp : 53 ≤ p) (h1 : 2 ^ p ≤ n) (h2 : n < 2 ^ (p + 1)) :
    u64ToF64 n = (if 2 * (n % 2 ^ (p - 52)) < 2 ^ (p - 52) ∨
      (2 * (n % 2 ^ (p - 52)) = 2 ^ (p - 52) ∧ n / 2 ^ (p - 52) % 2 = 0) then
      n / 2 ^ (p - 52) * 2 ^ (p - 52) else (n / 2 ^ (p - 52) + 1) * 2 ^ (p - 52)) := by
  have h53 : (2 : Nat) ^ 53 ≤ 2 ^ p := Nat.pow_le_pow_right (by norm_num) hp
  have hl : Nat.log2 n = p := by
    rw [Nat.log2_eq_log_two]
    exact Nat.log_eq_of_pow_le_of_lt_pow h1 h2
  unfold u64ToF64
  rw [if_neg (by omega), hl]

/-- The bracket of a number by powers of two. -/
theorem exists_log {n : Nat} (h : 2 ^ 53 ≤ n) : ∃ p, 53 ≤ p ∧ 2 ^ p ≤ n ∧ n < 2 ^ (p + 1) := by
  refine ⟨Nat.log 2 n, ?_, Nat.pow_log_le_self 2 (by omega), Nat.lt_pow_succ_log_self (by norm_num) n⟩
  exact (Nat.le_log_iff_pow_le (by norm_num) (by omega)).2 h

theorem u64ToF64_le {n p : Nat} (hp : 53 ≤ p) (h2 : n < 2 ^ (p + 1)) : u64ToF64 n ≤ 2 ^ (p + 1) := by
  by_cases h : n < 2 ^ 53
  · unfold u64ToF64; rw [if_pos h]; omega
  · obtain ⟨q, hq, h3, h4⟩ := exists_log (Nat.le_of_not_lt h)
    have hqp : q ≤ p := by
      by_contra hc
      have : (2 : Nat) ^ (p + 1) ≤ 2 ^ q := Nat.pow_le_pow_right (by norm_num) (by omega)
      omega
    rw [u64ToF64_big hq h3 h4]
    have hk : (2 : Nat) ^ (q + 1) = 2 ^ 53 * 2 ^ (q - 52) := by rw [← pow_add]; congr 1; omega
    have hpos : 0 < (2 : Nat) ^ (q - 52) := by positivity
    have hlt : n / 2 ^ (q - 52) < 2 ^ 53 := by
      rw [Nat.div_lt_iff_lt_mul hpos]; omega
    have hle : (2 : Nat) ^ (q + 1) ≤ 2 ^ (p + 1) := Nat.pow_le_pow_right (by norm_num) (by omega)
    split
    · exact (Nat.mul_le_mul_right _ (by omega : n / 2 ^ (q - 52) ≤ 2 ^ 53)).trans (by omega)
    · exact (Nat.mul_le_mul_right _ (by omega : n / 2 ^ (q - 52) + 1 ≤ 2 ^ 53)).trans (by omega)

/-- Only the last 1024 states are rounded up to `2^64`. -/
theorem u64ToF64_top {n : Nat} (h : n < 2 ^ 64) : u64ToF64 n = 2 ^ 64 ↔ 2 ^ 64 - 1024 ≤ n := by
  by_cases h63 : n < 2 ^ 63
  · have := u64ToF64_le (p := 62) (by norm_num) h63
    constructor
    · intro h'; rw [h'] at this; norm_num at this
    · intro h'; norm_num at *; omega
  · rw [u64ToF64_big (p := 63) (by norm_num) (by omega) h]
    norm_num at *
    split <;> omega

theorem u64ToF64_lt_top {n : Nat} (h : n < 2 ^ 64) : u64ToF64 n ≤ 2 ^ 64 :=
  u64ToF64_le (p := 63) (by norm_num) h

/-- The integers that are exactly representable with a 53-bit significand. -/
def IsF64 (y : Nat) : Prop := ∃ m e, m < 2 ^ 53 ∧ y = m * 2 ^ e

theorem u64ToF64_isF64 (n : Nat) : IsF64 (u64ToF64 n) := by
  by_cases h : n < 2 ^ 53
  · exact ⟨n, 0, h, by unfold u64ToF64; rw [if_pos h]; simp⟩
  · obtain ⟨q, hq, h3, h4⟩ := exists_log (Nat.le_of_not_lt h)
    rw [u64ToF64_big hq h3 h4]
    have hk : (2 : Nat) ^ (q + 1) = 2 ^ 53 * 2 ^ (q - 52) := by rw [← pow_add]; congr 1; omega
    have hpos : 0 < (2 : Nat) ^ (q - 52) := by positivity
    have hlt : n / 2 ^ (q - 52) < 2 ^ 53 := by
      rw [Nat.div_lt_iff_lt_mul hpos]; omega
    split
    · exact ⟨_, _, hlt, rfl⟩
    · by_cases h53 : n / 2 ^ (q - 52) + 1 < 2 ^ 53
      · exact ⟨_, _, h53, rfl⟩
      · have : n / 2 ^ (q - 52) + 1 = 2 ^ 53 := by omega
        exact ⟨1, 53 + (q - 52), by norm_num, by rw [this, pow_add]; ring⟩

theorem dist_multiple {n d q r t : ℤ} (hn : n = d * q + r) (h0 : 0 ≤ r) (hd : r < d) :
    min r (d - r) ≤ |d * t - n| := by
  rcases le_or_gt t q with h | h
  · have : d * t ≤ d * q := mul_le_mul_of_nonneg_left h (by omega)
    have h2 : d * t - n ≤ -r := by rw [hn]; linarith
    have := neg_le_abs (d * t - n)
    exact (min_le_left _ _).trans (by linarith)
  · have : d * (q + 1) ≤ d * t := mul_le_mul_of_nonneg_left (by omega) (by omega)
    have h2 : d - r ≤ d * t - n := by rw [hn]; linarith [mul_add d q 1]
    exact (min_le_right _ _).trans (h2.trans (le_abs_self _))

/-- The rounded value is the multiple of `2^k` nearest to `n`. -/
theorem u64ToF64_dist {n p : Nat} (hp : 53 ≤ p) (h1 : 2 ^ p ≤ n) (h2 : n < 2 ^ (p + 1)) (t : Nat) :
    |(u64ToF64 n : ℤ) - n| ≤ |((2 ^ (p - 52) * t : Nat) : ℤ) - n| := by
  rw [u64ToF64_big hp h1 h2]
  have hpos : 0 < (2 : Nat) ^ (p - 52) := by positivity
  generalize (2 : Nat) ^ (p - 52) = d at *
  have hdm := Nat.div_add_mod n d
  have hm := Nat.mod_lt n hpos
  generalize n / d = q at *
  generalize n % d = r at *
  have hn : (n : ℤ) = d * q + r := by rw [← hdm]; push_cast; ring
  have key := dist_multiple (t := t) hn (by omega) (by omega : (r : ℤ) < d)
  push_cast
  refine le_trans ?_ key
  split
  · next hc =>
    push_cast
    have : ((q : ℤ) * d - n) = -r := by rw [hn]; ring
    rw [this, abs_neg, abs_of_nonneg (by omega)]
    apply le_min <;> omega
  · next hc =>
    push_cast
    have : (((q : ℤ) + 1) * d - n) = d - r := by rw [hn]; ring
    rw [this, abs_of_nonneg (by omega)]
    apply le_min <;> omega

/-- The conversion rounds to a nearest representable value. -/
theorem u64ToF64_nearest (n y : Nat) (hy : IsF64 y) : |(u64ToF64 n : ℤ) - n| ≤ |(y : ℤ) - n| := by
  by_cases h : n < 2 ^ 53
  · unfold u64ToF64; rw [if_pos h]; simp
  · obtain ⟨p, hp, h1, h2⟩ := exists_log (Nat.le_of_not_lt h)
    obtain ⟨m, e, hm, rfl⟩ := hy
    have hp2 : (2 : Nat) ^ p = 2 ^ (p - 52) * 2 ^ 52 := by rw [← pow_add]; congr 1; omega
    by_cases hy : m * 2 ^ e < 2 ^ p
    · refine (u64ToF64_dist hp h1 h2 (2 ^ 52)).trans ?_
      rw [← hp2]
      have e1 : |((2 ^ p : Nat) : ℤ) - n| = n - (2 ^ p : Nat) := by
        rw [abs_of_nonpos (by omega)]; ring
      have e2 : |((m * 2 ^ e : Nat) : ℤ) - n| = n - (m * 2 ^ e : Nat) := by
        rw [abs_of_nonpos (by omega)]; ring
      rw [e1, e2]; omega
    · have he : p - 52 ≤ e := by
        by_contra hc
        have h3 : (2 : Nat) ^ (e + 53) ≤ 2 ^ p := Nat.pow_le_pow_right (by norm_num) (by omega)
        have h4 : m * 2 ^ e < 2 ^ 53 * 2 ^ e := Nat.mul_lt_mul_of_pos_right hm (by positivity)
        rw [pow_add] at h3
        nlinarith
      have : m * 2 ^ e = 2 ^ (p - 52) * (m * 2 ^ (e - (p - 52))) := by
        rw [mul_left_comm, ← pow_add]; congr 2; omega
      rw [this]
      exact u64ToF64_dist hp h1 h2 _

theorem u64ToF64_zero_iff (n : Nat) : u64ToF64 n = 0 ↔ n = 0 := by
  constructor
  · intro h
    have := u64ToF64_nearest n n
    by_cases hn : n < 2 ^ 53
    · unfold u64ToF64 at h; rwa [if_pos hn] at h
    · exfalso
      obtain ⟨p, hp, h1, h2⟩ := exists_log (Nat.le_of_not_lt hn)
      have := u64ToF64_nearest n (2 ^ p) ⟨1, p, by norm_num, by ring⟩
      rw [h] at this
      have e1 : |((2 ^ p : Nat) : ℤ) - n| = n - (2 ^ p : Nat) := by
        rw [abs_of_nonpos (by omega)]; ring
      rw [e1] at this
      have hpp : 0 < 2 ^ p := by positivity
      simp only [Nat.cast_zero, zero_sub, abs_neg, Nat.abs_cast] at this
      omega
  · rintro rfl; rfl

/-- Relative rounding error at most `2^-53`. -/
theorem u64ToF64_error (n : Nat) : 2 ^ 53 * |(u64ToF64 n : ℤ) - n| ≤ n := by
  by_cases hn : n < 2 ^ 53
  · unfold u64ToF64; rw [if_pos hn]; simp
  · obtain ⟨p, hp, h1, h2⟩ := exists_log (Nat.le_of_not_lt hn)
    have hpos : 0 < (2 : Nat) ^ (p - 52) := by positivity
    have hp2 : (2 : Nat) ^ p = 2 ^ (p - 52) * 2 ^ 52 := by rw [← pow_add]; congr 1; omega
    have hle : 2 * |(u64ToF64 n : ℤ) - n| ≤ (2 ^ (p - 52) : Nat) := by
      rw [u64ToF64_big hp h1 h2]
      generalize (2 : Nat) ^ (p - 52) = d at *
      have hdm := Nat.div_add_mod n d
      have hm := Nat.mod_lt n hpos
      generalize n / d = q at *
      generalize n % d = r at *
      have hn : (n : ℤ) = d * q + r := by rw [← hdm]; push_cast; ring
      split
      · next hc =>
        push_cast
        have : ((q : ℤ) * d - n) = -r := by rw [hn]; ring
        rw [this, abs_neg, abs_of_nonneg (by omega)]
        omega
      · next hc =>
        push_cast
        have : (((q : ℤ) + 1) * d - n) = d - r := by rw [hn]; ring
        rw [this, abs_of_nonneg (by omega)]
        omega
    omega

end Rng
