import Verif.Lemmas.IeeeBounds
import Mathlib.Data.Int.Log
/-!
# Relative errors of sums, products and quotients that are not negative
-/
open Flt
namespace Ieee
variable {T : Type} [Flt T] [Ieee T]

/-- The factor that one rounding can bring in, for both formats. -/
noncomputable def rho : ℝ := 1 + 2 ^ (-22 : ℤ)

theorem rho_one : 1 ≤ rho := by unfold rho; have : (0 : ℝ) < 2 ^ (-22 : ℤ) := by positivity
                                linarith
theorem rho_pos : 0 < rho := lt_of_lt_of_le one_pos rho_one

theorem rho_pow_two {k : ℕ} (hk : k ≤ 20) : rho ^ k ≤ 2 := by
  refine (pow_le_pow_right₀ rho_one hk).trans ?_
  unfold rho
  norm_num

/-- One rounding. -/
theorem rnd_rel {t : ℝ} (h0 : (2 : ℝ) ^ (-70 : ℤ) ≤ t) (h1 : t ≤ 2 ^ (70 : ℤ)) :
    ∃ z : ℝ, rnd T (t : EReal) = (z : EReal) ∧ t / rho ≤ z ∧ z ≤ t * rho := by
  have ht : 0 < t := lt_of_lt_of_le (by positivity) h0
  set e := Int.log 2 t with he
  have e1 : ((2 : ℕ) : ℝ) ^ e ≤ t := Int.zpow_log_le_self (b := 2) (by norm_num) ht
  have e2 : t < ((2 : ℕ) : ℝ) ^ (e + 1) := Int.lt_zpow_succ_log_self (b := 2) (by norm_num) t
  push_cast at e1 e2
  have l1 : -70 < e + 1 := (zpow_lt_zpow_iff_right₀ (by norm_num : (1 : ℝ) < 2)).1 (lt_of_le_of_lt h0 e2)
  have l2 : e ≤ 70 := (zpow_le_zpow_iff_right₀ (by norm_num : (1 : ℝ) < 2)).1 (e1.trans h1)
  set u : ℝ := (2 : ℝ) ^ (e - 23) with hu
  have u0 : 0 < u := by positivity
  have eu : (2 : ℝ) ^ e = 2 ^ 23 * u := by
    rw [hu, zpow_sub₀ (by norm_num)]; norm_num; ring
  have eu2 : (2 : ℝ) ^ (e + 1) = 2 ^ 24 * u := by
    rw [zpow_add₀ (by norm_num), eu]; norm_num; ring
  rw [eu] at e1
  rw [eu2] at e2
  set n := ⌊t / u⌋₊ with hn
  have q0 : 0 ≤ t / u := by positivity
  have n1 : (n : ℝ) * u ≤ t := (le_div_iff₀ u0).1 (Nat.floor_le q0)
  have n2 : t ≤ ((n + 1 : ℕ) : ℝ) * u := by
    have := Nat.lt_floor_add_one (t / u)
    rw [div_lt_iff₀ u0] at this
    push_cast
    exact this.le
  have n3 : n < 2 ^ 24 := by
    have : (n : ℝ) * u < 2 ^ 24 * u := lt_of_le_of_lt n1 e2
    have := lt_of_mul_lt_mul_right this u0.le
    exact_mod_cast this
  obtain ⟨z, hz, z0, z1⟩ := rnd_between (T := T) (rep_scaled (n := n) (k := e - 23) (by omega) (by omega) (by omega))
    (rep_scaled (n := n + 1) (k := e - 23) (by omega) (by omega) (by omega)) n1 n2
  refine ⟨z, hz, ?_, ?_⟩
  · rw [div_le_iff₀ rho_pos]
    have hz2 : t - u ≤ z := by
      push_cast at n2
      linarith
    have : (t - u) * rho ≤ z * rho := mul_le_mul_of_nonneg_right hz2 rho_pos.le
    refine le_trans ?_ this
    unfold rho
    norm_num
    nlinarith
  · have hz2 : z ≤ t + u := by
      push_cast at z1
      linarith
    refine hz2.trans ?_
    unfold rho
    norm_num
    nlinarith

/-- `a` is `x` up to `k` roundings. -/
def Rel (a : T) (x : ℝ) (k : ℕ) : Prop := ∃ y : ℝ, IsFin a y ∧ x / rho ^ k ≤ y ∧ y ≤ x * rho ^ k

/-- Zero, or far from the limits of the format. -/
def Mid (x : ℝ) : Prop := x = 0 ∨ ((2 : ℝ) ^ (-60 : ℤ) ≤ x ∧ x ≤ 2 ^ (60 : ℤ))

theorem Mid.nonneg {x : ℝ} (h : Mid x) : 0 ≤ x := by
  rcases h with rfl | ⟨h, _⟩
  · rfl
  · exact le_trans (by positivity) h

variable {a b : T} {x y w : ℝ} {j k : ℕ}

theorem IsFin.rel (h : IsFin a x) : Rel a x 0 := ⟨x, h, by simp, by simp⟩

theorem rnd_mid (hx : Mid x) (hk : k ≤ 19) (h1 : x / rho ^ k ≤ w) (h2 : w ≤ x * rho ^ k) :
    ∃ z : ℝ, rnd T (w : EReal) = (z : EReal) ∧ x / rho ^ (k + 1) ≤ z ∧ z ≤ x * rho ^ (k + 1) := by
  have hp : 0 < rho ^ k := pow_pos rho_pos k
  have hp2 := rho_pow_two (k := k) (by omega)
  rcases hx with rfl | ⟨m1, m2⟩
  · have : w = 0 := le_antisymm (by simpa using h2) (by simpa using h1)
    subst this
    exact ⟨0, rep_zero, by simp, by simp⟩
  · have x0 : 0 < x := lt_of_lt_of_le (by positivity) m1
    have w1 : (2 : ℝ) ^ (-70 : ℤ) ≤ w := by
      refine le_trans ?_ h1
      rw [le_div_iff₀ hp]
      calc (2 : ℝ) ^ (-70 : ℤ) * rho ^ k ≤ 2 ^ (-70 : ℤ) * 2 := mul_le_mul_of_nonneg_left hp2 (by positivity)
        _ ≤ 2 ^ (-60 : ℤ) := by norm_num
        _ ≤ x := m1
    have w2 : w ≤ (2 : ℝ) ^ (70 : ℤ) := by
      refine h2.trans ?_
      calc x * rho ^ k ≤ 2 ^ (60 : ℤ) * 2 := mul_le_mul m2 hp2 hp.le (by positivity)
        _ ≤ 2 ^ (70 : ℤ) := by norm_num
    obtain ⟨z, hz, z1, z2⟩ := rnd_rel (T := T) w1 w2
    refine ⟨z, hz, ?_, ?_⟩
    · refine le_trans ?_ z1
      rw [pow_succ, ← div_div]
      exact div_le_div_of_nonneg_right h1 rho_pos.le
    · refine z2.trans ?_
      rw [pow_succ, ← mul_assoc]
      exact mul_le_mul_of_nonneg_right h2 rho_pos.le

theorem Rel.mono (h : Rel a x j) (hx : 0 ≤ x) (hj : j ≤ k) : Rel a x k := by
  obtain ⟨y, hy, h1, h2⟩ := h
  have hm := pow_le_pow_right₀ rho_one hj
  refine ⟨y, hy, le_trans ?_ h1, h2.trans (mul_le_mul_of_nonneg_left hm hx)⟩
  exact div_le_div_of_nonneg_left hx (pow_pos rho_pos j) hm

theorem Rel.add (ha : Rel a x k) (hb : Rel b y k) (h : Mid (x + y)) (hk : k ≤ 19) : Rel (a +. b) (x + y) (k + 1) := by
  obtain ⟨u, hu, a1, a2⟩ := ha
  obtain ⟨v, hv, b1, b2⟩ := hb
  obtain ⟨z, hz, z0, z1⟩ := rnd_mid (T := T) (w := u + v) h hk (by rw [add_div]; linarith) (by rw [add_mul]; linarith)
  exact ⟨z, fin_of_rnd (fin_add hu hv) hz, z0, z1⟩

theorem Rel.mul (ha : Rel a x j) (hb : Rel b y k) (hx : 0 ≤ x) (hy : 0 ≤ y) (h : Mid (x * y)) (hk : j + k ≤ 19) :
    Rel (a *. b) (x * y) (j + k + 1) := by
  obtain ⟨u, hu, a1, a2⟩ := ha
  obtain ⟨v, hv, b1, b2⟩ := hb
  have pj := pow_pos rho_pos j
  have pk := pow_pos rho_pos k
  have u0 : 0 ≤ u := le_trans (by positivity) a1
  have v0 : 0 ≤ v := le_trans (by positivity) b1
  obtain ⟨z, hz, z0, z1⟩ := rnd_mid (T := T) (w := u * v) h hk
    (by
      rw [pow_add, ← div_mul_div_comm]
      exact mul_le_mul a1 b1 (by positivity) u0)
    (by
      rw [pow_add]
      calc u * v ≤ (x * rho ^ j) * (y * rho ^ k) := mul_le_mul a2 b2 v0 (by positivity)
        _ = _ := by ring)
  exact ⟨z, fin_of_rnd (fin_mul hu hv) hz, z0, z1⟩

theorem Rel.div (ha : Rel a x j) (hb : Rel b y k) (hx : 0 ≤ x) (hy : 0 < y) (h : Mid (x / y)) (hk : j + k ≤ 19) :
    Rel (a /. b) (x / y) (j + k + 1) := by
  obtain ⟨u, hu, a1, a2⟩ := ha
  obtain ⟨v, hv, b1, b2⟩ := hb
  have pj := pow_pos rho_pos j
  have pk := pow_pos rho_pos k
  have u0 : 0 ≤ u := le_trans (by positivity) a1
  have v0 : 0 < v := lt_of_lt_of_le (by positivity) b1
  obtain ⟨z, hz, z0, z1⟩ := rnd_mid (T := T) (w := u / v) h hk
    (by
      rw [pow_add, le_div_iff₀ v0]
      calc x / y / (rho ^ j * rho ^ k) * v ≤ x / y / (rho ^ j * rho ^ k) * (y * rho ^ k) :=
            mul_le_mul_of_nonneg_left b2 (by positivity)
        _ = x / rho ^ j := by field_simp
        _ ≤ u := a1)
    (by
      rw [pow_add, div_le_iff₀ v0]
      calc u ≤ x * rho ^ j := a2
        _ = x / y * (rho ^ j * rho ^ k) * (y / rho ^ k) := by field_simp
        _ ≤ x / y * (rho ^ j * rho ^ k) * v := mul_le_mul_of_nonneg_left b1 (by positivity))
  exact ⟨z, fin_of_rnd (fin_div hu hv v0.ne') hz, z0, z1⟩

end Ieee
