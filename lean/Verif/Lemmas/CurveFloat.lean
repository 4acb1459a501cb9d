import Verif.Spec.FloatRange
import Verif.Lemmas.Init
import Mathlib.Analysis.Complex.ExponentialBounds
import Mathlib.Data.Int.Log
/-!
# The tables of cross-sections, with rounding

The tables are computed in `f64` and rounded at the end (`NuclearDataReaction::new`, `nuclear_data.rs` 68-105).
-/
open Flt Ieee
set_option linter.unusedSectionVars false

namespace Flooding
variable {T : Type} [Flt T] [Ieee T]

theorem rep_big {n e : ℕ} (h : n * 2 ^ e ≤ 2 ^ 24) : Rep T (n * 2 ^ ((100 + e : ℕ) : ℤ)) := by
  have := rep_scaled (T := T) h (k := 100) (by norm_num) le_rfl
  have e' : ((n * 2 ^ e : ℕ) : ℝ) * 2 ^ (100 : ℤ) = n * 2 ^ ((100 + e : ℕ) : ℤ) := by
    push_cast
    rw [zpow_add₀ (by norm_num), zpow_natCast]
    ring
  rwa [e'] at this

theorem rep_pow (k : ℕ) (hk : k ≤ 124) : Rep T (2 ^ (k : ℤ)) := by
  rcases Nat.le_total k 100 with h | h
  · exact Ieee.rep_two_pow (by omega) (by omega)
  · obtain ⟨e, rfl⟩ := Nat.exists_eq_add_of_le h
    have := rep_big (T := T) (n := 1) (e := e) (by
      rw [one_mul]; exact Nat.pow_le_pow_right (by norm_num) (by omega))
    rwa [Nat.cast_one, one_mul] at this

/-! ### Numbers of `f64` -/

/-- The number of `f64` has a value between the bounds. -/
def WBd (w : Wide T) (lo hi : ℝ) : Prop := ∃ x : ℝ, wval w = some (x : EReal) ∧ lo ≤ x ∧ x ≤ hi

/-- `x` is a number of `f64`. -/
def WRep (T : Type) [Flt T] [Ieee T] (x : ℝ) : Prop := wrnd T (x : EReal) = (x : EReal)

theorem wrep_two_pow {k : ℤ} (h0 : -900 ≤ k) (h1 : k ≤ 900) : WRep T ((2 : ℝ) ^ k) := by
  have := wrnd_exact (T := T) 1 k (by norm_num) h0 h1
  rwa [Nat.cast_one, one_mul] at this

theorem wrep_zero : WRep T 0 := by
  have := wrnd_exact (T := T) 0 0 (by norm_num) (by norm_num) (by norm_num)
  simpa [WRep] using this

theorem wrnd_between {lo hi t : ℝ} (hlo : WRep T lo) (hhi : WRep T hi) (h0 : lo ≤ t) (h1 : t ≤ hi) :
    ∃ z : ℝ, wrnd T (t : EReal) = (z : EReal) ∧ lo ≤ z ∧ z ≤ hi := by
  have a : ((lo : ℝ) : EReal) ≤ wrnd T (t : EReal) := by
    rw [← hlo]; exact wrnd_mono (EReal.coe_le_coe_iff.2 h0)
  have b : wrnd T (t : EReal) ≤ ((hi : ℝ) : EReal) := by
    rw [← hhi]; exact wrnd_mono (EReal.coe_le_coe_iff.2 h1)
  generalize wrnd T (t : EReal) = z at a b
  have hb : z ≠ ⊥ := by rintro rfl; exact EReal.coe_ne_bot _ (le_bot_iff.1 a)
  have ht : z ≠ ⊤ := by rintro rfl; exact EReal.coe_ne_top _ (top_le_iff.1 b)
  lift z to ℝ using ⟨ht, hb⟩
  exact ⟨z, rfl, EReal.coe_le_coe_iff.1 a, EReal.coe_le_coe_iff.1 b⟩

theorem WBd.mono {w : Wide T} {lo hi l h : ℝ} (hw : WBd w lo hi) (h1 : l ≤ lo) (h2 : hi ≤ h) : WBd w l h := by
  obtain ⟨x, hx, a1, a2⟩ := hw
  exact ⟨x, hx, h1.trans a1, a2.trans h2⟩

theorem WBd.isZero {w : Wide T} {lo hi : ℝ} (hw : WBd w lo hi) (h0 : 0 < lo) : Flt.wideIsZero w = false := by
  rw [← Bool.not_eq_true, wideIsZero_iff]
  intro h
  obtain ⟨x, hx, x0, _⟩ := hw
  rw [hx] at h
  have : x = 0 := by exact_mod_cast Option.some.inj h
  linarith

theorem wideZero_isZero : Flt.wideIsZero (Flt.wideZero : Wide T) = true := (wideIsZero_iff _).2 wval_zero

/-- A number scaled in `f64` and rounded. -/
theorem scaled_bd {x : Wide T} {rx : T} {n : Wide T} {k : ℤ} {d r : ℕ} (hk : -600 ≤ k) (hk' : k ≤ 600) (hr : r ≤ 60)
    (hd : d + r ≤ 120) (hx : WBd x (2 ^ k) (2 ^ (k + d))) (hn : WBd n (2 ^ k) (2 ^ (k + d))) (hrx : Bd rx 0 (2 ^ (r : ℤ))) :
    Bd (Flt.ofWide (Flt.wideMul x (Flt.wideDiv rx n)) : T) 0 (2 ^ ((d + r : ℕ) : ℤ)) := by
  obtain ⟨x', hx', x0, x1⟩ := hx
  obtain ⟨n', hn', n0, n1⟩ := hn
  obtain ⟨r', hr', r0, r1⟩ := hrx
  have pk : (0 : ℝ) < 2 ^ k := by positivity
  have npos : 0 < n' := lt_of_lt_of_le pk n0
  obtain ⟨t, ht, t0, t1⟩ := wrnd_between (T := T) wrep_zero (wrep_two_pow (k := r) (by omega) (by omega)) r0 r1
  obtain ⟨s, hs, s0, s1⟩ := wrnd_between (T := T) (t := t / n') wrep_zero
    (wrep_two_pow (k := r - k) (by omega) (by omega)) (div_nonneg t0 npos.le) (by
      rw [div_le_iff₀ npos]
      have : (2 : ℝ) ^ ((r : ℤ) - k) * 2 ^ k = 2 ^ (r : ℤ) := by
        rw [← zpow_add₀ (by norm_num)]; congr 1; ring
      calc t ≤ 2 ^ (r : ℤ) := t1
        _ = 2 ^ ((r : ℤ) - k) * 2 ^ k := this.symm
        _ ≤ 2 ^ ((r : ℤ) - k) * n' := by gcongr)
  have hdiv : wval (Flt.wideDiv rx n : Wide T) = some (s : EReal) := by
    rw [wval_div _ _ (by
      rw [hn']
      intro h
      have : n' = 0 := by exact_mod_cast Option.some.inj h
      linarith), hr', hn', Option.map_some, ht]
    unfold ieeeDiv
    dsimp only
    rw [if_neg (by simp), ← EReal.coe_div, hs]
  have e : (2 : ℝ) ^ (k + d) * 2 ^ ((r : ℤ) - k) = 2 ^ ((d + r : ℕ) : ℤ) := by
    rw [← zpow_add₀ (by norm_num)]; congr 1; push_cast; ring
  obtain ⟨u, hu, u0, u1⟩ := wrnd_between (T := T) (t := x' * s) wrep_zero
    (wrep_two_pow (k := ((d + r : ℕ) : ℤ)) (by omega) (by omega)) (mul_nonneg (pk.le.trans x0) s0) (by
      rw [← e]
      exact mul_le_mul x1 s1 s0 (by positivity))
  have hmul : wval (Flt.wideMul x (Flt.wideDiv rx n) : Wide T) = some (u : EReal) := by
    rw [wval_mul, hx', hdiv]
    unfold ieeeMul
    dsimp only
    rw [if_neg (by simp), ← EReal.coe_mul, hu]
  obtain ⟨v, hv, v0, v1⟩ := rnd_between (T := T) rep_zero
    (rep_pow (d + r) (by omega)) u0 u1
  refine ⟨v, ?_, v0, v1⟩
  unfold IsFin
  rw [val_ofWide, hmul, Option.map_some, hv]

/-! ### Energy levels -/

theorem logLow_range {e : T} (h : Bd e (2 ^ (-30 : ℤ)) 1) : Bd (Flt.ln e) (-21) 0 := by
  obtain ⟨x, hx, x0, x1⟩ := h
  have hpos : 0 < x := lt_of_lt_of_le (by positivity) x0
  obtain ⟨y, hy, y0, y1⟩ := val_ln_mid _ x hx (le_trans (by norm_num) x0) (x1.trans (by norm_num))
  have l2 := Real.log_two_lt_d9
  refine ⟨y, hy, le_trans ?_ y0, y1.trans ?_⟩
  · have : (-21 : ℤ) ≤ ⌊Real.log x⌋ := by
      rw [Int.le_floor]
      have := Real.log_le_log (by positivity) x0
      rw [Real.log_zpow] at this
      push_cast at this ⊢
      linarith
    exact_mod_cast this
  · have : ⌈Real.log x⌉ ≤ (0 : ℤ) := by
      rw [Int.ceil_le]
      exact_mod_cast Real.log_nonpos hpos.le x1
    exact_mod_cast this

theorem logHigh_range {e : T} (h : Bd e 20 (2 ^ (5 : ℤ))) : Bd (Flt.ln e) 0 4 := by
  obtain ⟨x, hx, x0, x1⟩ := h
  obtain ⟨y, hy, y0, y1⟩ := val_ln_mid _ x hx (le_trans (by norm_num) x0) (x1.trans (by norm_num))
  have l2 := Real.log_two_lt_d9
  refine ⟨y, hy, le_trans ?_ y0, y1.trans ?_⟩
  · have : (0 : ℤ) ≤ ⌊Real.log x⌋ := by
      rw [Int.le_floor]
      exact_mod_cast Real.log_nonneg (by linarith)
    exact_mod_cast this
  · have : ⌈Real.log x⌉ ≤ (4 : ℤ) := by
      rw [Int.ceil_le]
      have := Real.log_le_log (by linarith) x1
      rw [Real.log_zpow] at this
      push_cast at this ⊢
      linarith
    exact_mod_cast this

theorem rep_i {n : ℤ} (hn : |n| ≤ 2 ^ 24) {x : ℝ} (h : (n : ℝ) = x) : Rep T x := h ▸ rep_int hn

/-- The energy levels are positive and not too large. -/
theorem level_range {n : Nat} {lo hi : T} (hlo : Bd lo (2 ^ (-30 : ℤ)) 1) (hhi : Bd hi 20 (2 ^ (5 : ℤ))) (hn : n < 2 ^ 19)
    {e : T} (h : e ∈ energyLevels n lo hi) : Bd e (2 ^ (-32 : ℤ)) (2 ^ (39 : ℤ)) := by
  unfold energyLevels at h
  dsimp only at h
  obtain ⟨i, hi', rfl⟩ := List.mem_map.1 h
  have hi' := List.mem_range.1 hi'
  split
  · exact hhi.mono (by norm_num) (by norm_num)
  split
  · exact hlo.mono (by norm_num) (by norm_num)
  have h0 := logLow_range hlo
  have h1 : Bd (Flt.ln hi -. Flt.ln lo) 0 25 :=
    (logHigh_range hhi).sub h0 rep_zero (rep_i (n := 25) (by norm_num) (by norm_num)) (by norm_num) (by norm_num)
  have np : (0 : ℝ) < ((n + 1 : ℕ) : ℝ) := by positivity
  have n1 : (1 : ℝ) ≤ ((n + 1 : ℕ) : ℝ) := by exact_mod_cast (by omega : 1 ≤ n + 1)
  have n19 : ((n + 1 : ℕ) : ℝ) ≤ 2 ^ 19 := by exact_mod_cast hn
  obtain ⟨m, hm⟩ : ∃ m : ℕ, m = ⌈(25 * 2 ^ 19 : ℝ) / ((n + 1 : ℕ) : ℝ)⌉₊ := ⟨_, rfl⟩
  have m0 : (25 * 2 ^ 19 : ℝ) / ((n + 1 : ℕ) : ℝ) ≤ m := hm ▸ Nat.le_ceil _
  have m1 : (m : ℝ) < (25 * 2 ^ 19 : ℝ) / ((n + 1 : ℕ) : ℝ) + 1 := hm ▸ Nat.ceil_lt_add_one (by positivity)
  have m2 : m ≤ 2 ^ 24 := by
    rw [hm]
    refine Nat.ceil_le.2 ?_
    rw [div_le_iff₀ np]
    push_cast at n1 ⊢
    linarith
  rw [div_le_iff₀ np] at m0
  have m3 : (m : ℝ) * ((n + 1 : ℕ) : ℝ) ≤ 26 * 2 ^ 19 := by
    have := mul_le_mul_of_nonneg_right m1.le np.le
    rw [add_mul, div_mul_cancel₀ _ np.ne'] at this
    linarith
  have hdelta : Bd ((Flt.ln hi -. Flt.ln lo) /. Flt.ofNat (n + 1)) 0 (m * 2 ^ (-19 : ℤ)) :=
    h1.div (IsFin.bd (fin_ofNat (n := n + 1) (by omega))) rep_zero (rep_scaled m2 (by norm_num) (by norm_num)) le_rfl np
      (by simp) (by push_cast at m0 ⊢; norm_num; linarith) le_rfl
  have r26 : Rep T 26 := rep_i (n := 26) (by norm_num) (by norm_num)
  have r21 : Rep T (-21) := rep_i (n := -21) (by norm_num) (by norm_num)
  have ii : (i : ℝ) ≤ ((n + 1 : ℕ) : ℝ) := by exact_mod_cast hi'.le
  have h2 : Bd ((Flt.ln hi -. Flt.ln lo) /. Flt.ofNat (n + 1) *. Flt.ofNat i) 0 26 :=
    hdelta.mul (IsFin.bd (fin_ofNat (n := i) (by omega))) rep_zero r26 le_rfl (by positivity) (by simp) (by
      have : (m : ℝ) * i ≤ m * ((n + 1 : ℕ) : ℝ) := by gcongr
      norm_num
      linarith)
  obtain ⟨x, hx, x0, x1⟩ := h0.add h2 r21 r26 (by norm_num) (by norm_num)
  obtain ⟨y, hy, y0, y1⟩ := val_exp _ x hx (by linarith) (by linarith)
  have he := Real.exp_one_lt_d9.le
  refine ⟨y, hy, le_trans ?_ y0, y1.trans ?_⟩
  · have a1 : Real.exp (-21) ≤ Real.exp x := Real.exp_le_exp.2 x0
    have a2 : Real.exp 21 ≤ 2 ^ 31 := by
      have : Real.exp 21 = Real.exp 1 ^ 21 := by rw [← Real.exp_nat_mul]; norm_num
      rw [this]
      exact (pow_le_pow_left₀ (Real.exp_pos _).le he 21).trans (by norm_num)
    have a3 : (2 : ℝ) ^ (-31 : ℤ) ≤ Real.exp (-21) := by
      rw [Real.exp_neg, zpow_neg]
      exact inv_anti₀ (Real.exp_pos _) (by exact_mod_cast a2)
    have : (2 : ℝ) ^ (-32 : ℤ) = 2 ^ (-31 : ℤ) / 2 := by norm_num
    rw [this]
    exact div_le_div_of_nonneg_right (a3.trans a1) (by norm_num)
  · have a1 : Real.exp x ≤ Real.exp 26 := Real.exp_le_exp.2 x1
    have a2 : Real.exp 26 ≤ 2 ^ 38 := by
      have : Real.exp 26 = Real.exp 1 ^ 26 := by rw [← Real.exp_nat_mul]; norm_num
      rw [this]
      exact (pow_le_pow_left₀ (Real.exp_pos _).le he 26).trans (by norm_num)
    have : (2 : ℝ) ^ (39 : ℤ) = 2 * 2 ^ 38 := by norm_num
    rw [this]
    linarith

theorem levels_last {n : Nat} (hn : 0 < n) {lo hi : T} (hhi : Bd hi 20 (2 ^ (5 : ℤ))) :
    ∃ e ∈ (energyLevels n lo hi).tail, (e >=. one) = true := by
  refine ⟨hi, ?_, ?_⟩
  · have h : (energyLevels n lo hi)[n]? = some hi := by
      unfold energyLevels
      rw [List.getElem?_map, List.getElem?_range (by omega)]
      simp
    have : (energyLevels n lo hi).tail[n - 1]? = some hi := by
      rw [List.getElem?_tail, show n - 1 + 1 = n by omega]; exact h
    exact List.mem_of_getElem? this
  · obtain ⟨x, hx, x0, _⟩ := hhi
    exact (le_fin fin_one hx).2 (by linarith)

/-! ### Tables -/

theorem midpoint_range {e0 e1 : T} (h0 : Bd e0 (2 ^ (-32 : ℤ)) (2 ^ (39 : ℤ))) (h1 : Bd e1 (2 ^ (-32 : ℤ)) (2 ^ (39 : ℤ))) :
    Bd (Flt.log10 ((e0 +. e1) /. two)) (-10) 12 := by
  have r1 := Ieee.rep_two_pow (T := T) (k := -31) (by norm_num) (by norm_num)
  have r2 := Ieee.rep_two_pow (T := T) (k := 40) (by norm_num) (by norm_num)
  have r3 := Ieee.rep_two_pow (T := T) (k := -32) (by norm_num) (by norm_num)
  have r4 := Ieee.rep_two_pow (T := T) (k := 39) (by norm_num) (by norm_num)
  obtain ⟨x, hx, x0, x1⟩ := (h0.add h1 r1 r2 (by norm_num) (by norm_num)).div (IsFin.bd fin_two) r3 r4 (by positivity)
    (by norm_num) (by norm_num) (by norm_num) (by positivity)
  have hpos : 0 < x := lt_of_lt_of_le (by positivity) x0
  obtain ⟨y, hy, y0, y1⟩ := val_log10 _ x hx (le_trans (by norm_num) x0) (x1.trans (by norm_num))
  refine ⟨y, hy, le_trans ?_ y0, y1.trans ?_⟩
  · have : (-10 : ℤ) ≤ ⌊Real.logb 10 x⌋ := by
      rw [Int.le_floor, Real.le_logb_iff_rpow_le (by norm_num) hpos, Real.rpow_intCast]
      exact le_trans (by norm_num) x0
    exact_mod_cast this
  · have : ⌈Real.logb 10 x⌉ ≤ (12 : ℤ) := by
      rw [Int.ceil_le, Real.logb_le_iff_le_rpow (by norm_num) hpos, Real.rpow_intCast]
      exact x1.trans (by norm_num)
    exact_mod_cast this

set_option exponentiation.threshold 700 in
/-- The values of a curve that stays within ten decades. -/
theorem raw_range {c : ℤ} (hc : |c| ≤ 100) : ∃ k : ℤ, -600 ≤ k ∧ k ≤ 600 ∧ ∀ y : T, Bd y (c - 10) (c + 10) →
    WBd (Flt.pow10 y : Wide T) (2 ^ k) (2 ^ (k + (70 : ℕ))) := by
  obtain ⟨c0, c1⟩ := abs_le.1 hc
  have hm : (0 : ℝ) < (10 : ℝ) ^ (c - 10) / 2 := by positivity
  have k0 : (2 : ℝ) ^ Int.log 2 ((10 : ℝ) ^ (c - 10) / 2) ≤ 10 ^ (c - 10) / 2 := by
    exact_mod_cast Int.zpow_log_le_self (b := 2) (by norm_num) hm
  have k1 : (10 : ℝ) ^ (c - 10) / 2 < 2 ^ (Int.log 2 ((10 : ℝ) ^ (c - 10) / 2) + 1) := by
    exact_mod_cast Int.lt_zpow_succ_log_self (b := 2) (by norm_num) ((10 : ℝ) ^ (c - 10) / 2)
  generalize Int.log 2 ((10 : ℝ) ^ (c - 10) / 2) = k at k0 k1
  refine ⟨k, ?_, ?_, ?_⟩
  · by_contra h
    have h1 : (2 : ℝ) ^ (k + 1) ≤ 2 ^ (-600 : ℤ) := zpow_le_zpow_right₀ (by norm_num) (by omega)
    have h2 : (10 : ℝ) ^ (-110 : ℤ) ≤ 10 ^ (c - 10) := zpow_le_zpow_right₀ (by norm_num) (by omega)
    have h3 : (2 : ℝ) ^ (-600 : ℤ) < 10 ^ (-110 : ℤ) / 2 := by norm_num
    exact absurd (k1.trans_le h1) (not_lt.2 (h3.le.trans (div_le_div_of_nonneg_right h2 (by norm_num))))
  · by_contra h
    have h1 : (2 : ℝ) ^ (600 : ℤ) ≤ 2 ^ k := zpow_le_zpow_right₀ (by norm_num) (by omega)
    have h2 : (10 : ℝ) ^ (c - 10) ≤ 10 ^ (90 : ℤ) := zpow_le_zpow_right₀ (by norm_num) (by omega)
    have h3 : (10 : ℝ) ^ (90 : ℤ) / 2 < (2 : ℝ) ^ (600 : ℤ) := by norm_num
    linarith
  · rintro y ⟨x, hx, x0, x1⟩
    have c0' : (-100 : ℝ) ≤ c := by exact_mod_cast c0
    have c1' : (c : ℝ) ≤ 100 := by exact_mod_cast c1
    obtain ⟨z, hz, z0, z1⟩ := wval_pow10 _ x hx (by rw [abs_le]; constructor <;> linarith)
    refine ⟨z, hz, k0.trans (le_trans ?_ z0), z1.trans ?_⟩
    · have : c - 10 ≤ ⌊x⌋ := by rw [Int.le_floor]; push_cast; exact x0
      exact div_le_div_of_nonneg_right (zpow_le_zpow_right₀ (by norm_num) this) (by norm_num)
    · have h1 : ⌈x⌉ ≤ c + 10 := by rw [Int.ceil_le]; push_cast; exact x1
      have h2 : (10 : ℝ) ^ ⌈x⌉ ≤ 10 ^ (c + 10) := zpow_le_zpow_right₀ (by norm_num) h1
      have h3 : (10 : ℝ) ^ (c + 10) = 10 ^ (c - 10) * 10 ^ 20 := by
        rw [show c + 10 = (c - 10) + (20 : ℕ) by push_cast; ring, zpow_add₀ (by norm_num), zpow_natCast]
      have h4 : (2 : ℝ) ^ (k + (70 : ℕ)) = 2 ^ (k + 1) * 2 ^ 69 := by
        rw [show k + (70 : ℕ) = (k + 1) + (69 : ℕ) by push_cast; ring, zpow_add₀ (by norm_num) (k + 1), zpow_natCast]
      have h5 : (4 : ℝ) * 10 ^ 20 ≤ 2 ^ 69 := by norm_num
      rw [h4]
      calc 2 * (10 : ℝ) ^ ⌈x⌉ ≤ 2 * (10 ^ (c - 10) * 10 ^ 20) := by rw [← h3]; linarith
        _ = 10 ^ (c - 10) / 2 * (4 * 10 ^ 20) := by ring
        _ ≤ 2 ^ (k + 1) * 2 ^ 69 := mul_le_mul k1.le h5 (by positivity) (by positivity)

theorem table_range {q : Polynomial5 T} {lo hi : ℝ} (hlo : 0 < lo)
    (hq : ∀ y : T, Bd y (-10) 12 → WBd (Flt.pow10 (q.val y) : Wide T) lo hi) (l : List T) : ∀ normal : Wide T,
    (∀ e ∈ l, Bd e (2 ^ (-32 : ℤ)) (2 ^ (39 : ℤ))) → (normal = Flt.wideZero ∨ WBd normal lo hi) →
    (∀ x ∈ (rawCrossSections q l normal).1, WBd x lo hi) ∧
    (((∃ e ∈ l.tail, (e >=. one) = true) ∨ WBd normal lo hi) → WBd (rawCrossSections q l normal).2 lo hi) := by
  induction l with
  | nil =>
    intro normal _ _
    refine ⟨by simp [rawCrossSections], ?_⟩
    rintro (⟨e, h, _⟩ | h)
    · simp at h
    · exact h
  | cons e0 l ih =>
    intro normal hl hn
    cases l with
    | nil =>
      refine ⟨by simp [rawCrossSections], ?_⟩
      rintro (⟨e, h, _⟩ | h)
      · simp at h
      · exact h
    | cons e1 rest =>
      have hx := hq _ (midpoint_range (hl e0 (by simp)) (hl e1 (by simp)))
      unfold rawCrossSections
      dsimp only
      generalize hX : Flt.pow10 (q.val (Flt.log10 ((e0 +. e1) /. two))) = X at hx ⊢
      generalize hN : (if ((e1 >=. one) && Flt.wideIsZero normal) = true then X else normal) = N
      have hN' : (N = Flt.wideZero ∨ WBd N lo hi) ∧ ((((e1 >=. one) = true) ∨ WBd normal lo hi) → WBd N lo hi) := by
        rw [← hN]
        rcases hn with rfl | hn
        · rw [wideZero_isZero, Bool.and_true]
          split
          · exact ⟨.inr hx, fun _ => hx⟩
          · rename_i h
            refine ⟨.inl rfl, ?_⟩
            rintro (h' | h')
            · exact absurd h' h
            · exact h'
        · rw [hn.isZero hlo, Bool.and_false, if_neg (by simp)]
          exact ⟨.inr hn, fun _ => hn⟩
      obtain ⟨i1, i2⟩ := ih N (fun e he => hl e (by simp [List.mem_cons.1 he])) hN'.1
      refine ⟨?_, ?_⟩
      · intro x hx'
        rcases List.mem_cons.1 hx' with rfl | hx'
        · exact hx
        · exact i1 x hx'
      · intro h
        apply i2
        rcases h with ⟨e, he, h⟩ | h
        · rcases List.mem_cons.1 he with rfl | he
          · exact .inr (hN'.2 (.inl h))
          · exact .inl ⟨e, he, h⟩
        · exact .inr (hN'.2 (.inr h))

/-- The cross-sections of a reaction. -/
theorem reaction_range {q : Polynomial5 T} (hq : TameCurve q) {n : Nat} (hn : 0 < n) (hn' : n < 2 ^ 19) {lo hi : T}
    (hlo : Bd lo (2 ^ (-30 : ℤ)) 1) (hhi : Bd hi 20 (2 ^ (5 : ℤ))) {ty : ReactionType} {nu rx : T}
    (hrx : Bd rx 0 (2 ^ (42 : ℤ))) {s : T} (hs : s ∈ (Reaction.new ty nu (energyLevels n lo hi) q rx).crossSection) :
    Bd s 0 (2 ^ (112 : ℤ)) := by
  obtain ⟨c, hc, hv⟩ := hq
  obtain ⟨k, k0, k1, hk⟩ := raw_range (T := T) hc
  unfold Reaction.new at hs
  dsimp only at hs
  obtain ⟨h1, h2⟩ := table_range (T := T) (q := q) (lo := 2 ^ k) (hi := 2 ^ (k + (70 : ℕ))) (by positivity)
    (fun y hy => hk _ (hv y hy)) _ Flt.wideZero (fun e he => level_range hlo hhi hn' he) (.inl rfl)
  obtain ⟨x, hx, rfl⟩ := List.mem_map.1 hs
  exact scaled_bd (d := 70) (r := 42) k0 k1 (by norm_num) (by norm_num) (h1 x hx) (h2 (.inl (levels_last hn hhi))) hrx

theorem counts_pos {n i : Nat} (hi : i < n) :
    (i % 3 = 1 → 0 < (reactionCounts n).1) ∧ (i % 3 = 0 → 0 < (reactionCounts n).2.1) ∧
    (i % 3 = 2 → 0 < (reactionCounts n).2.2) ∧
    (reactionCounts n).1 ≤ n ∧ (reactionCounts n).2.1 ≤ n ∧ (reactionCounts n).2.2 ≤ n := by
  have hn : n % 3 = 0 ∨ n % 3 = 1 ∨ n % 3 = 2 := by omega
  have e : reactionCounts n = (n / 3, n / 3, n / 3) ∧ n % 3 = 0 ∨ reactionCounts n = (n / 3, n / 3 + 1, n / 3) ∧ n % 3 = 1 ∨
      reactionCounts n = (n / 3 + 1, n / 3 + 1, n / 3) ∧ n % 3 = 2 := by
    unfold reactionCounts
    rcases hn with h | h | h <;> rw [h]
    · exact .inl ⟨rfl, rfl⟩
    · exact .inr (.inl ⟨rfl, rfl⟩)
    · exact .inr (.inr ⟨rfl, rfl⟩)
  rcases e with ⟨e, h⟩ | ⟨e, h⟩ | ⟨e, h⟩ <;> rw [e] <;> dsimp only <;>
    refine ⟨fun _ => ?_, fun _ => ?_, fun _ => ?_, ?_, ?_, ?_⟩ <;> omega

/-- The cross-sections of an isotope. -/
theorem isotope_range {sp : IsotopeSpec T} {nu : T} {n : Nat} (hn : 0 < n) (hn' : n < 2 ^ 19) {lo hi : T}
    (hlo : Bd lo (2 ^ (-30 : ℤ)) 1) (hhi : Bd hi 20 (2 ^ (5 : ℤ))) (hr : sp.nReactions ≤ 2 ^ 5)
    (ht : Bd sp.totalCrossSection 0 (2 ^ (34 : ℤ))) (hf : Bd sp.fissionRatio 0 (2 ^ (7 : ℤ)))
    (hs : Bd sp.scatteringRatio 0 (2 ^ (7 : ℤ))) (ha : Bd sp.absorptionRatio 0 (2 ^ (7 : ℤ)))
    (hex : Bd sp.fissionRatio (2 ^ (-1 : ℤ)) (2 ^ (7 : ℤ)) ∨ Bd sp.scatteringRatio (2 ^ (-1 : ℤ)) (2 ^ (7 : ℤ)) ∨
      Bd sp.absorptionRatio (2 ^ (-1 : ℤ)) (2 ^ (7 : ℤ)))
    (p1 : TameCurve sp.fissionPoly) (p2 : TameCurve sp.scatteringPoly) (p3 : TameCurve sp.absorptionPoly) :
    let rs := isotopeReactions (energyLevels n lo hi) sp nu
    rs.length ≤ 2 ^ 5 ∧ ∀ r ∈ rs, ∀ s ∈ r.crossSection, Bd s 0 (2 ^ (112 : ℤ)) := by
  have rp : ∀ {k : ℤ}, -100 ≤ k → k ≤ 100 → Rep T ((2 : ℝ) ^ k) := fun a b => Ieee.rep_two_pow a b
  have hw : Bd (sp.fissionRatio +. sp.scatteringRatio +. sp.absorptionRatio) (2 ^ (-1 : ℤ)) (2 ^ (9 : ℤ)) := by
    have rm := rp (k := -1) (by norm_num) (by norm_num)
    have r8 := rp (k := 8) (by norm_num) (by norm_num)
    have r9 := rp (k := 9) (by norm_num) (by norm_num)
    rcases hex with h | h | h
    · exact (h.add hs rm r8 (by norm_num) (by norm_num)).add ha rm r9 (by norm_num) (by norm_num)
    · exact (hf.add h rm r8 (by norm_num) (by norm_num)).add ha rm r9 (by norm_num) (by norm_num)
    · exact (hf.add hs rep_zero r8 (by norm_num) (by norm_num)).add h rm r9 (by norm_num) (by norm_num)
  have hx : ∀ {c : Nat} {a : T}, 0 < c → c ≤ sp.nReactions → Bd a 0 (2 ^ (7 : ℤ)) →
      Bd ((sp.totalCrossSection *. a) /. (Flt.ofNat c *. (sp.fissionRatio +. sp.scatteringRatio +. sp.absorptionRatio))) 0
        (2 ^ (42 : ℤ)) := by
    intro c a c0 c1 ha
    have c0' : (1 : ℝ) ≤ c := by exact_mod_cast c0
    have c1' : (c : ℝ) ≤ 2 ^ 5 := by exact_mod_cast c1.trans hr
    have hd := (IsFin.bd (fin_ofNat (T := T) (n := c) (by omega))).mul hw (rp (k := -1) (by norm_num) (by norm_num))
      (rp (k := 14) (by norm_num) (by norm_num)) (by positivity) (by positivity) (by
        have : (1 : ℝ) * 2 ^ (-1 : ℤ) ≤ c * 2 ^ (-1 : ℤ) := by gcongr
        linarith) (by
        have : (c : ℝ) * 2 ^ (9 : ℤ) ≤ 2 ^ 5 * 2 ^ (9 : ℤ) := by gcongr
        exact this.trans (by norm_num))
    exact (ht.mul ha rep_zero (rp (k := 41) (by norm_num) (by norm_num)) le_rfl le_rfl (by norm_num) (by norm_num)).div hd
      rep_zero (rp (k := 42) (by norm_num) (by norm_num)) le_rfl (by positivity) (by norm_num) (by norm_num) le_rfl
  intro rs
  have e : rs = isotopeReactions (energyLevels n lo hi) sp nu := rfl
  clear_value rs
  unfold isotopeReactions at e
  subst e
  dsimp only
  refine ⟨by rw [List.length_map, List.length_range]; exact hr, ?_⟩
  intro r hr' s hs'
  obtain ⟨i, hi', rfl⟩ := List.mem_map.1 hr'
  obtain ⟨q1, q2, q3, q4, q5, q6⟩ := counts_pos (List.mem_range.1 hi')
  have h3 : i % 3 = 0 ∨ i % 3 = 1 ∨ i % 3 = 2 := by omega
  rcases h3 with h | h | h <;> rw [h] at hs'
  · exact reaction_range p2 hn hn' hlo hhi (hx (q2 h) q5 hs) hs'
  · exact reaction_range p1 hn hn' hlo hhi (hx (q1 h) q4 hf) hs'
  · exact reaction_range p3 hn hn' hlo hhi (hx (q3 h) q6 ha) hs'

/-- A straight line, not too steep. -/
theorem line_tame {q : Polynomial5 T} (h1 : q.aa = zero) (h2 : q.bb = zero) (h3 : q.cc = zero)
    (hd : Bd q.dd (-(3 / 4)) (3 / 4)) {c : ℤ} (hc : |c| ≤ 100) (he : Bd q.ee (c - 1) (c + 1)) : TameCurve q := by
  obtain ⟨c0, c1⟩ := abs_le.1 hc
  refine ⟨c, hc, fun x hx => ?_⟩
  obtain ⟨x', hx', x0, x1⟩ := hx
  have z : ∀ {b : T}, IsFin b 0 → IsFin ((zero : T) +. x *. b) 0 := by
    intro b hb
    have h1 := IsFin.mul hx' hb (by rw [mul_zero]; exact rep_zero)
    rw [mul_zero] at h1
    have h2 := IsFin.add fin_zero h1 (by rw [add_zero]; exact rep_zero)
    rwa [add_zero] at h2
  have hm := IsFin.mul hx' (z (z fin_zero)) (by rw [mul_zero]; exact rep_zero)
  rw [mul_zero] at hm
  have rq : Rep T (3 / 4) := by
    have := rep_scaled (T := T) (n := 3) (k := -2) (by norm_num) (by norm_num) (by norm_num)
    norm_num at this; exact this
  have rn : Rep T (-(3 / 4)) := by
    have := rep_neg_scaled (T := T) (n := 3) (k := -2) (by norm_num) (by norm_num) (by norm_num)
    norm_num at this ⊢; exact this
  have hd' := hd.add (IsFin.bd hm) rn rq (by norm_num) (by norm_num)
  obtain ⟨y, hy, y0, y1⟩ := hd'
  have hab : |x' * y| ≤ 9 := by
    rw [abs_mul]
    have a1 : |x'| ≤ 12 := abs_le.2 ⟨by linarith, x1⟩
    have a2 : |y| ≤ 3 / 4 := abs_le.2 ⟨y0, y1⟩
    calc |x'| * |y| ≤ 12 * (3 / 4) := mul_le_mul a1 a2 (abs_nonneg _) (by norm_num)
      _ = 9 := by norm_num
  obtain ⟨b0, b1⟩ := abs_le.1 hab
  obtain ⟨w, hw, w0, w1⟩ := rnd_between (T := T) (rep_i (n := -9) (by norm_num) (by norm_num : ((-9 : ℤ) : ℝ) = -9))
    (rep_i (n := 9) (by norm_num) (by norm_num : ((9 : ℤ) : ℝ) = 9)) b0 b1
  have hxy : Bd (x *. (q.dd +. x *. (zero +. x *. (zero +. x *. zero)))) (-9) 9 := by
    refine ⟨w, ?_, w0, w1⟩
    unfold IsFin at hx' hy ⊢
    rw [val_mul, hx', hy]
    unfold ieeeMul
    dsimp only
    rw [if_neg (by simp), ← EReal.coe_mul, hw]
  unfold Polynomial5.val
  rw [h1, h2, h3]
  exact he.add hxy (rep_i (n := c - 10) (by rw [abs_le]; constructor <;> omega) (by push_cast; ring))
    (rep_i (n := c + 10) (by rw [abs_le]; constructor <;> omega) (by push_cast; ring)) (by linarith) (by linarith)
end Flooding
