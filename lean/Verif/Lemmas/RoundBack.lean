import Verif.Lemmas.Binary
import Verif.Lemmas.IeeeBounds
/-!
# Adding back what was subtracted

The energy of a sourced particle is at most `(eMax - eMin) + eMin`, with two roundings.  This is not above `eMax`
when the last digit of `eMax` is even.
-/
namespace Format
variable {F : Format}

theorem roundEven_half (q : ℝ) : |(roundEven q : ℝ) - q| ≤ 1 / 2 := by
  have h := Int.floor_add_fract q
  have h1 := Int.fract_lt_one q
  have h0 := Int.fract_nonneg q
  rw [abs_le]
  unfold roundEven
  split_ifs <;> push_cast <;> constructor <;> linarith

theorem roundEven_even {n : ℤ} (h : Even n) : roundEven (n + 1 / 2) = n := by
  have hf : ⌊(n : ℝ) + 1 / 2⌋ = n := by
    rw [Int.floor_eq_iff]; constructor <;> linarith
  have hr : Int.fract ((n : ℝ) + 1 / 2) = 1 / 2 := by
    rw [Int.fract, hf]; ring
  unfold roundEven
  rw [hr, hf, if_neg (by norm_num), if_neg (by norm_num), if_pos h]

theorem round_half (x : ℝ) : |F.round x - x| ≤ 2 ^ F.ulp x / 2 := by
  have h := roundEven_half (x / 2 ^ F.ulp x)
  have e : F.round x - x = (roundEven (x / 2 ^ F.ulp x) - x / 2 ^ F.ulp x) * 2 ^ F.ulp x := by
    unfold round
    rw [sub_mul, div_mul_cancel₀ _ (by positivity)]
  rw [e, abs_mul, abs_of_pos (by positivity : (0 : ℝ) < 2 ^ F.ulp x)]
  calc _ ≤ 1 / 2 * (2 : ℝ) ^ F.ulp x := by gcongr
    _ = _ := by ring

theorem ulp_mono {x y : ℝ} (hx : 0 < x) (h : x ≤ y) : F.ulp x ≤ F.ulp y := by
  unfold ulp
  rw [abs_of_pos hx, abs_of_pos (lt_of_lt_of_le hx h)]
  have := Int.log_mono_right (b := 2) hx h
  omega

theorem ulp_lt {x : ℝ} (hx : 0 < x) : x < 2 ^ ((F.prec : ℤ) + F.ulp x) := by
  have h := Int.lt_zpow_succ_log_self (b := 2) (by norm_num) x
  push_cast at h
  refine lt_of_lt_of_le h (zpow_le_zpow_right₀ (by norm_num) ?_)
  have : Int.log 2 |x| - (F.prec - 1) ≤ F.ulp x := le_max_left _ _
  rw [abs_of_pos hx] at this
  omega

/-- Half a last digit more is rounded away when the last digit is even. -/
theorem round_even {x : ℝ} {n : ℤ} (hx : 0 < x) (hn : x = n * 2 ^ F.ulp x) (he : Even n) :
    F.round (x + 2 ^ F.ulp x / 2) = x := by
  have hp := F.prec_ge
  generalize hk : F.ulp x = k at *
  have hpos : (0 : ℝ) < 2 ^ k := by positivity
  have hlt := ulp_lt (F := F) hx
  rw [hk, zpow_add₀ (by norm_num), zpow_natCast] at hlt
  have hn1 : (n : ℝ) < 2 ^ F.prec := by
    rw [hn] at hlt
    exact lt_of_mul_lt_mul_right hlt hpos.le
  have hn2 : (n : ℝ) + 1 ≤ 2 ^ F.prec := by
    have : n < 2 ^ F.prec := by exact_mod_cast hn1
    exact_mod_cast (by omega : n + 1 ≤ 2 ^ F.prec)
  have hy : x + 2 ^ k / 2 < 2 ^ ((F.prec : ℤ) + k) := by
    rw [zpow_add₀ (by norm_num), zpow_natCast, hn]
    calc (n : ℝ) * 2 ^ k + 2 ^ k / 2 < (n + 1) * 2 ^ k := by linarith
      _ ≤ _ := by gcongr
  have hy0 : 0 < x + 2 ^ k / 2 := by positivity
  have hu : F.ulp (x + 2 ^ k / 2) = k := by
    apply le_antisymm
    · unfold ulp
      refine max_le ?_ (by rw [← hk]; exact le_max_right _ _)
      rw [abs_of_pos hy0]
      have := (Int.lt_zpow_iff_log_lt (b := 2) (by norm_num) hy0).1 (by exact_mod_cast hy)
      omega
    · have := ulp_mono (F := F) hx (show x ≤ x + 2 ^ k / 2 by linarith)
      omega
  unfold round
  rw [hu]
  have : (x + 2 ^ k / 2) / 2 ^ k = n + 1 / 2 := by
    rw [hn]; field_simp
  rw [this, roundEven_even he, ← hn]

/-- The difference, rounded, plus what was subtracted, rounded, is not above the first number. -/
theorem round_back {x e : ℝ} {n : ℤ} (hx : 0 < x) (hn : x = n * 2 ^ F.ulp x) (hev : Even n) (h0 : 0 ≤ e) (h1 : e < x) :
    F.round (F.round (x - e) + e) ≤ x := by
  rw [← round_even hx hn hev]
  refine round_mono ?_
  have a := (abs_le.1 (round_half (F := F) (x - e))).2
  have b : (2 : ℝ) ^ F.ulp (x - e) ≤ 2 ^ F.ulp x :=
    zpow_le_zpow_right₀ (by norm_num) (ulp_mono (by linarith) (by linarith))
  rw [round_even hx hn hev]
  linarith

end Format

open Flt Ieee

/-- A finite result of the rounding. -/
theorem Format.rnd_eq_round {F : Format} {x y : ℝ} (h : F.rnd (x : EReal) = (y : EReal)) : y = F.round x := by
  rw [Format.rnd_coe] at h
  unfold Format.clamp at h
  split_ifs at h
  · exact absurd h.symm (EReal.coe_ne_top y)
  · exact absurd h.symm (EReal.coe_ne_bot y)
  · exact (EReal.coe_eq_coe_iff.1 h).symm

/-- In the two formats, the condition on the source energies holds when the last digit of the upper bound is even. -/
theorem sourced_even {F : Format} {a b : Num F} {x e : ℝ} {n : ℤ} (ha : IsFin a x) (hb : IsFin b e) (hx : 0 < x)
    (hn : x = n * 2 ^ F.ulp x) (hev : Even n) (h0 : 0 ≤ e) (h1 : e < x) :
    ((a -. b) +. b <=. a) = true := by
  have hrx : Rep (Num F) x := ha.rep
  obtain ⟨z, hz, z0, z1⟩ := rnd_between (T := Num F) rep_zero hrx (t := x - e) (by linarith) (by linarith)
  have hsub : IsFin (a -. b) z := fin_of_rnd (fin_sub ha hb) hz
  have hzr : z = F.round (x - e) := Format.rnd_eq_round hz
  have hle : F.round (z + e) ≤ x := by rw [hzr]; exact Format.round_back hx hn hev h0 h1
  obtain ⟨ht0, ht1⟩ := abs_le.1 (Format.fits_of_rnd (F := F) hrx).2
  have hw0 : 0 ≤ F.round (z + e) := Format.round_nonneg (by linarith)
  have hw : rnd (Num F) ((z + e : ℝ) : EReal) = ((F.round (z + e) : ℝ) : EReal) := by
    show F.rnd _ = _
    rw [Format.rnd_coe]
    unfold Format.clamp
    have := F.top_pos
    rw [if_neg (by linarith), if_neg (by linarith)]
  exact (le_fin (fin_of_rnd (fin_add hsub hb) hw) ha).2 hle

/-- The last digit of 20 is even in every format. -/
theorem twenty_even (F : Format) : ∃ n : ℤ, (20 : ℝ) = n * 2 ^ F.ulp 20 ∧ Even n := by
  have hp := F.prec_ge
  have hl := F.low_le
  have hu : F.ulp 20 ≤ -19 := by
    unfold Format.ulp
    have := (Int.lt_zpow_iff_log_lt (b := 2) (r := (20 : ℝ)) (x := 5) (by norm_num) (by norm_num)).1 (by norm_num)
    rw [abs_of_pos (by norm_num)]
    omega
  generalize F.ulp 20 = k at hu
  obtain ⟨m, hm⟩ := Int.eq_ofNat_of_zero_le (a := -k) (by omega)
  refine ⟨20 * 2 ^ m, ?_, ?_⟩
  · push_cast
    rw [mul_assoc, ← zpow_natCast, ← zpow_add₀ (by norm_num), show (m : ℤ) + k = 0 by omega]
    simp
  · exact Even.mul_right (by decide) _

/-! ### Above the upper bound when the last digit is odd -/

theorem Format.ulp_eq {F : Format} {x : ℝ} {k : ℤ} (hl : F.low ≤ k) (h0 : (2 : ℝ) ^ (k + F.prec - 1) ≤ x)
    (h1 : x < 2 ^ (k + F.prec)) : F.ulp x = k := by
  have hx : 0 < x := lt_of_lt_of_le (by positivity) h0
  have a := (Int.lt_zpow_iff_log_lt (b := 2) (by norm_num) hx).1 (by exact_mod_cast h1)
  have b := (Int.zpow_le_iff_le_log (b := 2) (by norm_num) hx).1 (by exact_mod_cast h0)
  unfold Format.ulp
  rw [abs_of_pos hx]
  omega

theorem roundEven_odd {n : ℤ} (h : ¬ Even n) : roundEven (n + 1 / 2) = n + 1 := by
  have hf : ⌊(n : ℝ) + 1 / 2⌋ = n := by
    rw [Int.floor_eq_iff]; constructor <;> linarith
  have hr : Int.fract ((n : ℝ) + 1 / 2) = 1 / 2 := by
    rw [Int.fract, hf]; ring
  unfold roundEven
  rw [hr, hf, if_neg (by norm_num), if_neg (by norm_num), if_neg h]

/-- The largest state of the generator gives the number one, in every format. -/
theorem ofSeed_one {F : Format} {s : BitVec 64} (hs : s.toNat = 2 ^ 64 - 1) : IsFin (Flt.ofSeed s : Num F) 1 := by
  obtain ⟨x, y, z, h, hy, hz, hx, _⟩ := Num.ofSeed_steps (F := F) s
  have e1 : y = 2 ^ 64 := by
    rw [Format.rnd_eq_round hy]
    have hu : binary64.ulp (s.toNat : ℝ) = 11 := by
      rw [hs]
      refine Format.ulp_eq (by decide) ?_ ?_
      · show (2 : ℝ) ^ ((11 : ℤ) + (53 : ℕ) - 1) ≤ _
        norm_num
      · show _ < (2 : ℝ) ^ ((11 : ℤ) + (53 : ℕ))
        norm_num
    unfold Format.round
    rw [hu, hs]
    have hf : ⌊(((2 ^ 64 - 1 : ℕ) : ℝ)) / 2 ^ (11 : ℤ)⌋ = 2 ^ 53 - 1 := by
      rw [Int.floor_eq_iff]; norm_num
    have hr : 1 / 2 < Int.fract ((((2 ^ 64 - 1 : ℕ) : ℝ)) / 2 ^ (11 : ℤ)) := by
      rw [Int.fract, hf]; norm_num
    unfold roundEven
    rw [if_neg (by linarith), if_pos hr, hf]
    norm_num
  have r1 : ∀ G : Format, G.rnd ((1 : ℝ) : EReal) = ((1 : ℝ) : EReal) := fun G => by
    have := G.rnd_scaled 1 0 (by norm_num) (by norm_num) (by norm_num)
    simpa using this
  have e2 : z = 1 := by
    rw [e1] at hz
    have : (1 / 2 ^ 64 * 2 ^ 64 : ℝ) = 1 := by norm_num
    rw [this, r1] at hz
    exact_mod_cast hz.symm
  rw [e2, r1] at hx
  have e3 : x = 1 := by exact_mod_cast hx.symm
  rw [e3] at h
  exact h

theorem round_source : binary32.round (10485761 * 2 ^ (-19 : ℤ) - 3 * 2 ^ (-20 : ℤ)) = 20 ∧
    binary32.round (20 + 3 * 2 ^ (-20 : ℤ)) = 10485762 * 2 ^ (-19 : ℤ) := by
  have hu : ∀ x : ℝ, 16 ≤ x → x < 32 → binary32.ulp x = -19 := by
    intro x h0 h1
    refine Format.ulp_eq (by decide) ?_ ?_
    · show (2 : ℝ) ^ ((-19 : ℤ) + (24 : ℕ) - 1) ≤ _
      norm_num; exact h0
    · show _ < (2 : ℝ) ^ ((-19 : ℤ) + (24 : ℕ))
      norm_num; exact h1
  constructor
  · unfold Format.round
    rw [hu _ (by norm_num) (by norm_num)]
    have : ((10485761 : ℝ) * 2 ^ (-19 : ℤ) - 3 * 2 ^ (-20 : ℤ)) / 2 ^ (-19 : ℤ) = ((10485759 : ℤ) : ℝ) + 1 / 2 := by norm_num
    rw [this, roundEven_odd (by decide)]
    norm_num
  · unfold Format.round
    rw [hu _ (by norm_num) (by norm_num)]
    have : ((20 : ℝ) + 3 * 2 ^ (-20 : ℤ)) / 2 ^ (-19 : ℤ) = ((10485761 : ℤ) : ℝ) + 1 / 2 := by norm_num
    rw [this, roundEven_odd (by decide)]
    norm_num
