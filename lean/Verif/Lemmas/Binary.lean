import Verif.Model.Binary
import Verif.Spec.Ieee
import Mathlib.Analysis.Complex.ExponentialBounds
/-!
# `f32` and `f64` follow the rules of `Verif/Spec/Ieee.lean`
-/
open Flt

namespace Num
variable {F : Format}

theorem cast_val (a : EReal) (s : Bool) :
    (Num.cast (Num.round a s : Num binary64) : Num F).val = some (F.rnd (binary64.rnd a)) := rfl

theorem lift_coe {f : ℝ → Option EReal} {lo hi : Option EReal} {a : Num F} {x : ℝ} (h : a.val = some (x : EReal)) :
    (lift f lo hi a).val = (f x).map F.rnd := by
  unfold lift
  rw [h]
  dsimp only
  rw [if_neg (EReal.coe_ne_top x), if_neg (EReal.coe_ne_bot x), EReal.toReal_coe]
  cases f x <;> rfl

theorem lift_top {f : ℝ → Option EReal} {lo hi : Option EReal} {a : Num F} (h : a.val = some ⊤) :
    (lift f lo hi a).val = hi.map F.rnd := by
  unfold lift
  rw [h]
  dsimp only
  rw [if_pos rfl]
  cases hi <;> rfl

theorem lift_bot {f : ℝ → Option EReal} {lo hi : Option EReal} {a : Num F} (h : a.val = some ⊥) :
    (lift f lo hi a).val = lo.map F.rnd := by
  unfold lift
  rw [h]
  dsimp only
  rw [if_neg (by simp), if_pos rfl]
  cases lo <;> rfl

theorem lift_nan {f : ℝ → Option EReal} {lo hi : Option EReal} {a : Num F} (h : a.val = none) :
    (lift f lo hi a).val = none := by
  unfold lift
  rw [h]
  rfl

theorem cmp_iff (r : EReal → EReal → Prop) (a b : Num F) :
    cmp r a b = true ↔ ∃ x y, a.val = some x ∧ b.val = some y ∧ r x y := by
  unfold cmp
  cases ha : a.val with
  | none => simp
  | some x =>
    cases hb : b.val with
    | none => simp
    | some y => simp

theorem add_val (a b : Num F) : (add a b).val = ieeeAdd F.rnd a.val b.val := by
  unfold add ieeeAdd
  cases a.val with
  | none => rfl
  | some x =>
    cases b.val with
    | none => rfl
    | some y => dsimp only; split_ifs <;> rfl

theorem mul_val (a b : Num F) : (mul a b).val = ieeeMul F.rnd a.val b.val := by
  unfold mul ieeeMul
  cases a.val with
  | none => rfl
  | some x =>
    cases b.val with
    | none => rfl
    | some y => dsimp only; split_ifs <;> rfl

theorem div_val (a b : Num F) (h : b.val ≠ some 0) : (div a b).val = ieeeDiv F.rnd a.val b.val := by
  unfold div ieeeDiv
  cases a.val with
  | none => rfl
  | some x =>
    cases hb : b.val with
    | none => rfl
    | some y =>
      dsimp only
      rw [if_neg (by rintro rfl; exact h hb)]
      split_ifs <;> rfl

theorem sup_val (a b : Num F) : (sup a b).val =
    match a.val, b.val with
    | some x, some y => some (Max.max x y)
    | some x, none => some x
    | none, v => v := by
  unfold sup
  cases ha : a.val with
  | none => rfl
  | some x =>
    cases hb : b.val with
    | none => exact ha
    | some y =>
      dsimp only
      split_ifs with h
      · rw [hb, max_eq_right h.le]
      · rw [ha, max_eq_left (not_lt.1 h)]

theorem inf_val (a b : Num F) : (inf a b).val =
    match a.val, b.val with
    | some x, some y => some (Min.min x y)
    | some x, none => some x
    | none, v => v := by
  unfold inf
  cases ha : a.val with
  | none => rfl
  | some x =>
    cases hb : b.val with
    | none => exact ha
    | some y =>
      dsimp only
      split_ifs with h
      · rw [hb, min_eq_right h.le]
      · rw [ha, min_eq_left (not_lt.1 h)]

/-- A positive real that is not too small or large is rounded to one. -/
theorem rnd_real {x : ℝ} {m k : ℤ} (hk : -100 ≤ k) (hm : m ≤ 100) (h0 : (2 : ℝ) ^ k ≤ x) (h1 : x ≤ 2 ^ m) :
    ∃ y : ℝ, F.rnd (x : EReal) = y ∧ 2 ^ k ≤ y ∧ y ≤ 2 ^ m := by
  have hkm : k ≤ m := by
    have := h0.trans h1
    exact (zpow_le_zpow_iff_right₀ (by norm_num)).1 this
  have a := F.rnd_mono (EReal.coe_le_coe_iff.2 h0)
  have b := F.rnd_mono (EReal.coe_le_coe_iff.2 h1)
  have e1 := F.rnd_scaled 1 k (by norm_num) hk (by omega)
  have e2 := F.rnd_scaled 1 m (by norm_num) (by omega) hm
  rw [Nat.cast_one, one_mul] at e1 e2
  rw [e1] at a
  rw [e2] at b
  generalize F.rnd (x : EReal) = z at a b
  have hb : z ≠ ⊥ := by rintro rfl; exact EReal.coe_ne_bot _ (le_bot_iff.1 a)
  have ht : z ≠ ⊤ := by rintro rfl; exact EReal.coe_ne_top _ (top_le_iff.1 b)
  lift z to ℝ using ⟨ht, hb⟩
  exact ⟨z, rfl, EReal.coe_le_coe_iff.1 a, EReal.coe_le_coe_iff.1 b⟩

/-- The factor of the conversion of a generator state is `2^-64`, once rounded. -/
theorem seed_factor : binary64.rnd ((5421010862427522 / 10 ^ 35 : ℝ) : EReal) = ((1 / 2 ^ 64 : ℝ) : EReal) := by
  have hlog : Int.log 2 |(5421010862427522 / 10 ^ 35 : ℝ)| = -65 := by
    rw [abs_of_pos (by norm_num)]
    have h1 := (Int.zpow_le_iff_le_log (b := 2) (x := -65) (r := (5421010862427522 / 10 ^ 35 : ℝ)) (by norm_num)
      (by norm_num)).1 (by norm_num)
    have h2 := (Int.lt_zpow_iff_log_lt (b := 2) (x := -64) (r := (5421010862427522 / 10 ^ 35 : ℝ)) (by norm_num)
      (by norm_num)).1 (by norm_num)
    omega
  have hulp : binary64.ulp (5421010862427522 / 10 ^ 35 : ℝ) = -117 := by
    unfold Format.ulp
    rw [hlog]
    rfl
  have hq : roundEven ((5421010862427522 / 10 ^ 35 : ℝ) / 2 ^ (-117 : ℤ)) = 2 ^ 53 := by
    have hf : ⌊((5421010862427522 / 10 ^ 35 : ℝ) / 2 ^ (-117 : ℤ))⌋ = 2 ^ 53 - 1 := by
      rw [Int.floor_eq_iff]
      constructor <;> norm_num
    unfold roundEven
    have hfr : 1 / 2 < Int.fract ((5421010862427522 / 10 ^ 35 : ℝ) / 2 ^ (-117 : ℤ)) := by
      unfold Int.fract
      rw [hf]
      norm_num
    rw [if_neg (by linarith), if_pos hfr, hf]
    norm_num
  have hround : binary64.round (5421010862427522 / 10 ^ 35 : ℝ) = 1 / 2 ^ 64 := by
    unfold Format.round
    rw [hulp, hq]
    norm_num
  have := binary64.rnd_scaled 1 (-64) (by norm_num) (by norm_num) (by norm_num)
  have e : (((1 : ℕ) : ℝ) * 2 ^ (-64 : ℤ) : ℝ) = 1 / 2 ^ 64 := by norm_num
  rw [e] at this
  rw [Format.rnd_coe, hround]
  rw [Format.rnd_coe] at this
  have hfit : binary64.round (1 / 2 ^ 64) = 1 / 2 ^ 64 := by
    rw [← hround, Format.round_round]
  rw [hfit] at this
  exact this

theorem rnd_unit {x : ℝ} (h0 : 0 ≤ x) (h1 : x ≤ 1) : ∃ y : ℝ, F.rnd (x : EReal) = y ∧ 0 ≤ y ∧ y ≤ 1 := by
  have a := F.rnd_mono (EReal.coe_le_coe_iff.2 h0)
  have b := F.rnd_mono (EReal.coe_le_coe_iff.2 h1)
  have e2 := F.rnd_scaled 1 0 (by norm_num) (by norm_num) (by norm_num)
  rw [Nat.cast_one, one_mul, zpow_zero] at e2
  rw [EReal.coe_zero, F.rnd_zero] at a
  rw [e2] at b
  generalize F.rnd (x : EReal) = z at a b
  have hb : z ≠ ⊥ := by rintro rfl; simp at a
  have ht : z ≠ ⊤ := by rintro rfl; exact EReal.coe_ne_top _ (top_le_iff.1 b)
  lift z to ℝ using ⟨ht, hb⟩
  exact ⟨z, rfl, by exact_mod_cast a, by exact_mod_cast b⟩

theorem rnd_int {n : ℤ} (h0 : -2 ^ 24 ≤ n) (h1 : n ≤ 2 ^ 24) : F.rnd (((n : ℤ) : ℝ) : EReal) = (((n : ℤ) : ℝ) : EReal) := by
  have hp := F.prec_ge
  have hh := F.high_ge
  have hn : |n| ≤ 2 ^ 24 := abs_le.2 ⟨h0, h1⟩
  refine Format.rnd_fits ⟨n, 0, ?_, by have := F.low_le; omega, by simp⟩ ?_
  · exact hn.trans (pow_le_pow_right₀ (by norm_num) hp)
  · have h2 : |(n : ℝ)| ≤ 2 ^ 24 := by exact_mod_cast hn
    refine h2.trans ?_
    unfold Format.top
    have h3 : (2 : ℝ) ^ 24 ≤ 2 ^ F.prec := pow_le_pow_right₀ (by norm_num) hp
    have h4 : (2 : ℝ) ^ (1 : ℤ) ≤ 2 ^ F.high := zpow_le_zpow_right₀ (by norm_num) (by omega)
    have h5 : (1 : ℝ) ≤ 2 ^ F.prec - 1 := by
      have : (2 : ℝ) ≤ 2 ^ 24 := by norm_num
      linarith
    nlinarith

/-- A result between two integers of the format is rounded to a number between them. -/
theorem rnd_ints {x : ℝ} {m n : ℤ} (hm : -2 ^ 24 ≤ m) (hn : n ≤ 2 ^ 24) (h0 : (m : ℝ) ≤ x) (h1 : x ≤ n) :
    ∃ y : ℝ, F.rnd (x : EReal) = y ∧ m ≤ y ∧ y ≤ n := by
  have hmn : m ≤ n := by exact_mod_cast h0.trans h1
  have a := F.rnd_mono (EReal.coe_le_coe_iff.2 h0)
  have b := F.rnd_mono (EReal.coe_le_coe_iff.2 h1)
  rw [rnd_int hm (by omega)] at a
  rw [rnd_int (by omega) hn] at b
  generalize F.rnd (x : EReal) = z at a b
  have hb : z ≠ ⊥ := by rintro rfl; exact EReal.coe_ne_bot _ (le_bot_iff.1 a)
  have ht : z ≠ ⊤ := by rintro rfl; exact EReal.coe_ne_top _ (top_le_iff.1 b)
  lift z to ℝ using ⟨ht, hb⟩
  exact ⟨z, rfl, EReal.coe_le_coe_iff.1 a, EReal.coe_le_coe_iff.1 b⟩

/-- A positive number is rounded up to a factor of two. -/
theorem rnd_factor {x : ℝ} (h0 : (2 : ℝ) ^ (-99 : ℤ) ≤ x) (h1 : x ≤ 2 ^ (99 : ℤ)) :
    ∃ y : ℝ, F.rnd (x : EReal) = y ∧ x / 2 ≤ y ∧ y ≤ 2 * x := by
  have hx : 0 < x := lt_of_lt_of_le (by positivity) h0
  have l1 := Int.zpow_log_le_self (b := 2) (by norm_num) hx
  have l2 := Int.lt_zpow_succ_log_self (b := 2) (by norm_num) x
  have l3 := (Int.zpow_le_iff_le_log (b := 2) (x := -99) (by norm_num) hx).1 (by exact_mod_cast h0)
  have l4 : Int.log 2 x ≤ 99 := by
    have := Int.log_mono_right (b := 2) hx h1
    have h2 := Int.log_zpow (R := ℝ) (b := 2) (by norm_num) 99
    push_cast at h2
    rw [h2] at this
    exact this
  push_cast at l1 l2
  obtain ⟨y, hy, y0, y1⟩ := rnd_real (F := F) (k := Int.log 2 x) (m := Int.log 2 x + 1) (by omega) (by omega) l1 l2.le
  have e : (2 : ℝ) ^ (Int.log 2 x + 1) = 2 ^ Int.log 2 x * 2 := zpow_add_one₀ (by norm_num) _
  refine ⟨y, hy, ?_, ?_⟩ <;> linarith

/-- `f64` has the integers below `2^24` scaled by powers of two in a larger range. -/
theorem wide_scaled (n : ℕ) (k : ℤ) (hn : n ≤ 2 ^ 24) (h0 : -900 ≤ k) (h1 : k ≤ 900) :
    binary64.rnd (((n : ℝ) * 2 ^ k : ℝ) : EReal) = (((n : ℝ) * 2 ^ k : ℝ) : EReal) := by
  refine Format.rnd_fits ⟨n, k, ?_, ?_, by push_cast; rfl⟩ ?_
  · rw [abs_of_nonneg (by positivity)]
    exact_mod_cast hn.trans (Nat.pow_le_pow_right (by norm_num) (by norm_num : 24 ≤ 53))
  · show (-1074 : ℤ) ≤ k
    omega
  · rw [abs_of_nonneg (by positivity)]
    have a1 : (n : ℝ) ≤ 2 ^ 24 := by exact_mod_cast hn
    have a2 : (2 : ℝ) ^ k ≤ 2 ^ (971 : ℤ) := zpow_le_zpow_right₀ (by norm_num) (by omega)
    have a3 : (2 : ℝ) ^ 24 ≤ 2 ^ 53 - 1 := by norm_num
    show (n : ℝ) * 2 ^ k ≤ (2 ^ 53 - 1) * 2 ^ (971 : ℤ)
    exact mul_le_mul (a1.trans a3) a2 (by positivity) (by norm_num)

theorem wide_factor {x : ℝ} (h0 : (2 : ℝ) ^ (-899 : ℤ) ≤ x) (h1 : x ≤ 2 ^ (899 : ℤ)) :
    ∃ y : ℝ, binary64.rnd (x : EReal) = y ∧ x / 2 ≤ y ∧ y ≤ 2 * x := by
  have hx : 0 < x := lt_of_lt_of_le (by positivity) h0
  have l1 := Int.zpow_log_le_self (b := 2) (by norm_num) hx
  have l2 := Int.lt_zpow_succ_log_self (b := 2) (by norm_num) x
  have l3 := (Int.zpow_le_iff_le_log (b := 2) (x := -899) (by norm_num) hx).1 (by push_cast; exact h0)
  have l4 : Int.log 2 x ≤ 899 := by
    have := Int.log_mono_right (b := 2) hx h1
    have h2 := Int.log_zpow (R := ℝ) (b := 2) (by norm_num) 899
    rw [Nat.cast_ofNat] at h2
    rw [h2] at this
    exact this
  push_cast at l1 l2
  have a := binary64.rnd_mono (EReal.coe_le_coe_iff.2 l1)
  have b := binary64.rnd_mono (EReal.coe_le_coe_iff.2 l2.le)
  have e1 := wide_scaled 1 (Int.log 2 x) (by norm_num) (by omega) (by omega)
  have e2 := wide_scaled 1 (Int.log 2 x + 1) (by norm_num) (by omega) (by omega)
  rw [Nat.cast_one, one_mul] at e1 e2
  rw [e1] at a
  rw [e2] at b
  generalize binary64.rnd (x : EReal) = z at a b
  have hb : z ≠ ⊥ := by rintro rfl; exact EReal.coe_ne_bot _ (le_bot_iff.1 a)
  have ht : z ≠ ⊤ := by rintro rfl; exact EReal.coe_ne_top _ (top_le_iff.1 b)
  lift z to ℝ using ⟨ht, hb⟩
  have a := EReal.coe_le_coe_iff.1 a
  have b := EReal.coe_le_coe_iff.1 b
  have e : (2 : ℝ) ^ (Int.log 2 x + 1) = 2 ^ Int.log 2 x * 2 := zpow_add_one₀ (by norm_num) _
  refine ⟨z, rfl, ?_, ?_⟩ <;> linarith

theorem cast_of {G : Format} (a : Num G) : (Num.cast a : Num F).val = a.val.map F.rnd := by
  unfold Num.cast
  cases a.val <;> rfl

theorem log_mid {x : ℝ} (h0 : (2 : ℝ) ^ (-100 : ℤ) ≤ x) (h1 : x ≤ 2 ^ (100 : ℤ)) : -100 ≤ Real.log x ∧ Real.log x ≤ 100 := by
  have hx : 0 < x := lt_of_lt_of_le (by positivity) h0
  have l2 : Real.log 2 ≤ 1 := by have := Real.log_le_sub_one_of_pos (x := 2) (by norm_num); linarith
  have a := Real.log_le_log (by positivity) h0
  have b := Real.log_le_log hx h1
  rw [Real.log_zpow] at a b
  push_cast at a b
  constructor <;> linarith

theorem ofSeed_steps (s : BitVec 64) : ∃ x y z : ℝ, (Flt.ofSeed s : Num F).val = some (x : EReal) ∧
    binary64.rnd ((s.toNat : ℝ) : EReal) = y ∧ binary64.rnd ((1 / 2 ^ 64 * y : ℝ) : EReal) = z ∧
    F.rnd (z : EReal) = x ∧ 0 ≤ x ∧ x ≤ 1 := by
  have hs : (s.toNat : ℝ) ≤ 2 ^ (64 : ℤ) := by
    have := s.isLt
    have h : (s.toNat : ℝ) ≤ ((2 ^ 64 : ℕ) : ℝ) := by exact_mod_cast this.le
    refine h.trans ?_
    norm_num
  have hr : ∃ y : ℝ, binary64.rnd ((s.toNat : ℝ) : EReal) = y ∧ 0 ≤ y ∧ y ≤ 2 ^ 64 := by
    rcases Nat.eq_zero_or_pos s.toNat with h | h
    · rw [h]
      refine ⟨0, ?_, le_rfl, by positivity⟩
      rw [Nat.cast_zero, EReal.coe_zero, Format.rnd_zero]
    · obtain ⟨y, h1, h2, h3⟩ := rnd_real (F := binary64) (k := 0) (by norm_num) (by norm_num)
        (by rw [zpow_zero]; exact_mod_cast h) hs
      refine ⟨y, h1, ?_, by exact_mod_cast h3⟩
      rw [zpow_zero] at h2
      linarith
  obtain ⟨y, hy, y0, y1⟩ := hr
  have hv : (Num.mul (Num.round ((5421010862427522 / 10 ^ 35 : ℝ) : EReal) false)
      (Num.round ((s.toNat : ℝ) : EReal) false) : Num binary64).val =
      some (binary64.rnd ((1 / 2 ^ 64 * y : ℝ) : EReal)) := by
    rw [mul_val]
    show ieeeMul _ (some (binary64.rnd _)) (some (binary64.rnd _)) = _
    rw [seed_factor, hy]
    unfold ieeeMul
    dsimp only
    rw [if_neg, EReal.coe_mul]
    rintro (⟨_, h | h⟩ | ⟨_, h | h⟩)
    · exact EReal.coe_ne_top _ h
    · exact EReal.coe_ne_bot _ h
    · exact EReal.coe_ne_top _ h
    · exact EReal.coe_ne_bot _ h
  obtain ⟨z, hz, z0, z1⟩ := rnd_unit (F := binary64) (x := 1 / 2 ^ 64 * y) (by positivity) (by
    rw [one_div, inv_mul_le_iff₀ (by positivity)]; linarith)
  obtain ⟨t, ht, t0, t1⟩ := rnd_unit (F := F) z0 z1
  refine ⟨t, y, z, ?_, hy, hz, ht, t0, t1⟩
  show (Num.cast (Num.mul (Num.round ((5421010862427522 / 10 ^ 35 : ℝ) : EReal) false)
      (Num.round ((s.toNat : ℝ) : EReal) false) : Num binary64) : Num F).val = _
  unfold Num.cast
  rw [hv, hz]
  exact congrArg some ht

theorem ofSeed_val (s : BitVec 64) : ∃ x : ℝ, (Flt.ofSeed s : Num F).val = some (x : EReal) ∧ 0 ≤ x ∧ x ≤ 1 := by
  obtain ⟨x, _, _, h, _, _, _, h0, h1⟩ := ofSeed_steps (F := F) s
  exact ⟨x, h, h0, h1⟩

theorem ofSeed_le (s : BitVec 64) (n : ℕ) (hn : n ≤ 2 ^ 24) (hs : s.toNat ≤ n * 2 ^ 40) :
    ∃ x : ℝ, (Flt.ofSeed s : Num F).val = some (x : EReal) ∧ x ≤ n * 2 ^ (-24 : ℤ) := by
  obtain ⟨x, y, z, h, hy, hz, hx, _⟩ := ofSeed_steps (F := F) s
  refine ⟨x, h, ?_⟩
  have e1 := binary64.rnd_scaled n 40 hn (by norm_num) (by norm_num)
  have a := binary64.rnd_mono (EReal.coe_le_coe_iff.2 (show (s.toNat : ℝ) ≤ n * 2 ^ (40 : ℤ) by exact_mod_cast hs))
  rw [e1, hy, EReal.coe_le_coe_iff] at a
  have e2 := binary64.rnd_scaled n (-24) hn (by norm_num) (by norm_num)
  have b := binary64.rnd_mono (EReal.coe_le_coe_iff.2 (show 1 / 2 ^ 64 * y ≤ (n : ℝ) * 2 ^ (-24 : ℤ) by
    have : (n : ℝ) * 2 ^ (-24 : ℤ) = 1 / 2 ^ 64 * (n * 2 ^ (40 : ℤ)) := by norm_num; ring
    rw [this]
    gcongr))
  rw [e2, hz, EReal.coe_le_coe_iff] at b
  have e3 := F.rnd_scaled n (-24) hn (by norm_num) (by norm_num)
  have c := F.rnd_mono (EReal.coe_le_coe_iff.2 b)
  rw [e3, hx, EReal.coe_le_coe_iff] at c
  exact c

end Num

/-- Both formats follow IEEE 754. -/
noncomputable instance instIeeeNum (F : Format) : Ieee (Num F) where
  val := Num.val
  rnd := F.rnd
  rndLit x := F.rnd (binary64.rnd x)
  rnd_mono := F.rnd_mono
  rnd_val a x h := a.rep x h
  rnd_exact := F.rnd_scaled
  rndLit_mono := F.rnd_mono.comp binary64.rnd_mono
  rndLit_exact n k h0 h1 h2 := by rw [binary64.rnd_scaled n k h0 h1 h2, F.rnd_scaled n k h0 h1 h2]
  lt_iff := Num.cmp_iff _
  le_iff := Num.cmp_iff _
  beq_iff a b := (Num.cmp_iff _ a b).trans ⟨fun ⟨x, y, h1, h2, h3⟩ => ⟨x, h1, h3 ▸ h2⟩,
    fun ⟨x, h1, h2⟩ => ⟨x, x, h1, h2, rfl⟩⟩
  val_add := Num.add_val
  val_sub a b := Num.add_val a (Num.opp b)
  val_mul := Num.mul_val
  val_div := Num.div_val
  val_neg a := rfl
  val_max := Num.sup_val
  val_min := Num.inf_val
  val_sqrt a y h := by
    change (Num.lift _ _ _ a).val = some y at h
    cases ha : a.val with
    | none => rw [Num.lift_nan ha] at h; cases h
    | some x =>
      induction x with
      | bot => rw [Num.lift_bot ha] at h; cases h
      | top =>
        rw [Num.lift_top ha] at h
        rw [← Option.some.inj h, F.rnd_top]
        exact le_top
      | coe x =>
        rw [Num.lift_coe ha] at h
        split_ifs at h
        · rw [← Option.some.inj h, ← F.rnd_zero]
          exact F.rnd_mono (by exact_mod_cast Real.sqrt_nonneg x)
        · cases h
  val_ln a x y ha h0 h1 h := by
    change (Num.lift _ _ _ a).val = some y at h
    have hb : x ≠ ⊥ := by rintro rfl; simp at h0
    have ht : x ≠ ⊤ := by rintro rfl; exact absurd h1 (by decide)
    lift x to ℝ using ⟨ht, hb⟩
    rw [Num.lift_coe ha] at h
    have x0 : 0 ≤ x := by exact_mod_cast h0
    have x1 : x ≤ 1 := by exact_mod_cast h1
    split_ifs at h
    · rw [← Option.some.inj h, ← F.rnd_zero]
      exact F.rnd_mono (by exact_mod_cast Real.log_nonpos x0 x1)
    · rw [← Option.some.inj h, F.rnd_bot]
      exact bot_le
    · cases h
  val_cbrt a x h h0 h1 := by
    change ∃ y : ℝ, (Num.lift _ _ _ a).val = _ ∧ _
    rw [Num.lift_coe h, if_pos h0]
    obtain ⟨y, hy, y0, y1⟩ := Num.rnd_unit (F := F) (x := x ^ (1 / 3 : ℝ)) (Real.rpow_nonneg h0 _)
      (Real.rpow_le_one h0 h1 (by norm_num))
    exact ⟨y, congrArg some hy, y0, y1⟩
  val_abs a x h := by
    change (if ∃ x, a.val = some x ∧ x < 0 then a.opp else ⟨a.val, false, a.rep⟩ : Num F).val = _
    split_ifs with hc
    · obtain ⟨y, hy, hlt⟩ := hc
      rw [h] at hy
      cases hy
      have : x < 0 := by exact_mod_cast hlt
      show a.val.map (- ·) = _
      rw [h, abs_of_neg this]
      rfl
    · have : 0 ≤ x := by
        by_contra hlt
        exact hc ⟨x, h, by exact_mod_cast not_le.1 hlt⟩
      rw [abs_of_nonneg this]
      exact h
  val_ln_mid a x h h0 h1 := by
    have hx : 0 < x := lt_of_lt_of_le (by positivity) h0
    obtain ⟨l0, l1⟩ := Num.log_mid h0 h1
    change ∃ y : ℝ, (Num.lift _ _ _ a).val = _ ∧ _
    rw [Num.lift_coe h, if_pos hx]
    obtain ⟨y, hy, y0, y1⟩ := Num.rnd_ints (F := F) (x := Real.log x) (m := ⌊Real.log x⌋) (n := ⌈Real.log x⌉)
      (Int.le_floor.2 (by push_cast; linarith)) (Int.ceil_le.2 (by push_cast; linarith)) (Int.floor_le _)
      (Int.le_ceil _)
    exact ⟨y, congrArg some hy, y0, y1⟩
  val_log10 a x h h0 h1 := by
    have hx : 0 < x := lt_of_lt_of_le (by positivity) h0
    obtain ⟨l0, l1⟩ := Num.log_mid h0 h1
    have h10 : 1 ≤ Real.log 10 := by
      rw [Real.le_log_iff_exp_le (by norm_num)]
      linarith [Real.exp_one_lt_d9]
    have b0 : -100 ≤ Real.logb 10 x := by unfold Real.logb; rw [le_div_iff₀ (by linarith)]; linarith
    have b1 : Real.logb 10 x ≤ 100 := by unfold Real.logb; rw [div_le_iff₀ (by linarith)]; linarith
    change ∃ y : ℝ, (Num.lift _ _ _ a).val = _ ∧ _
    rw [Num.lift_coe h, if_pos hx]
    obtain ⟨y, hy, y0, y1⟩ := Num.rnd_ints (F := F) (x := Real.logb 10 x) (m := ⌊Real.logb 10 x⌋)
      (n := ⌈Real.logb 10 x⌉) (Int.le_floor.2 (by push_cast; linarith)) (Int.ceil_le.2 (by push_cast; linarith))
      (Int.floor_le _) (Int.le_ceil _)
    exact ⟨y, congrArg some hy, y0, y1⟩
  val_exp a x h h0 h1 := by
    change ∃ y : ℝ, (Num.lift _ _ _ a).val = _ ∧ _
    rw [Num.lift_coe h]
    obtain ⟨y, hy, y0, y1⟩ := Num.rnd_factor (F := F) (x := Real.exp x) (by
      rw [← Real.log_le_iff_le_exp (by positivity), Real.log_zpow]
      have := Real.log_two_gt_d9
      push_cast
      linarith) (by
      rw [← Real.le_log_iff_exp_le (by positivity), Real.log_zpow]
      have := Real.log_two_gt_d9
      push_cast
      linarith)
    exact ⟨y, congrArg some hy, y0, y1⟩
  val_floor a x h := by
    change (Num.lift _ _ _ a).val = _
    rw [Num.lift_coe h]
    exact congrArg some (F.rnd_floor (a.rep _ h))
  val_ceil a x h := by
    change (Num.lift _ _ _ a).val = _
    rw [Num.lift_coe h]
    exact congrArg some (F.rnd_ceil (a.rep _ h))
  toUsize_eq a x h h0 h1 := by
    change (match a.val with
      | some x => if (-1 : ℝ) < x ∧ x < ((2 ^ 64 : ℝ) : EReal) then some ⌊x.toReal⌋₊ else none
      | none => none) = _
    rw [h]
    dsimp only
    rw [if_pos ⟨EReal.coe_lt_coe_iff.2 (by linarith), EReal.coe_lt_coe_iff.2 h1⟩, EReal.toReal_coe]
  val_ofNat n := rfl
  val_lit m e := rfl
  val_ofSeed := Num.ofSeed_val
  ofSeed_le := Num.ofSeed_le
  wval := fun w : Num binary64 => w.val
  wrnd := binary64.rnd
  wrnd_mono := binary64.rnd_mono
  wrnd_exact := Num.wide_scaled
  wval_pow10 a x h hx := by
    obtain ⟨x0, x1⟩ := abs_le.1 hx
    obtain ⟨t, ht, t0, t1⟩ := Num.rnd_ints (F := binary64) (x := x) (m := ⌊x⌋) (n := ⌈x⌉)
      (Int.le_floor.2 (by push_cast; linarith)) (Int.ceil_le.2 (by push_cast; linarith)) (Int.floor_le _) (Int.le_ceil _)
    have hc : (Num.cast a : Num binary64).val = some (t : EReal) := by
      rw [Num.cast_of, h]
      exact congrArg some ht
    have b0 : (10 : ℝ) ^ ⌊x⌋ ≤ (10 : ℝ) ^ t := by
      rw [← Real.rpow_intCast]
      exact Real.rpow_le_rpow_of_exponent_le (by norm_num) t0
    have b1 : (10 : ℝ) ^ t ≤ (10 : ℝ) ^ ⌈x⌉ := by
      rw [← Real.rpow_intCast]
      exact Real.rpow_le_rpow_of_exponent_le (by norm_num) t1
    have ten : (10 : ℝ) ^ (200 : ℤ) ≤ 2 ^ (899 : ℤ) := by
      calc (10 : ℝ) ^ (200 : ℤ) ≤ ((2 : ℝ) ^ (4 : ℤ)) ^ (200 : ℤ) :=
            zpow_le_zpow_left₀ (by norm_num) (by norm_num) (by norm_num)
        _ = 2 ^ (800 : ℤ) := by rw [← zpow_mul]; norm_num
        _ ≤ 2 ^ (899 : ℤ) := zpow_le_zpow_right₀ (by norm_num) (by norm_num)
    have c0 : (2 : ℝ) ^ (-899 : ℤ) ≤ (10 : ℝ) ^ ⌊x⌋ := by
      refine le_trans ?_ (zpow_le_zpow_right₀ (by norm_num) (Int.le_floor.2 (by push_cast; linarith) : (-200 : ℤ) ≤ ⌊x⌋))
      rw [zpow_neg, zpow_neg]
      exact inv_anti₀ (by positivity) ten
    have c1 : (10 : ℝ) ^ ⌈x⌉ ≤ 2 ^ (899 : ℤ) :=
      (zpow_le_zpow_right₀ (by norm_num) (Int.ceil_le.2 (by push_cast; linarith) : ⌈x⌉ ≤ (200 : ℤ))).trans ten
    obtain ⟨y, hy, y0, y1⟩ := Num.wide_factor (c0.trans b0) (b1.trans c1)
    refine ⟨y, ?_, by linarith, by linarith⟩
    change (Num.lift _ _ _ (Num.cast a : Num binary64)).val = _
    rw [Num.lift_coe hc]
    exact congrArg some hy
  wval_zero := by
    change some (binary64.rnd 0) = some 0
    rw [Format.rnd_zero]
  wideIsZero_iff w := by
    refine (Num.cmp_iff _ _ _).trans ⟨?_, fun h => ⟨0, 0, h, ?_, rfl⟩⟩
    · rintro ⟨x, y, h1, h2, h3⟩
      have : y = 0 := by
        have h2 : some (binary64.rnd 0) = some y := h2
        rw [Format.rnd_zero] at h2
        exact (Option.some.inj h2).symm
      rw [h1, h3, this]
    · change some (binary64.rnd 0) = some 0
      rw [Format.rnd_zero]
  wval_mul v w := Num.mul_val (F := binary64) v w
  wval_div a w h := (Num.div_val (F := binary64) _ w h).trans (by rw [Num.cast_of])
  val_ofWide w := Num.cast_of (G := binary64) w
  val_huge := by
    have hp := F.prec_ge
    have hh := F.high_ge
    have htop : (2 : ℝ) ^ (F.prec - 1) * 2 ^ F.high ≤ F.top := by
      unfold Format.top
      have : (2 : ℝ) ^ F.prec = 2 * 2 ^ (F.prec - 1) := by rw [← pow_succ']; congr 1; omega
      have h1 : (1 : ℝ) ≤ 2 ^ (F.prec - 1) := one_le_pow₀ (by norm_num)
      gcongr
      linarith
    have hfit : F.rnd ((2 ^ (F.prec - 1) * 2 ^ F.high : ℝ) : EReal) = ((2 ^ (F.prec - 1) * 2 ^ F.high : ℝ) : EReal) := by
      refine Format.rnd_fits ⟨2 ^ (F.prec - 1), F.high, ?_, by have := F.low_le; omega, by push_cast; rfl⟩ ?_
      · rw [abs_of_pos (by positivity)]
        exact pow_le_pow_right₀ (by norm_num) (by omega)
      · rw [abs_of_pos (by positivity)]
        exact htop
    have a := F.rnd_mono (EReal.coe_le_coe_iff.2 (one_le_pow₀ (n := F.huge) (by norm_num : (1 : ℝ) ≤ 10)))
    have b := F.rnd_mono (EReal.coe_le_coe_iff.2 F.huge_le)
    have e2 := F.rnd_scaled 1 0 (by norm_num) (by norm_num) (by norm_num)
    rw [Nat.cast_one, one_mul, zpow_zero] at e2
    rw [e2] at a
    rw [hfit] at b
    change ∃ x : ℝ, some (F.rnd ((10 ^ F.huge : ℝ) : EReal)) = some (x : EReal) ∧ 0 < x
    generalize F.rnd ((10 ^ F.huge : ℝ) : EReal) = z at a b
    have hb : z ≠ ⊥ := by rintro rfl; exact EReal.coe_ne_bot _ (le_bot_iff.1 a)
    have ht : z ≠ ⊤ := by rintro rfl; exact EReal.coe_ne_top _ (top_le_iff.1 b)
    lift z to ℝ using ⟨ht, hb⟩
    exact ⟨z, rfl, lt_of_lt_of_le one_pos (EReal.coe_le_coe_iff.1 a)⟩
  val_tiny := by
    obtain ⟨y, h1, h2, _⟩ := Num.rnd_real (F := F) (x := 1 / 10 ^ 13) (k := -50) (m := 0) (by norm_num) (by norm_num)
      (by norm_num) (by norm_num)
    exact ⟨y, congrArg some h1, lt_of_lt_of_le (by positivity) h2⟩
