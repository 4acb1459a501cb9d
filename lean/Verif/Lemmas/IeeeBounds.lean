import Verif.Lemmas.Ieee
import Mathlib.Tactic.Ring
import Mathlib.Tactic.FieldSimp
/-!
# Bounds and exact results in rounded arithmetic

A result whose exact value lies between two numbers of the format is finite and between them; a result whose exact
value is a number of the format is exact.
-/
open Flt
namespace Ieee
variable {T : Type} [Flt T] [Ieee T]

theorem fin_of_rnd {a : T} {x y : ℝ} (h : val a = some (rnd T (x : EReal))) (hy : rnd T (x : EReal) = (y : EReal)) :
    IsFin a y := by
  unfold IsFin; rw [h, hy]

/-! ### Numbers of the format -/

theorem rep_two_pow {k : ℤ} (h0 : -100 ≤ k) (h1 : k ≤ 100) : Rep T ((2 : ℝ) ^ k) := by
  simpa using rep_scaled (T := T) (n := 1) (by norm_num) h0 h1

/-- The power of two as a number. -/
theorem exists_two_pow {k : ℤ} (h0 : -100 ≤ k) (h1 : k ≤ 100) : ∃ a : T, IsFin a ((2 : ℝ) ^ k) := by
  have pos : ∀ m : ℕ, m ≤ 100 → IsFin (Flt.ofNat (2 ^ m) : T) ((2 : ℝ) ^ (m : ℤ)) := by
    intro m hm
    unfold IsFin
    rw [val_ofNat]
    refine congrArg some ?_
    have := rep_two_pow (T := T) (k := m) (by omega) (by omega)
    unfold Rep at this
    rw [show ((2 ^ m : ℕ) : ℝ) = (2 : ℝ) ^ (m : ℤ) by push_cast; rw [zpow_natCast]]
    exact this
  rcases le_or_gt 0 k with hk | hk
  · obtain ⟨m, rfl⟩ := Int.eq_ofNat_of_zero_le hk
    exact ⟨_, pos m (by omega)⟩
  · obtain ⟨m, hm⟩ := Int.eq_ofNat_of_zero_le (a := -k) (by omega)
    have hp := pos m (by omega)
    refine ⟨(one : T) /. Flt.ofNat (2 ^ m), fin_of_rnd (fin_div fin_one hp (by positivity)) ?_⟩
    have := rep_two_pow (T := T) (k := k) h0 h1
    have e : (1 : ℝ) / 2 ^ (m : ℤ) = 2 ^ k := by
      rw [← hm, zpow_neg, one_div, inv_inv]
    rw [e]
    exact this

theorem rep_neg_scaled {n : ℕ} (hn : n ≤ 2 ^ 24) {k : ℤ} (h0 : -100 ≤ k) (h1 : k ≤ 100) :
    Rep T (-((n : ℝ) * 2 ^ k)) := by
  obtain ⟨b, hb⟩ := exists_two_pow (T := T) h0 h1
  have : IsFin ((Flt.ofNat n : T) *. b) ((n : ℝ) * 2 ^ k) :=
    fin_of_rnd (fin_mul (fin_ofNat hn) hb) (rep_scaled hn h0 h1)
  exact this.rep_neg

theorem rep_neg_two_pow {k : ℤ} (h0 : -100 ≤ k) (h1 : k ≤ 100) : Rep T (-(2 : ℝ) ^ k) := by
  obtain ⟨b, hb⟩ := exists_two_pow (T := T) h0 h1
  exact hb.rep_neg

theorem rep_int {n : ℤ} (hn : |n| ≤ 2 ^ 24) : Rep T (n : ℝ) := by
  rcases le_or_gt 0 n with h | h
  · obtain ⟨m, rfl⟩ := Int.eq_ofNat_of_zero_le h
    have := rep_nat (T := T) (n := m) (by rw [abs_of_nonneg h] at hn; exact_mod_cast hn)
    simpa using this
  · obtain ⟨m, hm⟩ := Int.eq_ofNat_of_zero_le (a := -n) (by omega)
    have h2 : m ≤ 2 ^ 24 := by rw [abs_of_neg h] at hn; omega
    have := (fin_ofNat (T := T) h2).rep_neg
    have e : (n : ℝ) = -(m : ℝ) := by
      have : n = -(m : ℤ) := by omega
      rw [this]; push_cast; ring
    rw [e]
    exact this

/-! ### Bounds -/

/-- `a` is a finite number between `lo` and `hi`. -/
def Bd (a : T) (lo hi : ℝ) : Prop := ∃ x : ℝ, IsFin a x ∧ lo ≤ x ∧ x ≤ hi

variable {a b : T} {x y lo hi lo' hi' l h : ℝ}

theorem IsFin.bd (ha : IsFin a x) : Bd a x x := ⟨x, ha, le_rfl, le_rfl⟩
theorem Bd.mono (ha : Bd a lo hi) (h1 : l ≤ lo) (h2 : hi ≤ h) : Bd a l h := by
  obtain ⟨x, hx, a1, a2⟩ := ha
  exact ⟨x, hx, h1.trans a1, a2.trans h2⟩
theorem Bd.usable (ha : Bd a lo hi) (h0 : 0 ≤ lo) : ∃ x : ℝ, IsFin a x ∧ 0 ≤ x := by
  obtain ⟨x, hx, a1, _⟩ := ha
  exact ⟨x, hx, h0.trans a1⟩

theorem Bd.add (ha : Bd a lo hi) (hb : Bd b lo' hi') (hl : Rep T l) (hh : Rep T h) (h1 : l ≤ lo + lo')
    (h2 : hi + hi' ≤ h) : Bd (a +. b) l h := by
  obtain ⟨x, hx, a1, a2⟩ := ha
  obtain ⟨y, hy, b1, b2⟩ := hb
  obtain ⟨z, hz, z0, z1⟩ := rnd_between hl hh (t := x + y) (by linarith) (by linarith)
  exact ⟨z, fin_of_rnd (fin_add hx hy) hz, z0, z1⟩

theorem Bd.sub (ha : Bd a lo hi) (hb : Bd b lo' hi') (hl : Rep T l) (hh : Rep T h) (h1 : l ≤ lo - hi')
    (h2 : hi - lo' ≤ h) : Bd (a -. b) l h := by
  obtain ⟨x, hx, a1, a2⟩ := ha
  obtain ⟨y, hy, b1, b2⟩ := hb
  obtain ⟨z, hz, z0, z1⟩ := rnd_between hl hh (t := x - y) (by linarith) (by linarith)
  exact ⟨z, fin_of_rnd (fin_sub hx hy) hz, z0, z1⟩

theorem Bd.mul (ha : Bd a lo hi) (hb : Bd b lo' hi') (hl : Rep T l) (hh : Rep T h) (p : 0 ≤ lo) (p' : 0 ≤ lo')
    (h1 : l ≤ lo * lo') (h2 : hi * hi' ≤ h) : Bd (a *. b) l h := by
  obtain ⟨x, hx, a1, a2⟩ := ha
  obtain ⟨y, hy, b1, b2⟩ := hb
  obtain ⟨z, hz, z0, z1⟩ := rnd_between hl hh (t := x * y)
    (h1.trans (mul_le_mul a1 b1 p' (p.trans a1)))
    ((mul_le_mul a2 b2 (p'.trans b1) ((p.trans a1).trans a2)).trans h2)
  exact ⟨z, fin_of_rnd (fin_mul hx hy) hz, z0, z1⟩

theorem Bd.div (ha : Bd a lo hi) (hb : Bd b lo' hi') (hl : Rep T l) (hh : Rep T h) (p : 0 ≤ lo) (p' : 0 < lo')
    (h1 : l * hi' ≤ lo) (h2 : hi ≤ h * lo') (hl0 : 0 ≤ l) : Bd (a /. b) l h := by
  obtain ⟨x, hx, a1, a2⟩ := ha
  obtain ⟨y, hy, b1, b2⟩ := hb
  have hy0 : 0 < y := lt_of_lt_of_le p' b1
  have hh0 : 0 ≤ h := by
    by_contra hn
    have : h * lo' < 0 := mul_neg_of_neg_of_pos (not_le.1 hn) p'
    linarith
  obtain ⟨z, hz, z0, z1⟩ := rnd_between hl hh (t := x / y)
    (by
      rw [le_div_iff₀ hy0]
      exact le_trans (mul_le_mul_of_nonneg_left b2 hl0) (h1.trans a1))
    (by
      rw [div_le_iff₀ hy0]
      exact a2.trans (h2.trans (mul_le_mul_of_nonneg_left b1 hh0)))
  exact ⟨z, fin_of_rnd (fin_div hx hy hy0.ne') hz, z0, z1⟩

/-- Bounds on the size. -/
def Sz (a : T) (k : ℤ) : Prop := Bd a (-(2 : ℝ) ^ k) ((2 : ℝ) ^ k)

theorem Bd.sz {k : ℤ} (ha : Bd a lo hi) (h0 : 0 ≤ lo) (h1 : hi ≤ 2 ^ k) : Sz a k :=
  ha.mono (le_trans (by simp; positivity) h0) h1

theorem Sz.mono {k m : ℤ} (ha : Sz a k) (h : k ≤ m) : Sz a m := by
  have : (2 : ℝ) ^ k ≤ 2 ^ m := zpow_le_zpow_right₀ (by norm_num) h
  exact Bd.mono ha (by linarith) this

theorem two_zpow_succ (k : ℤ) : (2 : ℝ) ^ (k + 1) = 2 ^ k + 2 ^ k := by
  rw [zpow_add_one₀ (by norm_num)]; ring

theorem Sz.add {k : ℤ} (ha : Sz a k) (hb : Sz b k) (h0 : -100 ≤ k + 1) (h1 : k + 1 ≤ 100) : Sz (a +. b) (k + 1) := by
  have := two_zpow_succ k
  exact Bd.add ha hb (rep_neg_two_pow h0 h1) (rep_two_pow h0 h1) (by linarith) (by linarith)

theorem Sz.sub {k : ℤ} (ha : Sz a k) (hb : Sz b k) (h0 : -100 ≤ k + 1) (h1 : k + 1 ≤ 100) : Sz (a -. b) (k + 1) := by
  have := two_zpow_succ k
  exact Bd.sub ha hb (rep_neg_two_pow h0 h1) (rep_two_pow h0 h1) (by linarith) (by linarith)

theorem Sz.mul {k m : ℤ} (ha : Sz a k) (hb : Sz b m) (h0 : -100 ≤ k + m) (h1 : k + m ≤ 100) :
    Sz (a *. b) (k + m) := by
  obtain ⟨x, hx, a1, a2⟩ := ha
  obtain ⟨y, hy, b1, b2⟩ := hb
  have e : (2 : ℝ) ^ (k + m) = 2 ^ k * 2 ^ m := zpow_add₀ (by norm_num) _ _
  have : |x * y| ≤ 2 ^ (k + m) := by
    rw [abs_mul, e]
    exact mul_le_mul (abs_le.2 ⟨a1, a2⟩) (abs_le.2 ⟨b1, b2⟩) (abs_nonneg _) (by positivity)
  obtain ⟨c1, c2⟩ := abs_le.1 this
  obtain ⟨z, hz, z0, z1⟩ := rnd_between (T := T) (rep_neg_two_pow h0 h1) (rep_two_pow h0 h1) c1 c2
  exact ⟨z, fin_of_rnd (fin_mul hx hy) hz, z0, z1⟩

theorem Sz.fin {k : ℤ} (ha : Sz a k) : ∃ x, IsFin a x ∧ |x| ≤ 2 ^ k := by
  obtain ⟨x, hx, h1, h2⟩ := ha
  exact ⟨x, hx, abs_le.2 ⟨h1, h2⟩⟩

theorem Bd.abs {k : ℤ} (ha : Sz a k) : Bd (Flt.abs a) 0 (2 ^ k) := by
  obtain ⟨x, hx, h⟩ := ha.fin
  exact ⟨|x|, val_abs a x hx, abs_nonneg x, h⟩

theorem Sz.sq_nonneg {k : ℤ} (ha : Sz a k) (h0 : -100 ≤ k + k) (h1 : k + k ≤ 100) : Bd (a *. a) 0 (2 ^ (k + k)) := by
  obtain ⟨x, hx, h⟩ := ha.fin
  have e : (2 : ℝ) ^ (k + k) = 2 ^ k * 2 ^ k := zpow_add₀ (by norm_num) _ _
  obtain ⟨z, hz, z0, z1⟩ := rnd_between (T := T) rep_zero (rep_two_pow h0 h1) (t := x * x) (mul_self_nonneg x) (by
    rw [e, ← abs_mul_abs_self]
    exact mul_le_mul h h (abs_nonneg _) (by positivity))
  exact ⟨z, fin_of_rnd (fin_mul hx hx) hz, z0, z1⟩

theorem fin_max (ha : IsFin a x) (hb : IsFin b y) : IsFin (Flt.max a b) (Max.max x y) := by
  unfold IsFin
  rw [val_max, ha, hb]
  dsimp only
  exact congrArg some (EReal.coe_strictMono.monotone.map_max).symm

theorem fin_min (ha : IsFin a x) (hb : IsFin b y) : IsFin (Flt.min a b) (Min.min x y) := by
  unfold IsFin
  rw [val_min, ha, hb]
  dsimp only
  exact congrArg some (EReal.coe_strictMono.monotone.map_min).symm

/-! ### Exact results -/

theorem IsFin.add (ha : IsFin a x) (hb : IsFin b y) (h : Rep T (x + y)) : IsFin (a +. b) (x + y) :=
  fin_of_rnd (fin_add ha hb) h
theorem IsFin.sub (ha : IsFin a x) (hb : IsFin b y) (h : Rep T (x - y)) : IsFin (a -. b) (x - y) :=
  fin_of_rnd (fin_sub ha hb) h
theorem IsFin.mul (ha : IsFin a x) (hb : IsFin b y) (h : Rep T (x * y)) : IsFin (a *. b) (x * y) :=
  fin_of_rnd (fin_mul ha hb) h
theorem IsFin.div (ha : IsFin a x) (hb : IsFin b y) (h0 : y ≠ 0) (h : Rep T (x / y)) : IsFin (a /. b) (x / y) :=
  fin_of_rnd (fin_div ha hb h0) h

/-- `a` is the integer `n`. -/
def IsI (a : T) (n : ℤ) : Prop := IsFin a (n : ℝ)

variable {m n : ℤ}

theorem isI_ofNat {n : ℕ} (hn : n ≤ 2 ^ 24) : IsI (Flt.ofNat n : T) n := by
  simpa [IsI] using fin_ofNat (T := T) hn
theorem isI_zero : IsI (zero : T) 0 := by simpa [IsI] using fin_zero (T := T)
theorem isI_one : IsI (one : T) 1 := by simpa [IsI] using fin_one (T := T)
theorem isI_two : IsI (two : T) 2 := by simpa [IsI] using fin_two (T := T)

theorem IsI.add (ha : IsI a m) (hb : IsI b n) (h : |m + n| ≤ 2 ^ 24) : IsI (a +. b) (m + n) := by
  have := IsFin.add ha hb (by rw [← Int.cast_add]; exact rep_int h)
  rwa [← Int.cast_add] at this
theorem IsI.sub (ha : IsI a m) (hb : IsI b n) (h : |m - n| ≤ 2 ^ 24) : IsI (a -. b) (m - n) := by
  have := IsFin.sub ha hb (by rw [← Int.cast_sub]; exact rep_int h)
  rwa [← Int.cast_sub] at this
theorem IsI.mul (ha : IsI a m) (hb : IsI b n) (h : |m * n| ≤ 2 ^ 24) : IsI (a *. b) (m * n) := by
  have := IsFin.mul ha hb (by rw [← Int.cast_mul]; exact rep_int h)
  rwa [← Int.cast_mul] at this
/-- A division that is exact. -/
theorem IsI.div {q : ℤ} (ha : IsI a m) (hb : IsI b n) (hn : n ≠ 0) (hq : m = q * n) (h : |q| ≤ 2 ^ 24) :
    IsI (a /. b) q := by
  have hn' : (n : ℝ) ≠ 0 := by exact_mod_cast hn
  have e : (m : ℝ) / n = q := by rw [hq]; push_cast; field_simp
  have := IsFin.div ha hb hn' (by rw [e]; exact rep_int h)
  rwa [e] at this
theorem IsI.abs (ha : IsI a m) : IsI (Flt.abs a) |m| := by
  have := val_abs a _ ha
  unfold IsI IsFin
  rw [this]
  push_cast
  rfl

theorem IsI.bd {p q : ℝ} (ha : IsI a m) (h1 : p ≤ m) (h2 : (m : ℝ) ≤ q) : Bd a p q := ⟨_, ha, h1, h2⟩

theorem isI_lit {m : ℕ} (h : m ≤ 2 ^ 24) : IsI (Flt.lit m 0 : T) m := by
  unfold IsI IsFin
  rw [val_lit]
  have := rndLit_exact (T := T) m 0 h (by norm_num) (by norm_num)
  simp only [zpow_zero, mul_one] at this ⊢
  rw [this]
  simp

/-- A decimal constant between two numbers with few digits. -/
theorem lit_bd {m : ℕ} {e : ℤ} {n n' : ℕ} {k k' : ℤ} (hn : n ≤ 2 ^ 24) (hk : -100 ≤ k ∧ k ≤ 100) (hn' : n' ≤ 2 ^ 24)
    (hk' : -100 ≤ k' ∧ k' ≤ 100) (h1 : (n : ℝ) * 2 ^ k ≤ (m : ℝ) * 10 ^ e) (h2 : (m : ℝ) * 10 ^ e ≤ (n' : ℝ) * 2 ^ k') :
    Bd (Flt.lit m e : T) ((n : ℝ) * 2 ^ k) ((n' : ℝ) * 2 ^ k') := by
  have a1 := rndLit_mono (T := T) (EReal.coe_le_coe_iff.2 h1)
  have a2 := rndLit_mono (T := T) (EReal.coe_le_coe_iff.2 h2)
  rw [rndLit_exact n k hn hk.1 hk.2] at a1
  rw [rndLit_exact n' k' hn' hk'.1 hk'.2] at a2
  have v := val_lit (T := T) m e
  generalize rndLit T (((m : ℝ) * 10 ^ e : ℝ) : EReal) = z at a1 a2 v
  have hb : z ≠ ⊥ := fun h => by rw [h, le_bot_iff] at a1; exact EReal.coe_ne_bot _ a1
  have ht : z ≠ ⊤ := fun h => by rw [h, top_le_iff] at a2; exact EReal.coe_ne_top _ a2
  lift z to ℝ using ⟨ht, hb⟩
  exact ⟨z, v, EReal.coe_le_coe_iff.1 a1, EReal.coe_le_coe_iff.1 a2⟩

end Ieee
