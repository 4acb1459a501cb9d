import Verif.Spec.Ieee
import Mathlib.Tactic.Linarith
import Mathlib.Tactic.Positivity
import Mathlib.Tactic.NormNum
/-!
# Signs and bounds in rounded arithmetic

Consequences of the rules of IEEE 754: results of operations on finite numbers lie between numbers of the format
that bound the exact result; numbers that are not negative, not-a-numbers included, are closed under sums and
products.
-/
open Flt
namespace Ieee
variable {T : Type} [Flt T] [Ieee T]

/-- `a` is a finite number of value `x`. -/
def IsFin (a : T) (x : ℝ) : Prop := val a = some (x : EReal)

theorem IsFin.inj {a : T} {x y : ℝ} (h : IsFin a x) (h' : IsFin a y) : x = y := by
  unfold IsFin at h h'
  rw [h] at h'
  exact_mod_cast Option.some.inj h'

/-- The real `x` is a number of the format. -/
def Rep (T : Type) [Flt T] [Ieee T] (x : ℝ) : Prop := rnd T (x : EReal) = (x : EReal)

theorem IsFin.rep {a : T} {x : ℝ} (h : IsFin a x) : Rep T x := rnd_val a _ h

theorem IsFin.rep_neg {a : T} {x : ℝ} (h : IsFin a x) : Rep T (-x) := by
  refine rnd_val (Flt.neg a) _ ?_
  rw [val_neg, h]
  rfl

theorem rep_scaled {n : ℕ} (hn : n ≤ 2 ^ 24) {k : ℤ} (h0 : -100 ≤ k) (h1 : k ≤ 100) : Rep T ((n : ℝ) * 2 ^ k) :=
  rnd_exact n k hn h0 h1

theorem rep_nat {n : ℕ} (hn : n ≤ 2 ^ 24) : Rep T (n : ℝ) := by
  have := rep_scaled (T := T) hn (k := 0) (by norm_num) (by norm_num)
  simpa using this

theorem rep_zero : Rep T 0 := by simpa using rep_nat (T := T) (n := 0) (by norm_num)
theorem rep_one : Rep T 1 := by simpa using rep_nat (T := T) (n := 1) (by norm_num)

/-- A result between two numbers of the format is rounded to a finite number between them. -/
theorem rnd_between {lo hi t : ℝ} (hlo : Rep T lo) (hhi : Rep T hi) (h0 : lo ≤ t) (h1 : t ≤ hi) :
    ∃ z : ℝ, rnd T (t : EReal) = (z : EReal) ∧ lo ≤ z ∧ z ≤ hi := by
  have a : ((lo : ℝ) : EReal) ≤ rnd T (t : EReal) := by
    rw [← hlo]; exact rnd_mono (EReal.coe_le_coe_iff.2 h0)
  have b : rnd T (t : EReal) ≤ ((hi : ℝ) : EReal) := by
    rw [← hhi]; exact rnd_mono (EReal.coe_le_coe_iff.2 h1)
  have hb : rnd T (t : EReal) ≠ ⊥ := fun h => by rw [h] at a; exact absurd a (by simp)
  have ht : rnd T (t : EReal) ≠ ⊤ := fun h => by rw [h] at b; exact absurd b (by simp)
  refine ⟨(rnd T (t : EReal)).toReal, (EReal.coe_toReal ht hb).symm, ?_, ?_⟩
  · rw [← EReal.coe_toReal ht hb] at a; exact EReal.coe_le_coe_iff.1 a
  · rw [← EReal.coe_toReal ht hb] at b; exact EReal.coe_le_coe_iff.1 b

theorem fin_ofNat {n : ℕ} (hn : n ≤ 2 ^ 24) : IsFin (Flt.ofNat n : T) n := by
  unfold IsFin
  rw [val_ofNat]
  exact congrArg some (rep_nat hn)

theorem fin_zero : IsFin (zero : T) 0 := by simpa [Flt.zero, Flt.one, Flt.two] using fin_ofNat (T := T) (n := 0) (by norm_num)
theorem fin_one : IsFin (one : T) 1 := by simpa [Flt.zero, Flt.one, Flt.two] using fin_ofNat (T := T) (n := 1) (by norm_num)
theorem fin_two : IsFin (two : T) 2 := by simpa [Flt.zero, Flt.one, Flt.two] using fin_ofNat (T := T) (n := 2) (by norm_num)

theorem fin_sample (s : BitVec 64) : ∃ u : ℝ, IsFin (Flt.ofSeed s : T) u ∧ 0 ≤ u ∧ u ≤ 1 := val_ofSeed s

variable {a b : T} {x y : ℝ}

theorem fin_add (ha : IsFin a x) (hb : IsFin b y) : val (a +. b) = some (rnd T ((x + y : ℝ) : EReal)) := by
  rw [val_add, ha, hb]
  unfold ieeeAdd
  dsimp only
  rw [if_neg (by simp), EReal.coe_add]

theorem fin_sub (ha : IsFin a x) (hb : IsFin b y) : val (a -. b) = some (rnd T ((x - y : ℝ) : EReal)) := by
  rw [val_sub, ha, hb]
  show ieeeAdd _ (some (x : EReal)) (some (-(y : EReal))) = _
  unfold ieeeAdd
  dsimp only
  rw [← EReal.coe_neg, if_neg (by simp), ← EReal.coe_add, sub_eq_add_neg]

theorem fin_mul (ha : IsFin a x) (hb : IsFin b y) : val (a *. b) = some (rnd T ((x * y : ℝ) : EReal)) := by
  rw [val_mul, ha, hb]
  unfold ieeeMul
  dsimp only
  rw [if_neg (by simp), EReal.coe_mul]

theorem fin_div (ha : IsFin a x) (hb : IsFin b y) (hy : y ≠ 0) :
    val (a /. b) = some (rnd T ((x / y : ℝ) : EReal)) := by
  rw [val_div _ _ (by rw [hb]; intro h; exact hy (by exact_mod_cast Option.some.inj h)), ha, hb]
  unfold ieeeDiv
  dsimp only
  rw [if_neg (by simp), EReal.coe_div]

theorem lt_fin (ha : IsFin a x) (hb : IsFin b y) : (a <. b) = true ↔ x < y := by
  rw [lt_iff]
  constructor
  · rintro ⟨x', y', h1, h2, h3⟩
    rw [ha] at h1; rw [hb] at h2
    cases h1; cases h2
    exact EReal.coe_lt_coe_iff.1 h3
  · intro h
    exact ⟨_, _, ha, hb, EReal.coe_lt_coe_iff.2 h⟩

theorem le_fin (ha : IsFin a x) (hb : IsFin b y) : (a <=. b) = true ↔ x ≤ y := by
  rw [le_iff]
  constructor
  · rintro ⟨x', y', h1, h2, h3⟩
    rw [ha] at h1; rw [hb] at h2
    cases h1; cases h2
    exact EReal.coe_le_coe_iff.1 h3
  · intro h
    exact ⟨_, _, ha, hb, EReal.coe_le_coe_iff.2 h⟩

/-! ### Bounds -/

/-- Scaling by a number of `[0, 1]` does not go up and does not change the sign. -/
theorem scale (ha : IsFin a x) (hb : IsFin b y) (hx : 0 ≤ x) (h0 : 0 ≤ y) (h1 : y ≤ 1) :
    ∃ z, IsFin (a *. b) z ∧ 0 ≤ z ∧ z ≤ x := by
  obtain ⟨z, hz, z0, z1⟩ := rnd_between (T := T) rep_zero ha.rep (mul_nonneg hx h0)
    (mul_le_of_le_one_right hx h1)
  exact ⟨z, by unfold IsFin; rw [fin_mul ha hb, hz], z0, z1⟩

theorem scale' (ha : IsFin a x) (hb : IsFin b y) (hx : 0 ≤ x) (h0 : 0 ≤ y) (h1 : y ≤ 1) :
    ∃ z, IsFin (b *. a) z ∧ 0 ≤ z ∧ z ≤ x := by
  obtain ⟨z, hz, z0, z1⟩ := rnd_between (T := T) rep_zero ha.rep (mul_nonneg h0 hx)
    (mul_le_of_le_one_left hx h1)
  exact ⟨z, by unfold IsFin; rw [fin_mul hb ha, hz], z0, z1⟩

/-- The difference of two numbers that are not negative is finite. -/
theorem sub_finite (ha : IsFin a x) (hb : IsFin b y) (hx : 0 ≤ x) (hy : 0 ≤ y) : ∃ z, IsFin (a -. b) z ∧ z ≤ x := by
  obtain ⟨z, hz, _, z1⟩ := rnd_between (T := T) hb.rep_neg ha.rep (t := x - y) (by linarith) (by linarith)
  exact ⟨z, by unfold IsFin; rw [fin_sub ha hb, hz], z1⟩

theorem one_sub (hb : IsFin b y) (h0 : 0 ≤ y) (h1 : y ≤ 1) : ∃ z, IsFin (one -. b) z ∧ 0 ≤ z ∧ z ≤ 1 := by
  obtain ⟨z, hz, z0, z1⟩ := rnd_between (T := T) rep_zero rep_one (t := 1 - y) (by linarith) (by linarith)
  exact ⟨z, by unfold IsFin; rw [fin_sub fin_one hb, hz], z0, z1⟩

theorem lit_nonneg (m : ℕ) (e : ℤ) : ∃ x : EReal, val (Flt.lit m e : T) = some x ∧ 0 ≤ x := by
  refine ⟨_, val_lit m e, ?_⟩
  have h := rndLit_exact (T := T) 0 0 (by norm_num) (by norm_num) (by norm_num)
  have h0 : (((0 : ℕ) : ℝ) * 2 ^ (0 : ℤ) : ℝ) = 0 := by simp
  rw [h0] at h
  rw [← EReal.coe_zero, ← h]
  exact rndLit_mono (EReal.coe_le_coe_iff.2 (mul_nonneg (Nat.cast_nonneg m) (zpow_nonneg (by norm_num) e)))

/-! ### Numbers that are not negative -/

/-- Not below zero: a not-a-number is allowed. -/
def Nn (a : T) : Prop := ∀ x, val a = some x → 0 ≤ x

theorem nn_iff : (a <. zero) = false ↔ Nn a := by
  rw [← Bool.not_eq_true, lt_iff]
  constructor
  · intro h x hx
    by_contra hlt
    exact h ⟨x, _, hx, fin_zero, by simpa using hlt⟩
  · rintro h ⟨x, y, hx, hy, hlt⟩
    rw [fin_zero] at hy
    cases hy
    exact absurd (h x hx) (not_le.2 (by simpa using hlt))

theorem IsFin.nn (ha : IsFin a x) (hx : 0 ≤ x) : Nn a := by
  intro y hy
  rw [ha] at hy
  cases hy
  exact_mod_cast hx

theorem nn_zero : Nn (zero : T) := fin_zero.nn le_rfl
theorem nn_lit (m : ℕ) (e : ℤ) : Nn (Flt.lit m e : T) := by
  obtain ⟨x, h, h0⟩ := lit_nonneg (T := T) m e
  intro y hy
  rw [h] at hy
  cases hy
  exact h0

theorem rnd_nonneg {t : EReal} (h : 0 ≤ t) : 0 ≤ rnd T t := by
  have : rnd T (((0 : ℝ)) : EReal) = ((0 : ℝ) : EReal) := rep_zero
  rw [EReal.coe_zero] at this
  rw [← this]
  exact rnd_mono h

theorem Nn.add (ha : Nn a) (hb : Nn b) : Nn (a +. b) := by
  intro z hz
  rw [val_add] at hz
  cases h1 : val a with
  | none => rw [h1] at hz; simp [ieeeAdd] at hz
  | some x =>
    cases h2 : val b with
    | none => rw [h1, h2] at hz; simp [ieeeAdd] at hz
    | some y =>
      rw [h1, h2] at hz
      unfold ieeeAdd at hz
      dsimp only at hz
      split at hz
      · cases hz
      · cases hz
        exact rnd_nonneg (add_nonneg (ha x h1) (hb y h2))

theorem Nn.mul (ha : Nn a) (hb : Nn b) : Nn (a *. b) := by
  intro z hz
  rw [val_mul] at hz
  cases h1 : val a with
  | none => rw [h1] at hz; simp [ieeeMul] at hz
  | some x =>
    cases h2 : val b with
    | none => rw [h1, h2] at hz; simp [ieeeMul] at hz
    | some y =>
      rw [h1, h2] at hz
      unfold ieeeMul at hz
      dsimp only at hz
      split at hz
      · cases hz
      · cases hz
        exact rnd_nonneg (EReal.mul_nonneg (ha x h1) (hb y h2))

theorem nn_inv (ha : IsFin a x) (hx : 0 < x) : Nn (one /. a) := by
  intro z hz
  rw [fin_div fin_one ha hx.ne'] at hz
  cases hz
  exact rnd_nonneg (by exact_mod_cast (by positivity : 0 ≤ 1 / x))

theorem nn_sqrt (a : T) : Nn (Flt.sqrt a) := fun y hy => val_sqrt a y hy

theorem nn_max (a : T) : Nn (Flt.max a zero) := by
  intro z hz
  rw [val_max] at hz
  rw [fin_zero] at hz
  cases h1 : val a with
  | none => rw [h1] at hz; dsimp only at hz; cases hz; simp
  | some x =>
    rw [h1] at hz; dsimp only at hz; cases hz
    exact le_max_of_le_right (by simp)

theorem nn_min (ha : Nn a) : Nn (Flt.min zero a) := by
  intro z hz
  rw [val_min] at hz
  rw [fin_zero] at hz
  cases h1 : val a with
  | none => rw [h1] at hz; dsimp only at hz; cases hz; simp
  | some x =>
    rw [h1] at hz; dsimp only at hz; cases hz
    exact le_min (by simp) (ha x h1)

/-- A number that is not negative and is below another one is not a not-a-number. -/
theorem Nn.le_of_lt (ha : Nn a) (h : (a <. b) = true) : (zero <=. a) = true := by
  obtain ⟨x, y, hx, _, _⟩ := (lt_iff a b).1 h
  exact (le_iff _ _).2 ⟨_, x, fin_zero, hx, by simpa using ha x hx⟩

theorem le_trans' {c : T} (h1 : (a <=. b) = true) (h2 : (b <=. c) = true) : (a <=. c) = true := by
  obtain ⟨x, y, hx, hy, h⟩ := (le_iff _ _).1 h1
  obtain ⟨y', z, hy', hz, h'⟩ := (le_iff _ _).1 h2
  rw [hy] at hy'
  cases hy'
  exact (le_iff _ _).2 ⟨x, z, hx, hz, h.trans h'⟩

theorem le_huge_zero : (zero <=. (Flt.huge : T)) = true := by
  obtain ⟨x, hx, h0⟩ := val_huge (T := T)
  exact (le_fin fin_zero hx).2 h0.le

theorem neg_huge_le : ((Flt.neg Flt.huge : T) <=. zero) = true := by
  obtain ⟨x, hx, h0⟩ := val_huge (T := T)
  have : IsFin (Flt.neg Flt.huge : T) (-x) := by
    unfold IsFin
    rw [val_neg, hx]
    rfl
  exact (le_fin this fin_zero).2 (by linarith)

theorem tiny_nonneg : (zero <=. (Flt.tiny : T)) = true := by
  obtain ⟨x, hx, h0⟩ := val_tiny (T := T)
  exact (le_fin fin_zero hx).2 h0.le

/-- The optical path drawn from a number of `[0, 1]` is not negative. -/
theorem nn_neg_ln (ha : IsFin a x) (h0 : 0 ≤ x) (h1 : x ≤ 1) : Nn (Flt.neg one *. Flt.ln a) := by
  have hm : val (Flt.neg one : T) = some ((-1 : ℝ) : EReal) := by
    rw [val_neg, fin_one]; rfl
  intro z hz
  rw [val_mul, hm] at hz
  cases h2 : val (Flt.ln a) with
  | none => rw [h2] at hz; simp [ieeeMul] at hz
  | some y =>
    have hy := val_ln a _ y ha (by exact_mod_cast h0) (by exact_mod_cast h1) h2
    rw [h2] at hz
    unfold ieeeMul at hz
    dsimp only at hz
    split at hz
    · cases hz
    · cases hz
      refine rnd_nonneg ?_
      have : ((-1 : ℝ) : EReal) * y = -y := by
        rw [EReal.coe_neg, EReal.neg_mul, EReal.coe_one, one_mul]
      rw [this]
      exact EReal.neg_nonneg.2 hy

end Ieee
