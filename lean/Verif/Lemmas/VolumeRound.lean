import Verif.Lemmas.BuiltinMesh
import Mathlib.Data.Int.Log
/-!
# Rounding errors in the volume of a cell

Every number of the computation is compared with the exact one, in units of the sizes of the cell.
-/
open Flt Ieee GridSpec MeshSpec
set_option linter.unusedSectionVars false

namespace Flooding
variable {T : Type} [Flt T] [Ieee T]

theorem rep_int_scaled {n : ℤ} (hn : |n| ≤ 2 ^ 24) {k : ℤ} (h0 : -100 ≤ k) (h1 : k ≤ 100) :
    Rep T ((n : ℝ) * 2 ^ k) := by
  rcases le_or_gt 0 n with h | h
  · obtain ⟨m, rfl⟩ := Int.eq_ofNat_of_zero_le h
    have := rep_scaled (T := T) (n := m) (by rw [abs_of_nonneg h] at hn; exact_mod_cast hn) h0 h1
    simpa using this
  · obtain ⟨m, hm⟩ := Int.eq_ofNat_of_zero_le (a := -n) (by omega)
    have h2 : m ≤ 2 ^ 24 := by rw [abs_of_neg h] at hn; omega
    have := rep_neg_scaled (T := T) h2 h0 h1
    have e : ((n : ℤ) : ℝ) * 2 ^ k = -((m : ℝ) * 2 ^ k) := by
      have : (n : ℝ) = -(m : ℝ) := by
        have : n = -(m : ℤ) := by omega
        rw [this]; push_cast; rfl
      rw [this]; ring
    rwa [e]

/-- Rounding moves a number by one step of its binade at most. -/
theorem rnd_error {y : ℝ} {k : ℤ} (h0 : -100 ≤ k) (h1 : k ≤ 100) (hy : |y| ≤ (2 ^ 24 - 1) * 2 ^ k) :
    ∃ z : ℝ, rnd T (y : EReal) = (z : EReal) ∧ |z - y| ≤ 2 ^ k := by
  have hk : (0 : ℝ) < 2 ^ k := by positivity
  obtain ⟨y1, y2⟩ := abs_le.1 hy
  have hf := Int.floor_le (y / 2 ^ k)
  have hf' := Int.lt_floor_add_one (y / 2 ^ k)
  have f1 : -(2 ^ 24 - 1 : ℤ) ≤ ⌊y / 2 ^ k⌋ := by
    refine Int.le_floor.2 ?_
    rw [le_div_iff₀ hk]
    push_cast
    linarith
  have f2 : ⌊y / 2 ^ k⌋ ≤ 2 ^ 24 - 1 := by
    have : ((⌊y / 2 ^ k⌋ : ℤ) : ℝ) ≤ 2 ^ 24 - 1 := hf.trans ((div_le_iff₀ hk).2 y2)
    exact_mod_cast this
  have lo := (le_div_iff₀ hk).1 hf
  have hi := (div_lt_iff₀ hk).1 hf'
  obtain ⟨z, hz, z0, z1⟩ := rnd_between (T := T)
    (rep_int_scaled (n := ⌊y / 2 ^ k⌋) (by rw [abs_le]; omega) h0 h1)
    (rep_int_scaled (n := ⌊y / 2 ^ k⌋ + 1) (by rw [abs_le]; omega) h0 h1) lo (by push_cast; exact hi.le)
  push_cast at z1
  refine ⟨z, hz, abs_le.2 ⟨?_, ?_⟩⟩ <;> linarith

/-- A unit of length, area or volume within the range of the format. -/
def Scale (U : ℝ) (j : ℕ) (r : ℤ) : Prop := ∃ e : ℤ, -r ≤ e ∧ e ≤ r ∧ (2 : ℝ) ^ e ≤ U ∧ U ≤ 2 ^ (e + j)

theorem Scale.pos {U : ℝ} {j : ℕ} {r : ℤ} (h : Scale U j r) : 0 < U := by
  obtain ⟨e, _, _, h, _⟩ := h
  exact lt_of_lt_of_le (by positivity) h

theorem Scale.mul {U V : ℝ} {j k : ℕ} {r s : ℤ} (h : Scale U j r) (h' : Scale V k s) :
    Scale (U * V) (j + k) (r + s) := by
  have p := h.pos
  obtain ⟨e, a1, a2, a3, a4⟩ := h
  obtain ⟨f, b1, b2, b3, b4⟩ := h'
  refine ⟨e + f, by omega, by omega, ?_, ?_⟩
  · rw [zpow_add₀ (by norm_num)]
    exact mul_le_mul a3 b3 (by positivity) p.le
  · rw [show e + f + ((j + k : ℕ) : ℤ) = (e + j) + (f + k) by push_cast; ring, zpow_add₀ (by norm_num)]
    exact mul_le_mul a4 b4 (le_trans (by positivity) b3) (by positivity)

theorem scale_of {D : ℝ} (h0 : 2 ^ (-20 : ℤ) ≤ D) (h1 : D ≤ 2 ^ (20 : ℤ)) : Scale D 1 20 := by
  have hD : 0 < D := lt_of_lt_of_le (by positivity) h0
  have l := Int.zpow_log_le_self (R := ℝ) (b := 2) (by norm_num) hD
  have u := Int.lt_zpow_succ_log_self (R := ℝ) (b := 2) (by norm_num) D
  push_cast at l u
  refine ⟨Int.log 2 D, ?_, ?_, l, by simpa using u.le⟩
  · have : (2 : ℝ) ^ (-20 : ℤ) < 2 ^ (Int.log 2 D + 1) := lt_of_le_of_lt h0 u
    have := (zpow_lt_zpow_iff_right₀ (by norm_num : (1 : ℝ) < 2)).1 this
    omega
  · exact (zpow_le_zpow_iff_right₀ (by norm_num : (1 : ℝ) < 2)).1 (l.trans h1)

/-- The number `a` is `x` units, up to `δ` units; `x` is at most `p`. -/
def Near (a : T) (U x p δ : ℝ) : Prop := (∃ v, IsFin a v ∧ |v - x * U| ≤ δ * U) ∧ |x| ≤ p

variable {a b : T} {U V x y p q δ ε : ℝ} {j k : ℕ} {r s : ℤ}

theorem Near.mono {p' δ' : ℝ} (h : Near a U x p δ) (hU : Scale U j r) (hp : p ≤ p') (hd : δ ≤ δ') :
    Near a U x p' δ' := by
  obtain ⟨⟨v, hv, h1⟩, h2⟩ := h
  exact ⟨⟨v, hv, h1.trans (mul_le_mul_of_nonneg_right hd hU.pos.le)⟩, h2.trans hp⟩

theorem Near.unit (h : Near a U x p δ) (e : U = V) : Near a V x p δ := e ▸ h

theorem near_rnd {y : ℝ} (i : ℕ) (hU : Scale U j r) (h : val a = some (rnd T (y : EReal)))
    (hy : |y - x * U| ≤ δ * U) (hx : |x| ≤ p) (hr : r + i ≤ 100)
    (hB : (p + δ) * 2 ^ j ≤ (2 ^ 24 - 1) / 2 ^ i) : Near a U x p (δ + 1 / 2 ^ i) := by
  have hU0 := hU.pos
  have hpd : 0 ≤ p + δ := by
    have h1 : 0 ≤ p := (abs_nonneg x).trans hx
    have h2 : 0 ≤ δ := by
      by_contra hc
      have := mul_neg_of_neg_of_pos (not_le.1 hc) hU0
      linarith [abs_nonneg (y - x * U)]
    linarith
  obtain ⟨e, e1, e2, e3, e4⟩ := hU
  have ei : (2 : ℝ) ^ (e - i) = 2 ^ e / 2 ^ i := by
    rw [zpow_sub₀ (by norm_num), zpow_natCast]
  obtain ⟨z, hz, hze⟩ := rnd_error (T := T) (y := y) (k := e - i) (by omega) (by omega) (by
    have h1 : |y| ≤ (p + δ) * U := by
      have h2 : |x * U| ≤ p * U := by
        rw [abs_mul, abs_of_pos hU0]; exact mul_le_mul_of_nonneg_right hx hU0.le
      have h3 := abs_add_le (y - x * U) (x * U)
      rw [sub_add_cancel] at h3
      linarith
    have h2 : (p + δ) * U ≤ (p + δ) * 2 ^ j * 2 ^ e := by
      rw [mul_assoc]
      refine mul_le_mul_of_nonneg_left ?_ hpd
      rw [mul_comm, ← zpow_natCast, ← zpow_add₀ (by norm_num)]
      exact e4
    have h3 : (p + δ) * 2 ^ j * 2 ^ e ≤ (2 ^ 24 - 1) / 2 ^ i * 2 ^ e :=
      mul_le_mul_of_nonneg_right hB (by positivity)
    rw [ei]
    calc |y| ≤ _ := h1.trans (h2.trans h3)
      _ = _ := by ring)
  refine ⟨⟨z, fin_of_rnd h hz, ?_⟩, hx⟩
  have h1 := abs_add_le (z - y) (y - x * U)
  rw [sub_add_sub_cancel] at h1
  have h2 : (2 : ℝ) ^ (e - i) ≤ 1 / 2 ^ i * U := by
    rw [ei, div_eq_mul_one_div, mul_comm]
    exact mul_le_mul_of_nonneg_left e3 (by positivity)
  rw [add_mul]
  linarith

theorem Near.add (i : ℕ) {m : ℝ} (ha : Near a U x p δ) (hb : Near b U y q ε) (hU : Scale U j r) (hm : |x + y| ≤ m)
    (hr : r + i ≤ 100) (hB : (m + (δ + ε)) * 2 ^ j ≤ (2 ^ 24 - 1) / 2 ^ i) :
    Near (a +. b) U (x + y) m (δ + ε + 1 / 2 ^ i) := by
  obtain ⟨⟨v, hv, h1⟩, _⟩ := ha
  obtain ⟨⟨w, hw, h2⟩, _⟩ := hb
  refine near_rnd i hU (fin_add hv hw) ?_ hm hr hB
  have := abs_add_le (v - x * U) (w - y * U)
  rw [show v + w - (x + y) * U = v - x * U + (w - y * U) by ring, add_mul]
  linarith

theorem Near.sub (i : ℕ) {m : ℝ} (ha : Near a U x p δ) (hb : Near b U y q ε) (hU : Scale U j r) (hm : |x - y| ≤ m)
    (hr : r + i ≤ 100) (hB : (m + (δ + ε)) * 2 ^ j ≤ (2 ^ 24 - 1) / 2 ^ i) :
    Near (a -. b) U (x - y) m (δ + ε + 1 / 2 ^ i) := by
  obtain ⟨⟨v, hv, h1⟩, _⟩ := ha
  obtain ⟨⟨w, hw, h2⟩, _⟩ := hb
  refine near_rnd i hU (fin_sub hv hw) ?_ hm hr hB
  have := abs_sub (v - x * U) (w - y * U)
  rw [show v - w - (x - y) * U = v - x * U - (w - y * U) by ring, add_mul]
  linarith

theorem Near.mul (i : ℕ) (ha : Near a U x p δ) (hb : Near b V y q ε) (hU : Scale U j r) (hV : Scale V k s)
    (hr : r + s + i ≤ 100)
    (hB : (p * q + (p * ε + q * δ + δ * ε)) * 2 ^ (j + k) ≤ (2 ^ 24 - 1) / 2 ^ i) :
    Near (a *. b) (U * V) (x * y) (p * q) (p * ε + q * δ + δ * ε + 1 / 2 ^ i) := by
  have u0 := hU.pos
  have v0 := hV.pos
  obtain ⟨⟨v, hv, h1⟩, h3⟩ := ha
  obtain ⟨⟨w, hw, h2⟩, h4⟩ := hb
  refine near_rnd i (hU.mul hV) (fin_mul hv hw) ?_ ?_ hr hB
  · rw [show v * w - x * y * (U * V) = (x * U) * (w - y * V) + (y * V) * (v - x * U) + (v - x * U) * (w - y * V) by ring]
    have a1 : |x * U| ≤ p * U := by rw [abs_mul, abs_of_pos u0]; exact mul_le_mul_of_nonneg_right h3 u0.le
    have a2 : |y * V| ≤ q * V := by rw [abs_mul, abs_of_pos v0]; exact mul_le_mul_of_nonneg_right h4 v0.le
    have m1 := mul_le_mul a1 h2 (abs_nonneg _) ((abs_nonneg _).trans a1)
    have m2 := mul_le_mul a2 h1 (abs_nonneg _) ((abs_nonneg _).trans a2)
    have m3 := mul_le_mul h1 h2 (abs_nonneg _) ((abs_nonneg _).trans h1)
    rw [← abs_mul] at m1 m2 m3
    have t1 := abs_add_le ((x * U) * (w - y * V) + (y * V) * (v - x * U)) ((v - x * U) * (w - y * V))
    have t2 := abs_add_le ((x * U) * (w - y * V)) ((y * V) * (v - x * U))
    calc _ ≤ p * U * (ε * V) + q * V * (δ * U) + δ * U * (ε * V) := by linarith
      _ = _ := by ring
  · rw [abs_mul]
    exact mul_le_mul h3 h4 (abs_nonneg _) ((abs_nonneg _).trans h3)

/-- Division by a small integer. -/
theorem Near.divNat (i : ℕ) {n : ℕ} (ha : Near a U x p δ) (hU : Scale U j r) (hn : 0 < n) (hn' : n ≤ 2 ^ 24)
    (hr : r + i ≤ 100) (hB : (p / n + δ / n) * 2 ^ j ≤ (2 ^ 24 - 1) / 2 ^ i) :
    Near (a /. Flt.ofNat n) U (x / n) (p / n) (δ / n + 1 / 2 ^ i) := by
  have n0 : (0 : ℝ) < n := by exact_mod_cast hn
  obtain ⟨⟨v, hv, h1⟩, h2⟩ := ha
  refine near_rnd i hU (fin_div hv (fin_ofNat hn') n0.ne') ?_ ?_ hr hB
  · rw [show v / n - x / n * U = (v - x * U) / n by ring, abs_div, abs_of_pos n0, div_mul_eq_mul_div]
    exact div_le_div_of_nonneg_right h1 n0.le
  · rw [abs_div, abs_of_pos n0]
    exact div_le_div_of_nonneg_right h2 n0.le

theorem Near.abs (ha : Near a U x p δ) (hU : Scale U j r) : Near (Flt.abs a) U |x| p δ := by
  obtain ⟨⟨v, hv, h1⟩, h2⟩ := ha
  refine ⟨⟨|v|, ?_, ?_⟩, by rwa [abs_abs]⟩
  · exact val_abs a v hv
  · have := abs_abs_sub_abs_le_abs_sub v (x * U)
    rw [abs_mul, abs_of_pos hU.pos] at this
    exact this.trans h1

/-- Sums, with the rounding error of each step. -/
theorem sum_near (i : ℕ) {l : List (T × ℝ)} {M : ℝ} (hU : Scale U j r) (h : ∀ a ∈ l, Near a.1 U a.2 p δ)
    (hr : r + i ≤ 100) (hp : 0 ≤ p) (hδ : 0 ≤ δ) (hM : l.length * (p + (δ + 1 / 2 ^ i)) ≤ M)
    (hB : M * 2 ^ j ≤ (2 ^ 24 - 1) / 2 ^ i) :
    Near (Flt.sum (l.map (·.1))) U (l.map (·.2)).sum (l.length * p) (l.length * (δ + 1 / 2 ^ i)) := by
  have hη : (0 : ℝ) ≤ 1 / 2 ^ i := by positivity
  have : ∀ (l : List (T × ℝ)) (n : ℕ) (s : T) (x : ℝ), (∀ a ∈ l, Near a.1 U a.2 p δ) →
      Near s U x (n * p) (n * (δ + 1 / 2 ^ i)) → (n + l.length : ℝ) * (p + (δ + 1 / 2 ^ i)) ≤ M →
      Near ((l.map (·.1)).foldl Flt.add s) U (x + (l.map (·.2)).sum) ((n + l.length : ℝ) * p)
        ((n + l.length : ℝ) * (δ + 1 / 2 ^ i)) := by
    intro l
    induction l with
    | nil => intro n s x _ hs _; simpa using hs
    | cons a l ih =>
      intro n s x hl hs hM'
      have hl0 : (0 : ℝ) ≤ l.length := Nat.cast_nonneg _
      rw [List.length_cons] at hM'
      push_cast at hM'
      have ha := hl a (by simp)
      have h2 : (n + 1 : ℝ) * p + (n * (δ + 1 / 2 ^ i) + δ) ≤ M := by
        refine le_trans ?_ hM'
        have : 0 ≤ (l.length : ℝ) * (p + (δ + 1 / 2 ^ i)) := by positivity
        nlinarith
      have hs' := Near.add i (m := (n + 1 : ℝ) * p) hs ha hU (by
        have := abs_add_le x a.2
        have h3 := hs.2
        have h4 := ha.2
        linarith) hr ((mul_le_mul_of_nonneg_right h2 (by positivity)).trans hB)
      have hs'' : Near (s +. a.1) U (x + a.2) ((n + 1 : ℕ) * p) ((n + 1 : ℕ) * (δ + 1 / 2 ^ i)) :=
        hs'.mono hU (by push_cast; exact le_rfl) (by push_cast; linarith)
      have := ih (n + 1) (s +. a.1) (x + a.2) (fun z hz => hl z (by simp [hz])) hs'' (by push_cast; linarith)
      rw [List.map_cons, List.map_cons, List.sum_cons, List.foldl_cons, ← add_assoc, List.length_cons]
      push_cast at this ⊢
      rw [show (n : ℝ) + (l.length + 1) = n + 1 + l.length by ring]
      exact this
  have h0 : Near (zero : T) U 0 ((0 : ℕ) * p) ((0 : ℕ) * (δ + 1 / 2 ^ i)) :=
    ⟨⟨0, fin_zero, by simp⟩, by simp⟩
  have := this l 0 zero 0 h h0 (by simpa using hM)
  simpa [Flt.sum] using this

/-- The position of a point of a cell with respect to the centre of the cell, in units of the sizes of the cell. -/
noncomputable def relR (m : ℤ) : ℝ := m / 10

/-- The exact coordinates of a point, in units of the sizes of the cell. -/
def NearV (v : Vec3 T) (X Y Z x y z p δ : ℝ) : Prop := Near v.x X x p δ ∧ Near v.y Y y p δ ∧ Near v.z Z z p δ

variable {g : Grid T} {X Y Z : ℝ}

/-- Sizes of the cells, as real numbers. -/
structure Sides (g : Grid T) (X Y Z : ℝ) : Prop where
  counts : (0 < g.nx ∧ g.nx ≤ 2 ^ 10) ∧ (0 < g.ny ∧ g.ny ≤ 2 ^ 10) ∧ (0 < g.nz ∧ g.nz ≤ 2 ^ 10)
  dx : IsFin g.dx X
  dy : IsFin g.dy Y
  dz : IsFin g.dz Z
  sx : Scale X 1 20
  sy : Scale Y 1 20
  sz : Scale Z 1 20

theorem near_self {d : T} {D : ℝ} (h : IsFin d D) : Near d D 1 1 0 := ⟨⟨D, h, by simp⟩, by simp⟩

theorem near_half {d : T} {D : ℝ} (h : IsFin d D) (hD : Scale D 1 20) : Near (d /. two) D (1 / 2) (1 / 2) (1 / 2 ^ 20) := by
  have := (near_self h).divNat 20 (n := 2) hD (by norm_num) (by norm_num) (by norm_num) (by norm_num)
  have e : (1 : ℝ) / ((2 : ℕ) : ℝ) = 1 / 2 := by norm_num
  rw [e] at this
  exact this.mono hD le_rfl (by norm_num)

theorem near_zero {D : ℝ} (hD : Scale D 1 20) : Near (zero : T) D 0 (1 / 2) (1 / 2 ^ 20) := by
  refine ⟨⟨0, fin_zero, ?_⟩, by norm_num⟩
  have := hD.pos
  simp only [zero_mul, sub_zero, abs_zero]
  positivity

theorem near_offset {P : Prop} [Decidable P] {b d : T} {D : ℝ} (h : IsFin d D) (hD : Scale D 1 20)
    (hb : b = if P then d /. two else zero) : Near b D (if P then 1 / 2 else 0) (1 / 2) (1 / 2 ^ 20) := by
  subst hb
  split
  · exact near_half h hD
  · exact near_zero hD

theorem near_coord {P : Prop} [Decidable P] {b d : T} {D : ℝ} {k n : ℕ} (h : IsFin d D) (hD : Scale D 1 20)
    (hb : b = if P then d /. two else zero) (hk : k < 2 ^ 10) (hn : n ≤ 1) :
    Near (Flt.ofNat (k + n) *. d +. b) D (k + 1 / 2 + relR (10 * (n : ℤ) - (if P then 0 else 5))) 1025
      (1 / 2 ^ 11 + 1 / 2 ^ 19) := by
  have hkn : ((k + n : ℕ) : ℝ) ≤ 1024 := by exact_mod_cast (by omega : k + n ≤ 1024)
  have hkn0 : (0 : ℝ) ≤ ((k + n : ℕ) : ℝ) := Nat.cast_nonneg _
  have h1 : Near (Flt.ofNat (k + n) *. d) D ((k + n : ℕ) : ℝ) 1024 (0 + 1 / 2 ^ 12) :=
    near_rnd 12 hD (fin_mul (fin_ofNat (T := T) (n := k + n) (by omega)) h) (by simp)
      (by rw [abs_of_nonneg hkn0]; exact hkn) (by norm_num) (by norm_num)
  have h2 := near_offset h hD hb
  have e : ((k + n : ℕ) : ℝ) + (if P then 1 / 2 else 0) =
      k + 1 / 2 + relR (10 * (n : ℤ) - (if P then 0 else 5)) := by
    unfold relR
    split <;> push_cast <;> ring
  have := Near.add 12 (m := 1025) h1 h2 hD (by
    rw [abs_of_nonneg (by split <;> positivity)]
    split <;> linarith) (by norm_num) (by norm_num)
  rw [e] at this
  exact this.mono hD le_rfl (by norm_num)

theorem Sides.point (h : Sides g X Y Z) {t : Nat × Nat × Nat} (h1 : t.1 < 2 ^ 10) (h2 : t.2.1 < 2 ^ 10)
    (h3 : t.2.2 < 2 ^ 10) {o : Nat × Nat × Nat × Nat} (ho : o ∈ cornerOffset) :
    NearV (pointOf g t o) X Y Z (t.1 + 1 / 2 + relR (relOf o).1) (t.2.1 + 1 / 2 + relR (relOf o).2.1)
      (t.2.2 + 1 / 2 + relR (relOf o).2.2) 1025 (1 / 2 ^ 11 + 1 / 2 ^ 19) := by
  have hb : o.1 ≤ 1 ∧ o.2.1 ≤ 1 ∧ o.2.2.1 ≤ 1 ∧ o.2.2.2 < 4 := by revert o; decide
  obtain ⟨b1, b2, b3, b4⟩ := hb
  have off : ∀ k < 4, (g.basisOffset.getD k Vec3.zero).x = (if k = 2 ∨ k = 3 then g.dx /. two else zero) ∧
      (g.basisOffset.getD k Vec3.zero).y = (if k = 1 ∨ k = 3 then g.dy /. two else zero) ∧
      (g.basisOffset.getD k Vec3.zero).z = (if k = 1 ∨ k = 2 then g.dz /. two else zero) := by
    intro k hk
    interval_cases k <;> exact ⟨rfl, rfl, rfl⟩
  obtain ⟨o1, o2, o3⟩ := off _ b4
  exact ⟨near_coord h.dx h.sx o1 h1 b1, near_coord h.dy h.sy o2 h2 b2, near_coord h.dz h.sz o3 h3 b3⟩

theorem near_mean {D : ℝ} {k : ℕ} {f : Nat × Nat × Nat × Nat → T} {rr : Nat × Nat × Nat × Nat → ℤ} (hD : Scale D 1 20)
    (hf : ∀ o ∈ cornerOffset, Near (f o) D (k + 1 / 2 + relR (rr o)) 1025 (1 / 2 ^ 11 + 1 / 2 ^ 19))
    (h0 : (cornerOffset.map rr).sum = 0) :
    Near (Flt.sum (cornerOffset.map f) /. Flt.ofNat 14) D (k + 1 / 2) 1025 (3 / 2 ^ 10) := by
  have h1 := sum_near 9 (M := 14354) (l := cornerOffset.map fun o => (f o, (k : ℝ) + 1 / 2 + relR (rr o))) hD (by
    intro a ha
    obtain ⟨o, ho, rfl⟩ := List.mem_map.1 ha
    exact hf o ho) (by norm_num) (by norm_num) (by norm_num) (by
      rw [List.length_map, show cornerOffset.length = 14 from rfl]; norm_num) (by norm_num)
  rw [List.map_map, List.map_map, List.length_map, show cornerOffset.length = 14 from rfl] at h1
  have e1 : cornerOffset.map ((·.1) ∘ fun o => (f o, (k : ℝ) + 1 / 2 + relR (rr o))) = cornerOffset.map f := rfl
  have e2 : (cornerOffset.map ((·.2) ∘ fun o => (f o, (k : ℝ) + 1 / 2 + relR (rr o)))).sum = (k + 1 / 2) * 14 := by
    have : ∀ l : List (Nat × Nat × Nat × Nat), (l.map ((·.2) ∘ fun o => (f o, (k : ℝ) + 1 / 2 + relR (rr o)))).sum =
        (k + 1 / 2) * l.length + relR (l.map rr).sum := by
      intro l
      induction l with
      | nil => simp [relR]
      | cons a l ih =>
        rw [List.map_cons, List.sum_cons, ih, List.map_cons, List.sum_cons, List.length_cons]
        unfold relR
        simp only [Function.comp]
        push_cast
        ring
    rw [this, h0]
    simp [relR, show cornerOffset.length = 14 from rfl]
  rw [e1, e2] at h1
  have h2 := h1.divNat 12 (n := 14) hD (by norm_num) (by norm_num) (by norm_num) (by norm_num)
  have e3 : ((k : ℝ) + 1 / 2) * 14 / ((14 : ℕ) : ℝ) = k + 1 / 2 := by push_cast; ring
  rw [e3] at h2
  exact h2.mono hD (by norm_num) (by norm_num)

theorem Sides.mean (h : Sides g X Y Z) {c : Nat} (hc : c < cells g) : ∃ r, g.meanPoint c = .ok r ∧
    NearV r X Y Z ((g.cellIdxToTuple c).1 + 1 / 2) ((g.cellIdxToTuple c).2.1 + 1 / 2) ((g.cellIdxToTuple c).2.2 + 1 / 2)
      1025 (3 / 2 ^ 10) := by
  obtain ⟨a1, a2, a3⟩ := Grid.idx_inGrid hc
  obtain ⟨n1, n2, n3⟩ := h.counts
  have hp := fun o (ho : o ∈ cornerOffset) =>
    h.point (t := g.cellIdxToTuple c) (by omega) (by omega) (by omega) ho
  rw [meanPoint_eq hc, sdiv_of (fin_ofNat (T := T) (n := 14) (by norm_num)) (by norm_num)]
  refine ⟨_, rfl, ?_, ?_, ?_⟩
  · dsimp only
    rw [(vec_sum_x _).1]
    unfold pointsOf
    rw [List.map_map]
    exact near_mean h.sx (fun o ho => (hp o ho).1) (by decide)
  · dsimp only
    rw [(vec_sum_x _).2.1]
    unfold pointsOf
    rw [List.map_map]
    exact near_mean h.sy (fun o ho => (hp o ho).2.1) (by decide)
  · dsimp only
    rw [(vec_sum_x _).2.2]
    unfold pointsOf
    rw [List.map_map]
    exact near_mean h.sz (fun o ho => (hp o ho).2.2) (by decide)

theorem near_edge {a b : T} {D k : ℝ} {m : ℤ} (hD : Scale D 1 20) (hm : |m| ≤ 5)
    (ha : Near a D (k + relR m) 1025 (1 / 2 ^ 11 + 1 / 2 ^ 19)) (hb : Near b D k 1025 (3 / 2 ^ 10)) :
    Near (a -. b) D (relR m) (1 / 2) (1 / 2 ^ 8) := by
  have e : k + relR m - k = relR m := by ring
  have hm' : |relR m| ≤ 1 / 2 := by
    unfold relR
    rw [abs_div, abs_of_pos (by norm_num : (0 : ℝ) < 10), div_le_div_iff₀ (by norm_num) (by norm_num)]
    have : (|(m : ℝ)|) ≤ 5 := by exact_mod_cast hm
    linarith
  have := Near.sub 20 (m := 1 / 2) ha hb hD (by rw [e]; exact hm') (by norm_num) (by norm_num)
  rw [e] at this
  exact this.mono hD le_rfl (by norm_num)

/-- One term of the triple product. -/
theorem near_term {A B C : ℝ} {a b c b' c' : T} {x y z y' z' : ℝ} (hA : Scale A 1 20) (hB : Scale B 1 20)
    (hC : Scale C 1 20) (ha : Near a A x (1 / 2) (1 / 2 ^ 8)) (hb : Near b B y (1 / 2) (1 / 2 ^ 8))
    (hc : Near c C z (1 / 2) (1 / 2 ^ 8)) (hb' : Near b' C y' (1 / 2) (1 / 2 ^ 8)) (hc' : Near c' B z' (1 / 2) (1 / 2 ^ 8)) :
    Near (a *. (b *. c -. b' *. c')) (A * (B * C)) (x * (y * z - y' * z')) (1 / 4) (1 / 160) := by
  have hBC := hB.mul hC
  have p1 := (Near.mul 16 hb hc hB hC (by norm_num) (by norm_num)).mono hBC (p' := 1 / 4) (δ' := 1 / 250)
    (by norm_num) (by norm_num)
  have p2 := ((Near.mul 16 hb' hc' hC hB (by norm_num) (by norm_num)).unit (mul_comm C B)).mono hBC (p' := 1 / 4)
    (δ' := 1 / 250) (by norm_num) (by norm_num)
  have d := (Near.sub 16 (m := 1 / 2) p1 p2 hBC (by
    have := abs_sub (y * z) (y' * z')
    have h1 := p1.2
    have h2 := p2.2
    linarith) (by norm_num) (by norm_num)).mono hBC (p' := 1 / 2) (δ' := 1 / 124) le_rfl (by norm_num)
  exact (Near.mul 16 ha d hA hBC (by norm_num) (by norm_num)).mono (hA.mul hBC) (by norm_num) (by norm_num)

/-- The computed volume is within a tenth of the volume. -/
theorem Sides.volume (h : Sides g X Y Z) {c : Nat} (hc : c < cells g) {r : Vec3 T} (hr : g.meanPoint c = .ok r) :
    Near (volumeOf g c r) (X * (Y * Z)) 1 1 (1 / 10) := by
  obtain ⟨i1, i2, i3⟩ := Grid.idx_inGrid hc
  obtain ⟨n1, n2, n3⟩ := h.counts
  obtain ⟨r', hr', m1, m2, m3⟩ := h.mean hc
  rw [hr] at hr'
  cases hr'
  have hU := h.sx.mul (h.sy.mul h.sz)
  have hrel : ∀ m < 14, NearV ((pointOf g (g.cellIdxToTuple c) (cornerOffset.getD m (0, 0, 0, 0))).sub r) X Y Z
        (relR (relOf (cornerOffset.getD m (0, 0, 0, 0))).1) (relR (relOf (cornerOffset.getD m (0, 0, 0, 0))).2.1)
        (relR (relOf (cornerOffset.getD m (0, 0, 0, 0))).2.2) (1 / 2) (1 / 2 ^ 8) := by
    intro m hm
    have ho := corner_mem hm
    obtain ⟨p1, p2, p3⟩ := h.point (t := g.cellIdxToTuple c) (by omega) (by omega) (by omega) ho
    obtain ⟨s1, s2, s3⟩ := relOf_small _ ho
    exact ⟨near_edge h.sx s1 p1 m1, near_edge h.sy s2 p2 m2, near_edge h.sz s3 p3 m3⟩
  have hfac : ∀ n ∈ nodeIndirect, Near (Flt.abs (computeVolume
      (pointOf g (g.cellIdxToTuple c) (cornerOffset.getD n.1 (0, 0, 0, 0)))
      (pointOf g (g.cellIdxToTuple c) (cornerOffset.getD n.2.1 (0, 0, 0, 0)))
      (pointOf g (g.cellIdxToTuple c) (cornerOffset.getD n.2.2 (0, 0, 0, 0))) r)) (X * (Y * Z)) (1 / 4) (3 / 4) (1 / 50) := by
    intro n hn
    have hlt : ∀ n ∈ nodeIndirect, n.1 < 14 ∧ n.2.1 < 14 ∧ n.2.2 < 14 ∧
        |tripleOf (relOf (cornerOffset.getD n.1 (0, 0, 0, 0))) (relOf (cornerOffset.getD n.2.1 (0, 0, 0, 0)))
          (relOf (cornerOffset.getD n.2.2 (0, 0, 0, 0)))| = 250 := by decide
    obtain ⟨l1, l2, l3, l4⟩ := hlt n hn
    obtain ⟨a1, a2, a3⟩ := hrel _ l1
    obtain ⟨b1, b2, b3⟩ := hrel _ l2
    obtain ⟨c1, c2, c3⟩ := hrel _ l3
    revert a1 a2 a3 b1 b2 b3 c1 c2 c3 l4
    generalize relOf (cornerOffset.getD n.1 (0, 0, 0, 0)) = ra
    generalize relOf (cornerOffset.getD n.2.1 (0, 0, 0, 0)) = rb
    generalize relOf (cornerOffset.getD n.2.2 (0, 0, 0, 0)) = rc
    intro l4 a1 a2 a3 b1 b2 b3 c1 c2 c3
    have t1 := near_term h.sx h.sy h.sz a1 b2 c3 b3 c2
    have t2 := (near_term h.sy h.sz h.sx a2 b3 c1 b1 c3).unit (show Y * (Z * X) = X * (Y * Z) by ring)
    have t3 := (near_term h.sz h.sx h.sy a3 b1 c2 b2 c1).unit (show Z * (X * Y) = X * (Y * Z) by ring)
    have u1 := Near.add 16 (m := 1 / 2) t1 t2 hU (by
      have := (abs_add_le _ _).trans (add_le_add t1.2 t2.2)
      linarith) (by norm_num) (by norm_num)
    have u2 := (Near.add 16 (m := 3 / 4) u1 t3 hU (by
      have := (abs_add_le _ _).trans (add_le_add u1.2 t3.2)
      linarith) (by norm_num) (by norm_num)).abs hU
    have e : |relR ra.1 * (relR rb.2.1 * relR rc.2.2 - relR rb.2.2 * relR rc.2.1) +
        relR ra.2.1 * (relR rb.2.2 * relR rc.1 - relR rb.1 * relR rc.2.2) +
        relR ra.2.2 * (relR rb.1 * relR rc.2.1 - relR rb.2.1 * relR rc.1)| = 1 / 4 := by
      have : relR ra.1 * (relR rb.2.1 * relR rc.2.2 - relR rb.2.2 * relR rc.2.1) +
        relR ra.2.1 * (relR rb.2.2 * relR rc.1 - relR rb.1 * relR rc.2.2) +
        relR ra.2.2 * (relR rb.1 * relR rc.2.1 - relR rb.2.1 * relR rc.1) = ((tripleOf ra rb rc : ℤ) : ℝ) / 1000 := by
        unfold relR tripleOf
        push_cast
        ring
      rw [this, abs_div, ← Int.cast_abs, l4]
      norm_num
    rw [e] at u2
    exact u2.mono hU le_rfl (by norm_num)
  have hs := sum_near 16 (M := 19) (l := nodeIndirect.map fun n => (Flt.abs (computeVolume
      (pointOf g (g.cellIdxToTuple c) (cornerOffset.getD n.1 (0, 0, 0, 0)))
      (pointOf g (g.cellIdxToTuple c) (cornerOffset.getD n.2.1 (0, 0, 0, 0)))
      (pointOf g (g.cellIdxToTuple c) (cornerOffset.getD n.2.2 (0, 0, 0, 0))) r), (1 / 4 : ℝ))) hU (by
    intro a ha
    obtain ⟨n, hn, rfl⟩ := List.mem_map.1 ha
    exact hfac n hn) (by norm_num) (by norm_num) (by norm_num) (by
      rw [List.length_map, show nodeIndirect.length = 24 from rfl]; norm_num) (by norm_num)
  rw [List.map_map, List.map_map, List.length_map, show nodeIndirect.length = 24 from rfl] at hs
  have e2 : (nodeIndirect.map ((·.2) ∘ fun n => (Flt.abs (computeVolume
      (pointOf g (g.cellIdxToTuple c) (cornerOffset.getD n.1 (0, 0, 0, 0)))
      (pointOf g (g.cellIdxToTuple c) (cornerOffset.getD n.2.1 (0, 0, 0, 0)))
      (pointOf g (g.cellIdxToTuple c) (cornerOffset.getD n.2.2 (0, 0, 0, 0))) r), (1 / 4 : ℝ)))).sum = 6 := by
    simp only [Function.comp_def, List.map_const', List.sum_replicate, show nodeIndirect.length = 24 from rfl]
    norm_num
  rw [e2] at hs
  have hd := hs.divNat 16 (n := 6) hU (by norm_num) (by norm_num) (by norm_num) (by norm_num)
  have e3 : (6 : ℝ) / ((6 : ℕ) : ℝ) = 1 := by norm_num
  rw [e3] at hd
  obtain ⟨hd, _⟩ := hd.mono hU (p' := 3) (δ' := 1 / 10) (by norm_num) (by norm_num)
  exact ⟨hd, by norm_num⟩

end Flooding
