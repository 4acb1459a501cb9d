import Verif.Lemmas.VolumeRound
import Verif.Spec.FloatRange
/-!
# The volumes of the cells, from the numbers of the input

The size of a cell is itself rounded; compared with the exact size, every coordinate and every volume is close.
-/
open Flt Ieee GridSpec MeshSpec
set_option linter.unusedSectionVars false

namespace Flooding
variable {T : Type} [Flt T] [Ieee T] {p : Params T} {X Y Z : ℝ}

/-- The rounded size of a cell along an axis. -/
theorem near_size {l : T} {x : ℝ} {n : ℕ} (h : IsFin l x) (hn : 0 < n ∧ n ≤ 2 ^ 10)
    (hl : Bd l (2 ^ (-10 : ℤ)) (2 ^ (20 : ℤ))) :
    0 < x / n ∧ ∃ D, IsFin (l /. Flt.ofNat n) D ∧ Scale D 1 20 ∧ |D - x / n| ≤ 1 / 2 ^ 20 * (x / n) := by
  obtain ⟨D, hD, d0, d1⟩ := size_bd hn hl
  obtain ⟨x', hx', x0, x1⟩ := hl
  cases h.inj hx'
  have n0 : (0 : ℝ) < n := by exact_mod_cast hn.1
  have n1 : (1 : ℝ) ≤ n := by exact_mod_cast hn.1
  have n2 : (n : ℝ) ≤ 2 ^ 10 := by exact_mod_cast hn.2
  have s : Scale (x / n) 1 20 := by
    refine scale_of ?_ ?_
    · rw [le_div_iff₀ n0]
      norm_num at x0 ⊢
      linarith
    · rw [div_le_iff₀ n0]
      norm_num at x1 ⊢
      linarith
  obtain ⟨⟨v, hv, h1⟩, _⟩ := near_rnd 20 s (fin_div h (fin_ofNat (T := T) (n := n) (by omega)) n0.ne')
    (x := 1) (p := 1) (δ := 0) (by simp) (by norm_num) (by norm_num) (by norm_num)
  cases hv.inj hD
  rw [one_mul, zero_add] at h1
  exact ⟨s.pos, _, hv, scale_of d0 d1, h1⟩

/-- The sizes of the cells as the program computes them. -/
theorem sides_of (h : p.Sized) (hs : p.CellSides X Y Z) : 0 < X ∧ 0 < Y ∧ 0 < Z ∧
    ∃ X' Y' Z', Sides p.gridOf X' Y' Z' ∧ |X' - X| ≤ 1 / 2 ^ 20 * X ∧ |Y' - Y| ≤ 1 / 2 ^ 20 * Y ∧ |Z' - Z| ≤ 1 / 2 ^ 20 * Z := by
  obtain ⟨x, y, z, hx, hy, hz, rfl, rfl, rfl⟩ := hs
  obtain ⟨p1, X', a1, a2, a3⟩ := near_size hx h.counts.1 h.sizes.1
  obtain ⟨p2, Y', b1, b2, b3⟩ := near_size hy h.counts.2.1 h.sizes.2.1
  obtain ⟨p3, Z', c1, c2, c3⟩ := near_size hz h.counts.2.2 h.sizes.2.2
  exact ⟨p1, p2, p3, X', Y', Z', ⟨h.counts, a1, b1, c1, a2, b2, c2⟩, a3, b3, c3⟩

/-- Every computed volume is within an eighth of the exact one. -/
theorem volume_close (h : p.Sized) (hs : p.CellSides X Y Z) {c : Nat} (hc : c < cells p.gridOf) {r : Vec3 T}
    (hr : p.gridOf.meanPoint c = .ok r) :
    ∃ w, IsFin (volumeOf p.gridOf c r) w ∧ |w - X * Y * Z| ≤ X * Y * Z / 8 := by
  obtain ⟨x0, y0, z0, X', Y', Z', hsd, hx, hy, hz⟩ := sides_of h hs
  obtain ⟨⟨w, hw, h1⟩, _⟩ := hsd.volume hc hr
  refine ⟨w, hw, ?_⟩
  obtain ⟨hx1, hx2⟩ := abs_le.1 hx
  obtain ⟨hy1, hy2⟩ := abs_le.1 hy
  obtain ⟨hz1, hz2⟩ := abs_le.1 hz
  have px := hsd.sx.pos
  have py := hsd.sy.pos
  have pz := hsd.sz.pos
  -- bounds of the product
  have u1 : X' * (Y' * Z') ≤ (1001 / 1000 * X) * ((1001 / 1000 * Y) * (1001 / 1000 * Z)) :=
    mul_le_mul (by linarith) (mul_le_mul (by linarith) (by linarith) pz.le (by positivity)) (by positivity) (by positivity)
  have u2 : (999 / 1000 * X) * ((999 / 1000 * Y) * (999 / 1000 * Z)) ≤ X' * (Y' * Z') :=
    mul_le_mul (by linarith) (mul_le_mul (by linarith) (by linarith) (by positivity) py.le) (by positivity) px.le
  have v0 : 0 < X * Y * Z := by positivity
  have e1 : (1001 / 1000 * X) * ((1001 / 1000 * Y) * (1001 / 1000 * Z)) = (1001 / 1000) ^ 3 * (X * Y * Z) := by ring
  have e2 : (999 / 1000 * X) * ((999 / 1000 * Y) * (999 / 1000 * Z)) = (999 / 1000) ^ 3 * (X * Y * Z) := by ring
  rw [e1] at u1
  rw [e2] at u2
  obtain ⟨h2, h3⟩ := abs_le.1 h1
  rw [abs_le]
  constructor <;> linarith

theorem volume_range (h : p.Sized) (hs : p.CellSides X Y Z) (h0 : 2 ^ (-19 : ℤ) ≤ X * Y * Z)
    (h1 : X * Y * Z ≤ 2 ^ (39 : ℤ)) {c : Nat} (hc : c < cells p.gridOf) {r : Vec3 T}
    (hr : p.gridOf.meanPoint c = .ok r) : Bd (volumeOf p.gridOf c r) (2 ^ (-20 : ℤ)) (2 ^ (40 : ℤ)) := by
  obtain ⟨w, hw, h2⟩ := volume_close h hs hc hr
  obtain ⟨h3, h4⟩ := abs_le.1 h2
  norm_num at h0 h1
  refine ⟨w, hw, ?_, ?_⟩
  · norm_num
    linarith
  · norm_num
    linarith

theorem coord_close {a : T} {D U k : ℝ} (hU : 0 < U) (hk : 0 ≤ k) (hk' : k ≤ 1024) (hD : |D - U| ≤ 1 / 2 ^ 20 * U)
    (ha : Near a D k 1025 (3 / 2 ^ 10)) : ∃ w, IsFin a w ∧ |w - k * U| ≤ U / 200 := by
  obtain ⟨⟨w, hw, h1⟩, _⟩ := ha
  refine ⟨w, hw, ?_⟩
  have h2 : |k * D - k * U| ≤ 1024 * (1 / 2 ^ 20 * U) := by
    rw [← mul_sub, abs_mul, abs_of_nonneg hk]
    exact mul_le_mul hk' hD (abs_nonneg _) (by norm_num)
  have h3 := abs_add_le (w - k * D) (k * D - k * U)
  rw [sub_add_sub_cancel] at h3
  obtain ⟨_, hD2⟩ := abs_le.1 hD
  linarith

/-- Every computed centre is close to the exact one. -/
theorem centre_close (h : p.Sized) (hs : p.CellSides X Y Z) {c : Nat} (hc : c < cells p.gridOf) :
    ∃ r x y z, p.gridOf.meanPoint c = .ok r ∧ IsFin r.x x ∧ IsFin r.y y ∧ IsFin r.z z ∧
      |x - exactCentre (p.gridOf.cellIdxToTuple c).1 X| ≤ X / 200 ∧
      |y - exactCentre (p.gridOf.cellIdxToTuple c).2.1 Y| ≤ Y / 200 ∧
      |z - exactCentre (p.gridOf.cellIdxToTuple c).2.2 Z| ≤ Z / 200 := by
  obtain ⟨x0, y0, z0, X', Y', Z', hsd, hx, hy, hz⟩ := sides_of h hs
  obtain ⟨r, hr, m1, m2, m3⟩ := hsd.mean hc
  obtain ⟨i1, i2, i3⟩ := Grid.idx_inGrid hc
  obtain ⟨n1, n2, n3⟩ := hsd.counts
  have key : ∀ {k n : ℕ}, k < n → n ≤ 2 ^ 10 → (k : ℝ) + 1 / 2 ≤ 1024 := by
    intro k n h1 h2
    have : ((k + 1 : ℕ) : ℝ) ≤ 1024 := by exact_mod_cast (by omega : k + 1 ≤ 1024)
    push_cast at this
    linarith
  obtain ⟨x, f1, g1⟩ := coord_close x0 (by positivity) (key i1 n1.2) hx m1
  obtain ⟨y, f2, g2⟩ := coord_close y0 (by positivity) (key i2 n2.2) hy m2
  obtain ⟨z, f3, g3⟩ := coord_close z0 (by positivity) (key i3 n3.2) hz m3
  exact ⟨r, x, y, z, hr, f1, f2, f3, g1, g2, g3⟩

theorem _root_.FloatMesh.sizedInput (h : FloatMesh p) : p.Sized := ⟨h.counts, h.sizes⟩

theorem sides_exist (h : p.Sized) : ∃ X Y Z, p.CellSides X Y Z := by
  obtain ⟨⟨x, hx, _⟩, ⟨y, hy, _⟩, ⟨z, hz, _⟩⟩ := h.sizes
  exact ⟨_, _, _, x, y, z, hx, hy, hz, rfl, rfl, rfl⟩

/-- A test of the bounds of a region, when the number compared is close to `x` and the bounds are not. -/
theorem bounds_test {a lo hi : T} {w x d : ℝ} (ha : IsFin a w) (hw : |w - x| ≤ d) (hc : ClearOf lo hi x d) :
    ((a >=. lo) && (a <=. hi)) = true ↔ WithinBounds lo hi x := by
  obtain ⟨l, h, hl, hh, d1, d2⟩ := hc
  obtain ⟨w1, w2⟩ := abs_le.1 hw
  rw [Bool.and_eq_true]
  have e1 : (a >=. lo) = true ↔ l ≤ w := le_fin hl ha
  rw [e1, le_fin ha hh]
  constructor
  · rintro ⟨h1, h2⟩
    refine ⟨l, h, hl, hh, ?_, ?_⟩
    · by_contra hn
      rw [abs_of_neg (by linarith)] at d1
      linarith
    · by_contra hn
      rw [abs_of_pos (by linarith)] at d2
      linarith
  · rintro ⟨l', h', hl', hh', h1, h2⟩
    cases hl.inj hl'
    cases hh.inj hh'
    rw [abs_of_nonneg (by linarith)] at d1
    rw [abs_of_nonpos (by linarith)] at d2
    constructor <;> linarith

/-- A brick that contains the whole problem contains every computed centre. -/
theorem whole_inside (h : p.Sized) {geom : GeometryParams T} (hw : WholeBrick p geom) {c : Nat} {r : Vec3 T}
    (hc : c < cells p.gridOf) (hr : p.gridOf.meanPoint c = .ok r) : isInside geom r = .ok true := by
  obtain ⟨X, Y, Z, hs⟩ := sides_exist h
  obtain ⟨r', x, y, z, hr', fx, fy, fz, g1, g2, g3⟩ := centre_close h hs hc
  rw [hr] at hr'
  cases hr'
  obtain ⟨x0, y0, z0, _⟩ := sides_of h hs
  obtain ⟨x', y', z', hx', hy', hz', rfl, rfl, rfl⟩ := hs
  obtain ⟨i1, i2, i3⟩ := Grid.idx_inGrid hc
  have key : ∀ {a lo hi l : T} {u lo' hi' l' L : ℝ} {i n : ℕ}, IsFin a u → IsFin lo lo' → IsFin hi hi' → IsFin l l' →
      IsFin l L → lo' ≤ 0 → l' ≤ hi' → 0 < L / n → i < n → |u - exactCentre i (L / n)| ≤ L / n / 200 →
      ((a >=. lo) && (a <=. hi)) = true := by
    intro a lo hi l u lo' hi' l' L i n ha hlo hhi hl hL b1 b2 b3 b4 b5
    cases hl.inj hL
    have n0 : (0 : ℝ) < n := by exact_mod_cast (by omega : 0 < n)
    have hi : (i : ℝ) + 1 ≤ n := by exact_mod_cast b4
    have hi0 : (0 : ℝ) ≤ i := Nat.cast_nonneg i
    have e : (n : ℝ) * (l' / n) = l' := by field_simp
    unfold exactCentre at b5
    obtain ⟨b6, b7⟩ := abs_le.1 b5
    have m1 : 0 ≤ (i : ℝ) * (l' / n) := by positivity
    have m2 := mul_le_mul_of_nonneg_right hi b3.le
    rw [Bool.and_eq_true]
    refine ⟨(le_fin hlo ha).2 ?_, (le_fin ha hhi).2 ?_⟩ <;> nlinarith
  obtain ⟨a1, a2, a3, ax, ay, az, a4, a5⟩ := hw.x
  obtain ⟨b1, b2, b3, bx, bY, bz, b4, b5⟩ := hw.y
  obtain ⟨c1, c2, c3, cx, cy, cz, c4, c5⟩ := hw.z
  unfold isInside
  rw [hw.shape]
  dsimp only
  rw [key fx ax ay az hx' a4 a5 x0 i1 g1, key fy bx bY bz hy' b4 b5 y0 i2 g2, key fz cx cy cz hz' c4 c5 z0 i3 g3]
  rfl

/-- The test of a brick is exact when its bounds are away from the centre of the cell. -/
theorem brick_test (h : p.Sized) {X Y Z : ℝ} (hs : p.CellSides X Y Z) {geom : GeometryParams T}
    (hb : geom.shape = .brick) {c : Nat} {r : Vec3 T} (hc : c < cells p.gridOf) (hr : p.gridOf.meanPoint c = .ok r)
    (hx : ClearOf geom.xMin geom.xMax (exactCentre (p.gridOf.cellIdxToTuple c).1 X) (X / 200))
    (hy : ClearOf geom.yMin geom.yMax (exactCentre (p.gridOf.cellIdxToTuple c).2.1 Y) (Y / 200))
    (hz : ClearOf geom.zMin geom.zMax (exactCentre (p.gridOf.cellIdxToTuple c).2.2 Z) (Z / 200)) :
    ∃ b, isInside geom r = .ok b ∧ (b = true ↔ InBrick geom (exactCentre (p.gridOf.cellIdxToTuple c).1 X)
      (exactCentre (p.gridOf.cellIdxToTuple c).2.1 Y) (exactCentre (p.gridOf.cellIdxToTuple c).2.2 Z)) := by
  obtain ⟨r', x, y, z, hr', fx, fy, fz, g1, g2, g3⟩ := centre_close h hs hc
  rw [hr] at hr'
  cases hr'
  unfold isInside
  rw [hb]
  refine ⟨_, rfl, ?_⟩
  rw [Bool.and_eq_true, Bool.and_eq_true, bounds_test fx g1 hx, bounds_test fy g2 hy, bounds_test fz g3 hz, and_assoc]
  rfl

end Flooding
