import Verif.Lemmas.EndingStep
/-!
# Tracking ends: the crossings of facets between two collisions
-/
open Flt FltReal GridSpec MeshSpec Flooding Rng
attribute [local irreducible] Rng.lcg Rng.sample Rng.spawn

/-! ### One axis -/

/-- Cells ahead along an axis, the present one included. -/
noncomputable def cellsAhead (n t : Nat) (d : ℝ) : ℝ := if 0 < d then (n : ℝ) - t else if d < 0 then (t : ℝ) + 1 else 0

/-- Length ahead along an axis. -/
noncomputable def lengthAhead (l x d : ℝ) : ℝ := if 0 < d then l - x else x

/-- The part of the axis already behind. -/
noncomputable def behind (l x d : ℝ) : ℝ := 1 - Max.max 0 (Min.min (lengthAhead l x d) l) / l

/-- Bounds the crossings to come along an axis, for a particle that can travel the length `B`. -/
noncomputable def axisLeft (n t : Nat) (l x d B : ℝ) : ℝ := n * (B / l + behind l x d) + cellsAhead n t d

theorem cellsAhead_range {n t : Nat} (h : t < n) (d : ℝ) : 0 ≤ cellsAhead n t d ∧ cellsAhead n t d ≤ n := by
  have : (t : ℝ) + 1 ≤ n := by exact_mod_cast h
  have : (0 : ℝ) ≤ t := Nat.cast_nonneg t
  unfold cellsAhead
  split
  · constructor <;> linarith
  · split <;> constructor <;> linarith

theorem behind_range {l : ℝ} (hl : 0 < l) (x d : ℝ) : 0 ≤ behind l x d ∧ behind l x d ≤ 1 := by
  unfold behind
  constructor
  · rw [sub_nonneg, div_le_one hl]
    exact max_le hl.le (min_le_right _ _)
  · rw [sub_le_self_iff]
    exact div_nonneg (le_max_left _ _) hl.le

theorem axisLeft_nonneg {n t : Nat} (h : t < n) {l : ℝ} (hl : 0 < l) (x d : ℝ) {B : ℝ} (hB : 0 ≤ B) :
    0 ≤ axisLeft n t l x d B := by
  have h1 := (cellsAhead_range h d).1
  have h2 := (behind_range hl x d).1
  unfold axisLeft
  positivity

theorem axisLeft_le {n t : Nat} (h : t < n) {l : ℝ} (hl : 0 < l) (x d B : ℝ) :
    axisLeft n t l x d B ≤ n * (B / l + 2) := by
  have h1 := (cellsAhead_range h d).2
  have h2 := (behind_range hl x d).2
  unfold axisLeft
  have : (n : ℝ) * (B / l + behind l x d) ≤ n * (B / l + 1) :=
    mul_le_mul_of_nonneg_left (by linarith) (Nat.cast_nonneg n)
  linarith

theorem axisLeft_ge {n t : Nat} (h : t < n) {l : ℝ} (hl : 0 < l) (x d B : ℝ) :
    n * (B / l) ≤ axisLeft n t l x d B := by
  have h1 := (cellsAhead_range h d).1
  have h2 := (behind_range hl x d).1
  unfold axisLeft
  have : (n : ℝ) * (B / l) ≤ n * (B / l + behind l x d) :=
    mul_le_mul_of_nonneg_left (by linarith) (Nat.cast_nonneg n)
  linarith

/-- Moving forward does not increase the bound. -/
theorem behind_move {l : ℝ} (hl : 0 < l) (x : ℝ) {d L B B' : ℝ} (hd : |d| ≤ 1) (hL : 0 ≤ L) (hB : B' ≤ B - L) :
    B' / l + behind l (x + d * L) d ≤ B / l + behind l x d := by
  have h1 : lengthAhead l x d - L ≤ lengthAhead l (x + d * L) d := by
    obtain ⟨a, b⟩ := abs_le.1 hd
    unfold lengthAhead
    split
    · nlinarith
    · nlinarith
  have h2 : Max.max 0 (Min.min (lengthAhead l x d) l) - L ≤ Max.max 0 (Min.min (lengthAhead l (x + d * L) d) l) := by
    rcases le_total (lengthAhead l x d) 0 with h | h
    · rw [max_eq_left ((min_le_left _ _).trans h)]
      exact le_trans (by linarith) (le_max_left _ _)
    · rw [max_eq_right (le_min h hl.le)]
      refine le_trans ?_ (le_max_right _ _)
      refine le_min ?_ ?_
      · have := min_le_left (lengthAhead l x d) l; linarith
      · have := min_le_right (lengthAhead l x d) l; linarith
  unfold behind
  rw [← sub_nonneg]
  have : B / l + (1 - Max.max 0 (Min.min (lengthAhead l x d) l) / l) -
      (B' / l + (1 - Max.max 0 (Min.min (lengthAhead l (x + d * L) d) l) / l)) =
      (B - B' + Max.max 0 (Min.min (lengthAhead l (x + d * L) d) l) - Max.max 0 (Min.min (lengthAhead l x d) l)) / l := by
    field_simp
    ring
  rw [this]
  exact div_nonneg (by linarith) hl.le

theorem axisLeft_move {n t : Nat} {l : ℝ} (hl : 0 < l) (x : ℝ) {d L B B' : ℝ} (hd : |d| ≤ 1) (hL : 0 ≤ L)
    (hB : B' ≤ B - L) : axisLeft n t l (x + d * L) d B' ≤ axisLeft n t l x d B := by
  unfold axisLeft
  have := mul_le_mul_of_nonneg_left (behind_move hl x hd hL hB) (Nat.cast_nonneg (α := ℝ) n)
  linarith

/-- One cell further. -/
theorem axisLeft_up (n t : Nat) (l x : ℝ) {d : ℝ} (hd : 0 < d) (B : ℝ) :
    axisLeft n (t + 1) l x d B = axisLeft n t l x d B - 1 := by
  unfold axisLeft cellsAhead
  rw [if_pos hd, if_pos hd]
  push_cast
  ring

theorem axisLeft_down (n : Nat) {t : Nat} (ht : t ≠ 0) (l x : ℝ) {d : ℝ} (hd : d < 0) (B : ℝ) :
    axisLeft n (t - 1) l x d B = axisLeft n t l x d B - 1 := by
  obtain ⟨s, rfl⟩ := Nat.exists_eq_succ_of_ne_zero ht
  unfold axisLeft cellsAhead
  rw [if_neg (by linarith), if_pos hd, if_neg (by linarith), if_pos hd]
  simp only [Nat.succ_eq_add_one, Nat.add_sub_cancel]
  push_cast
  ring

/-- Reflection at the far end. -/
theorem axisLeft_top {n t : Nat} (ht : t + 1 = n) {l x d : ℝ} (hl : 0 < l) (hx : l ≤ x) (hd : 0 < d) (B : ℝ) :
    axisLeft n t l x (-d) B = axisLeft n t l x d B - 1 := by
  unfold axisLeft behind lengthAhead cellsAhead
  rw [if_pos hd, if_pos hd, if_neg (by linarith), if_neg (by linarith), if_pos (by linarith)]
  rw [min_eq_right hx, max_eq_right hl.le, min_eq_left (by linarith), max_eq_left (by linarith), div_self hl.ne',
    zero_div]
  subst ht
  push_cast
  ring

/-- Reflection at the near end. -/
theorem axisLeft_bottom {n : Nat} {l x d : ℝ} (hl : 0 < l) (hx : x ≤ 0) (hd : d < 0) (B : ℝ) :
    axisLeft n 0 l x (-d) B = axisLeft n 0 l x d B - 1 := by
  unfold axisLeft behind lengthAhead cellsAhead
  rw [if_neg (show ¬ 0 < d by linarith), if_neg (show ¬ 0 < d by linarith), if_pos hd,
    if_pos (show 0 < -d by linarith), if_pos (show 0 < -d by linarith)]
  rw [min_eq_right (show l ≤ l - x by linarith), max_eq_right hl.le, min_eq_left (show x ≤ l by linarith), max_eq_left hx,
    div_self hl.ne', zero_div]
  push_cast
  ring

/-! ### The three axes -/

/-- Bounds the crossings to come before the next collision. -/
noncomputable def crossingsLeft (g : Grid ℝ) (t : Nat × Nat × Nat) (r d : Vec3 ℝ) (B : ℝ) : ℝ :=
  axisLeft g.nx t.1 g.lx r.x d.x B + axisLeft g.ny t.2.1 g.ly r.y d.y B + axisLeft g.nz t.2.2 g.lz r.z d.z B

theorem abs_le_one_of_unit {d : Vec3 ℝ} (h : IsUnit3 d) : |d.x| ≤ 1 ∧ |d.y| ≤ 1 ∧ |d.z| ≤ 1 := by
  unfold IsUnit3 at h
  refine ⟨?_, ?_, ?_⟩ <;> rw [← sq_le_one_iff_abs_le_one] <;> nlinarith [sq_nonneg d.x, sq_nonneg d.y, sq_nonneg d.z]

theorem crossingsLeft_nonneg {g : Grid ℝ} (hg : BoxGrid g) {t : Nat × Nat × Nat} (ht : InGrid g t) (r d : Vec3 ℝ) {B : ℝ}
    (hB : 0 ≤ B) : 0 ≤ crossingsLeft g t r d B :=
  add_nonneg (add_nonneg (axisLeft_nonneg ht.1 hg.lx _ _ hB) (axisLeft_nonneg ht.2.1 hg.ly _ _ hB))
    (axisLeft_nonneg ht.2.2 hg.lz _ _ hB)

theorem crossingsLeft_le {g : Grid ℝ} (hg : BoxGrid g) {t : Nat × Nat × Nat} (ht : InGrid g t) (r d : Vec3 ℝ) (B : ℝ) :
    crossingsLeft g t r d B ≤ g.nx * (B / g.lx + 2) + g.ny * (B / g.ly + 2) + g.nz * (B / g.lz + 2) :=
  add_le_add (add_le_add (axisLeft_le ht.1 hg.lx _ _ _) (axisLeft_le ht.2.1 hg.ly _ _ _)) (axisLeft_le ht.2.2 hg.lz _ _ _)

/-- At a collision. -/
theorem crossingsLeft_collision {g : Grid ℝ} (hg : BoxGrid g) {t : Nat × Nat × Nat} (ht : InGrid g t) (r d r' d' : Vec3 ℝ)
    {B B' : ℝ} (hB : B' ≤ B) :
    crossingsLeft g t r' d' B' ≤ crossingsLeft g t r d B + 2 * (g.nx + g.ny + g.nz) := by
  have h1 := crossingsLeft_le hg ht r' d' B'
  have h2 : g.nx * (B / g.lx) + g.ny * (B / g.ly) + g.nz * (B / g.lz) ≤ crossingsLeft g t r d B :=
    add_le_add (add_le_add (axisLeft_ge ht.1 hg.lx _ _ _) (axisLeft_ge ht.2.1 hg.ly _ _ _)) (axisLeft_ge ht.2.2 hg.lz _ _ _)
  have k : ∀ (n : Nat) (l : ℝ), 0 < l → (n : ℝ) * (B' / l + 2) ≤ n * (B / l) + 2 * n := by
    intro n l hl
    have : B' / l ≤ B / l := div_le_div_of_nonneg_right hB hl.le
    nlinarith [Nat.cast_nonneg (α := ℝ) n]
  have k1 := k g.nx g.lx hg.lx
  have k2 := k g.ny g.ly hg.ly
  have k3 := k g.nz g.lz hg.lz
  linarith

theorem crossingsLeft_move {g : Grid ℝ} (hg : BoxGrid g) (t : Nat × Nat × Nat) (r : Vec3 ℝ) {d : Vec3 ℝ} (hd : IsUnit3 d)
    {L B B' : ℝ} (hL : 0 ≤ L) (hB : B' ≤ B - L) :
    crossingsLeft g t (along r d L) d B' ≤ crossingsLeft g t r d B := by
  obtain ⟨h1, h2, h3⟩ := abs_le_one_of_unit hd
  unfold crossingsLeft along
  dsimp only
  rw [mul_comm L, mul_comm L, mul_comm L]
  exact add_le_add (add_le_add (axisLeft_move hg.lx r.x h1 hL hB) (axisLeft_move hg.ly r.y h2 hL hB))
    (axisLeft_move hg.lz r.z h3 hL hB)

/-- Transit through an inner face. -/
theorem crossingsLeft_transit {g : Grid ℝ} {t : Nat × Nat × Nat} (r : Vec3 ℝ) {d : Vec3 ℝ} {f : Face}
    (hf : 0 < outward d f) (hb : ¬ OnBorder g t f) (B : ℝ) :
    crossingsLeft g (across t f) r d B = crossingsLeft g t r d B - 1 := by
  unfold crossingsLeft
  cases f <;> simp only [outward, across, OnBorder] at hf hb ⊢
  · rw [axisLeft_up _ _ _ _ hf]; ring
  · rw [axisLeft_down _ hb _ _ (by linarith)]; ring
  · rw [axisLeft_up _ _ _ _ hf]; ring
  · rw [axisLeft_down _ hb _ _ (by linarith)]; ring
  · rw [axisLeft_up _ _ _ _ hf]; ring
  · rw [axisLeft_down _ hb _ _ (by linarith)]; ring

/-- Reflection on a face of the border. -/
theorem crossingsLeft_reflect {g : Grid ℝ} (hg : BoxGrid g) {t : Nat × Nat × Nat} {r : Vec3 ℝ} {d : Vec3 ℝ} {f : Face}
    (hf : 0 < outward d f) (hb : OnBorder g t f) (hr : 0 ≤ beyond g t r f) (B : ℝ) :
    crossingsLeft g t r (reflectDirection d (facePlane g t f)) B = crossingsLeft g t r d B - 1 := by
  have ex : (g.nx : ℝ) * g.dx = g.lx := by
    rw [hg.dx, mul_div_cancel₀]; have := hg.nx; positivity
  have ey : (g.ny : ℝ) * g.dy = g.ly := by
    rw [hg.dy, mul_div_cancel₀]; have := hg.ny; positivity
  have ez : (g.nz : ℝ) * g.dz = g.lz := by
    rw [hg.dz, mul_div_cancel₀]; have := hg.nz; positivity
  have hcast : ∀ {a n : Nat}, a + 1 = n → (a : ℝ) + 1 = n := fun h => by exact_mod_cast h
  have hre : reflectDirection d (facePlane g t f) = match f with
      | .xp | .xm => ⟨-d.x, d.y, d.z⟩
      | .yp | .ym => ⟨d.x, -d.y, d.z⟩
      | .zp | .zm => ⟨d.x, d.y, -d.z⟩ := by
    cases f <;> simp only [outward] at hf <;>
      simp only [reflectDirection, facePlane, Vec3.dot, Vec3.sub, Vec3.smul, two_eq, mul_eq, add_eq, sub_eq, lt_eq,
        zero_eq, decide_eq_true_eq] <;>
      rw [if_pos (by linarith)] <;> congr 1 <;> ring
  rw [hre]
  unfold crossingsLeft
  cases f <;> simp only [outward, beyond, OnBorder] at hf hb hr ⊢
  · rw [hcast hb, ex] at hr
    rw [axisLeft_top hb hg.lx (by linarith) hf]; ring
  · rw [hb] at hr ⊢
    rw [axisLeft_bottom hg.lx (by push_cast at hr; linarith) (by linarith)]; ring
  · rw [hcast hb, ey] at hr
    rw [axisLeft_top hb hg.ly (by linarith) hf]; ring
  · rw [hb] at hr ⊢
    rw [axisLeft_bottom hg.ly (by push_cast at hr; linarith) (by linarith)]; ring
  · rw [hcast hb, ez] at hr
    rw [axisLeft_top hb hg.lz (by linarith) hf]; ring
  · rw [hb] at hr ⊢
    rw [axisLeft_bottom hg.lz (by push_cast at hr; linarith) (by linarith)]; ring
