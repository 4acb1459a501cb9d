import Verif.Lemmas.RelError
import Verif.Lemmas.MeshFloat
/-!
# With rounding, the centre of a cell is found in that cell
-/
open Flt Ieee GridSpec MeshSpec
set_option linter.unusedSectionVars false

namespace Flooding
variable {T : Type} [Flt T] [Ieee T] {g : Grid T}

section axis
variable {d : T} {h : ℝ}

/-- Half a cell, as a number. -/
structure Half (d : T) (h : ℝ) : Prop where
  fin : IsFin d (2 * h)
  lo : (2 : ℝ) ^ (-21 : ℤ) ≤ h
  hi : h ≤ 2 ^ (19 : ℤ)

theorem half_of (hd : Bd d (2 ^ (-20 : ℤ)) (2 ^ (20 : ℤ))) : ∃ h, Half d h := by
  obtain ⟨x, hx, x0, x1⟩ := hd
  refine ⟨x / 2, by rwa [mul_div_cancel₀ _ (by norm_num)], ?_, ?_⟩
  · norm_num at x0 ⊢; linarith
  · norm_num at x1 ⊢; linarith

theorem Half.pos (hh : Half d h) : 0 < h := lt_of_lt_of_le (by positivity) hh.lo

theorem Half.mid (hh : Half d h) {q : ℕ} (hq : q ≤ 2 ^ 20) : Mid (q * h) := by
  rcases Nat.eq_zero_or_pos q with rfl | h0
  · exact .inl (by simp)
  · right
    have q1 : (1 : ℝ) ≤ q := by exact_mod_cast h0
    have q2 : (q : ℝ) ≤ 2 ^ 20 := by exact_mod_cast hq
    have hp := hh.pos
    constructor
    · calc (2 : ℝ) ^ (-60 : ℤ) ≤ 2 ^ (-21 : ℤ) := by norm_num
        _ ≤ h := hh.lo
        _ ≤ q * h := le_mul_of_one_le_left hp.le q1
    · calc q * h ≤ 2 ^ 20 * 2 ^ (19 : ℤ) := mul_le_mul q2 hh.hi hp.le (by positivity)
        _ ≤ 2 ^ (60 : ℤ) := by norm_num

theorem Half.coord (hh : Half d h) {t : ℕ} (ht : t ≤ 2 ^ 11) : Rel (Flt.ofNat t *. d) ((2 * t : ℕ) * h) 1 := by
  have e : ((2 * t : ℕ) : ℝ) * h = t * (2 * h) := by push_cast; ring
  have := (IsFin.rel (fin_ofNat (T := T) (n := t) (by omega))).mul (IsFin.rel hh.fin) (Nat.cast_nonneg t)
    (by linarith [hh.pos]) (by rw [← e]; exact hh.mid (by omega)) (by omega)
  rwa [← e] at this

theorem Half.half (hh : Half d h) : Rel (d /. two) ((1 : ℕ) * h) 1 := by
  have e : ((1 : ℕ) : ℝ) * h = 2 * h / 2 := by push_cast; ring
  have := (IsFin.rel hh.fin).div (IsFin.rel (fin_two (T := T))) (by linarith [hh.pos]) (by norm_num)
    (by rw [← e]; exact hh.mid (by omega)) (by omega)
  rwa [← e] at this

theorem zero_rel (k : ℕ) : Rel (zero : T) ((0 : ℕ) * h) k := ⟨0, fin_zero, by simp, by simp⟩

theorem Half.shift (hh : Half d h) {t o : ℕ} (ht : t ≤ 2 ^ 11) {b : T} (ho : o ≤ 1) (hb : Rel b (o * h) 1) :
    Rel (Flt.ofNat t *. d +. b) ((2 * t + o : ℕ) * h) 2 := by
  have e : ((2 * t + o : ℕ) : ℝ) * h = (2 * t : ℕ) * h + o * h := by push_cast; ring
  rw [e]
  exact (hh.coord ht).add hb (by rw [← e]; exact hh.mid (by omega)) (by omega)

/-- The sum of the coordinates. -/
theorem Half.sum (hh : Half d h) {l : List (T × ℕ)} (hl : ∀ a ∈ l, Rel a.1 (a.2 * h) 2) (hn : l.length ≤ 14)
    (hq : (l.map (·.2)).sum ≤ 2 ^ 20) : Rel (Flt.sum (l.map (·.1))) ((l.map (·.2)).sum * h) (2 + l.length) := by
  have key : ∀ (l : List (T × ℕ)) (s : T) (q k : ℕ), (∀ a ∈ l, Rel a.1 (a.2 * h) 2) → Rel s (q * h) (2 + k) →
      k + l.length ≤ 14 → q + (l.map (·.2)).sum ≤ 2 ^ 20 →
      Rel ((l.map (·.1)).foldl Flt.add s) ((q + (l.map (·.2)).sum : ℕ) * h) (2 + (k + l.length)) := by
    intro l
    induction l with
    | nil => intro s q k _ hs _ _; simpa using hs
    | cons a l ih =>
      intro s q k hl hs hk hq
      simp only [List.length_cons, List.map_cons, List.sum_cons] at hk hq
      have ha := (hl a (by simp)).mono (k := 2 + k) (mul_nonneg (Nat.cast_nonneg _) hh.pos.le) (by omega)
      have e : ((q + a.2 : ℕ) : ℝ) * h = q * h + a.2 * h := by push_cast; ring
      have h1 := hs.add ha (by rw [← e]; exact hh.mid (by omega)) (by omega)
      rw [← e] at h1
      have := ih (s +. a.1) (q + a.2) (k + 1) (fun x hx => hl x (by simp [hx])) h1 (by omega) (by omega)
      simp only [List.map_cons, List.sum_cons, List.length_cons, List.foldl_cons]
      rw [show q + (a.2 + (l.map (·.2)).sum) = q + a.2 + (l.map (·.2)).sum by omega,
        show k + (l.length + 1) = k + 1 + l.length by omega]
      exact this
  have := key l zero 0 0 hl (zero_rel _) (by omega) (by omega)
  rw [Nat.zero_add, Nat.zero_add] at this
  exact this

/-- Up to rounding, the middle of the cell `i` of an axis is in that cell. -/
theorem Half.floor (hh : Half d h) {a : T} {i : ℕ} (h2 : Rel a ((2 * i + 1 : ℕ) * h) 17) (hi : i ≤ 2 ^ 10) :
    unwrap (Flt.toUsize (a /. d)) = .ok i := by
  have hp := hh.pos
  have e3 : ((2 * i + 1 : ℕ) : ℝ) * h / (2 * h) = i + 1 / 2 := by
    push_cast
    field_simp
  have i0 : (0 : ℝ) ≤ i := Nat.cast_nonneg i
  have i1 : (i : ℝ) ≤ 1024 := by
    have : i ≤ 1024 := hi
    exact_mod_cast this
  have h3 := h2.div (IsFin.rel hh.fin) (by positivity) (by linarith)
    (by rw [e3]; exact .inr ⟨by norm_num; linarith, by norm_num; linarith⟩) (by omega)
  rw [e3] at h3
  obtain ⟨y, hy, y0, y1⟩ := h3
  have r1 : rho ^ 18 ≤ 1 + 1 / 2 ^ 17 := by unfold rho; norm_num
  have r0 : 0 < rho ^ 18 := pow_pos rho_pos _
  change _ / rho ^ 18 ≤ y at y0
  change y ≤ _ * rho ^ 18 at y1
  have b0 : (i : ℝ) ≤ y := by
    refine le_trans ?_ y0
    rw [le_div_iff₀ r0]
    calc (i : ℝ) * rho ^ 18 ≤ i * (1 + 1 / 2 ^ 17) := mul_le_mul_of_nonneg_left r1 i0
      _ ≤ i + 1 / 2 := by norm_num; linarith
  have b1 : y < i + 1 := by
    refine lt_of_le_of_lt y1 ?_
    calc ((i : ℝ) + 1 / 2) * rho ^ 18 ≤ (i + 1 / 2) * (1 + 1 / 2 ^ 17) := mul_le_mul_of_nonneg_left r1 (by linarith)
      _ < i + 1 := by norm_num; linarith
  rw [toUsize_eq _ _ hy (i0.trans b0) (by norm_num; linarith)]
  have : ⌊y⌋₊ = i := (Nat.floor_eq_iff (i0.trans b0)).2 ⟨b0, b1⟩
  rw [this]
  rfl

/-- The mean of the coordinates, in cells. -/
theorem Half.locate (hh : Half d h) {l : List (T × ℕ)} (hl : ∀ a ∈ l, Rel a.1 (a.2 * h) 2) (hn : l.length = 14) {i : ℕ}
    (hi : i ≤ 2 ^ 10) (hq : (l.map (·.2)).sum = 28 * i + 14) :
    unwrap (Flt.toUsize (Flt.sum (l.map (·.1)) /. Flt.ofNat 14 /. d)) = .ok i := by
  have h1 := hh.sum hl hn.le (by omega)
  rw [hn, hq] at h1
  have hp := hh.pos
  have e2 : ((28 * i + 14 : ℕ) : ℝ) * h / (14 : ℕ) = (2 * i + 1 : ℕ) * h := by push_cast; ring
  have h2 := h1.div (IsFin.rel (fin_ofNat (T := T) (n := 14) (by norm_num))) (by positivity) (by norm_num)
    (by rw [e2]; exact hh.mid (by omega)) (by omega)
  rw [e2] at h2
  exact hh.floor h2 hi

end axis

theorem corner_le : ∀ o ∈ cornerOffset, o.1 ≤ 1 ∧ o.2.1 ≤ 1 ∧ o.2.2.1 ≤ 1 ∧ o.2.2.2 ≤ 3 := by decide

/-- With rounding, the computed centre of a cell is in that cell. -/
theorem meanPoint_located (hg : SizedGrid g) {c : Nat} (hc : c < cells g) :
    ∃ r, g.meanPoint c = .ok r ∧ g.whichCell r = .ok c := by
  rw [meanPoint_eq hc, sdiv_of (fin_ofNat (T := T) (n := 14) (by norm_num)) (by norm_num)]
  refine ⟨_, rfl, ?_⟩
  obtain ⟨hx, hhx⟩ := half_of hg.dx
  obtain ⟨hy, hhy⟩ := half_of hg.dy
  obtain ⟨hz, hhz⟩ := half_of hg.dz
  obtain ⟨t1, t2, t3⟩ := Grid.idx_inGrid hc
  obtain ⟨⟨_, n1⟩, ⟨_, n2⟩, ⟨_, n3⟩⟩ := hg.counts
  have hb := Grid.idx_tuple (g := g) c
  generalize ht : g.cellIdxToTuple c = t at *
  obtain ⟨i, j, k⟩ := t
  dsimp only at t1 t2 t3
  have zx := zero_rel (T := T) (h := hx) 1
  have zy := zero_rel (T := T) (h := hy) 1
  have zz := zero_rel (T := T) (h := hz) 1
  have ex := hhx.locate (i := i) (l := cornerOffset.map fun o => ((pointOf g (i, j, k) o).x,
      2 * (i + o.1) + if o.2.2.2 = 2 ∨ o.2.2.2 = 3 then 1 else 0)) (by
    intro a ha
    obtain ⟨o, ho, rfl⟩ := List.mem_map.1 ha
    obtain ⟨o1, o2, o3, o4⟩ := corner_le o ho
    obtain ⟨a, b, c, e⟩ := o
    dsimp only at o1 o2 o3 o4
    interval_cases e
    all_goals first
      | exact hhx.shift (t := i + a) (by omega) (o := 0) (by omega) zx
      | exact hhx.shift (t := i + a) (by omega) (o := 1) (by omega) hhx.half) rfl (by omega) (by
    simp [cornerOffset]; omega)
  have ey := hhy.locate (i := j) (l := cornerOffset.map fun o => ((pointOf g (i, j, k) o).y,
      2 * (j + o.2.1) + if o.2.2.2 = 1 ∨ o.2.2.2 = 3 then 1 else 0)) (by
    intro a ha
    obtain ⟨o, ho, rfl⟩ := List.mem_map.1 ha
    obtain ⟨o1, o2, o3, o4⟩ := corner_le o ho
    obtain ⟨a, b, c, e⟩ := o
    dsimp only at o1 o2 o3 o4
    interval_cases e
    all_goals first
      | exact hhy.shift (t := j + b) (by omega) (o := 0) (by omega) zy
      | exact hhy.shift (t := j + b) (by omega) (o := 1) (by omega) hhy.half) rfl (by omega) (by
    simp [cornerOffset]; omega)
  have ez := hhz.locate (i := k) (l := cornerOffset.map fun o => ((pointOf g (i, j, k) o).z,
      2 * (k + o.2.2.1) + if o.2.2.2 = 1 ∨ o.2.2.2 = 2 then 1 else 0)) (by
    intro a ha
    obtain ⟨o, ho, rfl⟩ := List.mem_map.1 ha
    obtain ⟨o1, o2, o3, o4⟩ := corner_le o ho
    obtain ⟨a, b, c, e⟩ := o
    dsimp only at o1 o2 o3 o4
    interval_cases e
    all_goals first
      | exact hhz.shift (t := k + c) (by omega) (o := 0) (by omega) zz
      | exact hhz.shift (t := k + c) (by omega) (o := 1) (by omega) hhz.half) rfl (by omega) (by
    simp [cornerOffset]; omega)
  rw [List.map_map] at ex ey ez
  have sx := vec_sum_x (pointsOf g c)
  unfold pointsOf at sx ⊢
  rw [ht] at sx ⊢
  simp only [List.map_map] at sx
  unfold Grid.whichCell
  dsimp only
  rw [sx.1, sx.2.1, sx.2.2]
  have hx' : (fun a : Vec3 T => a.x) ∘ pointOf g (i, j, k) = (fun a : T × ℕ => a.1) ∘ fun o => ((pointOf g (i, j, k) o).x,
      2 * (i + o.1) + if o.2.2.2 = 2 ∨ o.2.2.2 = 3 then 1 else 0) := rfl
  have hy' : (fun a : Vec3 T => a.y) ∘ pointOf g (i, j, k) = (fun a : T × ℕ => a.1) ∘ fun o => ((pointOf g (i, j, k) o).y,
      2 * (j + o.2.1) + if o.2.2.2 = 1 ∨ o.2.2.2 = 3 then 1 else 0) := rfl
  have hz' : (fun a : Vec3 T => a.z) ∘ pointOf g (i, j, k) = (fun a : T × ℕ => a.1) ∘ fun o => ((pointOf g (i, j, k) o).z,
      2 * (k + o.2.2.1) + if o.2.2.2 = 1 ∨ o.2.2.2 = 2 then 1 else 0) := rfl
  rw [hx', hy', hz', ex, ey, ez]
  exact congrArg Except.ok hb

/-- With rounding, the geometric centre of a cell is in that cell. -/
theorem cellCenter_located (hg : SizedGrid g) {c : Nat} (hc : c < cells g) :
    ∃ r, g.cellCenter c = .ok r ∧ g.whichCell r = .ok c := by
  have e : g.cellCenter c = .ok ((pointOf g (g.cellIdxToTuple c) (0, 0, 0, 0)).add
    ⟨g.dx /. two, g.dy /. two, g.dz /. two⟩) := rfl
  refine ⟨_, e, ?_⟩
  clear e
  obtain ⟨hx, hhx⟩ := half_of hg.dx
  obtain ⟨hy, hhy⟩ := half_of hg.dy
  obtain ⟨hz, hhz⟩ := half_of hg.dz
  obtain ⟨t1, t2, t3⟩ := Grid.idx_inGrid hc
  obtain ⟨⟨_, n1⟩, ⟨_, n2⟩, ⟨_, n3⟩⟩ := hg.counts
  have hb := Grid.idx_tuple (g := g) c
  generalize ht : g.cellIdxToTuple c = t at *
  obtain ⟨i, j, k⟩ := t
  dsimp only at t1 t2 t3 ⊢
  have ax : ∀ {d : T} {h : ℝ} {i : ℕ}, Half d h → i ≤ 2 ^ 10 →
      unwrap (Flt.toUsize (((Flt.ofNat i *. d +. zero) +. d /. two) /. d)) = .ok i := by
    intro d h i hh hi
    have h1 := hh.shift (t := i) (o := 0) (by omega) (by omega) (zero_rel (h := h) 1)
    have e : ((2 * i + 1 : ℕ) : ℝ) * h = (2 * i + 0 : ℕ) * h + (1 : ℕ) * h := by push_cast; ring
    have h2 := h1.add (hh.half.mono (mul_nonneg (Nat.cast_nonneg _) hh.pos.le) (by omega)) (by rw [← e]; exact hh.mid (by omega)) (by omega)
    rw [← e] at h2
    exact hh.floor (h2.mono (mul_nonneg (Nat.cast_nonneg _) hh.pos.le) (by omega)) hi
  unfold Grid.whichCell
  have ex := ax hhx (i := i) (by omega)
  have ey := ax hhy (i := j) (by omega)
  have ez := ax hhz (i := k) (by omega)
  show (do
    let ix ← unwrap (Flt.toUsize (((Flt.ofNat i *. g.dx +. zero) +. g.dx /. two) /. g.dx))
    let iy ← unwrap (Flt.toUsize (((Flt.ofNat j *. g.dy +. zero) +. g.dy /. two) /. g.dy))
    let iz ← unwrap (Flt.toUsize (((Flt.ofNat k *. g.dz +. zero) +. g.dz /. two) /. g.dz))
    return g.cellTupleToIdx (ix, iy, iz)) = _
  rw [ex, ey, ez]
  exact congrArg Except.ok hb

end Flooding
