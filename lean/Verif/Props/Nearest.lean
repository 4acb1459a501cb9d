import Verif.Lemmas.AssignNew
import Verif.Spec.Nearest
/-!
# C44: the nearest domain centre is found

`GridAssignmentObject::new` and `nearest_center`, over the reals.
-/
open FltReal Flt

namespace Assigner

theorem scale_cube {n : Nat} {lx ly lz : ℝ} (hx : 1 ≤ lx) (hy : 1 ≤ ly) (hz : 1 ≤ lz) :
    0 ≤ scale n lx ly lz ∧ scale n lx ly lz ^ 3 = n / (5 * lx * ly * lz) := by
  have h0 : (0 : ℝ) ≤ n / (5 * lx * ly * lz) := by positivity
  unfold scale
  have : (Flt.cbrt ((n : ℝ) / (5 * lx * ly * lz)) : ℝ) = ((n : ℝ) / (5 * lx * ly * lz)) ^ (1 / 3 : ℝ) := by
    show (if _ then _ else _) = _
    rw [if_pos h0]
  rw [this]
  refine ⟨Real.rpow_nonneg h0 _, ?_⟩
  rw [← Real.rpow_natCast, ← Real.rpow_mul h0]
  norm_num

theorem count_le {s l : ℝ} (hs : 0 ≤ s) (hl : 0 ≤ l) : (count s l : ℝ) ≤ Max.max 1 (s * l) := by
  unfold count
  rw [Nat.cast_max, Nat.cast_one]
  exact max_le_max le_rfl (Nat.floor_le (mul_nonneg hs hl))

end Assigner

/-- **C44, any query.**  Whenever the search structure could be built, a query whose cell indices
fit in a `usize`, with a centre closer than the initial bound of the search, ends without panic,
returns a centre at minimal distance, and leaves the structure as it was. -/
theorem C44_any_query {centers : List (Vec3 ℝ)} {g : Assigner ℝ}
    (hg : Assigner.new centers = .ok g) {r : Vec3 ℝ}
    (hx : (r.x - g.corner.x) / g.dx < 2 ^ 64) (hy : (r.y - g.corner.y) / g.dy < 2 ^ 64)
    (hz : (r.z - g.corner.z) / g.dz < 2 ^ 64)
    (hnear : ∃ c ∈ centers, sqDist r c < 10 ^ 300) :
    ∃ k, g.nearestCenter r = .ok (k, g) ∧ IsNearest centers r k := by
  obtain ⟨hwf, hc⟩ := Assigner.new_wf hg
  subst hc
  obtain ⟨k, c, h1, h2, h3⟩ := Assigner.nearestCenter_spec hwf ⟨hx, hy, hz⟩ hnear
  exact ⟨k, h1, c, h2, h3⟩

/-- The two points are in a common cube of side `L`. -/
def Within (L : ℝ) (p q : Vec3 ℝ) : Prop := |p.x - q.x| ≤ L ∧ |p.y - q.y| ≤ L ∧ |p.z - q.z| ≤ L

/-- **C44.**  For every non-empty list of `n` centres within a cube of side `L`, with
`n * L ^ 3 < 5 * 2 ^ 64`, the structure is built, and every query of that cube returns a centre at
minimal distance and leaves the structure ready for the next query. -/
theorem C44_nearest {centers : List (Vec3 ℝ)} (hne : centers ≠ []) {L : ℝ} (hL : 1 ≤ L)
    (hbox : ∀ c ∈ centers, ∀ c' ∈ centers, Within L c c')
    (hsize : (centers.length : ℝ) * L ^ 3 < 5 * 2 ^ 64) :
    ∃ g, Assigner.new centers = .ok g ∧
      ∀ r : Vec3 ℝ, (∀ c ∈ centers, Within L r c) →
        ∃ k, g.nearestCenter r = .ok (k, g) ∧ IsNearest centers r k := by
  obtain ⟨c0, cs, rfl⟩ : ∃ c0 cs, centers = c0 :: cs := List.exists_cons_of_ne_nil hne
  obtain ⟨lox, loy, loz⟩ := Assigner.lower_attained (c0 :: cs) c0
  obtain ⟨hix, hiy, hiz⟩ := Assigner.upper_attained (c0 :: cs) c0
  have hmem : ∀ c ∈ c0 :: c0 :: cs, c ∈ c0 :: cs := fun c hc => by
    rcases List.mem_cons.1 hc with rfl | hc
    · simp
    · exact hc
  set lo := Assigner.lower c0 (c0 :: cs) with hlo
  set hi := Assigner.upper c0 (c0 :: cs) with hhi
  set lx := Max.max 1 (hi.x - lo.x) with hlx
  set ly := Max.max 1 (hi.y - lo.y) with hly
  set lz := Max.max 1 (hi.z - lo.z) with hlz
  have p1 : (1 : ℝ) ≤ lx := le_max_left _ _
  have p2 : (1 : ℝ) ≤ ly := le_max_left _ _
  have p3 : (1 : ℝ) ≤ lz := le_max_left _ _
  have q1 : lx ≤ L := by
    obtain ⟨a, ha, ha'⟩ := hix
    obtain ⟨b, hb, hb'⟩ := lox
    refine max_le hL ?_
    rw [← ha', ← hb']
    exact (le_abs_self _).trans (hbox a (hmem a ha) b (hmem b hb)).1
  have q2 : ly ≤ L := by
    obtain ⟨a, ha, ha'⟩ := hiy
    obtain ⟨b, hb, hb'⟩ := loy
    refine max_le hL ?_
    rw [← ha', ← hb']
    exact (le_abs_self _).trans (hbox a (hmem a ha) b (hmem b hb)).2.1
  have q3 : lz ≤ L := by
    obtain ⟨a, ha, ha'⟩ := hiz
    obtain ⟨b, hb, hb'⟩ := loz
    refine max_le hL ?_
    rw [← ha', ← hb']
    exact (le_abs_self _).trans (hbox a (hmem a ha) b (hmem b hb)).2.2
  set n := (c0 :: cs).length with hn
  set s := Assigner.scale n lx ly lz with hs
  obtain ⟨s0, s3⟩ := Assigner.scale_cube (n := n) p1 p2 p3
  rw [← hs] at s0 s3
  have hn1 : (1 : ℝ) ≤ n := by
    have : 1 ≤ n := by rw [hn]; simp
    exact_mod_cast this
  -- the number of cells along an axis
  set M := Max.max 1 (s * L) with hM
  have hM1 : 1 ≤ M := le_max_left _ _
  have hM3 : M ^ 3 < 2 ^ 64 := by
    rcases max_choice 1 (s * L) with h | h
    · rw [hM, h]; norm_num
    · rw [hM, h, mul_pow, s3]
      have h1 : (1 : ℝ) ≤ lx * ly * lz := by
        have := mul_le_mul p1 p2 (by norm_num) (by linarith)
        have := mul_le_mul this p3 (by norm_num) (by positivity)
        linarith
      rw [div_mul_eq_mul_div, div_lt_iff₀ (by positivity)]
      nlinarith [hsize]
  have hc : ∀ l, 1 ≤ l → l ≤ L → (Assigner.count s l : ℝ) ≤ M := fun l h1 h2 =>
    (Assigner.count_le s0 (by linarith)).trans
      (max_le_max le_rfl (mul_le_mul_of_nonneg_left h2 s0))
  have hcells : ((Assigner.count s lx * (Assigner.count s ly * Assigner.count s lz) : Nat) : ℝ)
      < 2 ^ 64 := by
    push_cast
    refine lt_of_le_of_lt ?_ hM3
    have := mul_le_mul (hc lx p1 q1) (mul_le_mul (hc ly p2 q2) (hc lz p3 q3) (by positivity)
      (by linarith)) (by positivity) (by linarith)
    calc _ ≤ M * (M * M) := this
      _ = M ^ 3 := by ring
  have hnew := Assigner.new_eq c0 cs
  simp only [← hlo, ← hhi, ← hlx, ← hly, ← hlz, ← hn, ← hs] at hnew
  rw [if_pos hcells] at hnew
  -- registration succeeds: the structure exists
  have hL3 : L ^ 3 < 5 * 2 ^ 64 := by
    have : L ^ 3 ≤ n * L ^ 3 := le_mul_of_one_le_left (by positivity) hn1
    linarith
  have hLsmall : L < 2 ^ 23 := by
    by_contra hcon
    push Not at hcon
    have : ((2 : ℝ) ^ 23) ^ 3 ≤ L ^ 3 := pow_le_pow_left₀ (by norm_num) hcon 3
    norm_num at this hL3
    linarith
  have hMsmall : M < 2 ^ 22 := by
    by_contra hcon
    push Not at hcon
    have : ((2 : ℝ) ^ 22) ^ 3 ≤ M ^ 3 := pow_le_pow_left₀ (by norm_num) hcon 3
    norm_num at this hM3
    linarith
  obtain ⟨g, hg, hdims⟩ := Assigner.blank_register (c0 := c0) (cs := cs) (lo := lo) hs p1 p2 p3
    (by
      intro c hc
      obtain ⟨u1, u2, u3⟩ := (Assigner.le_upper (c0 :: cs) c0).2 c hc
      rw [← hhi] at u1 u2 u3
      have v1 : hi.x - lo.x ≤ lx := le_max_right _ _
      have v2 : hi.y - lo.y ≤ ly := le_max_right _ _
      have v3 : hi.z - lo.z ≤ lz := le_max_right _ _
      exact ⟨by linarith, by linarith, by linarith⟩) hcells
  refine ⟨g, hnew.trans hg, ?_⟩
  intro r hr
  obtain ⟨e1, e2, e3, e4⟩ := hdims
  have rep : ∀ {x z l : ℝ}, 1 ≤ l → l ≤ L → x - z ≤ L →
      (x - z) / (l / Assigner.count s l) < 2 ^ 64 := by
    intro x z l h1 h2 h3
    have hcp : (0 : ℝ) < Assigner.count s l := by exact_mod_cast Assigner.count_pos s l
    have h4 : (x - z) / (l / Assigner.count s l) ≤ L * M := by
      rw [div_le_iff₀ (by positivity)]
      have h5 : (Assigner.count s l : ℝ) ≤ M := hc l h1 h2
      have h6 : (1 : ℝ) ≤ M * (l / Assigner.count s l) := by
        rw [mul_div_assoc', le_div_iff₀ hcp]
        nlinarith
      nlinarith
    refine lt_of_le_of_lt h4 ?_
    have : L * M ≤ 2 ^ 23 * 2 ^ 22 := mul_le_mul hLsmall.le hMsmall.le (by linarith) (by norm_num)
    refine lt_of_le_of_lt this (by norm_num)
  refine C44_any_query (hnew.trans hg) ?_ ?_ ?_ ⟨c0, by simp, ?_⟩
  · rw [e1, e2]
    obtain ⟨b, hb, hb'⟩ := lox
    exact rep p1 q1 (by rw [← hb']; exact (le_abs_self _).trans (hr b (hmem b hb)).1)
  · rw [e1, e3]
    obtain ⟨b, hb, hb'⟩ := loy
    exact rep p2 q2 (by rw [← hb']; exact (le_abs_self _).trans (hr b (hmem b hb)).2.1)
  · rw [e1, e4]
    obtain ⟨b, hb, hb'⟩ := loz
    exact rep p3 q3 (by rw [← hb']; exact (le_abs_self _).trans (hr b (hmem b hb)).2.2)
  · obtain ⟨a1, a2, a3⟩ := hr c0 (by simp)
    have sq : ∀ {x : ℝ}, |x| ≤ L → x ^ 2 ≤ (2 ^ 23) ^ 2 := by
      intro x hx
      rw [← sq_abs]
      exact pow_le_pow_left₀ (abs_nonneg _) (hx.trans hLsmall.le) 2
    have : sqDist r c0 ≤ 3 * (2 ^ 23) ^ 2 := by
      unfold sqDist
      have := sq a1
      have := sq a2
      have := sq a3
      linarith
    refine lt_of_le_of_lt this ?_
    calc (3 : ℝ) * (2 ^ 23) ^ 2 < 10 ^ 20 := by norm_num
      _ ≤ 10 ^ 300 := pow_le_pow_right₀ (by norm_num) (by norm_num)

/-- **C44, no centre.**  Without any centre the construction panics. -/
theorem C44_no_center : Assigner.new ([] : List (Vec3 ℝ)) = .error .indexOutOfBounds := rfl

/-- The hypotheses of `C44_nearest` are met by three centres and a query between them. -/
example : ∃ g : Assigner ℝ, Assigner.new [⟨0, 0, 0⟩, ⟨5, 0, 0⟩, ⟨1, 3, 2⟩] = .ok g ∧
    ∃ k, g.nearestCenter ⟨2, 1, 1⟩ = .ok (k, g) ∧
      IsNearest [⟨0, 0, 0⟩, ⟨5, 0, 0⟩, ⟨1, 3, 2⟩] ⟨2, 1, 1⟩ k := by
  obtain ⟨g, h1, h2⟩ := C44_nearest (centers := [⟨0, 0, 0⟩, ⟨5, 0, 0⟩, ⟨1, 3, 2⟩]) (by simp)
    (L := 10) (by norm_num)
    (by simp [Within, abs_le]; norm_num) (by norm_num)
  exact ⟨g, h1, h2 _ (by simp [Within, abs_le]; norm_num)⟩

/-! ### The tie-break is not applied -/

namespace Tie

/-- Two centres five apart. -/
noncomputable def centers : List (Vec3 ℝ) := [⟨0, 0, 0⟩, ⟨5, 0, 0⟩]
/-- The point half-way. -/
noncomputable def query : Vec3 ℝ := ⟨5 / 2, 0, 0⟩

/-- The structure built for the two centres: two cells along x. -/
noncomputable def built : Assigner ℝ :=
  { nx := 2, ny := 1, nz := 1, dx := 5 / 2, dy := 1, dz := 1, corner := ⟨0, 0, 0⟩
    centers := centers
    grid := [⟨false, [0]⟩, ⟨false, [1]⟩], floodQueue := [], wetList := [] }

theorem scale_bounds : 2 ≤ Assigner.scale 2 5 1 1 * 5 ∧ Assigner.scale 2 5 1 1 * 5 < 3 ∧
    Assigner.scale 2 5 1 1 < 1 := by
  obtain ⟨h0, h3⟩ := Assigner.scale_cube (n := 2) (lx := 5) (ly := 1) (lz := 1) (by norm_num)
    (by norm_num) (by norm_num)
  set s := Assigner.scale 2 5 1 1
  norm_num at h3
  refine ⟨?_, ?_, ?_⟩
  · by_contra hcon
    push Not at hcon
    have : s ^ 3 < (2 / 5) ^ 3 := pow_lt_pow_left₀ (by linarith) h0 (by norm_num)
    norm_num at this
    linarith
  · by_contra hcon
    push Not at hcon
    have : ((3 : ℝ) / 5) ^ 3 ≤ s ^ 3 := pow_le_pow_left₀ (by norm_num) (by linarith) 3
    norm_num at this
    linarith
  · by_contra hcon
    push Not at hcon
    have : (1 : ℝ) ^ 3 ≤ s ^ 3 := pow_le_pow_left₀ (by norm_num) (by linarith) 3
    norm_num at this
    linarith

theorem count_x : Assigner.count (Assigner.scale 2 5 1 1) 5 = 2 := by
  obtain ⟨h1, h2, _⟩ := scale_bounds
  have : ⌊Assigner.scale 2 5 1 1 * 5⌋₊ = 2 := by
    rw [Nat.floor_eq_iff (by linarith)]
    norm_num
    exact ⟨h1, by linarith⟩
  unfold Assigner.count
  rw [this]; rfl

theorem count_y : Assigner.count (Assigner.scale 2 5 1 1) 1 = 1 := by
  obtain ⟨h1, h2, h3⟩ := scale_bounds
  have : ⌊Assigner.scale 2 5 1 1 * 1⌋₊ = 0 := by
    rw [mul_one, Nat.floor_eq_zero]; exact h3
  unfold Assigner.count
  rw [this]; rfl

theorem new_eq : Assigner.new centers = .ok built := by
  have h := Assigner.new_eq ⟨0, 0, 0⟩ [⟨5, 0, 0⟩]
  have hlo : Assigner.lower ⟨0, 0, 0⟩ [⟨0, 0, 0⟩, ⟨5, 0, 0⟩] = ⟨0, 0, 0⟩ := by
    simp [Assigner.lower]
  have hhi : Assigner.upper ⟨0, 0, 0⟩ [⟨0, 0, 0⟩, ⟨5, 0, 0⟩] = ⟨5, 0, 0⟩ := by
    simp [Assigner.upper]
  simp only [hlo, hhi] at h
  have e1 : Max.max (1 : ℝ) (5 - 0) = 5 := by norm_num
  have e2 : Max.max (1 : ℝ) (0 - 0) = 1 := by norm_num
  simp only [e1, e2, List.length_cons, List.length_nil, Nat.zero_add, Nat.reduceAdd, count_x,
    count_y] at h
  rw [if_pos (by norm_num)] at h
  unfold centers
  rw [h]
  have hb : Assigner.blank [(⟨0, 0, 0⟩ : Vec3 ℝ), ⟨5, 0, 0⟩] ⟨0, 0, 0⟩ 5 1 1 =
      { nx := 2, ny := 1, nz := 1, dx := 5 / 2, dy := 1, dz := 1, corner := ⟨0, 0, 0⟩
        centers := centers
        grid := [⟨false, []⟩, ⟨false, []⟩], floodQueue := [], wetList := [] } := by
    unfold Assigner.blank
    simp only [List.length_cons, List.length_nil, Nat.zero_add, Nat.reduceAdd, count_x, count_y]
    simp [centers, List.replicate]
  rw [hb]
  have t0 : Assigner.axis 0 0 (5 / 2) 2 = 0 := by simp [Assigner.axis]
  have t1 : Assigner.axis 5 0 (5 / 2) 2 = 1 := by
    have : (5 - 0 : ℝ) / (5 / 2) = (2 : Nat) := by norm_num
    unfold Assigner.axis
    rw [this, Nat.floor_natCast]; rfl
  have t2 : Assigner.axis 0 0 1 1 = 0 := by simp [Assigner.axis]
  have w : ∀ (grid : List GridCell) (x : ℝ) (i : Nat), (x - 0) / (5 / 2) < 2 ^ 64 →
      Assigner.axis x 0 (5 / 2) 2 = i →
      Assigner.whichCell (T := ℝ) (.mk 2 1 1 (5 / 2) 1 1 ⟨0, 0, 0⟩ centers grid [] []) ⟨x, 0, 0⟩
        = .ok i := by
    intro grid x i hx hi
    unfold Assigner.whichCell Assigner.whichCellTuple
    simp only [Assigner.axisIdx_eq hx, hi,
      Assigner.axisIdx_eq (show ((0 : ℝ) - 0) / 1 < 2 ^ 64 by norm_num), t2, bind, Except.bind,
      pure, Except.pure, Assigner.tupleToIndex]
    simp
  simp only [List.zipIdx_cons, List.zipIdx_nil, Assigner.register, Nat.zero_add]
  simp only [w _ 0 0 (by norm_num) t0, w _ 5 1 (by norm_num) t1, bind, Except.bind, idx,
    List.getElem?_cons_zero, List.getElem?_cons_succ, List.set_cons_zero, List.set_cons_succ,
    List.nil_append]
  rfl

theorem tuple_query : built.tupleOf query = (1, 0, 0) := by
  have t1 : Assigner.axis (5 / 2) 0 (5 / 2) 2 = 1 := by
    have : ((5 : ℝ) / 2 - 0) / (5 / 2) = (1 : Nat) := by norm_num
    unfold Assigner.axis
    rw [this, Nat.floor_natCast]; rfl
  have t2 : Assigner.axis 0 0 1 1 = 0 := by simp [Assigner.axis]
  unfold Assigner.tupleOf
  exact Prod.ext t1 (Prod.ext t2 t2)

theorem representable : built.Representable query := by
  refine ⟨?_, ?_, ?_⟩ <;> simp [built, query]
  norm_num

theorem search : Assigner.searchLoop query 2 (built.marked [1] [1])
    { r2 := Flt.lit 1 300, center := none } =
    .ok (built.marked [1, 0] [], { r2 := 25 / 4, center := some 1 }) := by
  have wf := (Assigner.new_wf new_eq).1
  have d0 : (query.sub (⟨0, 0, 0⟩ : Vec3 ℝ)).dot (query.sub ⟨0, 0, 0⟩) = 25 / 4 := by
    rw [Assigner.dist2_eq]; norm_num [Assigner.dist2, query]
  have d1 : (query.sub (⟨5, 0, 0⟩ : Vec3 ℝ)).dot (query.sub ⟨5, 0, 0⟩) = 25 / 4 := by
    rw [Assigner.dist2_eq]; norm_num [Assigner.dist2, query]
  have hbig : (25 / 4 : ℝ) < 10 ^ 300 := by
    calc (25 / 4 : ℝ) < 10 ^ 1 := by norm_num
      _ ≤ 10 ^ 300 := pow_le_pow_right₀ (by norm_num) (by norm_num)
  have hlit : (Flt.lit 1 300 : ℝ) = 10 ^ 300 := by simp
  have c0 : idx centers 0 = .ok ⟨0, 0, 0⟩ := rfl
  have c1 : idx centers 1 = .ok ⟨5, 0, 0⟩ := rfl
  have i0 : built.indexToTuple 0 = (0, 0, 0) := rfl
  have i1 : built.indexToTuple 1 = (1, 0, 0) := rfl
  have b0 : built.bound (0, 0, 0) (1, 0, 0) = 0 := by simp [Assigner.bound, Assigner.gap]
  have b1 : built.bound (1, 0, 0) (1, 0, 0) = 0 := by simp [Assigner.bound, Assigner.gap]
  have g1 : idx (built.marked [1] [1]).grid 1 = .ok ⟨true, [1]⟩ := rfl
  have g0 : idx (built.marked [1, 0] [0]).grid 0 = .ok ⟨true, [0]⟩ := rfl
  have n1 : (built.marked [1] []).addNbrs 1 = .ok (built.marked [1, 0] [0]) := rfl
  have n0 : (built.marked [1, 0] []).addNbrs 0 = .ok (built.marked [1, 0] []) := rfl
  have s1 : (built.marked [1] []).scanCenters query [1] { r2 := Flt.lit 1 300, center := none }
      = .ok { r2 := 25 / 4, center := some 1 } := by
    unfold Assigner.scanCenters Assigner.scanCenters
    have : idx (built.marked [1] []).centers 1 = .ok ⟨5, 0, 0⟩ := rfl
    simp only [this, bind, Except.bind, d1, lt_eq, hlit, hbig, decide_true, if_true]
  have s0 : (built.marked [1, 0] []).scanCenters query [0] { r2 := 25 / 4, center := some 1 }
      = .ok { r2 := 25 / 4, center := some 1 } := by
    unfold Assigner.scanCenters Assigner.scanCenters
    have : idx (built.marked [1, 0] []).centers 0 = .ok ⟨0, 0, 0⟩ := rfl
    simp only [this, bind, Except.bind, d0, lt_eq, lt_irrefl, decide_false, Bool.false_eq_true,
      if_false]
  unfold Assigner.searchLoop
  simp only [Assigner.marked_queue, Assigner.marked_pop, Assigner.marked_minDist2,
    Assigner.minDist2_eq wf representable, bind, Except.bind, i1, tuple_query, b1, lt_eq]
  rw [if_neg (by simp only [hlit]; rw [decide_eq_true_eq, not_lt]; positivity)]
  simp only [g1, s1, n1]
  unfold Assigner.searchLoop
  simp only [Assigner.marked_queue, Assigner.marked_pop, Assigner.marked_minDist2,
    Assigner.minDist2_eq wf representable, bind, Except.bind, i0, tuple_query, b0, lt_eq]
  rw [if_neg (by norm_num)]
  simp only [g0, s0, n0]
  unfold Assigner.searchLoop
  rfl

theorem query_eq : built.nearestCenter query = .ok (1, built) := by
  have ha : built.addTuple (1, 0, 0) = .ok (built.marked [1] [1]) := rfl
  have hr : Assigner.resetWet (built.marked [1, 0] []) [1, 0] (built.marked [1, 0] []).grid
    = .ok built.grid := rfl
  have hl : (built.marked [1] [1]).grid.length = 2 := rfl
  have hw : (built.marked [1, 0] []).wetList = [1, 0] := rfl
  unfold Assigner.nearestCenter
  rw [Assigner.whichCellTuple_eq representable, tuple_query]
  simp only [bind, Except.bind, ha, hl, search, hw, hr]
  rfl

end Tie

/-- **C44, tie-break.**  Of two centres at the same distance the search can return the one with the
larger index, contrary to the intent of the code. -/
theorem C44_tie_break_violated : ∃ (centers : List (Vec3 ℝ)) (g : Assigner ℝ) (r : Vec3 ℝ),
    Assigner.new centers = .ok g ∧ g.nearestCenter r = .ok (1, g) ∧ IsNearest centers r 0 := by
  refine ⟨Tie.centers, Tie.built, Tie.query, Tie.new_eq, Tie.query_eq, ⟨0, 0, 0⟩, rfl, ?_⟩
  simp [Tie.centers, Tie.query, sqDist]
  norm_num
