import Verif.Lemmas.Assign
/-!
# Construction of the search structure: helper lemmas
-/
open FltReal Flt

namespace Assigner

/-- The two structures differ by their cells only. -/
def SameDims (g g' : Assigner ℝ) : Prop :=
  g'.nx = g.nx ∧ g'.ny = g.ny ∧ g'.nz = g.nz ∧ g'.dx = g.dx ∧ g'.dy = g.dy ∧ g'.dz = g.dz ∧
  g'.corner = g.corner ∧ g'.centers = g.centers ∧ g'.floodQueue = g.floodQueue ∧
  g'.wetList = g.wetList ∧ g'.grid.length = g.grid.length

theorem register_spec (l : List (Vec3 ℝ × Nat)) (g : Assigner ℝ)
    (hl : ∀ p ∈ l, g.Representable p.1 ∧ g.tupleToIndex (g.tupleOf p.1) < g.grid.length)
    (hc : ∀ c ∈ g.grid, c.burned = false) (n : Nat) (hn : ∀ p ∈ l, p.2 < n)
    (hv : ∀ c ∈ g.grid, ∀ k ∈ c.myCenters, k < n) :
    ∃ g', register g l = .ok g' ∧ SameDims g g' ∧ (∀ c ∈ g'.grid, c.burned = false) ∧
      (∀ c ∈ g'.grid, ∀ k ∈ c.myCenters, k < n) ∧
      (∀ (i k : Nat) (c : GridCell), g.grid[i]? = some c → k ∈ c.myCenters →
        ∃ c', g'.grid[i]? = some c' ∧ k ∈ c'.myCenters) ∧
      (∀ p ∈ l, ∃ c', g'.grid[g.tupleToIndex (g.tupleOf p.1)]? = some c' ∧ p.2 ∈ c'.myCenters) := by
  induction l generalizing g with
  | nil =>
    exact ⟨g, rfl, by simp [SameDims], hc, hv, fun i k c h1 h2 => ⟨c, h1, h2⟩, by simp⟩
  | cons p l ih =>
    obtain ⟨c, i⟩ := p
    obtain ⟨hr, hlt⟩ := hl (c, i) (by simp)
    set j := g.tupleToIndex (g.tupleOf c) with hj
    obtain ⟨gc, hgc⟩ : ∃ gc, g.grid[j]? = some gc := ⟨_, List.getElem?_eq_getElem hlt⟩
    set gc' : GridCell := { gc with myCenters := gc.myCenters ++ [i] } with hgc'
    set g1 : Assigner ℝ := { g with grid := g.grid.set j gc' } with hg1
    have hstep : register g ((c, i) :: l) = register g1 l := by
      rw [register]
      have : g.whichCell c = .ok j := by
        unfold whichCell
        rw [whichCellTuple_eq hr]
        rfl
      have hidx : idx g.grid j = .ok gc := idx_ok.2 hgc
      simp only [this, hidx, bind, Except.bind]
      rfl
    have hmem : ∀ c ∈ g1.grid, c ∈ g.grid ∨ c = gc' := fun x hx => List.mem_or_eq_of_mem_set hx
    have hgcmem := List.mem_of_getElem? hgc
    obtain ⟨g', h1, h2, h3, h4, h5, h6⟩ := ih g1
      (by
        intro p hp
        obtain ⟨a, b⟩ := hl p (by simp [hp])
        refine ⟨a, ?_⟩
        show g.tupleToIndex (g.tupleOf p.1) < (g.grid.set j gc').length
        rw [List.length_set]; exact b)
      (by
        intro x hx
        rcases hmem x hx with hx | rfl
        · exact hc x hx
        · exact hc gc hgcmem)
      (fun p hp => hn p (by simp [hp]))
      (by
        intro x hx k hk
        rcases hmem x hx with hx | rfl
        · exact hv x hx k hk
        · rcases List.mem_append.1 hk with hk | hk
          · exact hv gc hgcmem k hk
          · rw [List.mem_singleton.1 hk]; exact hn (c, i) (by simp))
    have hkeep : ∀ (i' k : Nat) (c : GridCell), g.grid[i']? = some c → k ∈ c.myCenters →
        ∃ c', g1.grid[i']? = some c' ∧ k ∈ c'.myCenters := by
      intro i' k x hx hk
      show ∃ c', (g.grid.set j gc')[i']? = some c' ∧ _
      rw [List.getElem?_set]
      by_cases hij : j = i'
      · subst hij
        rw [if_pos rfl, if_pos hlt]
        rw [hgc] at hx
        cases hx
        exact ⟨_, rfl, by simp [hgc', hk]⟩
      · rw [if_neg hij]
        exact ⟨x, hx, hk⟩
    refine ⟨g', hstep.trans h1, ?_, h3, h4, ?_, ?_⟩
    · obtain ⟨a1, a2, a3, a4, a5, a6, a7, a8, a9, a10, a11⟩ := h2
      refine ⟨a1, a2, a3, a4, a5, a6, a7, a8, a9, a10, ?_⟩
      rw [a11]
      show (g.grid.set j gc').length = _
      rw [List.length_set]
    · intro i' k x hx hk
      obtain ⟨y, hy, hky⟩ := hkeep i' k x hx hk
      exact h5 i' k y hy hky
    · intro p hp
      rcases List.mem_cons.1 hp with rfl | hp
      · refine h5 j i gc' ?_ (by simp [hgc'])
        show (g.grid.set j gc')[j]? = _
        rw [List.getElem?_set, if_pos rfl, if_pos hlt]
      · exact h6 p hp

/-- Lower corner of a list of points. -/
noncomputable def lower (c0 : Vec3 ℝ) (l : List (Vec3 ℝ)) : Vec3 ℝ :=
  l.foldl (fun m v => (⟨Flt.min m.x v.x, Flt.min m.y v.y, Flt.min m.z v.z⟩ : Vec3 ℝ)) c0

/-- Upper corner of a list of points. -/
noncomputable def upper (c0 : Vec3 ℝ) (l : List (Vec3 ℝ)) : Vec3 ℝ :=
  l.foldl (fun m v => (⟨Flt.max m.x v.x, Flt.max m.y v.y, Flt.max m.z v.z⟩ : Vec3 ℝ)) c0

theorem lower_le (l : List (Vec3 ℝ)) (c0 : Vec3 ℝ) :
    ((lower c0 l).x ≤ c0.x ∧ (lower c0 l).y ≤ c0.y ∧ (lower c0 l).z ≤ c0.z) ∧
    ∀ c ∈ l, (lower c0 l).x ≤ c.x ∧ (lower c0 l).y ≤ c.y ∧ (lower c0 l).z ≤ c.z := by
  induction l generalizing c0 with
  | nil => simp [lower]
  | cons v l ih =>
    have hstep : lower c0 (v :: l) =
      lower ⟨Flt.min c0.x v.x, Flt.min c0.y v.y, Flt.min c0.z v.z⟩ l := rfl
    obtain ⟨⟨a, b, c⟩, h⟩ := ih ⟨Flt.min c0.x v.x, Flt.min c0.y v.y, Flt.min c0.z v.z⟩
    rw [hstep]
    simp only [min_eq, le_min_iff] at a b c h ⊢
    refine ⟨⟨a.1, b.1, c.1⟩, ?_⟩
    intro x hx
    rcases List.mem_cons.1 hx with rfl | hx
    · exact ⟨a.2, b.2, c.2⟩
    · exact h x hx

theorem le_upper (l : List (Vec3 ℝ)) (c0 : Vec3 ℝ) :
    (c0.x ≤ (upper c0 l).x ∧ c0.y ≤ (upper c0 l).y ∧ c0.z ≤ (upper c0 l).z) ∧
    ∀ c ∈ l, c.x ≤ (upper c0 l).x ∧ c.y ≤ (upper c0 l).y ∧ c.z ≤ (upper c0 l).z := by
  induction l generalizing c0 with
  | nil => simp [upper]
  | cons v l ih =>
    have hstep : upper c0 (v :: l) =
      upper ⟨Flt.max c0.x v.x, Flt.max c0.y v.y, Flt.max c0.z v.z⟩ l := rfl
    obtain ⟨⟨a, b, c⟩, h⟩ := ih ⟨Flt.max c0.x v.x, Flt.max c0.y v.y, Flt.max c0.z v.z⟩
    rw [hstep]
    simp only [max_eq, max_le_iff] at a b c h ⊢
    refine ⟨⟨a.1, b.1, c.1⟩, ?_⟩
    intro x hx
    rcases List.mem_cons.1 hx with rfl | hx
    · exact ⟨a.2, b.2, c.2⟩
    · exact h x hx

/-- The corners are made of coordinates of the points. -/
theorem lower_attained (l : List (Vec3 ℝ)) (c0 : Vec3 ℝ) :
    (∃ c ∈ c0 :: l, c.x = (lower c0 l).x) ∧ (∃ c ∈ c0 :: l, c.y = (lower c0 l).y) ∧
    (∃ c ∈ c0 :: l, c.z = (lower c0 l).z) := by
  induction l generalizing c0 with
  | nil => simp [lower]
  | cons v l ih =>
    have hstep : lower c0 (v :: l) =
      lower ⟨Flt.min c0.x v.x, Flt.min c0.y v.y, Flt.min c0.z v.z⟩ l := rfl
    obtain ⟨⟨a, ha, ha'⟩, ⟨b, hb, hb'⟩, ⟨c, hc, hc'⟩⟩ :=
      ih ⟨Flt.min c0.x v.x, Flt.min c0.y v.y, Flt.min c0.z v.z⟩
    rw [hstep]
    refine ⟨?_, ?_, ?_⟩
    · rcases List.mem_cons.1 ha with rfl | h
      · rw [← ha']
        rcases min_choice c0.x v.x with h | h
        · exact ⟨c0, by simp, by simp [h]⟩
        · exact ⟨v, by simp, by simp [h]⟩
      · exact ⟨a, by simp [h], ha'⟩
    · rcases List.mem_cons.1 hb with rfl | h
      · rw [← hb']
        rcases min_choice c0.y v.y with h | h
        · exact ⟨c0, by simp, by simp [h]⟩
        · exact ⟨v, by simp, by simp [h]⟩
      · exact ⟨b, by simp [h], hb'⟩
    · rcases List.mem_cons.1 hc with rfl | h
      · rw [← hc']
        rcases min_choice c0.z v.z with h | h
        · exact ⟨c0, by simp, by simp [h]⟩
        · exact ⟨v, by simp, by simp [h]⟩
      · exact ⟨c, by simp [h], hc'⟩

theorem upper_attained (l : List (Vec3 ℝ)) (c0 : Vec3 ℝ) :
    (∃ c ∈ c0 :: l, c.x = (upper c0 l).x) ∧ (∃ c ∈ c0 :: l, c.y = (upper c0 l).y) ∧
    (∃ c ∈ c0 :: l, c.z = (upper c0 l).z) := by
  induction l generalizing c0 with
  | nil => simp [upper]
  | cons v l ih =>
    have hstep : upper c0 (v :: l) =
      upper ⟨Flt.max c0.x v.x, Flt.max c0.y v.y, Flt.max c0.z v.z⟩ l := rfl
    obtain ⟨⟨a, ha, ha'⟩, ⟨b, hb, hb'⟩, ⟨c, hc, hc'⟩⟩ :=
      ih ⟨Flt.max c0.x v.x, Flt.max c0.y v.y, Flt.max c0.z v.z⟩
    rw [hstep]
    refine ⟨?_, ?_, ?_⟩
    · rcases List.mem_cons.1 ha with rfl | h
      · rw [← ha']
        rcases max_choice c0.x v.x with h | h
        · exact ⟨c0, by simp, by simp [h]⟩
        · exact ⟨v, by simp, by simp [h]⟩
      · exact ⟨a, by simp [h], ha'⟩
    · rcases List.mem_cons.1 hb with rfl | h
      · rw [← hb']
        rcases max_choice c0.y v.y with h | h
        · exact ⟨c0, by simp, by simp [h]⟩
        · exact ⟨v, by simp, by simp [h]⟩
      · exact ⟨b, by simp [h], hb'⟩
    · rcases List.mem_cons.1 hc with rfl | h
      · rw [← hc']
        rcases max_choice c0.z v.z with h | h
        · exact ⟨c0, by simp, by simp [h]⟩
        · exact ⟨v, by simp, by simp [h]⟩
      · exact ⟨c, by simp [h], hc'⟩

/-- Cells per unit of length. -/
noncomputable def scale (n : Nat) (lx ly lz : ℝ) : ℝ := Flt.cbrt ((n : ℝ) / (5 * lx * ly * lz))

/-- Number of cells along an axis. -/
noncomputable def count (s l : ℝ) : Nat := Max.max 1 ⌊s * l⌋₊

theorem count_pos (s l : ℝ) : 0 < count s l := by unfold count; omega

theorem count_eq (s l : ℝ) : Max.max (1 : ℝ) (⌊s * l⌋ : ℝ) = (count s l : ℝ) := by
  unfold count
  rw [Nat.cast_max, Nat.cast_one]
  rcases le_total 0 (s * l) with h | h
  · rw [natCast_floor_eq_intCast_floor h]
  · rw [Nat.floor_of_nonpos h, Nat.cast_zero, max_eq_left (by norm_num : (0 : ℝ) ≤ 1), max_eq_left]
    have h1 : ((⌊s * l⌋ : ℤ) : ℝ) ≤ s * l := Int.floor_le _
    linarith

theorem toUsize_nat {n : Nat} (h : (n : ℝ) < 2 ^ 64) : Flt.toUsize (n : ℝ) = some n := by
  rw [toUsize_eq, if_pos ⟨by have : (0 : ℝ) ≤ n := Nat.cast_nonneg _; linarith, h⟩, Nat.floor_natCast]

theorem toUsize_nat_none {n : Nat} (h : ¬ (n : ℝ) < 2 ^ 64) : Flt.toUsize (n : ℝ) = none := by
  rw [toUsize_eq, if_neg (fun h' => h h'.2)]

/-- The structure before the centres are registered. -/
noncomputable def blank (centers : List (Vec3 ℝ)) (lo : Vec3 ℝ) (lx ly lz : ℝ) : Assigner ℝ :=
  let s := scale centers.length lx ly lz
  { nx := count s lx, ny := count s ly, nz := count s lz
    dx := lx / count s lx, dy := ly / count s ly, dz := lz / count s lz
    corner := lo, centers := centers
    grid := List.replicate (count s lx * (count s ly * count s lz)) { burned := false, myCenters := [] }
    floodQueue := [], wetList := [] }

theorem new_eq (c0 : Vec3 ℝ) (cs : List (Vec3 ℝ)) :
    let centers := c0 :: cs
    let lo := lower c0 centers
    let hi := upper c0 centers
    let lx := Max.max 1 (hi.x - lo.x)
    let ly := Max.max 1 (hi.y - lo.y)
    let lz := Max.max 1 (hi.z - lo.z)
    let s := scale centers.length lx ly lz
    new centers = if ((count s lx * (count s ly * count s lz) : Nat) : ℝ) < 2 ^ 64 then
      register (blank centers lo lx ly lz) centers.zipIdx else .error .unwrapNone := by
  intro centers lo hi lx ly lz s
  have h0 : idx centers 0 = .ok c0 := rfl
  unfold new
  simp only [h0, bind, Except.bind]
  simp only [max_eq, one_eq, sub_eq, div_eq, mul_eq, ofNat_eq, floor_eq]
  have e1 : Max.max (1 : ℝ) (⌊s * lx⌋ : ℝ) = (count s lx : ℝ) := count_eq _ _
  have e2 : Max.max (1 : ℝ) (⌊s * ly⌋ : ℝ) = (count s ly : ℝ) := count_eq _ _
  have e3 : Max.max (1 : ℝ) (⌊s * lz⌋ : ℝ) = (count s lz : ℝ) := count_eq _ _
  have es : (Flt.cbrt ((centers.length : ℝ) / (((5 : Nat) : ℝ) * lx * ly * lz)) : ℝ) = s := by
    simp [s, scale]
  have elo : List.foldl (fun m v => (⟨Flt.min m.x v.x, Flt.min m.y v.y, Flt.min m.z v.z⟩ : Vec3 ℝ)) c0
    centers = lo := rfl
  have ehi : List.foldl (fun m v => (⟨Max.max m.x v.x, Max.max m.y v.y, Max.max m.z v.z⟩ : Vec3 ℝ)) c0
    centers = hi := rfl
  have elx : Max.max 1 (hi.x - lo.x) = lx := rfl
  have ely : Max.max 1 (hi.y - lo.y) = ly := rfl
  have elz : Max.max 1 (hi.z - lo.z) = lz := rfl
  rw [elo, ehi]
  simp only [elx, ely, elz, es, e1, e2, e3]
  have eprod : (count s lx : ℝ) * count s ly * count s lz
      = ((count s lx * (count s ly * count s lz) : Nat) : ℝ) := by push_cast; ring
  rw [eprod]
  by_cases hlt : ((count s lx * (count s ly * count s lz) : Nat) : ℝ) < 2 ^ 64
  · rw [if_pos hlt]
    have hb : ∀ n, n ≤ count s lx * (count s ly * count s lz) → (n : ℝ) < 2 ^ 64 := fun n hn =>
      lt_of_le_of_lt (by exact_mod_cast hn) hlt
    have px := count_pos s lx
    have py := count_pos s ly
    have pz := count_pos s lz
    have b1 : count s lx ≤ count s lx * (count s ly * count s lz) :=
      Nat.le_mul_of_pos_right _ (Nat.mul_pos py pz)
    have b2 : count s ly ≤ count s lx * (count s ly * count s lz) :=
      (Nat.le_mul_of_pos_right _ pz).trans (Nat.le_mul_of_pos_left _ px)
    have b3 : count s lz ≤ count s lx * (count s ly * count s lz) :=
      (Nat.le_mul_of_pos_left _ py).trans (Nat.le_mul_of_pos_left _ px)
    rw [toUsize_nat hlt, toUsize_nat (hb _ b1), toUsize_nat (hb _ b2), toUsize_nat (hb _ b3)]
    rfl
  · rw [if_neg hlt, toUsize_nat_none hlt]
    rfl

/-- Construction succeeds exactly when the cells can be counted, and gives a well-formed
structure. -/
theorem new_wf {centers : List (Vec3 ℝ)} {g : Assigner ℝ} (h : new centers = .ok g) :
    g.Wf ∧ g.centers = centers := by
  cases centers with
  | nil => unfold new at h; cases h
  | cons c0 cs =>
    rw [new_eq] at h
    split at h
    case isFalse => cases h
    rename_i hlt
    set centers := c0 :: cs with hcenters
    set lo := lower c0 centers with hlo
    set hi := upper c0 centers with hhi
    set lx := Max.max 1 (hi.x - lo.x) with hlx
    set ly := Max.max 1 (hi.y - lo.y) with hly
    set lz := Max.max 1 (hi.z - lo.z) with hlz
    set s := scale centers.length lx ly lz with hs
    have p1 : (1 : ℝ) ≤ lx := le_max_left _ _
    have p2 : (1 : ℝ) ≤ ly := le_max_left _ _
    have p3 : (1 : ℝ) ≤ lz := le_max_left _ _
    have n1 : (0 : ℝ) < count s lx := by exact_mod_cast count_pos s lx
    have n2 : (0 : ℝ) < count s ly := by exact_mod_cast count_pos s ly
    have n3 : (0 : ℝ) < count s lz := by exact_mod_cast count_pos s lz
    have hL := (lower_le centers c0).2
    have hU := (le_upper centers c0).2
    have m1 : ∀ c ∈ centers, c.x ≤ lo.x + lx := fun c hc => by
      have := (hU c hc).1
      have h2 : hi.x - lo.x ≤ lx := le_max_right _ _
      rw [← hhi] at this; linarith
    have m2 : ∀ c ∈ centers, c.y ≤ lo.y + ly := fun c hc => by
      have := (hU c hc).2.1
      have h2 : hi.y - lo.y ≤ ly := le_max_right _ _
      rw [← hhi] at this; linarith
    have m3 : ∀ c ∈ centers, c.z ≤ lo.z + lz := fun c hc => by
      have := (hU c hc).2.2
      have h2 : hi.z - lo.z ≤ lz := le_max_right _ _
      rw [← hhi] at this; linarith
    set g0 := blank centers lo lx ly lz with hg0
    have hb : ∀ n, n ≤ count s lx * (count s ly * count s lz) → (n : ℝ) < 2 ^ 64 := fun n hn =>
      lt_of_le_of_lt (by exact_mod_cast hn) hlt
    have px := count_pos s lx
    have py := count_pos s ly
    have pz := count_pos s lz
    have b1 := hb _ (show count s lx ≤ count s lx * (count s ly * count s lz) from
      Nat.le_mul_of_pos_right _ (Nat.mul_pos py pz))
    have b2 := hb _ (show count s ly ≤ count s lx * (count s ly * count s lz) from
      (Nat.le_mul_of_pos_right _ pz).trans (Nat.le_mul_of_pos_left _ px))
    have b3 := hb _ (show count s lz ≤ count s lx * (count s ly * count s lz) from
      (Nat.le_mul_of_pos_left _ py).trans (Nat.le_mul_of_pos_left _ px))
    have rep : ∀ {x z l : ℝ} {n : Nat}, (0 : ℝ) < n → (n : ℝ) < 2 ^ 64 → 1 ≤ l → x ≤ z + l →
        (x - z) / (l / n) < 2 ^ 64 := by
      intro x z l n hn hn' hl hx
      refine lt_of_le_of_lt ?_ hn'
      rw [div_le_iff₀ (by positivity)]
      have : (n : ℝ) * (l / n) = l := by field_simp
      rw [this]; linarith
    have hlen : g0.grid.length = count s lx * (count s ly * count s lz) := by
      simp [hg0, blank, ← hs]
    have hnil : ∀ c ∈ g0.grid, c = { burned := false, myCenters := [] } := by
      intro c hc
      simp only [hg0, blank] at hc
      exact (List.mem_replicate.1 hc).2
    obtain ⟨g', h1, h2, h3, h4, -, h6⟩ := register_spec centers.zipIdx g0
      (by
        intro p hp
        have hpc : p.1 ∈ centers := by
          have := List.mem_zipIdx' hp
          rw [this.2]
          exact List.getElem_mem _
        refine ⟨⟨rep n1 b1 p1 (m1 _ hpc), rep n2 b2 p2 (m2 _ hpc), rep n3 b3 p3 (m3 _ hpc)⟩, ?_⟩
        rw [hlen]
        exact digits_lt (axis_lt px) (digits_lt (axis_lt py) (axis_lt pz)))
      (by intro c hc; rw [hnil c hc]) centers.length
      (by intro p hp; exact (List.mem_zipIdx' hp).1)
      (by intro c hc k hk; rw [hnil c hc] at hk; simp at hk)
    rw [h1] at h
    cases h
    obtain ⟨a1, a2, a3, a4, a5, a6, a7, a8, a9, a10, a11⟩ := h2
    have htup : ∀ c, g.tupleOf c = g0.tupleOf c := by
      intro c; unfold tupleOf; rw [a1, a2, a3, a4, a5, a6, a7]
    have hidx : ∀ t, g.tupleToIndex t = g0.tupleToIndex t := by
      intro t; unfold tupleToIndex; rw [a1, a2]
    refine ⟨⟨?_, ?_, ?_, ?_, ?_, ?_, ?_, ⟨h3, a9, a10⟩, ?_, ?_, ?_, ?_⟩, a8⟩
    · rw [a1]; exact px
    · rw [a2]; exact py
    · rw [a3]; exact pz
    · rw [a4]; exact div_pos (by linarith) n1
    · rw [a5]; exact div_pos (by linarith) n2
    · rw [a6]; exact div_pos (by linarith) n3
    · rw [a11, a1, a2, a3]; exact hlen
    · rw [a8]; exact h4
    · rw [a8, a7]; exact fun c hc => hL c hc
    · rw [a8, a7, a1, a2, a3, a4, a5, a6]
      intro c hc
      have e : ∀ {l : ℝ} {n : Nat}, (0 : ℝ) < n → (n : ℝ) * (l / n) = l := by
        intro l n hn; field_simp
      refine ⟨?_, ?_, ?_⟩
      · show c.x ≤ lo.x + (count s lx : ℝ) * (lx / count s lx)
        rw [e n1]; exact m1 c hc
      · show c.y ≤ lo.y + (count s ly : ℝ) * (ly / count s ly)
        rw [e n2]; exact m2 c hc
      · show c.z ≤ lo.z + (count s lz : ℝ) * (lz / count s lz)
        rw [e n3]; exact m3 c hc
    · intro k c hk
      rw [a8] at hk
      have : (c, k) ∈ centers.zipIdx := by
        rw [List.mem_iff_getElem?]
        refine ⟨k, ?_⟩
        rw [List.getElem?_zipIdx]
        show Option.map _ centers[k]? = _
        have hk' : centers[k]? = some c := hk
        rw [hk']; simp
      obtain ⟨gc, hgc, hm⟩ := h6 (c, k) this
      refine ⟨gc, ?_, hm⟩
      show g.grid[g.tupleToIndex (g.tupleOf c)]? = _
      rw [htup, hidx]; exact hgc

/-- Registration succeeds when the cells can be counted, and does not change the dimensions. -/
theorem blank_register {c0 : Vec3 ℝ} {cs : List (Vec3 ℝ)} {lo : Vec3 ℝ} {lx ly lz : ℝ} {s : ℝ}
    (hs : s = scale (c0 :: cs).length lx ly lz) (p1 : 1 ≤ lx) (p2 : 1 ≤ ly) (p3 : 1 ≤ lz)
    (hm : ∀ c ∈ c0 :: cs, c.x ≤ lo.x + lx ∧ c.y ≤ lo.y + ly ∧ c.z ≤ lo.z + lz)
    (hlt : ((count s lx * (count s ly * count s lz) : Nat) : ℝ) < 2 ^ 64) :
    ∃ g, register (blank (c0 :: cs) lo lx ly lz) (c0 :: cs).zipIdx = .ok g ∧
      g.corner = lo ∧ g.dx = lx / count s lx ∧ g.dy = ly / count s ly ∧ g.dz = lz / count s lz := by
  set centers := c0 :: cs with hcenters
  have n1 : (0 : ℝ) < count s lx := by exact_mod_cast count_pos s lx
  have n2 : (0 : ℝ) < count s ly := by exact_mod_cast count_pos s ly
  have n3 : (0 : ℝ) < count s lz := by exact_mod_cast count_pos s lz
  set g0 := blank centers lo lx ly lz with hg0
  have hb : ∀ n, n ≤ count s lx * (count s ly * count s lz) → (n : ℝ) < 2 ^ 64 := fun n hn =>
    lt_of_le_of_lt (by exact_mod_cast hn) hlt
  have px := count_pos s lx
  have py := count_pos s ly
  have pz := count_pos s lz
  have b1 := hb _ (show count s lx ≤ count s lx * (count s ly * count s lz) from
    Nat.le_mul_of_pos_right _ (Nat.mul_pos py pz))
  have b2 := hb _ (show count s ly ≤ count s lx * (count s ly * count s lz) from
    (Nat.le_mul_of_pos_right _ pz).trans (Nat.le_mul_of_pos_left _ px))
  have b3 := hb _ (show count s lz ≤ count s lx * (count s ly * count s lz) from
    (Nat.le_mul_of_pos_left _ py).trans (Nat.le_mul_of_pos_left _ px))
  have rep : ∀ {x z l : ℝ} {n : Nat}, (0 : ℝ) < n → (n : ℝ) < 2 ^ 64 → 1 ≤ l → x ≤ z + l →
      (x - z) / (l / n) < 2 ^ 64 := by
    intro x z l n hn hn' hl hx
    refine lt_of_le_of_lt ?_ hn'
    rw [div_le_iff₀ (by positivity)]
    have : (n : ℝ) * (l / n) = l := by field_simp
    rw [this]; linarith
  have hlen : g0.grid.length = count s lx * (count s ly * count s lz) := by
    simp [hg0, blank, ← hs]
  have hnil : ∀ c ∈ g0.grid, c = { burned := false, myCenters := [] } := by
    intro c hc
    simp only [hg0, blank] at hc
    exact (List.mem_replicate.1 hc).2
  have hdx : g0.dx = lx / count s lx := by rw [hs]; rfl
  have hdy : g0.dy = ly / count s ly := by rw [hs]; rfl
  have hdz : g0.dz = lz / count s lz := by rw [hs]; rfl
  have hnx : g0.nx = count s lx := by rw [hs]; rfl
  have hny : g0.ny = count s ly := by rw [hs]; rfl
  have hnz : g0.nz = count s lz := by rw [hs]; rfl
  have hco : g0.corner = lo := rfl
  obtain ⟨g', h1, h2, -⟩ := register_spec centers.zipIdx g0
    (by
      intro p hp
      have hpc : p.1 ∈ centers := by
        have := List.mem_zipIdx' hp
        rw [this.2]
        exact List.getElem_mem _
      obtain ⟨m1, m2, m3⟩ := hm _ hpc
      refine ⟨⟨?_, ?_, ?_⟩, ?_⟩
      · rw [hdx, hco]; exact rep n1 b1 p1 m1
      · rw [hdy, hco]; exact rep n2 b2 p2 m2
      · rw [hdz, hco]; exact rep n3 b3 p3 m3
      · rw [hlen]
        unfold tupleToIndex tupleOf
        rw [hnx, hny, hnz]
        exact digits_lt (axis_lt px) (digits_lt (axis_lt py) (axis_lt pz)))
    (by intro c hc; rw [hnil c hc]) centers.length
    (by intro p hp; exact (List.mem_zipIdx' hp).1)
    (by intro c hc k hk; rw [hnil c hc] at hk; simp at hk)
  obtain ⟨a1, a2, a3, a4, a5, a6, a7, a8, a9, a10, a11⟩ := h2
  exact ⟨g', h1, a7.trans hco, a4.trans hdx, a5.trans hdy, a6.trans hdz⟩

/-- One query of a well-formed structure. -/
theorem nearestCenter_spec {g : Assigner ℝ} (h : g.Wf) {r : Vec3 ℝ} (hr : g.Representable r)
    (hnear : ∃ c ∈ g.centers, dist2 r c < 10 ^ 300) :
    ∃ k c, g.nearestCenter r = .ok (k, g) ∧ g.centers[k]? = some c ∧
      ∀ c' ∈ g.centers, dist2 r c ≤ dist2 r c' := by
  have ht := tupleOf_in h r
  have hlt := index_lt h ht
  have hadd : g.addTuple (g.tupleOf r) = .ok (g.marked [g.tupleToIndex (g.tupleOf r)]
      [g.tupleToIndex (g.tupleOf r)]) := by
    have := addTuple_marked (g := g) (wet := []) (queue := []) hlt
    rw [marked_nil h.clean] at this
    simpa using this
  obtain ⟨wet, b, h1, h2, h3, h4⟩ := searchLoop_spec h hr g.grid.length []
    [g.tupleToIndex (g.tupleOf r)] { r2 := Flt.lit 1 300, center := none } (by simp)
    (by simpa using hlt) (by simp) (Or.inl ⟨rfl, by simp⟩) (by simp)
    (fun c hc => Or.inr (by simp))
  rw [List.nil_append] at h1
  have hlen : (g.marked [g.tupleToIndex (g.tupleOf r)] [g.tupleToIndex (g.tupleOf r)]).grid.length
    = g.grid.length := marked_length _ _ _
  have hreset := resetWet_marked (g := g) (g.marked wet []) h.clean.1 wet wet h2 (fun i hi => hi)
  obtain ⟨c0, hc0, hd0⟩ := hnear
  rcases h3 with ⟨_, hx⟩ | ⟨k, c, hk, hc, hr2, _⟩
  · have := h4 c0 hc0
    rw [hx] at this
    exact absurd hd0 (not_lt.2 this)
  refine ⟨k, c, ?_, hc, fun c' hc' => by rw [← hr2]; exact h4 c' hc'⟩
  unfold nearestCenter
  rw [whichCellTuple_eq hr]
  simp only [bind, Except.bind, hadd, hlen, h1]
  have hw : (g.marked wet []).wetList = wet := rfl
  have hg : (g.marked wet []).grid
    = g.grid.mapIdx fun i c => ({ c with burned := decide (i ∈ wet) } : GridCell) := rfl
  rw [hw, hg, hreset]
  simp only [hk, Option.isSome_some, assertB, if_true, unwrap, pure, Except.pure]
  obtain ⟨_, hq, hwl⟩ := h.clean
  congr 2
  unfold marked
  obtain ⟨nx, ny, nz, dx, dy, dz, corner, centers, grid, fq, wl⟩ := g
  simp only at hq hwl ⊢
  rw [hq, hwl]

end Assigner
