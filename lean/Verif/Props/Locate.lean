import Verif.Lemmas.Grid
import Verif.Lemmas.Except
import Verif.Spec.Box
import Verif.Model.Domain
import Mathlib.Tactic.FieldSimp
/-!
# Locating a point (C13) and the material of a point (C38)
-/
open GridSpec FltReal Flt

theorem Grid.new_box {nx ny nz : Nat} {lx ly lz : ℝ} (hx : 0 < nx) (hy : 0 < ny) (hz : 0 < nz)
    (hlx : 0 < lx) (hly : 0 < ly) (hlz : 0 < lz) : BoxGrid (Grid.new nx ny nz lx ly lz) where
  nx := hx
  ny := hy
  nz := hz
  lx := hlx
  ly := hly
  lz := hlz
  dx := by simp [Grid.new]
  dy := by simp [Grid.new]
  dz := by simp [Grid.new]

namespace BoxGrid
variable {g : Grid ℝ}

theorem dx_pos (h : BoxGrid g) : 0 < g.dx := by
  rw [h.dx]; exact div_pos h.lx (Nat.cast_pos.2 h.nx)
theorem dy_pos (h : BoxGrid g) : 0 < g.dy := by
  rw [h.dy]; exact div_pos h.ly (Nat.cast_pos.2 h.ny)
theorem dz_pos (h : BoxGrid g) : 0 < g.dz := by
  rw [h.dz]; exact div_pos h.lz (Nat.cast_pos.2 h.nz)
theorem lx_eq (h : BoxGrid g) : g.lx = g.nx * g.dx := by
  have := Nat.cast_pos (α := ℝ).2 h.nx
  rw [h.dx]; field_simp
theorem ly_eq (h : BoxGrid g) : g.ly = g.ny * g.dy := by
  have := Nat.cast_pos (α := ℝ).2 h.ny
  rw [h.dy]; field_simp
theorem lz_eq (h : BoxGrid g) : g.lz = g.nz * g.dz := by
  have := Nat.cast_pos (α := ℝ).2 h.nz
  rw [h.dz]; field_simp

end BoxGrid

/-- Truncation of a quotient. -/
theorem toUsize_quot {x d : ℝ} {n : Nat} (hd : 0 < d) (h0 : 0 ≤ x) (h1 : x < n * d)
    (hn : n ≤ 2 ^ 64) :
    ∃ k, Flt.toUsize (x /. d) = some k ∧ k < n ∧ k * d ≤ x ∧ x < (k + 1) * d := by
  have hq0 : 0 ≤ x / d := div_nonneg h0 hd.le
  have hqn : x / d < n := (div_lt_iff₀ hd).2 h1
  have h64 : (n : ℝ) ≤ 2 ^ 64 := by exact_mod_cast hn
  refine ⟨⌊x / d⌋₊, ?_, ?_, ?_, ?_⟩
  · rw [div_eq, toUsize_eq, if_pos ⟨by linarith, by linarith⟩]
  · exact (Nat.floor_lt hq0).2 hqn
  · exact (le_div_iff₀ hd).1 (Nat.floor_le hq0)
  · exact (div_lt_iff₀ hd).1 (Nat.lt_floor_add_one _)

/-- **C13**.  Every point of the half-open box is located in a cell of the grid, and it is in the
half-open box of that cell.  (Grids have at most `2^64` cells along an axis.) -/
theorem C13_locate (g : Grid ℝ) (hg : BoxGrid g)
    (hn : g.nx ≤ 2 ^ 64 ∧ g.ny ≤ 2 ^ 64 ∧ g.nz ≤ 2 ^ 64) (r : Vec3 ℝ)
    (hx : 0 ≤ r.x ∧ r.x < g.lx) (hy : 0 ≤ r.y ∧ r.y < g.ly) (hz : 0 ≤ r.z ∧ r.z < g.lz) :
    ∃ i, g.whichCell r = .ok i ∧ i < g.nx * g.ny * g.nz ∧ InCell g (g.cellIdxToTuple i) r := by
  obtain ⟨a, ha, ha1, ha2, ha3⟩ := toUsize_quot hg.dx_pos hx.1 (by rw [← hg.lx_eq]; exact hx.2) hn.1
  obtain ⟨b, hb, hb1, hb2, hb3⟩ :=
    toUsize_quot hg.dy_pos hy.1 (by rw [← hg.ly_eq]; exact hy.2) hn.2.1
  obtain ⟨c, hc, hc1, hc2, hc3⟩ :=
    toUsize_quot hg.dz_pos hz.1 (by rw [← hg.lz_eq]; exact hz.2) hn.2.2
  refine ⟨g.cellTupleToIdx (a, b, c), ?_, Grid.tuple_lt ⟨ha1, hb1, hc1⟩, ?_⟩
  · unfold Grid.whichCell
    rw [ha, hb, hc]
    rfl
  · rw [Grid.tuple_idx (t := (a, b, c)) ha1 hb1]
    exact ⟨⟨ha2, ha3⟩, ⟨hb2, hb3⟩, ⟨hc2, hc3⟩⟩

/-- Centre of a cell. -/
theorem cellCenter_eq (g : Grid ℝ) (i : Nat) :
    g.cellCenter i = .ok ⟨(g.cellIdxToTuple i).1 * g.dx + g.dx / 2,
      (g.cellIdxToTuple i).2.1 * g.dy + g.dy / 2, (g.cellIdxToTuple i).2.2 * g.dz + g.dz / 2⟩ := by
  unfold Grid.cellCenter Grid.nodeCoordFromTuple
  simp only [idx, Grid.basisOffset, List.getElem?_cons_zero]
  show Except.ok _ = _
  simp [Vec3.add, Vec3.zero]

/-- **C13** (centres).  The centre of a cell of the grid is located in that cell. -/
theorem C13_center (g : Grid ℝ) (hg : BoxGrid g)
    (hn : g.nx ≤ 2 ^ 64 ∧ g.ny ≤ 2 ^ 64 ∧ g.nz ≤ 2 ^ 64) (i : Nat) (hi : i < g.nx * g.ny * g.nz) :
    ∃ c, g.cellCenter i = .ok c ∧ InCell g (g.cellIdxToTuple i) c ∧ g.whichCell c = .ok i := by
  have hin := Grid.idx_inGrid hi
  have px := hg.dx_pos
  have py := hg.dy_pos
  have pz := hg.dz_pos
  have hcell : InCell g (g.cellIdxToTuple i) ⟨(g.cellIdxToTuple i).1 * g.dx + g.dx / 2,
      (g.cellIdxToTuple i).2.1 * g.dy + g.dy / 2, (g.cellIdxToTuple i).2.2 * g.dz + g.dz / 2⟩ := by
    refine ⟨⟨?_, ?_⟩, ⟨?_, ?_⟩, ⟨?_, ?_⟩⟩ <;> dsimp only <;> linarith
  refine ⟨_, cellCenter_eq g i, hcell, ?_⟩
  have hb : ∀ {k n : Nat} {x d : ℝ}, 0 < d → n ≤ 2 ^ 64 → k < n → k * d ≤ x → x < (k + 1) * d →
      Flt.toUsize (x /. d) = some k := by
    intro k n x d hd hn hk h1 h2
    have h64 : ((k + 1 : Nat) : ℝ) ≤ 2 ^ 64 := by
      have : k + 1 ≤ 2 ^ 64 := le_trans hk hn
      exact_mod_cast this
    push_cast at h64
    have hk0 : (0 : ℝ) ≤ k := Nat.cast_nonneg k
    have hq1 : (k : ℝ) ≤ x / d := (le_div_iff₀ hd).2 h1
    have hq2 : x / d < k + 1 := (div_lt_iff₀ hd).2 h2
    rw [div_eq, toUsize_eq, if_pos ⟨by linarith, by linarith⟩]
    congr 1
    exact (Nat.floor_eq_iff (by linarith)).2 ⟨hq1, hq2⟩
  unfold Grid.whichCell
  rw [hb px hn.1 hin.1 hcell.1.1 hcell.1.2, hb py hn.2.1 hin.2.1 hcell.2.1.1 hcell.2.1.2,
    hb pz hn.2.2 hin.2.2 hcell.2.2.1 hcell.2.2.2]
  show Except.ok _ = _
  rw [Grid.idx_tuple]

/-- **C13** (upper faces).  A point of the upper x face is located outside the grid, or in a cell
whose closed box does not contain it.  (The same happens on the upper y face, see `C13_upper_y`; on the
upper z face the index is always outside the grid, see `C13_upper_z`.) -/
theorem C13_upper_x (g : Grid ℝ) (hg : BoxGrid g)
    (hn : g.nx < 2 ^ 64 ∧ g.ny ≤ 2 ^ 64 ∧ g.nz ≤ 2 ^ 64) (r : Vec3 ℝ)
    (hx : r.x = g.lx) (hy : 0 ≤ r.y ∧ r.y < g.ly) (hz : 0 ≤ r.z ∧ r.z < g.lz) :
    ∃ i, g.whichCell r = .ok i ∧
      ¬ (i < g.nx * g.ny * g.nz ∧ InClosedCell g (g.cellIdxToTuple i) r) := by
  obtain ⟨a, ha, ha1, ha2, ha3⟩ := toUsize_quot (x := r.x) (n := g.nx + 1) hg.dx_pos
    (by rw [hx]; exact hg.lx.le)
    (by rw [hx, hg.lx_eq]; push_cast; nlinarith [hg.dx_pos]) (by omega)
  obtain ⟨b, hb, hb1, hb2, hb3⟩ :=
    toUsize_quot hg.dy_pos hy.1 (by rw [← hg.ly_eq]; exact hy.2) hn.2.1
  obtain ⟨c, hc, hc1, hc2, hc3⟩ :=
    toUsize_quot hg.dz_pos hz.1 (by rw [← hg.lz_eq]; exact hz.2) hn.2.2
  have han : a = g.nx := by
    rw [hx, hg.lx_eq] at ha2 ha3
    have h2 := lt_of_mul_lt_mul_right ha3 hg.dx_pos.le
    have : g.nx < a + 1 := by exact_mod_cast h2
    omega
  subst han
  refine ⟨g.cellTupleToIdx (g.nx, b, c), by unfold Grid.whichCell; rw [ha, hb, hc]; rfl, ?_⟩
  rintro ⟨hlt, hin⟩
  -- the index is that of `(0, b + 1, c)`
  have he : g.cellTupleToIdx (g.nx, b, c) = g.cellTupleToIdx (0, b + 1, c) := by
    unfold Grid.cellTupleToIdx; ring
  rw [he] at hlt hin
  have hxpos := hg.nx
  by_cases hbn : b + 1 < g.ny
  · rw [Grid.tuple_idx (t := (0, b + 1, c)) hxpos hbn] at hin
    have := hin.2.1.1
    push_cast at this
    exact absurd this (not_le.2 hb3)
  · -- the index is that of `(0, 0, c + 1)`
    have hbe : b + 1 = g.ny := by omega
    have he2 : g.cellTupleToIdx (0, b + 1, c) = g.cellTupleToIdx (0, 0, c + 1) := by
      unfold Grid.cellTupleToIdx; dsimp only; rw [hbe]; ring
    rw [he2, Grid.tuple_idx (t := (0, 0, c + 1)) hxpos hg.ny] at hin
    have := hin.2.2.1
    push_cast at this
    exact absurd this (not_le.2 hc3)

/-- **C13** (upper y face): the located index is outside the grid, or that of a cell whose closed box does not contain
the point. -/
theorem C13_upper_y (g : Grid ℝ) (hg : BoxGrid g)
    (hn : g.nx ≤ 2 ^ 64 ∧ g.ny < 2 ^ 64 ∧ g.nz ≤ 2 ^ 64) (r : Vec3 ℝ)
    (hx : 0 ≤ r.x ∧ r.x < g.lx) (hy : r.y = g.ly) (hz : 0 ≤ r.z ∧ r.z < g.lz) :
    ∃ i, g.whichCell r = .ok i ∧
      ¬ (i < g.nx * g.ny * g.nz ∧ InClosedCell g (g.cellIdxToTuple i) r) := by
  obtain ⟨a, ha, ha1, ha2, ha3⟩ :=
    toUsize_quot hg.dx_pos hx.1 (by rw [← hg.lx_eq]; exact hx.2) hn.1
  obtain ⟨b, hb, hb1, hb2, hb3⟩ := toUsize_quot (x := r.y) (n := g.ny + 1) hg.dy_pos
    (by rw [hy]; exact hg.ly.le)
    (by rw [hy, hg.ly_eq]; push_cast; nlinarith [hg.dy_pos]) (by omega)
  obtain ⟨c, hc, hc1, hc2, hc3⟩ :=
    toUsize_quot hg.dz_pos hz.1 (by rw [← hg.lz_eq]; exact hz.2) hn.2.2
  have hbn : b = g.ny := by
    rw [hy, hg.ly_eq] at hb2 hb3
    have h2 := lt_of_mul_lt_mul_right hb3 hg.dy_pos.le
    have : g.ny < b + 1 := by exact_mod_cast h2
    omega
  subst hbn
  refine ⟨g.cellTupleToIdx (a, g.ny, c), by unfold Grid.whichCell; rw [ha, hb, hc]; rfl, ?_⟩
  rintro ⟨hlt, hin⟩
  -- the index is that of `(a, 0, c + 1)`
  have he : g.cellTupleToIdx (a, g.ny, c) = g.cellTupleToIdx (a, 0, c + 1) := by
    unfold Grid.cellTupleToIdx; ring
  rw [he, Grid.tuple_idx (t := (a, 0, c + 1)) ha1 hg.ny] at hin
  have := hin.2.2.1
  push_cast at this
  exact absurd this (not_le.2 hc3)

/-- **C13** (upper z face): the located index is not that of a cell of the grid. -/
theorem C13_upper_z (g : Grid ℝ) (hg : BoxGrid g)
    (hn : g.nx ≤ 2 ^ 64 ∧ g.ny ≤ 2 ^ 64 ∧ g.nz < 2 ^ 64) (r : Vec3 ℝ)
    (hx : 0 ≤ r.x ∧ r.x < g.lx) (hy : 0 ≤ r.y ∧ r.y < g.ly) (hz : r.z = g.lz) :
    ∃ i, g.whichCell r = .ok i ∧ g.nx * g.ny * g.nz ≤ i := by
  obtain ⟨c, hc, hc1, hc2, hc3⟩ := toUsize_quot (x := r.z) (n := g.nz + 1) hg.dz_pos
    (by rw [hz]; exact hg.lz.le)
    (by rw [hz, hg.lz_eq]; push_cast; nlinarith [hg.dz_pos]) (by omega)
  obtain ⟨a, ha, ha1, ha2, ha3⟩ := toUsize_quot hg.dx_pos hx.1 (by rw [← hg.lx_eq]; exact hx.2) hn.1
  obtain ⟨b, hb, hb1, hb2, hb3⟩ :=
    toUsize_quot hg.dy_pos hy.1 (by rw [← hg.ly_eq]; exact hy.2) hn.2.1
  have hcn : c = g.nz := by
    rw [hz, hg.lz_eq] at hc2 hc3
    have h2 := lt_of_mul_lt_mul_right hc3 hg.dz_pos.le
    have : g.nz < c + 1 := by exact_mod_cast h2
    omega
  subst hcn
  refine ⟨g.cellTupleToIdx (a, b, g.nz), by unfold Grid.whichCell; rw [ha, hb, hc]; rfl, ?_⟩
  unfold Grid.cellTupleToIdx
  dsimp only
  have : g.nx * (g.ny * g.nz) ≤ g.nx * (b + g.ny * g.nz) := Nat.mul_le_mul_left _ (by omega)
  rw [Nat.mul_assoc]
  omega

/-- A point of a 10 x 10 x 10 grid over a box of side 100. -/
example : ∃ i, (Grid.new 10 10 10 (100 : ℝ) 100 100).whichCell ⟨5, 15, 99⟩ = .ok i ∧ i < 1000 ∧
    InCell (Grid.new 10 10 10 (100 : ℝ) 100 100)
      ((Grid.new 10 10 10 (100 : ℝ) 100 100).cellIdxToTuple i) ⟨5, 15, 99⟩ :=
  C13_locate _ (Grid.new_box (by norm_num) (by norm_num) (by norm_num) (by norm_num) (by norm_num)
    (by norm_num)) (by simp [Grid.new]) _ (by norm_num [Grid.new]) (by norm_num [Grid.new])
    (by norm_num [Grid.new])

/-! ## Material of a point -/

/-- The point is in the region described by a geometry: a closed box or a closed ball. -/
def InRegion (geom : GeometryParams ℝ) (r : Vec3 ℝ) : Prop :=
  match geom.shape with
  | .brick =>
    (geom.xMin ≤ r.x ∧ r.x ≤ geom.xMax) ∧ (geom.yMin ≤ r.y ∧ r.y ≤ geom.yMax) ∧
    (geom.zMin ≤ r.z ∧ r.z ≤ geom.zMax)
  | .sphere =>
    0 ≤ geom.radius ∧
    (r.x - geom.xCenter) ^ 2 + (r.y - geom.yCenter) ^ 2 + (r.z - geom.zCenter) ^ 2
      ≤ geom.radius ^ 2
  | .undefined => False

theorem isInside_eq (geom : GeometryParams ℝ) (r : Vec3 ℝ) (h : geom.shape ≠ .undefined) :
    ∃ b, isInside geom r = .ok b ∧ (b = true ↔ InRegion geom r) := by
  unfold isInside InRegion
  cases hs : geom.shape with
  | undefined => exact absurd hs h
  | brick =>
    refine ⟨_, rfl, ?_⟩
    simp only [le_eq, Bool.and_eq_true, decide_eq_true_eq]
    tauto
  | sphere =>
    refine ⟨_, rfl, ?_⟩
    simp only [le_eq, decide_eq_true_eq, Vec3.length, Vec3.sub, sub_eq, sqrt_eq, add_eq, mul_eq]
    constructor
    · intro hl
      have h0 : 0 ≤ geom.radius := (Real.sqrt_nonneg _).trans hl
      refine ⟨h0, ?_⟩
      have := (Real.sqrt_le_left h0).1 hl
      nlinarith
    · rintro ⟨h0, hl⟩
      refine (Real.sqrt_le_left h0).2 ?_
      nlinarith

theorem findMaterialName_cons (geom : GeometryParams ℝ) (geoms : List (GeometryParams ℝ))
    (r : Vec3 ℝ) {b : Bool} {name : String} (hb : isInside geom r = .ok b)
    (hn : findMaterialName geoms r = .ok name) :
    findMaterialName (geom :: geoms) r = .ok (if b then geom.materialName else name) := by
  unfold findMaterialName at hn ⊢
  rw [List.reverse_cons, List.foldlM_append, hn]
  simp only [List.foldlM_cons, List.foldlM_nil, hb, bind, Except.bind, pure, Except.pure]

/-- **C38**.  Among geometries with defined shapes, the material of a point is that of the first
geometry of the list whose region contains it; no name is found when there is none. -/
theorem C38_material (geoms : List (GeometryParams ℝ)) (hs : ∀ g ∈ geoms, g.shape ≠ .undefined)
    (r : Vec3 ℝ) :
    (∀ (pre : List (GeometryParams ℝ)) (g : GeometryParams ℝ) (post : List (GeometryParams ℝ)),
      geoms = pre ++ g :: post → InRegion g r → (∀ h ∈ pre, ¬ InRegion h r) →
      findMaterialName geoms r = .ok g.materialName) ∧
    ((∀ g ∈ geoms, ¬ InRegion g r) → findMaterialName geoms r = .ok "") := by
  have hex : ∀ l : List (GeometryParams ℝ), (∀ g ∈ l, g.shape ≠ .undefined) →
      ∃ n, findMaterialName l r = .ok n := by
    intro l
    induction l with
    | nil => intro _; exact ⟨"", rfl⟩
    | cons a l ih =>
      intro h
      obtain ⟨n, hn⟩ := ih (fun g hg => h g (by simp [hg]))
      obtain ⟨b, hb, _⟩ := isInside_eq a r (h a (by simp))
      exact ⟨_, findMaterialName_cons a l r hb hn⟩
  constructor
  · intro pre
    induction pre generalizing geoms with
    | nil =>
      intro g post he hin _
      subst he
      obtain ⟨n, hn⟩ := hex post (fun h hh => hs h (by simp [hh]))
      obtain ⟨b, hb, hbi⟩ := isInside_eq g r (hs g (by simp))
      rw [List.nil_append, findMaterialName_cons g post r hb hn, if_pos (hbi.2 hin)]
    | cons a pre ih =>
      intro g post he hin hpre
      subst he
      have := ih (pre ++ g :: post) (fun h hh => hs h (by
        rw [List.cons_append]; exact List.mem_cons_of_mem _ hh)) g post rfl hin
        (fun h hh => hpre h (by simp [hh]))
      obtain ⟨b, hb, hbi⟩ := isInside_eq a r (hs a (by simp))
      rw [List.cons_append, findMaterialName_cons a _ r hb this]
      have hnb : ¬ b = true := fun h => hpre a (by simp) (hbi.1 h)
      rw [if_neg hnb]
  · intro hno
    induction geoms with
    | nil => rfl
    | cons a l ih =>
      have := ih (fun h hh => hs h (by simp [hh])) (fun h hh => hno h (by simp [hh]))
      obtain ⟨b, hb, hbi⟩ := isInside_eq a r (hs a (by simp))
      rw [findMaterialName_cons a l r hb this]
      have hnb : ¬ b = true := fun h => hno a (by simp) (hbi.1 h)
      rw [if_neg hnb]

/-- **C38** (startup).  A cell whose centre is in no region stops the program at startup, as no
material has an empty name. -/
theorem C38_no_region (g : Grid ℝ) (geoms : List (GeometryParams ℝ)) (mats : List (Material ℝ))
    (mesh : Mesh ℝ) (cell : Nat) (rr c : Vec3 ℝ) (hs : ∀ g ∈ geoms, g.shape ≠ .undefined)
    (hrr : cellPosition3dg mesh cell = .ok rr) (hc : meshCellCenter mesh cell = .ok c)
    (hno : ∀ g ∈ geoms, ¬ InRegion g rr) (hm : ∀ m ∈ mats, m.name ≠ "") :
    cellStateOf g geoms mats mesh cell = .error .unwrapNone := by
  have hnone : findMaterialIdx mats "" = none := by
    unfold findMaterialIdx
    rw [List.findIdx?_eq_none_iff]
    intro m hmm
    simpa using hm m hmm
  unfold cellStateOf
  rw [hrr]
  show (do
    let name ← findMaterialName geoms rr
    let center ← meshCellCenter mesh cell
    let material ← unwrap (findMaterialIdx mats name)
    let volume ← cellVolume mesh cell
    let gid ← g.whichCell center
    return { material := material, volume := volume, cellNumberDensity := Flt.one,
             id := gid * 2 ^ 32, sourceTally := 0 } : Except Panic (CellState ℝ)) = _
  rw [(C38_material geoms hs rr).2 hno, hc]
  show (do
    let material ← unwrap (findMaterialIdx mats "")
    let volume ← cellVolume mesh cell
    let gid ← g.whichCell c
    return { material := material, volume := volume, cellNumberDensity := Flt.one,
             id := gid * 2 ^ 32, sourceTally := 0 } : Except Panic (CellState ℝ)) = _
  rw [hnone]
  rfl

/-- Two overlapping boxes: the first of the list wins. -/
example : findMaterialName
    [{ (GeometryParams.default : GeometryParams ℝ) with
        materialName := "a", shape := .sphere, radius := 1 },
     { (GeometryParams.default : GeometryParams ℝ) with
        materialName := "b", shape := .brick, xMax := 2, yMax := 2, zMax := 2 }]
    ⟨1 / 2, 1 / 2, 1 / 2⟩ = .ok "a" := by
  refine (C38_material _ ?_ _).1 [] _ _ rfl ?_ (by simp)
  · intro g hg
    rcases List.mem_cons.1 hg with rfl | hg
    · simp
    · rw [List.mem_singleton.1 hg]; simp
  · simp only [InRegion, GeometryParams.default, zero_eq]
    norm_num
