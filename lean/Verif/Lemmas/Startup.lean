import Verif.Lemmas.CellShape
import Verif.Spec.Startup
import Verif.Props.Nearest
import Mathlib.Data.String.Basic
/-!
# Start-up of a run on one unit: helper lemmas
-/
open Flt FltReal GridSpec MeshSpec
attribute [local irreducible] Rng.lcg Rng.sample Rng.spawn

namespace Flooding

/-- With a single centre, every point that is not too far is assigned to it. -/
theorem single_center (c0 : Vec3 ℝ) : ∃ a, Assigner.new [c0] = .ok a ∧
    ∀ r : Vec3 ℝ, |r.x - c0.x| < 2 ^ 64 → |r.y - c0.y| < 2 ^ 64 → |r.z - c0.z| < 2 ^ 64 →
      a.nearestCenter r = .ok (0, a) := by
  have hlo : Assigner.lower c0 [c0] = c0 := by simp [Assigner.lower]
  have hhi : Assigner.upper c0 [c0] = c0 := by simp [Assigner.upper]
  obtain ⟨s0, s3⟩ := Assigner.scale_cube (n := 1) (lx := 1) (ly := 1) (lz := 1) le_rfl le_rfl le_rfl
  set s := Assigner.scale 1 1 1 1 with hs
  have hs1 : s < 1 := by
    by_contra hcon
    push Not at hcon
    have := one_le_pow₀ hcon (n := 3)
    rw [s3] at this
    norm_num at this
  have hcount : Assigner.count s 1 = 1 := by
    unfold Assigner.count
    rw [mul_one, Nat.floor_eq_zero.2 hs1]
    rfl
  have hnew := Assigner.new_eq c0 []
  simp only [hlo, hhi, sub_self, max_eq_left (zero_le_one (α := ℝ)), List.length_singleton, ← hs,
    hcount] at hnew
  rw [if_pos (by norm_num)] at hnew
  obtain ⟨a, ha, e1, e2, e3, e4⟩ := Assigner.blank_register (c0 := c0) (cs := []) (lo := c0) (lx := 1)
    (ly := 1) (lz := 1) (s := s) hs le_rfl le_rfl le_rfl
    (by intro c hc; rw [List.mem_singleton.1 hc]; exact ⟨by linarith, by linarith, by linarith⟩)
    (by rw [hcount]; norm_num)
  refine ⟨a, hnew.trans ha, fun r h1 h2 h3 => ?_⟩
  have d1 : ∀ {x : ℝ}, |x| < 2 ^ 64 → x / (1 / (Assigner.count s 1 : ℝ)) < 2 ^ 64 := by
    intro x hx
    rw [hcount]
    norm_num
    have := lt_of_le_of_lt (le_abs_self x) hx
    norm_num at this
    exact this
  obtain ⟨k, hk, c, hkc, _⟩ := C44_any_query (hnew.trans ha) (r := r) (by rw [e1, e2]; exact d1 h1)
    (by rw [e1, e3]; exact d1 h2) (by rw [e1, e4]; exact d1 h3)
    ⟨c0, by simp, by
      have sq : ∀ {x : ℝ}, |x| < 2 ^ 64 → x ^ 2 ≤ (2 ^ 64) ^ 2 := by
        intro x hx
        rw [← sq_abs]
        exact pow_le_pow_left₀ (abs_nonneg _) hx.le 2
      have : sqDist r c0 ≤ 3 * (2 ^ 64) ^ 2 := by
        unfold sqDist
        have := sq h1
        have := sq h2
        have := sq h3
        linarith
      refine lt_of_le_of_lt this ?_
      calc (3 : ℝ) * (2 ^ 64) ^ 2 < 10 ^ 40 := by norm_num
        _ ≤ 10 ^ 300 := pow_le_pow_right₀ (by norm_num) (by norm_num)⟩
  cases k with
  | zero => exact hk
  | succ k => simp at hkc

/-- The centre of a cell, inside the grid or not. -/
theorem cellCenter_box (g : Grid ℝ) (i : Nat) :
    g.cellCenter i = .ok (boxCenter g (g.cellIdxToTuple i)) := cellCenter_eq g i

/-- Index of a coordinate, for a centre. -/
theorem toUsize_center {k : Nat} {d : ℝ} (hd : 0 < d) (hk : k < 2 ^ 64) :
    Flt.toUsize ((k * d + d / 2) /. d) = some k := by
  have h64 : ((k + 1 : Nat) : ℝ) ≤ 2 ^ 64 := by exact_mod_cast hk
  rw [Nat.cast_add, Nat.cast_one] at h64
  have hk0 : (0 : ℝ) ≤ k := Nat.cast_nonneg k
  have hq : (k * d + d / 2) / d = k + 1 / 2 := by field_simp
  rw [div_eq, hq, toUsize_eq, if_pos ⟨by linarith, by linarith⟩]
  congr 1
  exact (Nat.floor_eq_iff (by linarith)).2 ⟨by linarith, by linarith⟩

theorem whichCell_center {g : Grid ℝ} (hg : BoxGrid g) {i : Nat}
    (hi : (g.cellIdxToTuple i).1 < 2 ^ 64 ∧ (g.cellIdxToTuple i).2.1 < 2 ^ 64 ∧
      (g.cellIdxToTuple i).2.2 < 2 ^ 64) :
    g.whichCell (boxCenter g (g.cellIdxToTuple i)) = .ok i := by
  unfold Grid.whichCell boxCenter
  simp only
  rw [toUsize_center hg.dx_pos hi.1, toUsize_center hg.dy_pos hi.2.1, toUsize_center hg.dz_pos hi.2.2]
  show Except.ok _ = _
  rw [Grid.idx_tuple]

/-- The partition of the only unit: the cells visited are those reached from the root, numbered in
the iteration order of the map. -/
theorem partition_spec {order : IterOrder} (ho : ∀ l, (order l).Perm l) {g : Grid ℝ} (hg : BoxGrid g)
    (root : Nat) (hroot : (g.cellIdxToTuple root).2.2 < 2 ^ 64)
    (hn : g.nx ≤ 2 ^ 64 ∧ g.ny ≤ 2 ^ 64 ∧ g.nz ≤ 2 ^ 64)
    (hfar : ∀ c ∈ reached g root, ∀ c' ∈ reached g root,
      |(boxCenter g (g.cellIdxToTuple c)).x - (boxCenter g (g.cellIdxToTuple c')).x| < 2 ^ 64 ∧
      |(boxCenter g (g.cellIdxToTuple c)).y - (boxCenter g (g.cellIdxToTuple c')).y| < 2 ^ 64 ∧
      |(boxCenter g (g.cellIdxToTuple c)).z - (boxCenter g (g.cellIdxToTuple c')).z| < 2 ^ 64)
    (fuel : Nat) (hfuel : (reached g root).length ≤ fuel) :
    ∃ (l : List Nat) (m : HMap Nat CellInfo), l.Perm (reached g root) ∧ m.keys = l ∧
      buildMeshPartition order fuel g [boxCenter g (g.cellIdxToTuple root)] (Partition.new 0 0)
        = .ok ({ domainGid := 0, foreman := 0, cellInfoMap := m, nbrDomains := [] }, []) ∧
      ∀ j c, (order l)[j]? = some c → m.get? c = some (placed j) := by
  obtain ⟨a, ha, hnear⟩ := single_center (boxCenter g (g.cellIdxToTuple root))
  have hxy : (g.cellIdxToTuple root).1 < 2 ^ 64 ∧ (g.cellIdxToTuple root).2.1 < 2 ^ 64 :=
    ⟨lt_of_lt_of_le (Nat.mod_lt _ hg.nx) hn.1, lt_of_lt_of_le (Nat.mod_lt _ hg.ny) hn.2.1⟩
  obtain ⟨l, h1, h2⟩ := assignCells_spec (g := g) ⟨hg.nx, hg.ny, hg.nz⟩ a
    (boxCenter g (g.cellIdxToTuple root)) (Partition.new 0 0) rfl rfl ha root
    (whichCell_center hg ⟨hxy.1, hxy.2, hroot⟩)
    (by
      intro c hc
      refine ⟨_, cellCenter_box g c, ?_⟩
      obtain ⟨f1, f2, f3⟩ := hfar c hc root (root_reached root)
      exact hnear _ f1 f2 f3) fuel hfuel
  have hl : l.Nodup := h2.nodup_iff.2 (reached_nodup root)
  obtain ⟨m, m1, m2, m3⟩ := buildCellIdxMap_spec (g := g) ho hl
    (p := { (Partition.new 0 0) with cellInfoMap := l.map fun c => (c, found) }) rfl rfl rfl
  refine ⟨l, m, h2, m2, ?_, m3⟩
  unfold buildMeshPartition
  simp only [h1, m1, bind, Except.bind]
  rfl

theorem grid_box {params : Params ℝ} {mats : List (Material ℝ)} (h : SingleUnit params mats) :
    BoxGrid params.grid :=
  Grid.new_box h.counts.1.1 h.counts.2.1.1 h.counts.2.2.1 h.sizes.1.1 h.sizes.2.1.1 h.sizes.2.2.1

/-- The centre drawn at start-up. -/
theorem initCenters_eq {params : Params ℝ} {mats : List (Material ℝ)} (h : SingleUnit params mats) :
    initCenters params.grid 1 (BitVec.ofNat 64 (params.simulation.seed + 1))
      = .ok [boxCenter params.grid (params.grid.cellIdxToTuple params.rootCell)] := by
  have hfl : ∀ (s : BitVec 64) {n : Nat}, n < 2 ^ 31 →
      Flt.toUsize (Flt.floor ((Rng.sample (T := ℝ) s).1 *. Flt.ofNat n)) = some ⌊Rng.draw s * n⌋₊ := by
    intro s n hn
    have h0 := Rng.draw_nonneg s
    have h1 := Rng.draw_le_one s
    have hn' : (n : ℝ) < 2 ^ 31 := by exact_mod_cast hn
    have hn0 : (0 : ℝ) ≤ n := Nat.cast_nonneg n
    have hp : 0 ≤ Rng.draw s * n := mul_nonneg h0 hn0
    have hle : Rng.draw s * n ≤ n := mul_le_of_le_one_left hn0 h1
    show Flt.toUsize (⌊Rng.draw s * n⌋ : ℝ) = _
    have hf0 : (0 : ℝ) ≤ (⌊Rng.draw s * n⌋ : ℝ) := by exact_mod_cast Int.floor_nonneg.2 hp
    have hf1 : (⌊Rng.draw s * n⌋ : ℝ) ≤ Rng.draw s * n := Int.floor_le _
    rw [toUsize_eq, if_pos ⟨by linarith, by
      have : (2 : ℝ) ^ 31 < 2 ^ 64 := by norm_num
      linarith⟩]
    congr 1
    rw [← Int.floor_toNat, Int.floor_intCast, Int.floor_toNat]
  have hsnd : ∀ s, (Rng.sample (T := ℝ) s).2 = Rng.lcg s := fun s => by unfold Rng.sample; rfl
  unfold initCenters randomCenter
  have hx : params.grid.nx = params.simulation.nx := rfl
  have hy : params.grid.ny = params.simulation.ny := rfl
  have hz : params.grid.nz = params.simulation.nz := rfl
  simp only [hsnd, hx, hy, hz, hfl _ h.counts.1.2, hfl _ h.counts.2.1.2, hfl _ h.counts.2.2.2, unwrap,
    bind, Except.bind, pure, Except.pure, cellCenter_box, initCenters]
  rfl

/-- Coordinates of the cell drawn at start-up. -/
theorem root_tuple {params : Params ℝ} {mats : List (Material ℝ)} (h : SingleUnit params mats) :
    (params.grid.cellIdxToTuple params.rootCell).2.2 ≤ params.grid.nz + 2 := by
  have hfl : ∀ (s : BitVec 64) (n : Nat), ⌊Rng.draw s * n⌋₊ ≤ n := fun s n => by
    have : Rng.draw s * n ≤ n := mul_le_of_le_one_left (Nat.cast_nonneg n) (Rng.draw_le_one s)
    exact (Nat.floor_le_floor this).trans (by rw [Nat.floor_natCast])
  have hx0 : 0 < params.grid.nx := h.counts.1.1
  have hy0 : 0 < params.grid.ny := h.counts.2.1.1
  unfold Params.rootCell
  simp only
  have hx := hfl (BitVec.ofNat 64 (params.simulation.seed + 1)) params.simulation.nx
  have hy := hfl (Rng.lcg (BitVec.ofNat 64 (params.simulation.seed + 1))) params.simulation.ny
  have hz := hfl (Rng.lcg (Rng.lcg (BitVec.ofNat 64 (params.simulation.seed + 1)))) params.simulation.nz
  have ex : params.grid.nx = params.simulation.nx := rfl
  have ey : params.grid.ny = params.simulation.ny := rfl
  have ez : params.grid.nz = params.simulation.nz := rfl
  rw [← ex] at hx
  rw [← ey] at hy
  rw [← ez] at hz
  rw [← ex, ← ey, ← ez]
  generalize ⌊Rng.draw (BitVec.ofNat 64 (params.simulation.seed + 1)) * (params.grid.nx : ℝ)⌋₊ = x at *
  generalize ⌊Rng.draw (Rng.lcg (BitVec.ofNat 64 (params.simulation.seed + 1))) * (params.grid.ny : ℝ)⌋₊ = y at *
  generalize ⌊Rng.draw (Rng.lcg (Rng.lcg (BitVec.ofNat 64 (params.simulation.seed + 1)))) * (params.grid.nz : ℝ)⌋₊ = z at *
  show (x + params.grid.nx * (y + params.grid.ny * z)) / params.grid.nx / params.grid.ny ≤ _
  rw [Nat.div_div_eq_div_mul]
  refine Nat.div_le_of_le_mul ?_
  generalize params.grid.nx = a at *
  generalize params.grid.ny = b at *
  generalize params.grid.nz = e at *
  have h1 : a * (y + b * z) ≤ a * (b + b * e) :=
    Nat.mul_le_mul_left _ (Nat.add_le_add hy (Nat.mul_le_mul_left _ hz))
  have h2 : a ≤ a * b := Nat.le_mul_of_pos_right _ hy0
  nlinarith

theorem center_bounds {g : Grid ℝ} (hg : BoxGrid g) {c : Nat} (hz : (g.cellIdxToTuple c).2.2 ≤ g.nz + 2) :
    (0 ≤ (boxCenter g (g.cellIdxToTuple c)).x ∧ (boxCenter g (g.cellIdxToTuple c)).x ≤ g.lx) ∧
    (0 ≤ (boxCenter g (g.cellIdxToTuple c)).y ∧ (boxCenter g (g.cellIdxToTuple c)).y ≤ g.ly) ∧
    (0 ≤ (boxCenter g (g.cellIdxToTuple c)).z ∧ (boxCenter g (g.cellIdxToTuple c)).z ≤ 4 * g.lz) := by
  have px := hg.dx_pos
  have py := hg.dy_pos
  have pz := hg.dz_pos
  have hx : (((g.cellIdxToTuple c).1 + 1 : Nat) : ℝ) ≤ g.nx := by
    exact_mod_cast Nat.mod_lt c hg.nx
  have hy : (((g.cellIdxToTuple c).2.1 + 1 : Nat) : ℝ) ≤ g.ny := by
    exact_mod_cast Nat.mod_lt (c / g.nx) hg.ny
  have hz' : ((g.cellIdxToTuple c).2.2 : ℝ) ≤ g.nz + 2 := by exact_mod_cast hz
  have hnz : (1 : ℝ) ≤ g.nz := by exact_mod_cast hg.nz
  rw [Nat.cast_add, Nat.cast_one] at hx hy
  rw [hg.lx_eq, hg.ly_eq, hg.lz_eq]
  unfold boxCenter
  simp only
  refine ⟨⟨by positivity, by nlinarith⟩, ⟨by positivity, by nlinarith⟩, ⟨by positivity, by nlinarith⟩⟩

theorem tuple_z_of_lt {g : Grid ℝ} {c : Nat} (hc : c < cells g) :
    (g.cellIdxToTuple c).2.2 ≤ g.nz + 2 := by
  have := (Grid.idx_inGrid hc).2.2
  omega

/-- The partition of the only unit, for any draw of the centre. -/
theorem partition_start {order : IterOrder} (ho : ∀ l, (order l).Perm l) {params : Params ℝ}
    {mats : List (Material ℝ)} (h : SingleUnit params mats) (fuel : Nat)
    (hfuel : cells params.grid + 1 ≤ fuel) :
    ∃ (l : List Nat) (m : HMap Nat CellInfo), l.Perm (reached params.grid params.rootCell) ∧ m.keys = l ∧
      buildMeshPartition order fuel params.grid
        [boxCenter params.grid (params.grid.cellIdxToTuple params.rootCell)] (Partition.new 0 0)
        = .ok ({ domainGid := 0, foreman := 0, cellInfoMap := m, nbrDomains := [] }, []) ∧
      ∀ j c, (order l)[j]? = some c → m.get? c = some (placed j) := by
  have hg := grid_box h
  have hr := root_tuple h
  refine partition_spec ho hg params.rootCell ?_ ?_ ?_ fuel ?_
  · have : params.grid.nz < 2 ^ 31 := h.counts.2.2.2
    omega
  · have h1 : params.grid.nx < 2 ^ 31 := h.counts.1.2
    have h2 : params.grid.ny < 2 ^ 31 := h.counts.2.1.2
    have h3 : params.grid.nz < 2 ^ 31 := h.counts.2.2.2
    omega
  · have hz : ∀ c ∈ reached params.grid params.rootCell,
        (params.grid.cellIdxToTuple c).2.2 ≤ params.grid.nz + 2 := by
      intro c hc
      unfold reached at hc
      split at hc
      · exact tuple_z_of_lt (List.mem_range.1 hc)
      · rcases List.mem_cons.1 hc with rfl | hc
        · exact hr
        · exact tuple_z_of_lt (List.mem_range.1 hc)
    have hlx : params.grid.lx ≤ 2 ^ 60 := h.sizes.1.2
    have hly : params.grid.ly ≤ 2 ^ 60 := h.sizes.2.1.2
    have hlz : params.grid.lz ≤ 2 ^ 60 := h.sizes.2.2.2
    intro c hc c' hc'
    obtain ⟨⟨a1, a2⟩, ⟨a3, a4⟩, ⟨a5, a6⟩⟩ := center_bounds hg (hz c hc)
    obtain ⟨⟨b1, b2⟩, ⟨b3, b4⟩, ⟨b5, b6⟩⟩ := center_bounds hg (hz c' hc')
    refine ⟨?_, ?_, ?_⟩ <;> rw [abs_lt] <;> constructor <;> norm_num at hlx hly hlz ⊢ <;> linarith
  · unfold reached
    split <;> simp <;> omega

theorem lookup_name {T : Type} [Flt T] {mats : List (Material T)} {name : String} (h : ∃ m ∈ mats, m.name = name) :
    ∃ k m, findMaterialIdx mats name = some k ∧ mats[k]? = some m ∧ m.name = name := by
  unfold findMaterialIdx
  cases hk : mats.findIdx? (fun m => m.name == name) with
  | none =>
    rw [List.findIdx?_eq_none_iff] at hk
    obtain ⟨m, hm, he⟩ := h
    exact absurd (hk m hm) (by simp [he])
  | some k =>
    rw [List.findIdx?_eq_some_iff_getElem] at hk
    obtain ⟨hlt, he, _⟩ := hk
    exact ⟨k, mats[k], rfl, List.getElem?_eq_getElem hlt, by simpa using he⟩

/-- First region of a list that contains the point. -/
theorem first_region {geoms : List (GeometryParams ℝ)} {r : Vec3 ℝ} (h : ∃ g ∈ geoms, InRegion g r) :
    ∃ pre g post, geoms = pre ++ g :: post ∧ InRegion g r ∧ ∀ h ∈ pre, ¬ InRegion h r := by
  induction geoms with
  | nil => obtain ⟨_, h, _⟩ := h; simp at h
  | cons a l ih =>
    by_cases ha : InRegion a r
    · exact ⟨[], a, l, rfl, ha, by simp⟩
    · obtain ⟨pre, g, post, e, h1, h2⟩ := ih (by
        obtain ⟨g, hg, hr⟩ := h
        rcases List.mem_cons.1 hg with rfl | hg
        · exact absurd hr ha
        · exact ⟨g, hg, hr⟩)
      refine ⟨a :: pre, g, post, by rw [e]; rfl, h1, ?_⟩
      intro x hx
      rcases List.mem_cons.1 hx with rfl | hx
      · exact ha
      · exact h2 x hx

/-- State of a cell of the mesh. -/
theorem cellState_spec {params : Params ℝ} {mats : List (Material ℝ)} (h : SingleUnit params mats)
    {bc : List AdjEvent} {cs : List Nat} {nodeOf : Nat → Nat} {mesh : Mesh ℝ}
    (hb : Built params.grid bc cs nodeOf mesh) {i c : Nat} (hi : cs[i]? = some c) :
    ∃ k m, mats[k]? = some m ∧
      (∃ pre geom post, params.geometries = pre ++ geom :: post ∧ m.name = geom.materialName ∧
        InRegion geom (boxCenter params.grid (params.grid.cellIdxToTuple c)) ∧
        ∀ x ∈ pre, ¬ InRegion x (boxCenter params.grid (params.grid.cellIdxToTuple c))) ∧
      cellStateOf params.grid params.geometries mats mesh i = .ok
        { material := k, volume := params.grid.dx * params.grid.dy * params.grid.dz,
          cellNumberDensity := 1, id := c * 2 ^ 32, sourceTally := 0 } := by
  have hc := hb.lt hi
  obtain ⟨pre, geom, post, e, h1, h2⟩ := first_region (h.covered c hc)
  have hgm : geom ∈ params.geometries := by rw [e]; simp
  obtain ⟨k, m, hk, hm, hname⟩ := lookup_name (h.materials geom hgm)
  refine ⟨k, m, hm, ⟨pre, geom, post, e, hname, h1, h2⟩, ?_⟩
  have hin := Grid.idx_inGrid hc
  have hw := whichCell_center (grid_box h) (i := c) (by
    have h1 : params.grid.nx < 2 ^ 31 := h.counts.1.2
    have h2 : params.grid.ny < 2 ^ 31 := h.counts.2.1.2
    have h3 : params.grid.nz < 2 ^ 31 := h.counts.2.2.2
    obtain ⟨a, b, c⟩ := hin
    omega)
  unfold cellStateOf
  simp only [hb.position hi, (C38_material params.geometries h.shapes _).1 pre geom post e h1 h2,
    hb.center hi, hk, hb.volume (grid_box h) hi, hw, unwrap, bind, Except.bind, pure, Except.pure, one_eq]

theorem border_list {s : String} (h : ∀ f, (borderEvent s f).isSome) :
    ∃ bc, getBoundaryConditions s = .ok bc ∧ ∀ f, bc[Face.num f]? = borderEvent s f := by
  unfold getBoundaryConditions
  split
  · rename_i h1; subst h1
    exact ⟨_, rfl, fun f => by cases f <;> rfl⟩
  split
  · rename_i h1; subst h1
    exact ⟨_, rfl, fun f => by cases f <;> rfl⟩
  split
  · rename_i h1; subst h1
    exact ⟨_, rfl, fun f => by cases f <;> rfl⟩
  · rename_i h1 h2 h3
    have := h .xp
    unfold borderEvent at this
    split at this <;> simp_all

/-- What start-up produces. -/
theorem initMesh_spec {order : IterOrder} (ho : ∀ l, (order l).Perm l) {params : Params ℝ}
    {mats : List (Material ℝ)} (h : SingleUnit params mats) (hroot : params.rootCell < cells params.grid)
    (fuel : Nat) (hfuel : cells params.grid + 1 ≤ fuel) :
    ∃ (dom : Domain ℝ) (bc : List AdjEvent) (cs : List Nat) (nodeOf : Nat → Nat),
      initMesh order fuel params mats = .ok [dom] ∧
      getBoundaryConditions params.simulation.boundaryCondition = .ok bc ∧
      Built params.grid bc cs nodeOf dom.mesh ∧
      dom.globalDomain = 0 ∧ dom.numGroups = params.simulation.nGroups ∧
      dom.cells.length = cells params.grid ∧
      ∀ i c, cs[i]? = some c → ∃ st, dom.cells[i]? = some st ∧
        cellStateOf params.grid params.geometries mats dom.mesh i = .ok st := by
  obtain ⟨l, m, p1, p2, p3, p4⟩ := partition_start ho h fuel hfuel
  obtain ⟨bc, hbc, _⟩ := border_list h.border
  set p : Partition := { domainGid := 0, foreman := 0, cellInfoMap := m, nbrDomains := [] } with hp
  have hre : reached params.grid params.rootCell = List.range (cells params.grid) := by
    unfold reached; rw [if_pos hroot]
  rw [hre] at p1
  have hnum : Numbered params.grid p (order l) :=
    ⟨rfl, rfl, by rw [hp]; show m.keys.Nodup; rw [p2]; exact p1.nodup_iff.2 List.nodup_range,
      (ho l).trans p1, p4⟩
  obtain ⟨ddc, hddc⟩ : ∃ ddc, Decomposition.new 0 1 4 = .ok ddc := ⟨_, rfl⟩
  obtain ⟨mesh, nodeOf, hmesh, hbuilt⟩ := meshBuild_spec ho hnum (by rw [hp]; show order m.keys = _; rw [p2])
    (goodBc hbc) ddc
  have hlen : mesh.cellGeometry.length = (order l).length := by rw [hbuilt.geom, List.length_map]
  have hlenc : (order l).length = cells params.grid := by
    rw [((ho l).trans p1).length_eq, List.length_range]
  obtain ⟨states, hst⟩ : ∃ states, (List.range mesh.cellGeometry.length).mapM
      (cellStateOf params.grid params.geometries mats mesh) = .ok states := by
    refine mapM_ok_exists fun i hi => ?_
    have hi' := List.mem_range.1 hi
    rw [hlen] at hi'
    obtain ⟨_, _, _, _, e⟩ := cellState_spec h hbuilt (List.getElem?_eq_getElem hi')
    exact ⟨_, e⟩
  refine ⟨{ globalDomain := mesh.domainGid, cells := states, mesh := mesh,
            numGroups := params.simulation.nGroups }, bc, order l, nodeOf, ?_, hbc, hbuilt, hbuilt.domain,
    rfl, ?_, ?_⟩
  · unfold initMesh
    have hgrid : Grid.new params.simulation.nx params.simulation.ny params.simulation.nz
      params.simulation.lx params.simulation.ly params.simulation.lz = params.grid := rfl
    have hcomm : Comm.new ((List.range 1).map fun i => Partition.new i 0)
      = .ok ⟨[Partition.new 0 0], [0]⟩ := rfl
    have hparts : buildPartitions order fuel params.grid
        [boxCenter params.grid (params.grid.cellIdxToTuple params.rootCell)] (List.range 1)
        ⟨[Partition.new 0 0], [0]⟩ = .ok ⟨[p], [0]⟩ := by
      show buildPartitions order fuel params.grid _ [0] _ = _
      unfold buildPartitions
      have h0 : idx [Partition.new 0 0] 0 = .ok (Partition.new 0 0) := rfl
      simp only [h0, p3, bind, Except.bind, sendRemote, buildPartitions]
      rfl
    simp only [hddc, hgrid, h.units, if_pos h.seed, initCenters_eq h, hcomm, bind, Except.bind]
    have hl1 : (⟨[Partition.new 0 0], [0]⟩ : Comm).partition.length = 1 := rfl
    rw [hl1, hparts]
    have hdom : Domain.build order p params.grid ddc params mats
        = .ok (Domain.mk mesh.domainGid states mesh params.simulation.nGroups) := by
      unfold Domain.build
      simp only [hbc, hmesh, hst, bind, Except.bind, pure, Except.pure]
    have h0 : idx [p] 0 = .ok p := rfl
    simp only [List.range_succ, List.range_zero, List.nil_append, List.mapM_cons, List.mapM_nil, h0, hdom,
      bind, Except.bind, pure, Except.pure]
  · rw [mapM_ok_length hst, List.length_range, hlen, hlenc]
  · intro i c hi
    have hi' : i < mesh.cellGeometry.length := by
      rw [hlen]; exact (List.getElem?_eq_some_iff.1 hi).1
    exact mapM_ok_getElem hst i i (by rw [List.getElem?_range hi'])

end Flooding
