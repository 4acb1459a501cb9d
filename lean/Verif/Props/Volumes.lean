import Verif.Props.Rounded
import Verif.Lemmas.LocateFloat
/-!
# C89: volumes and materials of the cells, with rounding

The sizes of the problem and the numbers of cells of the input give the exact volume and the exact centre of every
cell.  The theorems compare them with what a run computes, in every arithmetic that follows the rules of IEEE 754.
-/
open Flt Ieee Flooding Config GridSpec MeshSpec
attribute [local irreducible] Rng.lcg Rng.sample Rng.spawn
variable {T : Type} [Flt T] [Ieee T]

omit [Ieee T] in
/-- The cells of every cycle have the volumes, materials and identifiers of the start. -/
theorem cell_of_start {so : StrOrder} {io : IterOrder} {m : Machine} {fuel : Nat} {p : Params T} {s : Started T}
    (hs : startRun so io m fuel p = .ok (some s)) {fuel' n : Nat} (hle : n ≤ p.simulation.nSteps) {s1 : SimState T}
    (hcyc : Cycles s.data s.exec s.opts fuel' n s.state s1) {st : CellState T} (hst : st ∈ s1.unit.dom.cells) :
    ∃ st0 ∈ s.state.unit.dom.cells, st.volume = st0.volume ∧ st.material = st0.material ∧ st.id = st0.id := by
  obtain ⟨_, hset, hfresh⟩ := C64_started hs
  obtain ⟨hsk, _⟩ := cycles_reachableBy hfresh.initial (by rw [hset.nSteps]; omega) hcyc
  obtain ⟨i, hi⟩ := List.getElem?_of_mem hst
  obtain ⟨c', hc', he⟩ := cells_skeleton hsk hi
  have e1 := congrArg (fun c : CellState T => c.volume) he
  have e2 := congrArg (fun c : CellState T => c.material) he
  have e3 := congrArg (fun c : CellState T => c.id) he
  exact ⟨c', List.mem_of_getElem? hc', e1, e2, e3⟩

/-- **C89** (volumes).  In every cycle of a run, the volume of every cell is a finite number, within an eighth of the
exact volume of a cell. -/
theorem C89_volume {so : StrOrder} (hso : ∀ l, (so l).Perm l) {io : IterOrder} (hio : ∀ l, (io l).Perm l)
    {m : Machine} {p : Params T} (hn : NamedParams p) (hc : Consistent p) (hm : FloatMesh p) (hi : FloatInput p)
    (hpart : 10 * p.askedCells ≤ p.simulation.nParticles) {fuel : Nat} (hfuel : p.askedCells ≤ fuel) {X Y Z : ℝ}
    (hside : p.CellSides X Y Z) {s : Started T} (hs : startRun so io m fuel p = .ok (some s)) {fuel' n : Nat}
    (hle : n ≤ p.simulation.nSteps) {s1 : SimState T} (hcyc : Cycles s.data s.exec s.opts fuel' n s.state s1)
    (st : CellState T) (hst : st ∈ s1.unit.dom.cells) :
    ∃ w : ℝ, val st.volume = some (w : EReal) ∧ |w - X * Y * Z| ≤ X * Y * Z / 8 := by
  obtain ⟨s', h1, h2⟩ := hm.start hn hc hi hpart hso hio m fuel hfuel
  rw [hs] at h1
  cases h1
  obtain ⟨st0, hst0, e, _⟩ := cell_of_start hs hle hcyc hst
  obtain ⟨c, r, c1, c2, c3, _⟩ := h2 st0 hst0
  rw [e, c3]
  exact volume_close hm.sizedInput hside c1 c2

omit [Ieee T] in
theorem find_step {geom : GeometryParams T} {geoms : List (GeometryParams T)} {r : Vec3 T} {b : Bool} {name : String}
    (hb : isInside geom r = .ok b) (hn : findMaterialName geoms r = .ok name) :
    findMaterialName (geom :: geoms) r = .ok (if b then geom.materialName else name) := by
  unfold findMaterialName at hn ⊢
  rw [List.reverse_cons, List.foldlM_append, hn]
  simp only [List.foldlM_cons, List.foldlM_nil, hb, bind, Except.bind, pure, Except.pure]

/-- **C89** (materials).  When every region is a brick, with bounds further from the exact centre of the cell `c` than
1/200 of the size of a cell, the material of the cell in every cycle is that of the first region that contains the exact
centre. -/
theorem C89_material {so : StrOrder} (hso : ∀ l, (so l).Perm l) {io : IterOrder} (hio : ∀ l, (io l).Perm l)
    {m : Machine} {p : Params T} (hn : NamedParams p) (hc : Consistent p) (hm : FloatMesh p) (hi : FloatInput p)
    (hpart : 10 * p.askedCells ≤ p.simulation.nParticles) {fuel : Nat} (hfuel : p.askedCells ≤ fuel) {X Y Z : ℝ}
    (hside : p.CellSides X Y Z) {s : Started T} (hs : startRun so io m fuel p = .ok (some s)) {fuel' n : Nat}
    (hle : n ≤ p.simulation.nSteps) {s1 : SimState T} (hcyc : Cycles s.data s.exec s.opts fuel' n s.state s1)
    {i j k : Nat} (hij : i < p.simulation.nx ∧ j < p.simulation.ny ∧ k < p.simulation.nz)
    (hbricks : ∀ geom ∈ p.geometries, geom.shape = .brick ∧
      ClearOf geom.xMin geom.xMax (exactCentre i X) (X / 200) ∧ ClearOf geom.yMin geom.yMax (exactCentre j Y) (Y / 200) ∧
      ClearOf geom.zMin geom.zMax (exactCentre k Z) (Z / 200))
    {pre : List (GeometryParams T)} {geom : GeometryParams T} {post : List (GeometryParams T)}
    (hsplit : p.geometries = pre ++ geom :: post)
    (hin : InBrick geom (exactCentre i X) (exactCentre j Y) (exactCentre k Z))
    (hfirst : ∀ h ∈ pre, ¬ InBrick h (exactCentre i X) (exactCentre j Y) (exactCentre k Z))
    (st : CellState T) (hst : st ∈ s1.unit.dom.cells)
    (hid : st.id = (i + p.simulation.nx * (j + p.simulation.ny * k)) * 2 ^ 32) :
    ∃ mat, s.data.materials[st.material]? = some mat ∧ mat.name = geom.materialName := by
  obtain ⟨s', h1, h2⟩ := hm.start hn hc hi hpart hso hio m fuel hfuel
  rw [hs] at h1
  cases h1
  obtain ⟨st0, hst0, _, e2, e3⟩ := cell_of_start hs hle hcyc hst
  obtain ⟨c, r, c1, c2, _, _, mat, d1, d2, d3⟩ := h2 st0 hst0
  obtain ⟨r', l1, l2⟩ := meanPoint_located hm.sized c1
  rw [c2] at l1
  cases l1
  rw [d1, ← e3, hid, Nat.mul_div_cancel _ (by norm_num)] at l2
  have hc' : i + p.simulation.nx * (j + p.simulation.ny * k) = c := Except.ok.inj l2
  have htup : p.gridOf.cellIdxToTuple c = (i, j, k) := by
    rw [← hc']
    exact Grid.tuple_idx (g := p.gridOf) (t := (i, j, k)) hij.1 hij.2.1
  rw [e2]
  refine ⟨mat, d2, ?_⟩
  have test : ∀ g ∈ p.geometries, ∃ b, isInside g r = .ok b ∧
      (b = true ↔ InBrick g (exactCentre i X) (exactCentre j Y) (exactCentre k Z)) := by
    intro g hg
    obtain ⟨g1, g2, g3, g4⟩ := hbricks g hg
    have := brick_test hm.sizedInput hside g1 c1 c2 (by rw [htup]; exact g2) (by rw [htup]; exact g3)
      (by rw [htup]; exact g4)
    rw [htup] at this
    exact this
  have any : ∀ l : List (GeometryParams T), (∀ g ∈ l, g ∈ p.geometries) → ∃ name, findMaterialName l r = .ok name := by
    intro l
    induction l with
    | nil => intro _; exact ⟨"", rfl⟩
    | cons a l ih =>
      intro h
      obtain ⟨name, hname⟩ := ih fun g hg => h g (by simp [hg])
      obtain ⟨b, hb, _⟩ := test a (h a (by simp))
      exact ⟨_, find_step hb hname⟩
  have main : ∀ l : List (GeometryParams T), (∀ g ∈ l, g ∈ p.geometries) →
      (∀ h ∈ l, ¬ InBrick h (exactCentre i X) (exactCentre j Y) (exactCentre k Z)) →
      findMaterialName (l ++ geom :: post) r = .ok geom.materialName := by
    intro l
    induction l with
    | nil =>
      intro _ _
      obtain ⟨name, hname⟩ := any post fun g hg => by rw [hsplit]; simp [hg]
      obtain ⟨b, hb, hb'⟩ := test geom (by rw [hsplit]; simp)
      rw [List.nil_append, find_step hb hname, hb'.2 hin]
      rfl
    | cons a l ih =>
      intro h hno
      have := ih (fun g hg => h g (by simp [hg])) fun g hg => hno g (by simp [hg])
      obtain ⟨b, hb, hb'⟩ := test a (h a (by simp))
      rw [List.cons_append, find_step hb this, if_neg fun hx => hno a (by simp) (hb'.1 hx)]
  have := main pre (fun g hg => by rw [hsplit]; simp [hg]) hfirst
  rw [← hsplit, d3] at this
  exact Except.ok.inj this

/-- **C66** (input).  When a brick of the input contains the whole problem and the numbers of the input are in range, the
run starts and no execution of it stops on a panic.  Nothing is asked of the volumes and centres that the run computes. -/
theorem C66_input {so : StrOrder} (hso : ∀ l, (so l).Perm l) {io : IterOrder} (hio : ∀ l, (io l).Perm l)
    {m : Machine} (hm : 1 ≤ m.defaultThreads) {p : Params T} (hn : NamedParams p) (hc : Consistent p)
    (hunits : p.simulation.nUnits = 1) (hsize : p.Sized) (hseed : p.simulation.seed + 1 < 2 ^ 64)
    (hborder : ∀ f, (borderEvent p.simulation.boundaryCondition f).isSome) (hroot : RootInGrid p)
    {geom : GeometryParams T} (hg : geom ∈ p.geometries) (hwhole : WholeBrick p geom)
    (hi : FloatInput p) (hr : FloatRange p) (hpart : 10 * p.askedCells ≤ p.simulation.nParticles) {fuel : Nat}
    (hfuel : p.askedCells ≤ fuel) :
    ∃ s, startRun so io m fuel p = .ok (some s) ∧
      ∀ fuel' e, RunFails s.data s.exec s.opts fuel' s.state e → e = .outOfFuel :=
  C66_range hso hio hm hn hc
    ⟨hunits, hsize.counts, hsize.sizes, hseed, hborder, hroot, fun _ _ h1 h2 => ⟨geom, hg, whole_inside hsize hwhole h1 h2⟩⟩
    hi hr hpart hfuel

/-! ### The hypotheses hold together -/

/-- In the built-in problem the bounds of the region are half a cell away from the centres of the outer cells. -/
theorem builtin_clear {i : Nat} (hi : i < 10) : ClearOf (zero : T) (Flt.lit 100 0) (exactCentre i 10) (10 / 200) ∧
    WithinBounds (zero : T) (Flt.lit 100 0) (exactCentre i 10) := by
  have h : IsFin (Flt.lit 100 0 : T) 100 := by
    have := isI_lit (T := T) (m := 100) (by norm_num)
    unfold IsI at this
    exact_mod_cast this
  have h0 : (0 : ℝ) ≤ i := Nat.cast_nonneg i
  have h1 : (i : ℝ) + 1 ≤ 10 := by exact_mod_cast hi
  unfold exactCentre
  refine ⟨⟨0, 100, fin_zero, h, ?_, ?_⟩, 0, 100, fin_zero, h, ?_, ?_⟩
  · rw [abs_of_nonneg] <;> linarith
  · rw [abs_of_nonpos] <;> linarith
  · linarith
  · linarith

/-- The built-in problem in `f32`: its volumes are close to 1000, and every cell is of its only material. -/
example : ∃ (p : Params (Num binary32)) (s : Started (Num binary32)), NamedParams p ∧ Consistent p ∧ FloatMesh p ∧
    FloatInput p ∧ 10 * p.askedCells ≤ p.simulation.nParticles ∧ p.CellSides 10 10 10 ∧
    startRun id id ⟨8, false⟩ 1000 p = .ok (some s) ∧
    (∀ st ∈ s.state.unit.dom.cells, ∃ w : ℝ, val st.volume = some (w : EReal) ∧ |w - 1000| ≤ 125) ∧
    ∀ i j k, i < 10 → j < 10 → k < 10 → ∀ st ∈ s.state.unit.dom.cells, st.id = (i + 10 * (j + 10 * k)) * 2 ^ 32 →
      ∃ mat, s.data.materials[st.material]? = some mat ∧ mat.name = "source_material" := by
  obtain ⟨s, h1, _⟩ := builtin_start (threads := 1) (steps := 10) (builtin_sourced binary32)
    (so := id) (fun l => .refl _) (io := id) (fun l => .refl _) ⟨8, false⟩ le_rfl
  have hp : 10 * (builtinOf 1 10 : Params (Num binary32)).askedCells ≤ 1000000 := by
    show 10 * (10 * 10 * 10) ≤ 1000000
    norm_num
  have hf : (builtinOf 1 10 : Params (Num binary32)).askedCells ≤ 1000 := by
    show 10 * 10 * 10 ≤ 1000
    norm_num
  refine ⟨_, s, builtin_named _, builtin_consistent _, builtin_floatMesh, builtin_floatInput (builtin_sourced _), hp,
    builtin_sides, h1, fun st hst => ?_, fun i j k hi hj hk st hst hid => ?_⟩
  · obtain ⟨w, w1, w2⟩ := C89_volume (fun l => .refl _) (fun l => .refl _) (builtin_named _) (builtin_consistent _)
      builtin_floatMesh (builtin_floatInput (builtin_sourced _)) hp hf builtin_sides h1 (fuel' := 0) (Nat.zero_le _) .zero st hst
    refine ⟨w, w1, ?_⟩
    norm_num at w2
    exact w2
  · obtain ⟨x1, x2⟩ := builtin_clear (T := Num binary32) hi
    obtain ⟨y1, y2⟩ := builtin_clear (T := Num binary32) hj
    obtain ⟨z1, z2⟩ := builtin_clear (T := Num binary32) hk
    refine C89_material (fun l => .refl _) (fun l => .refl _) (builtin_named _) (builtin_consistent _)
      builtin_floatMesh (builtin_floatInput (builtin_sourced _)) hp hf builtin_sides h1 (fuel' := 0) (Nat.zero_le _) .zero
      (i := i) (j := j) (k := k) ⟨hi, hj, hk⟩ (fun geom hg => ?_) (pre := []) (post := [])
      (geom := { GeometryParams.default with
        materialName := "source_material"
        shape := .brick
        xMax := Flt.lit 100 0
        yMax := Flt.lit 100 0
        zMax := Flt.lit 100 0 }) rfl ⟨x2, y2, z2⟩ (by simp) st hst hid
    cases List.mem_singleton.1 hg
    exact ⟨rfl, x1, y1, z1⟩

/-- The hypotheses of `C66_input` hold together for the built-in problem. -/
example : ∃ (p : Params (Num binary32)) (geom : GeometryParams (Num binary32)), p.simulation.nUnits = 1 ∧ p.Sized ∧
    RootInGrid p ∧ geom ∈ p.geometries ∧ WholeBrick p geom ∧ FloatInput p ∧ FloatRange p := by
  have h : IsFin (Flt.lit 100 0 : Num binary32) 100 := by
    have := isI_lit (T := Num binary32) (m := 100) (by norm_num)
    unfold IsI at this
    exact_mod_cast this
  have hb : ∃ lo hi l : ℝ, IsFin (zero : Num binary32) lo ∧ IsFin (Flt.lit 100 0 : Num binary32) hi ∧
      IsFin (Flt.lit 100 0 : Num binary32) l ∧ lo ≤ 0 ∧ l ≤ hi := ⟨0, 100, 100, fin_zero, h, h, le_rfl, le_rfl⟩
  exact ⟨builtinOf 1 10, _, rfl, builtin_floatMesh.sizedInput, builtin_floatMesh.root, List.mem_singleton.2 rfl,
    ⟨rfl, hb, hb, hb⟩, builtin_floatInput (builtin_sourced _), builtin_range⟩
