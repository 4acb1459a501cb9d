import Verif.Lemmas.Consistency
/-!
# The mesh of a single-unit run (C16) and its facets (C15)

Over the reals, for every problem of `SingleUnit`, every iteration order of the hash maps
(`order` is any function that permutes the keys) and every random centre.
-/
open Flt FltReal GridSpec MeshSpec Flooding
attribute [local irreducible] Rng.lcg Rng.sample Rng.spawn

theorem cellAt_iff {params : Params ℝ} {mats : List (Material ℝ)} (h : SingleUnit params mats)
    {dom : Domain ℝ} {bc : List AdjEvent} {cs : List Nat} {nodeOf : Nat → Nat}
    (hb : Built params.grid bc cs nodeOf dom.mesh) (hlen : dom.cells.length = cells params.grid)
    (hst : ∀ i c, cs[i]? = some c → ∃ st : CellState ℝ, dom.cells[i]? = some st ∧
        cellStateOf params.grid params.geometries mats dom.mesh i = .ok st) (i c : Nat) :
    cs[i]? = some c ↔ CellAt dom i c := by
  have hid : ∀ {i c : Nat}, cs[i]? = some c → ∃ st : CellState ℝ, dom.cells[i]? = some st ∧ st.id = c * 2 ^ 32 := by
    intro i c hi
    obtain ⟨st, h1, h2⟩ := hst i c hi
    obtain ⟨k, m, _, _, h3⟩ := cellState_spec h hb hi
    rw [h3] at h2
    exact ⟨st, h1, by rw [← Except.ok.inj h2]⟩
  constructor
  · exact hid
  · rintro ⟨st, h1, h2⟩
    have hi : i < cs.length := by
      rw [hb.perm.length_eq, List.length_range, ← hlen]
      exact (List.getElem?_eq_some_iff.1 h1).1
    obtain ⟨st', h3, h4⟩ := hid (List.getElem?_eq_getElem hi)
    rw [h1] at h3
    cases h3
    rw [h2] at h4
    rw [List.getElem?_eq_getElem hi, Nat.eq_of_mul_eq_mul_right (by norm_num) h4]

/-- **C16.**  When the drawn centre is a cell of the grid, start-up succeeds with one unit, whose mesh
covers the grid: every cell once, at the position given by its identifier, every border facet with the
configured boundary condition and every interior facet leading to the cell on its other side; and the
start-up consistency check passes. -/
theorem C16_mesh {order : IterOrder} (ho : ∀ l, (order l).Perm l) {params : Params ℝ}
    {mats : List (Material ℝ)} (h : SingleUnit params mats) (hroot : params.rootCell < cells params.grid)
    (fuel : Nat) (hfuel : cells params.grid + 1 ≤ fuel) :
    ∃ (dom : Domain ℝ) (cellAt : List Nat) (ev : Face → AdjEvent),
      initMesh order fuel params mats = .ok [dom] ∧
      (∀ f, borderEvent params.simulation.boundaryCondition f = some (ev f)) ∧
      Covers params.grid ev cellAt dom.mesh ∧
      dom.cells.length = cells params.grid ∧ (∀ i c, cellAt[i]? = some c ↔ CellAt dom i c) ∧
      consistencyCheck [dom] = .ok () := by
  obtain ⟨dom, bc, cs, nodeOf, h1, h2, h3, -, -, h6, h7⟩ := initMesh_spec ho h hroot fuel hfuel
  obtain ⟨bc', e1, e2⟩ := border_list h.border
  rw [h2] at e1
  cases e1
  have hev : ∀ f, borderEvent params.simulation.boundaryCondition f
      = some ((borderEvent params.simulation.boundaryCondition f).get (h.border f)) := fun f => by simp
  exact ⟨dom, cs, fun f => (borderEvent params.simulation.boundaryCondition f).get (h.border f), h1, hev,
    h3.covers (fun f => (e2 f).trans (hev f)), h6, cellAt_iff h h3 h6 h7, h3.consistent dom rfl⟩

/-- The drawn centre is in the grid when the three numbers drawn for it are below 1. -/
theorem C16_center {params : Params ℝ} {mats : List (Material ℝ)} (h : SingleUnit params mats)
    (h1 : Rng.draw (BitVec.ofNat 64 (params.simulation.seed + 1)) < 1)
    (h2 : Rng.draw (Rng.lcg (BitVec.ofNat 64 (params.simulation.seed + 1))) < 1)
    (h3 : Rng.draw (Rng.lcg (Rng.lcg (BitVec.ofNat 64 (params.simulation.seed + 1)))) < 1) :
    params.rootCell < cells params.grid := by
  have hfl : ∀ {s : BitVec 64} {n : Nat}, Rng.draw s < 1 → 0 < n → ⌊Rng.draw s * n⌋₊ < n := by
    intro s n hs hn
    have hn' : (0 : ℝ) < n := Nat.cast_pos.2 hn
    refine (Nat.floor_lt (mul_nonneg (Rng.draw_nonneg s) hn'.le)).2 ?_
    calc Rng.draw s * n < 1 * n := mul_lt_mul_of_pos_right hs hn'
      _ = n := one_mul _
  exact Grid.tuple_lt (g := params.grid)
    ⟨hfl h1 h.counts.1.1, hfl h2 h.counts.2.1.1, hfl h3 h.counts.2.2.1⟩

/-- When the drawn centre is not a cell of the grid, the partition of the unit contains every cell of
the grid and one more. -/
theorem C16_center_outside {order : IterOrder} (ho : ∀ l, (order l).Perm l) {params : Params ℝ}
    {mats : List (Material ℝ)} (h : SingleUnit params mats) (hroot : ¬ params.rootCell < cells params.grid)
    (fuel : Nat) (hfuel : cells params.grid + 1 ≤ fuel) :
    ∃ (centers : List (Vec3 ℝ)) (p : Partition),
      initCenters params.grid 1 (BitVec.ofNat 64 (params.simulation.seed + 1)) = .ok centers ∧
      buildMeshPartition order fuel params.grid centers (Partition.new 0 0) = .ok (p, []) ∧
      p.cellInfoMap.keys.Perm (params.rootCell :: List.range (cells params.grid)) := by
  obtain ⟨l, m, p1, p2, p3, _⟩ := partition_start ho h fuel hfuel
  refine ⟨_, _, initCenters_eq h, p3, ?_⟩
  show m.keys.Perm _
  rw [p2]
  unfold reached at p1
  rwa [if_neg hroot] at p1

/-! ### The default problem, for any seed -/

/-- The problem the program runs without an input file (`parameters.rs` 509-553): a single brick of
one material over a grid of 10 cells in each direction. -/
noncomputable def defaultProblem (seed : Nat) : Params ℝ :=
  { simulation := { (SimulationParams.default : SimulationParams ℝ) with seed := seed }
    geometries := [{ (GeometryParams.default : GeometryParams ℝ) with
      materialName := "source_material", shape := .brick, xMax := 100, yMax := 100, zMax := 100 }]
    materials := []
    crossSections := [] }

noncomputable def defaultMats : List (Material ℝ) :=
  [{ name := "source_material", mass := 1000, iso := [] }]

theorem default_single {seed : Nat} (hs : seed + 1 < 2 ^ 64) :
    SingleUnit (defaultProblem seed) defaultMats := by
  have hg : (defaultProblem seed).grid = Grid.new 10 10 10 100 100 100 := by
    simp [Params.grid, defaultProblem, SimulationParams.default]
  refine ⟨rfl, ⟨⟨?_, ?_⟩, ⟨?_, ?_⟩, ?_, ?_⟩, ⟨⟨?_, ?_⟩, ⟨?_, ?_⟩, ?_, ?_⟩, hs, ?_, ?_, ?_, ?_⟩
  iterate 12 (show _ ; simp [defaultProblem, SimulationParams.default]; try norm_num)
  · intro f; rfl
  · intro geom hgeom
    simp only [defaultProblem, List.mem_singleton] at hgeom
    subst hgeom; simp
  · intro geom hgeom
    simp only [defaultProblem, List.mem_singleton] at hgeom
    subst hgeom
    exact ⟨_, List.mem_singleton.2 rfl, rfl⟩
  · intro c hc
    refine ⟨_, List.mem_singleton.2 rfl, ?_⟩
    rw [hg] at hc ⊢
    obtain ⟨b1, b2, b3⟩ := Grid.idx_inGrid hc
    set t := (Grid.new 10 10 10 (100 : ℝ) 100 100).cellIdxToTuple c
    have c1 : ((t.1 + 1 : Nat) : ℝ) ≤ 10 := by exact_mod_cast b1
    have c2 : ((t.2.1 + 1 : Nat) : ℝ) ≤ 10 := by exact_mod_cast b2
    have c3 : ((t.2.2 + 1 : Nat) : ℝ) ≤ 10 := by exact_mod_cast b3
    push_cast at c1 c2 c3
    have d1 : (0 : ℝ) ≤ t.1 := Nat.cast_nonneg _
    have d2 : (0 : ℝ) ≤ t.2.1 := Nat.cast_nonneg _
    have d3 : (0 : ℝ) ≤ t.2.2 := Nat.cast_nonneg _
    simp only [InRegion, boxCenter, Grid.new, GeometryParams.default, zero_eq, div_eq, ofNat_eq]
    push_cast
    refine ⟨⟨?_, ?_⟩, ⟨?_, ?_⟩, ?_, ?_⟩ <;> linarith

theorem default_root : (defaultProblem 1029384756).rootCell < cells (defaultProblem 1029384756).grid := by
  have hs := default_single (seed := 1029384756) (by norm_num)
  have hd : ∀ s : BitVec 64, (Rng.lcg s).toNat < 2 ^ 64 - 1024 → Rng.draw s < 1 := by
    intro s h
    refine lt_of_le_of_ne (Rng.draw_le_one s) fun he => ?_
    have := (C01_sample_range s).2.2.1.1 he
    have h2 : (Rng.sample (T := ℝ) s).2 = Rng.lcg s := by unfold Rng.sample; rfl
    rw [h2] at this
    omega
  exact C16_center hs (hd _ (by decide +kernel)) (hd _ (by decide +kernel)) (hd _ (by decide +kernel))

theorem default_cells (seed : Nat) : cells (defaultProblem seed).grid = 1000 := by
  simp [cells, Params.grid, Grid.new, defaultProblem, SimulationParams.default]

/-- The default problem, with its default seed, is covered by the theorem. -/
example : ∃ dom, initMesh id 1001 (defaultProblem 1029384756) defaultMats = .ok [dom] ∧
    dom.cells.length = 1000 ∧ consistencyCheck [dom] = .ok () := by
  obtain ⟨dom, _, _, h1, _, _, h4, _, h6⟩ := C16_mesh (order := id) (fun _ => List.Perm.refl _)
    (default_single (by norm_num)) default_root 1001 (by rw [default_cells])
  exact ⟨dom, h1, h4.trans (default_cells _), h6⟩

/-- **C16 is violated for some seeds**: with this seed of the default problem the centre is drawn
outside the grid, and the unit receives 1001 cells instead of 1000. -/
theorem C16_draw_one_violated : ∃ seed, SingleUnit (defaultProblem seed) defaultMats ∧
    ∀ order : IterOrder, (∀ l, (order l).Perm l) → ∃ (centers : List (Vec3 ℝ)) (p : Partition) (c : Nat),
      initCenters (defaultProblem seed).grid 1 (BitVec.ofNat 64 (seed + 1)) = .ok centers ∧
      buildMeshPartition order 1001 (defaultProblem seed).grid centers (Partition.new 0 0) = .ok (p, []) ∧
      p.cellInfoMap.keys.length = 1001 ∧ c ∈ p.cellInfoMap.keys ∧ 1000 ≤ c := by
  refine ⟨17643816747548860275, default_single (by norm_num), fun order ho => ?_⟩
  set seed := 17643816747548860275 with hseed
  have hs := default_single (seed := seed) (by norm_num [hseed])
  have hcells := default_cells seed
  have hone : Rng.draw (Rng.lcg (Rng.lcg (BitVec.ofNat 64 (seed + 1)))) = 1 := by
    refine (C01_sample_range _).2.2.1.2 ?_
    have h2 : ∀ s, (Rng.sample (T := ℝ) s).2 = Rng.lcg s := fun s => by unfold Rng.sample; rfl
    rw [h2, hseed]
    decide +kernel
  have hroot : 1000 ≤ (defaultProblem seed).rootCell := by
    unfold Params.rootCell
    show 1000 ≤ Grid.cellTupleToIdx _ (_, _, ⌊Rng.draw (Rng.lcg (Rng.lcg (BitVec.ofNat 64 (seed + 1)))) * _⌋₊)
    rw [hone, one_mul, Nat.floor_natCast]
    show 1000 ≤ _ + 10 * (_ + 10 * 10)
    omega
  obtain ⟨centers, p, h1, h2, h3⟩ := C16_center_outside ho hs (by rw [hcells]; omega) 1001
    (by rw [hcells])
  refine ⟨centers, p, _, h1, h2, ?_, h3.mem_iff.2 (List.mem_cons_self), hroot⟩
  rw [h3.length_eq, List.length_cons, List.length_range, hcells]

/-! ### Facets of neighbouring cells -/

/-- The two triangles have the same corners. -/
def SameTriangle (p q : Vec3 ℝ × Vec3 ℝ × Vec3 ℝ) : Prop :=
  ∀ v, v ∈ [p.1, p.2.1, p.2.2] ↔ v ∈ [q.1, q.2.1, q.2.2]

/-- Displacement through a face, in cells. -/
def step : Face → ℝ × ℝ × ℝ
  | .xp => (1, 0, 0) | .xm => (-1, 0, 0)
  | .yp => (0, 1, 0) | .ym => (0, -1, 0)
  | .zp => (0, 0, 1) | .zm => (0, 0, -1)

theorem across_step {g : Grid ℝ} {t : Nat × Nat × Nat} (f : Face) (hb : ¬ OnBorder g t f) :
    (across t f).1 = (t.1 : ℝ) + (step f).1 ∧ (across t f).2.1 = (t.2.1 : ℝ) + (step f).2.1 ∧
    (across t f).2.2 = (t.2.2 : ℝ) + (step f).2.2 := by
  have hsub : ∀ n : Nat, n ≠ 0 → ((n - 1 : Nat) : ℝ) = n + -1 := by
    intro n hn
    rw [Nat.cast_sub (Nat.one_le_iff_ne_zero.2 hn)]; push_cast; ring
  cases f <;> simp only [across, OnBorder, step] at hb ⊢ <;>
    refine ⟨?_, ?_, ?_⟩ <;> first | (rw [hsub _ hb]) | (push_cast; ring)

/-- Interior facets and their other side, by coordinates. -/
theorem facet_pair {g : Grid ℝ} (hg : BoxGrid g) {c : Nat} (hc : c < cells g) (f : Face) {k : Nat}
    (hk : k < 4) (hb : ¬ OnBorder g (g.cellIdxToTuple c) f) {c' n n' : Nat}
    (hn : n = 4 * f.num + k) (hn' : n' = opposingFacet.getD n 0)
    (hc' : c' = g.cellTupleToIdx (across (g.cellIdxToTuple c) f))
    {p q : Vec3 ℝ × Vec3 ℝ × Vec3 ℝ}
    (hp : p = (pointCoord g c (nodeIndirect.getD n (0, 0, 0)).1, pointCoord g c (nodeIndirect.getD n (0, 0, 0)).2.1,
       pointCoord g c (nodeIndirect.getD n (0, 0, 0)).2.2))
    (hq : q = (pointCoord g c' (nodeIndirect.getD n' (0, 0, 0)).1, pointCoord g c' (nodeIndirect.getD n' (0, 0, 0)).2.1,
       pointCoord g c' (nodeIndirect.getD n' (0, 0, 0)).2.2)) :
    (f ≠ .zp → f ≠ .zm → p.1 = q.2.1 ∧ p.2.1 = q.1 ∧ p.2.2 = q.2.2) ∧
    (f = .zp ∨ f = .zm → p.2.1 ≠ q.1 ∧ p.2.1 ≠ q.2.1 ∧ p.2.1 ≠ q.2.2) := by
  have px := hg.dx_pos.ne'
  have py := hg.dy_pos.ne'
  obtain ⟨h1, h2, h3⟩ := (nbr_face hc f hk).2 hb
  have hin : c' < cells g := by rw [hc']; exact Grid.tuple_lt h3
  have ht : g.cellIdxToTuple c' = across (g.cellIdxToTuple c) f := by
    rw [hc']; exact Grid.tuple_idx h3.1 h3.2.1
  have hn24 : n < 24 := by have := num_lt f; omega
  have hn24' : n' < 24 := by rw [hn']; exact (opposing_twice n hn24).1
  obtain ⟨l1, l2, l3⟩ := indirect_lt _ hn24
  obtain ⟨m1, m2, m3⟩ := indirect_lt _ hn24'
  rw [pointCoord_eq hc l1, pointCoord_eq hc l2, pointCoord_eq hc l3] at hp
  rw [pointCoord_eq hin m1, pointCoord_eq hin m2, pointCoord_eq hin m3, ht] at hq
  obtain ⟨a1, a2, a3⟩ := across_step f hb
  subst hn' hn hp hq
  unfold halfPoint
  rw [a1, a2, a3]
  generalize g.cellIdxToTuple c = t
  constructor
  · intro e1 e2
    cases f
    case zp => exact absurd rfl e1
    case zm => exact absurd rfl e2
    all_goals
      interval_cases k <;> simp [nodeIndirect, halves, Face.num, opposingFacet, step]
  · rintro (rfl | rfl) <;> interval_cases k <;>
      simp [nodeIndirect, halves, Face.num, opposingFacet, step, px, py]

theorem same_of {p q : Vec3 ℝ × Vec3 ℝ × Vec3 ℝ} (h : p.1 = q.2.1 ∧ p.2.1 = q.1 ∧ p.2.2 = q.2.2) :
    SameTriangle p q := by
  obtain ⟨h1, h2, h3⟩ := h
  intro v
  simp only [List.mem_cons, List.not_mem_nil, or_false]
  rw [h1, h2, h3]
  exact or_left_comm

theorem not_same {p q : Vec3 ℝ × Vec3 ℝ × Vec3 ℝ}
    (h : p.2.1 ≠ q.1 ∧ p.2.1 ≠ q.2.1 ∧ p.2.1 ≠ q.2.2) : ¬ SameTriangle p q := by
  intro hs
  have := (hs p.2.1).1 (by simp)
  simp only [List.mem_cons, List.not_mem_nil, or_false] at this
  exact this.elim h.1 fun h' => h'.elim h.2.1 h.2.2

theorem facets_match {order : IterOrder} (ho : ∀ l, (order l).Perm l) {params : Params ℝ}
    {mats : List (Material ℝ)} (h : SingleUnit params mats) (hroot : params.rootCell < cells params.grid)
    (fuel : Nat) (hfuel : cells params.grid + 1 ≤ fuel) {dom : Domain ℝ}
    (hdom : initMesh order fuel params mats = .ok [dom]) {i c : Nat} (hi : CellAt dom i c)
    (f : Face) {k : Nat} (hk : k < 4) (hb : ¬ OnBorder params.grid (params.grid.cellIdxToTuple c) f) :
    ∃ (conn conn' : CellConn) (fa fa' : FacetAdj) (j n' : Nat) (p q : Vec3 ℝ × Vec3 ℝ × Vec3 ℝ),
      dom.mesh.cellConnectivity[i]? = some conn ∧ conn.facet[4 * f.num + k]? = some fa ∧
      fa.subfacet.adjacent = ⟨some 0, some j, some n'⟩ ∧
      CellAt dom j (params.grid.cellTupleToIdx (across (params.grid.cellIdxToTuple c) f)) ∧
      dom.mesh.cellConnectivity[j]? = some conn' ∧ conn'.facet[n']? = some fa' ∧
      fa'.subfacet.adjacent = ⟨some 0, some i, some (4 * f.num + k)⟩ ∧
      dom.mesh.getFacetCoords i (4 * f.num + k) = .ok p ∧ dom.mesh.getFacetCoords j n' = .ok q ∧
      (f ≠ .zp → f ≠ .zm → SameTriangle p q) ∧
      (f = .zp ∨ f = .zm → ¬ SameTriangle p q) := by
  obtain ⟨dom', bc, cs, nodeOf, h1, h2, h3, -, -, h6, h7⟩ := initMesh_spec ho h hroot fuel hfuel
  rw [hdom] at h1
  cases h1
  have hat := cellAt_iff h h3 h6 h7
  have hi' := (hat i c).2 hi
  have hc := h3.lt hi'
  have hn : 4 * f.num + k < 24 := by have := num_lt f; omega
  obtain ⟨e1, e2, e3⟩ := (nbr_face hc f hk).2 hb
  obtain ⟨o1, o2⟩ := opposing_twice _ hn
  have hback := nbr_back hc hn e2
  have hj := h3.get_idxOf (nbr_lt hc hn)
  obtain ⟨q1, q2⟩ := facet_pair (grid_box h) hc f hk hb rfl rfl e1 rfl rfl
  refine ⟨_, _, _, _, cs.idxOf (nbr params.grid c (4 * f.num + k)), opposingFacet.getD (4 * f.num + k) 0, _, _,
    h3.conn_get hi', connOf_facet.2 ⟨hn, rfl⟩, ?_, ?_, h3.conn_get hj, connOf_facet.2 ⟨o1, rfl⟩, ?_,
    h3.facetCoords hi' hn, h3.facetCoords hj o1, ?_, ?_⟩
  · unfold facetOf; simp only [if_neg e2]
  · rw [← hat, ← e1]; exact hj
  · unfold facetOf; simp only [hback, h3.idxOf hi', o2, if_neg (Ne.symm e2)]
  · exact fun n1 n2 => same_of (q1 n1 n2)
  · exact fun hz => not_same (q2 hz)

/-- **C15.**  In the mesh of a single-unit run, the facet recorded as the other side of an interior
facet belongs to the cell on the other side, and records the first facet as its own other side.  On
the x and y faces it is the same triangle. -/
theorem C15_facets_match {order : IterOrder} (ho : ∀ l, (order l).Perm l) {params : Params ℝ}
    {mats : List (Material ℝ)} (h : SingleUnit params mats) (hroot : params.rootCell < cells params.grid)
    (fuel : Nat) (hfuel : cells params.grid + 1 ≤ fuel) {dom : Domain ℝ}
    (hdom : initMesh order fuel params mats = .ok [dom]) {i c : Nat} (hi : CellAt dom i c)
    (f : Face) {k : Nat} (hk : k < 4) (hb : ¬ OnBorder params.grid (params.grid.cellIdxToTuple c) f) :
    ∃ (conn conn' : CellConn) (fa fa' : FacetAdj) (j n' : Nat) (p q : Vec3 ℝ × Vec3 ℝ × Vec3 ℝ),
      dom.mesh.cellConnectivity[i]? = some conn ∧ conn.facet[4 * f.num + k]? = some fa ∧
      fa.subfacet.adjacent = ⟨some 0, some j, some n'⟩ ∧
      CellAt dom j (params.grid.cellTupleToIdx (across (params.grid.cellIdxToTuple c) f)) ∧
      dom.mesh.cellConnectivity[j]? = some conn' ∧ conn'.facet[n']? = some fa' ∧
      fa'.subfacet.adjacent = ⟨some 0, some i, some (4 * f.num + k)⟩ ∧
      dom.mesh.getFacetCoords i (4 * f.num + k) = .ok p ∧ dom.mesh.getFacetCoords j n' = .ok q ∧
      (f ≠ .zp → f ≠ .zm → SameTriangle p q) := by
  obtain ⟨a, b, c, d, e, f, g, k, h1, h2, h3, h4, h5, h6, h7, h8, h9, h10, _⟩ :=
    facets_match ho h hroot fuel hfuel hdom hi f hk hb
  exact ⟨a, b, c, d, e, f, g, k, h1, h2, h3, h4, h5, h6, h7, h8, h9, h10⟩

/-- **C15 is violated on the z faces**: in every such mesh, the facet recorded as the other side of an
interior facet of a z face is another triangle. -/
theorem C15_z_violated {order : IterOrder} (ho : ∀ l, (order l).Perm l) {params : Params ℝ}
    {mats : List (Material ℝ)} (h : SingleUnit params mats) (hroot : params.rootCell < cells params.grid)
    (fuel : Nat) (hfuel : cells params.grid + 1 ≤ fuel) {dom : Domain ℝ}
    (hdom : initMesh order fuel params mats = .ok [dom]) {i c : Nat} (hi : CellAt dom i c)
    (f : Face) (hf : f = .zp ∨ f = .zm) {k : Nat} (hk : k < 4)
    (hb : ¬ OnBorder params.grid (params.grid.cellIdxToTuple c) f) :
    ∃ (conn : CellConn) (fa : FacetAdj) (j n' : Nat) (p q : Vec3 ℝ × Vec3 ℝ × Vec3 ℝ),
      dom.mesh.cellConnectivity[i]? = some conn ∧ conn.facet[4 * f.num + k]? = some fa ∧
      fa.subfacet.adjacent = ⟨some 0, some j, some n'⟩ ∧
      dom.mesh.getFacetCoords i (4 * f.num + k) = .ok p ∧ dom.mesh.getFacetCoords j n' = .ok q ∧
      ¬ SameTriangle p q := by
  obtain ⟨a, _, c, _, e, f, g, k, h1, h2, h3, _, _, _, _, h8, h9, _, h11⟩ :=
    facets_match ho h hroot fuel hfuel hdom hi f hk hb
  exact ⟨a, c, e, f, g, k, h1, h2, h3, h8, h9, h11 hf⟩

/-- Both theorems apply to the lowest cell of the default problem: it has a cell above it in each
direction. -/
example : ∃ dom i, initMesh id 1001 (defaultProblem 1029384756) defaultMats = .ok [dom] ∧ CellAt dom i 0 ∧
    ∀ f ∈ [Face.xp, .yp, .zp], ¬ OnBorder (defaultProblem 1029384756).grid
      ((defaultProblem 1029384756).grid.cellIdxToTuple 0) f := by
  obtain ⟨dom, cellAt, _, h1, _, h3, _, h5, _⟩ := C16_mesh (order := id) (fun _ => List.Perm.refl _)
    (default_single (by norm_num)) default_root 1001 (by rw [default_cells])
  obtain ⟨i, hi⟩ := List.getElem?_of_mem (h3.perm.mem_iff.2 (List.mem_range.2
    (show 0 < cells (defaultProblem 1029384756).grid by rw [default_cells]; norm_num)))
  refine ⟨dom, i, h1, (h5 i 0).1 hi, ?_⟩
  intro f hf
  have hn : (defaultProblem 1029384756).grid.nx = 10 ∧ (defaultProblem 1029384756).grid.ny = 10 ∧
    (defaultProblem 1029384756).grid.nz = 10 := ⟨rfl, rfl, rfl⟩
  simp only [List.mem_cons, List.not_mem_nil, or_false] at hf
  rcases hf with rfl | rfl | rfl <;> simp [OnBorder, Grid.cellIdxToTuple, hn]
