import Verif.Lemmas.EndingCase
import Verif.Props.Ending
import Verif.Props.Distribution
/-!
# A run that meets the hypotheses of C76

The built-in problem with one cell, sixteen particles, one cycle and a short time step.
-/
open Flt FltReal GridSpec MeshSpec Flooding

/-! ## The numbers drawn for the particle -/

theorem small_draws : ∃ s0 : BitVec 64, (Rng.spawn (BitVec.ofNat 64 0)).1 = s0 ∧
    Rng.draw (Rng.lcg s0) + Rng.draw (Rng.lcg (Rng.lcg s0)) ≤ 1 ∧
    6 / 5 ≤ Rng.draw (Rng.lcg (Rng.lcg s0)) + Rng.draw (Rng.lcg (Rng.lcg (Rng.lcg s0))) ∧
    1 / 2 ≤ Rng.draw (Rng.lcg (Rng.lcg (Rng.lcg (Rng.lcg (Rng.lcg (Rng.lcg (Rng.lcg s0))))))) ∧
    Rng.draw (Rng.lcg (Rng.lcg (Rng.lcg (Rng.lcg (Rng.lcg (Rng.lcg (Rng.lcg s0))))))) ≤ 3 / 5 := by
  refine ⟨_, rfl, ?_⟩
  have hs : (Rng.spawn (BitVec.ofNat 64 0)).1 = BitVec.ofNat 64 0x04c7b0ea46cb01b0 := by decide +kernel
  rw [hs]
  have e1 : Rng.u64ToF64 (Rng.lcg (Rng.lcg (BitVec.ofNat 64 0x04c7b0ea46cb01b0))).toNat +
      Rng.u64ToF64 (Rng.lcg (Rng.lcg (Rng.lcg (BitVec.ofNat 64 0x04c7b0ea46cb01b0)))).toNat ≤ 2 ^ 64 := by decide +kernel
  have e2 : 6 * 2 ^ 64 ≤ 5 * (Rng.u64ToF64 (Rng.lcg (Rng.lcg (Rng.lcg (BitVec.ofNat 64 0x04c7b0ea46cb01b0)))).toNat +
      Rng.u64ToF64 (Rng.lcg (Rng.lcg (Rng.lcg (Rng.lcg (BitVec.ofNat 64 0x04c7b0ea46cb01b0))))).toNat) := by decide +kernel
  have e3 : 2 ^ 64 ≤ 2 * Rng.u64ToF64 (Rng.lcg (Rng.lcg (Rng.lcg (Rng.lcg (Rng.lcg (Rng.lcg (Rng.lcg (Rng.lcg
      (BitVec.ofNat 64 0x04c7b0ea46cb01b0))))))))).toNat := by decide +kernel
  have e4 : 5 * Rng.u64ToF64 (Rng.lcg (Rng.lcg (Rng.lcg (Rng.lcg (Rng.lcg (Rng.lcg (Rng.lcg (Rng.lcg
      (BitVec.ofNat 64 0x04c7b0ea46cb01b0))))))))).toNat ≤ 3 * 2 ^ 64 := by decide +kernel
  generalize BitVec.ofNat 64 0x04c7b0ea46cb01b0 = s0 at *
  simp only [Rng.draw_eq]
  generalize Rng.u64ToF64 (Rng.lcg (Rng.lcg s0)).toNat = a at *
  generalize Rng.u64ToF64 (Rng.lcg (Rng.lcg (Rng.lcg s0))).toNat = b at *
  generalize Rng.u64ToF64 (Rng.lcg (Rng.lcg (Rng.lcg (Rng.lcg s0)))).toNat = c at *
  generalize Rng.u64ToF64 (Rng.lcg (Rng.lcg (Rng.lcg (Rng.lcg (Rng.lcg (Rng.lcg (Rng.lcg (Rng.lcg s0)))))))).toNat = d at *
  clear hs
  have f1 : (a : ℝ) + b ≤ 2 ^ 64 := by exact_mod_cast e1
  have f2 : (6 : ℝ) * 2 ^ 64 ≤ 5 * (b + c) := by exact_mod_cast e2
  have f3 : (2 : ℝ) ^ 64 ≤ 2 * d := by exact_mod_cast e3
  have f4 : 5 * (d : ℝ) ≤ 3 * 2 ^ 64 := by exact_mod_cast e4
  refine ⟨?_, ?_, ?_, ?_⟩
  · rw [← add_div, div_le_one (by positivity)]; exact f1
  · rw [← add_div, le_div_iff₀ (by positivity)]; linarith
  · rw [le_div_iff₀ (by positivity)]; linarith
  · rw [div_le_iff₀ (by positivity)]; linarith

attribute [local irreducible] Rng.lcg Rng.sample Rng.spawn Rng.draw

/-! ## The problem -/

/-- The built-in problem with one cell, sixteen particles, one cycle and the time step `dt`. -/
noncomputable def smallProblem (dt : ℝ) : Params ℝ :=
  builtinParams { (SimulationParams.default : SimulationParams ℝ) with
    nx := 1, ny := 1, nz := 1, nParticles := 16, nSteps := 1, dt := dt }

theorem small_grid (dt : ℝ) : (smallProblem dt).grid = Grid.new 1 1 1 100 100 100 := by
  simp [smallProblem, builtinParams, Params.supplyDefaults, Params.grid, SimulationParams.default]

theorem small_cells (dt : ℝ) : cells (smallProblem dt).grid = 1 := by
  rw [small_grid]; simp [cells, Grid.new]

theorem small_material (dt : ℝ) : ∃ mp : MaterialParams ℝ, (smallProblem dt).materials = [("source_material", mp)] ∧
    ValidMaterial mp ∧ mp.sourceRate = 10 ^ 10 ∧ mp.nIsotopes = 10 ∧ mp.nReactions = 9 := by
  refine ⟨_, rfl, ?_, ?_, rfl, rfl⟩
  · refine ⟨?_, ?_, ⟨?_, ?_, ?_⟩, ?_, ?_⟩ <;> (simp [MaterialParams.default]; try norm_num)
  · simp

theorem small_region (dt : ℝ) : ∃ geom : GeometryParams ℝ, (smallProblem dt).geometries = [geom] ∧
    geom.materialName = "source_material" ∧ geom.shape ≠ .undefined ∧
    InRegion geom (boxCenter (smallProblem dt).grid ((smallProblem dt).grid.cellIdxToTuple 0)) := by
  refine ⟨_, rfl, rfl, by simp, ?_⟩
  rw [small_grid]
  simp [InRegion, boxCenter, Grid.new, GeometryParams.default, Grid.cellIdxToTuple, SimulationParams.default]
  norm_num

theorem small_valid {dt : ℝ} (hdt : 0 < dt) : ValidInput (smallProblem dt) := by
  obtain ⟨mp, hmat, hv, hrate, _⟩ := small_material dt
  obtain ⟨geom, hgeom, hname, _, hin⟩ := small_region dt
  obtain ⟨x, hxs, hnu⟩ : ∃ x : CrossSectionParams ℝ, (smallProblem dt).crossSections = [("flat", x)] ∧
      x.nuBar = 10066330 / 2 ^ 22 := by
    refine ⟨_, rfl, ?_⟩
    simp [CrossSectionParams.default]
    norm_num
  have hb : (smallProblem dt).simulation.boundaryCondition = "reflect" := rfl
  have hl : (smallProblem dt).simulation.lx = 100 ∧ (smallProblem dt).simulation.ly = 100 ∧
      (smallProblem dt).simulation.lz = 100 := by
    refine ⟨?_, ?_, ?_⟩ <;> simp [smallProblem, builtinParams, Params.supplyDefaults, SimulationParams.default]
  have hcov : ∀ c, c < cells (smallProblem dt).grid → ∃ geom ∈ (smallProblem dt).geometries,
      InRegion geom (boxCenter (smallProblem dt).grid ((smallProblem dt).grid.cellIdxToTuple c)) := by
    intro c hc
    rw [small_cells] at hc
    obtain rfl : c = 0 := by omega
    exact ⟨geom, by rw [hgeom]; simp, hin⟩
  have hcounts : (0 < (smallProblem dt).simulation.nx ∧ (smallProblem dt).simulation.nx < 2 ^ 31) ∧
      (0 < (smallProblem dt).simulation.ny ∧ (smallProblem dt).simulation.ny < 2 ^ 31) ∧
      (0 < (smallProblem dt).simulation.nz ∧ (smallProblem dt).simulation.nz < 2 ^ 31) := by
    show (0 < 1 ∧ 1 < 2 ^ 31) ∧ (0 < 1 ∧ 1 < 2 ^ 31) ∧ (0 < 1 ∧ 1 < 2 ^ 31)
    norm_num
  have hsizes : (0 < (smallProblem dt).simulation.lx ∧ (smallProblem dt).simulation.lx ≤ 2 ^ 60) ∧
      (0 < (smallProblem dt).simulation.ly ∧ (smallProblem dt).simulation.ly ≤ 2 ^ 60) ∧
      (0 < (smallProblem dt).simulation.lz ∧ (smallProblem dt).simulation.lz ≤ 2 ^ 60) := by
    rw [hl.1, hl.2.1, hl.2.2]; norm_num
  have hseed : (smallProblem dt).simulation.seed + 1 < 2 ^ 64 := by
    show 1029384756 + 1 < 2 ^ 64
    norm_num
  have hbord : ∀ f, (borderEvent (smallProblem dt).simulation.boundaryCondition f).isSome := fun f => by rw [hb]; rfl
  have hroot : (smallProblem dt).rootCell < cells (smallProblem dt).grid := by
    have hd : ∀ s : BitVec 64, (Rng.lcg s).toNat < 2 ^ 64 - 1024 → Rng.draw s < 1 := by
      intro s h
      refine lt_of_le_of_ne (Rng.draw_le_one s) fun he => ?_
      have := (C01_sample_range s).2.2.1.1 (by rw [← he]; unfold Rng.draw; rfl)
      have h2 : (Rng.sample (T := ℝ) s).2 = Rng.lcg s := by unfold Rng.sample; rfl
      rw [h2] at this
      omega
    have hsu : SingleUnit (smallProblem dt) [⟨"source_material", 1000, []⟩] := by
      refine ⟨rfl, hcounts, hsizes, hseed, hbord, ?_, ?_, hcov⟩
      · intro g hg
        rw [hgeom, List.mem_singleton] at hg
        subst hg
        assumption
      · intro g hg
        rw [hgeom, List.mem_singleton] at hg
        subst hg
        exact ⟨_, List.mem_singleton.2 rfl, hname.symm⟩
    have hsd : (smallProblem dt).simulation.seed = 1029384756 := rfl
    have k1 : (Rng.lcg (BitVec.ofNat 64 (1029384756 + 1))).toNat < 2 ^ 64 - 1024 := by decide +kernel
    have k2 : (Rng.lcg (Rng.lcg (BitVec.ofNat 64 (1029384756 + 1)))).toNat < 2 ^ 64 - 1024 := by decide +kernel
    have k3 : (Rng.lcg (Rng.lcg (Rng.lcg (BitVec.ofNat 64 (1029384756 + 1))))).toNat < 2 ^ 64 - 1024 := by decide +kernel
    refine C16_center hsu ?_ ?_ ?_ <;> rw [hsd]
    exacts [hd _ k1, hd _ k2, hd _ k3]
  refine ⟨builtin_named _, builtin_consistent _, rfl, hcounts, hsizes, hseed, hbord, hcov, hroot, ?_, hdt, ?_, ?_, ?_, ?_, ?_⟩
  · rw [small_cells]
    show 10 * 1 ≤ 16 ∧ 16 < 2 ^ 64
    norm_num
  · show 0 < (SimulationParams.default : SimulationParams ℝ).eMin ∧ _ < (SimulationParams.default : SimulationParams ℝ).eMax ∧
      20 ≤ (SimulationParams.default : SimulationParams ℝ).eMax
    refine ⟨?_, ?_, ?_⟩
    · simp [SimulationParams.default]
    · show (SimulationParams.default : SimulationParams ℝ).eMin < (SimulationParams.default : SimulationParams ℝ).eMax
      simp [SimulationParams.default]
      norm_num
    · simp [SimulationParams.default]
  · show 0 < 230
    norm_num
  · intro k m hm
    rw [hmat, HMap.get?_cons] at hm
    split at hm
    · cases hm; exact hv
    · cases hm
  · intro k y hy
    rw [hxs, HMap.get?_cons] at hy
    split at hy
    · cases hy
      rw [hnu]
      norm_num
    · cases hy
  · refine ⟨0, by rw [small_cells]; norm_num, geom, mp, ⟨[], [], hgeom, hin, by simp⟩, ?_, by rw [hrate]; norm_num⟩
    rw [hname, hmat]
    exact HMap.get?_cons _ _ _

theorem small_filled (dt : ℝ) : FilledMaterials (smallProblem dt) := by
  obtain ⟨mp, hmat, _, _, h1, h2⟩ := small_material dt
  refine filledMaterials_real fun k m hm => ?_
  rw [hmat, HMap.get?_cons] at hm
  split at hm
  · cases hm; rw [h1, h2]; norm_num
  · cases hm

/-- One bound on the cross-sections for all time steps. -/
theorem small_bound : ∃ X : ℝ, 1 / 10 ^ 76 ≤ X ∧ ∀ (dt : ℝ) (s : Started ℝ),
    startRun List.reverse id ⟨4, true⟩ 2 (smallProblem dt) = .ok (some s) →
    ∀ cell group xs, directXs s.data s.state.unit.dom cell group = .ok xs → xs ≤ X := by
  obtain ⟨s1, h1, _⟩ := C60_start (small_valid one_pos) (so := List.reverse) (fun l => List.reverse_perm l) (io := id)
    (fun l => .refl _) ⟨4, true⟩ (by norm_num) 2 (by rw [small_cells])
  obtain ⟨X, hX, hb⟩ := C76_largest (small_valid one_pos) (small_filled 1) (so := List.reverse) (fun l => List.reverse_perm l) ⟨4, true⟩ 2 h1
  refine ⟨X, hX, fun dt s hs cell group xs hx => hb cell group xs ?_⟩
  obtain ⟨nd, mats, dom, doms, a1, a2, a3, a4, a5, _⟩ := startRun_parts hs
  obtain ⟨nd', mats', dom', doms', b1, b2, b3, b4, b5, _⟩ := startRun_parts h1
  have e1 : initNuclearData List.reverse (smallProblem dt) = initNuclearData List.reverse (smallProblem 1) := rfl
  have e2 : initMesh id 2 (smallProblem dt) mats = initMesh id 2 (smallProblem 1) mats := rfl
  rw [e1, b1] at a1
  cases a1
  rw [e2, b3] at a3
  cases a3
  rw [b4] at a4
  cases a4
  rw [b2, b5]
  rw [a2, a5] at hx
  exact hx

/-! ## Its particles -/

/-- The sourced particles, with the number of them in their cell. -/
theorem sourceCells_mem {data : Data ℝ} {dom : Domain ℝ} {rates : List ℝ} {w : ℝ} {l l' : List (CellState ℝ)} {k : Nat}
    {ps : List (Particle ℝ)} (h : sourceCells data dom rates w l k = .ok (l', ps)) :
    ∀ p ∈ ps, ∃ i cell n, l[i]? = some cell ∧ n ≤ ps.length ∧ ∃ s ∈ cellSeeds cell.sourceTally cell.id n,
      sourceParticle data dom w (k + i) cell s = .ok p := by
  induction l generalizing k l' ps with
  | nil =>
    simp only [sourceCells, Except.ok.injEq, Prod.mk.injEq] at h
    obtain ⟨_, rfl⟩ := h
    simp
  | cons cell l ih =>
    simp only [sourceCells, bind_ok, pure_ok, Prod.exists, Prod.mk.injEq] at h
    obtain ⟨n, _, ps1, hps1, cs, ps2, hcs, _, rfl⟩ := h
    intro p hp
    have hlen : ps1.length = n := by rw [mapM_ok_length hps1]; simp [cellSeeds]
    rcases List.mem_append.1 hp with h | h
    · obtain ⟨s, hs1, hs2⟩ := mapM_ok_mem hps1 h
      exact ⟨0, cell, n, rfl, by rw [List.length_append]; omega, s, hs1, hs2⟩
    · obtain ⟨i, c, m, h1, h2, s, h3, h4⟩ := ih hcs p h
      exact ⟨i + 1, c, m, h1, by rw [List.length_append]; omega, s, h3, by rw [← h4]; congr 1; omega⟩

/-- Every state of a particle of this run is ordinary, for a short time step. -/
theorem small_ordinary {X dt : ℝ} (hX : 0 ≤ X) (hdt : 0 < dt) (h1 : (Flt.lightSpeed : ℝ) * dt < 10)
    (h2 : X * ((Flt.lightSpeed : ℝ) * dt) < 2 / 5) {s : Started ℝ}
    (hs : startRun List.reverse id ⟨4, true⟩ 2 (smallProblem dt) = .ok (some s))
    (hXs : ∀ cell group xs, directXs s.data s.state.unit.dom cell group = .ok xs → xs ≤ X) (fuel : Nat)
    {d : Domain ℝ} {q : Particle ℝ} (hv : RunVisits s.data s.opts fuel s.state d q) :
    Ordinary s.data d (smallProblem dt).grid q := by
  obtain ⟨s', e1, e2, e3, e4, e5, e6, mats, e7, e8⟩ := (small_valid hdt).start (so := List.reverse)
    (fun l => List.reverse_perm l) (io := id) (fun l => .refl _) ⟨4, true⟩ (by norm_num) 2 (by rw [small_cells])
  rw [hs] at e1
  cases e1
  have hfuel : cells (smallProblem dt).grid + 1 ≤ 2 := by rw [small_cells]
  have hroot := (small_valid hdt).root
  have hio : ∀ l, (id l : List (Nat)).Perm l := fun l => .refl _
  obtain ⟨n, s1, s2, u, c, p, hn, hcyc, hsync, hpop, hp, rfl, hvis⟩ := hv
  have hdata : s.data.nSteps = 1 ∧ s.data.nParticles = 16 ∧ s.data.dt = dt := by
    obtain ⟨nd, mats', dom, doms, _, a2, _⟩ := startRun_parts hs
    rw [a2]
    exact ⟨rfl, rfl, rfl⟩
  obtain rfl : n = 0 := by omega
  cases hcyc
  have hprep : syncPrepare s.data s.state = .ok s2 := by
    unfold cycleSync at hsync
    simpa using hsync
  obtain ⟨f1, _, _, _, _, f6, _⟩ := syncPrepare_fields hprep
  have hempty : s2.container.all = [] := by
    rw [f1]
    simp [Container.swap, Container.all, e3.processing, e3.processed, e3.extra]
  have hd : u.dom.skeleton = s.state.unit.dom.skeleton := (populationControl_skeleton hpop).trans (by rw [f6])
  have hreach : ∀ q ∈ c.all, Reachable s.data s.state.unit.dom fuel q :=
    populationControl_reach (by rw [f6]) (by rw [hempty]; simp) hpop
  obtain ⟨u1, c1, hsrc, hflight⟩ := populationControl_sourced hempty hpop
  obtain ⟨p0, hp0, hsame⟩ := hflight p hp
  -- exactly one particle
  have hproc : s2.container.processing = [] := by
    simp only [Container.all, List.append_eq_nil_iff] at hempty
    exact hempty.1.1
  have hpos : 0 < s2.unit.unitWeight := by
    obtain ⟨w, w1, w2, _⟩ := e2.weight
    simp only [syncPrepare, bind_ok, pure_ok] at hprep
    obtain ⟨w', hw, _, _, rfl⟩ := hprep
    rw [w1] at hw
    cases hw
    exact w2
  obtain ⟨ws, ns, sourced, _, _, _, g4, _, _, _, g8, _⟩ := C35_source e2.source (by omega) hprep hpos hsrc
  rw [hproc, List.nil_append] at g4
  have hone : sourced.length ≤ 1 := by
    rw [hdata.2.1] at g8
    have : (sourced.length : ℝ) < 2 := by push_cast at g8; linarith
    have : sourced.length < 2 := by exact_mod_cast this
    omega
  have hsrc' := hsrc
  simp only [sourceNow, bind_ok, pure_ok, Prod.exists, Prod.mk.injEq] at hsrc
  obtain ⟨rates, hrates, cells', ps, hcells, _, rfl⟩ := hsrc
  rw [hproc, List.nil_append] at g4 hp0
  rw [← g4] at hone
  change ps.length ≤ 1 at hone
  obtain ⟨i, cell, n, b1, b2, sd, b3, b4⟩ := sourceCells_mem hcells p0 hp0
  rw [f6] at b1
  have hu2 : s2.unit.dom = s.state.unit.dom := f6
  rw [hu2] at b4
  obtain ⟨cc, hcc⟩ := cellAt_exists hio e7 hroot 2 hfuel e8 (List.getElem?_eq_some_iff.1 b1).1
  have hzero : cell.id = 0 ∧ cell.sourceTally = 0 := by
    obtain ⟨dom, bc, cs, nodeOf, m1, m2, m3, m4, m5, m6, m7⟩ := initMesh_spec hio e7 hroot 2 hfuel
    rw [e8] at m1
    cases m1
    have hl : i < cs.length := by
      rw [m3.perm.length_eq, List.length_range, ← m6]; exact (List.getElem?_eq_some_iff.1 b1).1
    obtain ⟨c0, hc0⟩ : ∃ c0, cs[i]? = some c0 := ⟨_, List.getElem?_eq_getElem hl⟩
    obtain ⟨k, m, _, _, h6⟩ := cellState_spec e7 m3 hc0
    obtain ⟨st, h7, h8⟩ := m7 i c0 hc0
    rw [h6] at h8
    cases h8
    rw [b1] at h7
    cases h7
    have := m3.lt hc0
    rw [small_cells] at this
    obtain rfl : c0 = 0 := by omega
    exact ⟨by simp, rfl⟩
  have hsd : sd = BitVec.ofNat 64 0 := by
    unfold cellSeeds at b3
    obtain ⟨j, hj, rfl⟩ := List.mem_map.1 b3
    have := List.mem_range.1 hj
    rw [hzero.1, hzero.2]
    congr 1
    omega
  subst hsd
  obtain ⟨t, r1, r2, r3, r4⟩ := sourceParticle_draws b4
  rw [Nat.zero_add] at r1 r4
  obtain ⟨s0, d0, d1, d2, d3, d4⟩ := small_draws
  rw [d0] at r1
  have hsample : ∀ x : BitVec 64, Rng.sample (T := ℝ) x = (Rng.draw x, Rng.lcg x) := sample_pair
  have hgrid : Min.min (smallProblem dt).grid.dx (Min.min (smallProblem dt).grid.dy (smallProblem dt).grid.dz) = 100 := by
    rw [small_grid]; simp [Grid.new]
  have htt : t = Rng.lcg (Rng.lcg (Rng.lcg (Rng.lcg s0))) := by
    obtain ⟨_, _, _, _, t1, t2, t3, k0, k1, k2, k3, _⟩ := position_margin hio e7 hroot 2 hfuel e8 hcc b1 r1 .xp
    rw [hsample] at k0 k1 k2 k3
    cases k0; cases k1; cases k2; cases k3
    rfl
  have hmargin : ∀ f, beyond (smallProblem dt).grid ((smallProblem dt).grid.cellIdxToTuple cc) p0.coordinate f ≤ -10 := by
    intro f
    obtain ⟨_, _, _, _, t1, t2, t3, k0, k1, k2, k3, hb⟩ := position_margin hio e7 hroot 2 hfuel e8 hcc b1 r1 f
    rw [hsample] at k0 k1 k2 k3
    cases k0; cases k1; cases k2; cases k3
    refine hb.trans ?_
    rw [hgrid]
    have : (foldBary (Rng.draw (Rng.lcg s0)) (Rng.draw (Rng.lcg (Rng.lcg s0))) (Rng.draw (Rng.lcg (Rng.lcg (Rng.lcg s0))))).2.2.2 =
        Rng.draw (Rng.lcg (Rng.lcg s0)) + Rng.draw (Rng.lcg (Rng.lcg (Rng.lcg s0))) - 1 := by
      unfold foldBary
      simp only [lt_eq, add_eq, sub_eq, one_eq, decide_eq_true_eq]
      rw [if_neg (not_lt.2 d1), if_neg (not_lt.2 d1), if_pos (by linarith)]
      ring
    rw [this]
    linarith
  have hpath : 2 / 5 ≤ p0.numMeanFreePaths := by
    rw [r2, htt]
    simp only [hsample]
    have := Real.log_le_sub_one_of_pos (show 0 < Rng.draw (Rng.lcg (Rng.lcg (Rng.lcg (Rng.lcg (Rng.lcg (Rng.lcg (Rng.lcg s0))))))) by linarith)
    linarith
  -- the states of the particle
  have htab : NonnegTables s.data u.dom := (e2.tracking.skeleton hd).time.tables
  have hXs' : ∀ cell group xs, directXs s.data u.dom cell group = .ok xs → xs ≤ X := fun c g xs hx => hXs c g xs (by
    rw [← directXs_skeleton s.data s.state.unit.dom, ← hd, directXs_skeleton]; exact hx)
  have key : ∀ q, gutsPrepare s.data p = .ok q → Ordinary s.data u.dom (smallProblem dt).grid q ∧
      ∀ o r, directOutcome s.data u.dom q = .ok (o, r) → o = .census := by
    intro q hq
    have hr : Reachable s.data s.state.unit.dom fuel p := hreach p (by simp [Container.all, hp])
    obtain ⟨t1, t2, t3, _, _⟩ := reachable_facts hio e7 hroot 2 hfuel e8 e2.tracking (hr.prepared hq)
    obtain ⟨k1, k2, _⟩ := gutsPrepare_fields hq
    have k3 : q.coordinate = p.coordinate ∧ q.numSegments = p.numSegments := by
      simp only [gutsPrepare, bind_ok, pure_ok] at hq
      obtain ⟨g, _, rfl⟩ := hq
      by_cases hc : p.timeToCensus ≤ 0 <;> simp [hc]
    have hc0 : (0 : ℝ) < Flt.lightSpeed := (constants_pos).2
    have hreach' : reachOf q ≤ (Flt.lightSpeed : ℝ) * dt := by
      unfold reachOf
      rw [← hdata.2.2]
      exact mul_le_mul_of_nonneg_left t2 hc0.le
    have hmfp : q.numMeanFreePaths = p0.numMeanFreePaths := by rw [k2, hsame.numMeanFreePaths]
    refine census_only hio e7 hroot 2 hfuel e8 hd htab t1 t3 (by rw [hmfp]; linarith)
      (by rw [k3.2, hsame.numSegments, r3]) (c := cc) (by rw [k1, hsame.cell, r4]; exact hcc) (m := 10) (X := X)
      (fun f => by rw [k3.1, hsame.coordinate]; exact hmargin f) (by linarith) hXs' ?_ ?_ ?_
    · rw [hmfp]
      exact lt_of_le_of_lt (mul_le_mul_of_nonneg_left hreach' hX) (by linarith)
    · exact lt_of_le_of_lt hreach' (h1.trans (by norm_num))
    · rw [hmfp]
      have : (2 / 5 : ℝ) * 10 ^ 76 ≤ p0.numMeanFreePaths * 10 ^ 76 := mul_le_mul_of_nonneg_right hpath (by positivity)
      refine lt_of_le_of_lt hreach' (h1.trans (lt_of_lt_of_le ?_ this))
      norm_num
  exact (key q (visits_census (fun q hq => (key q hq).2) hvis)).1

theorem splitAll_weight {f : ℝ} {l ps cs : List (Particle ℝ)} (h : splitAll f l = .ok (ps, cs)) :
    ∀ p ∈ l, ∃ q ∈ ps, q.weight = p.weight / f := by
  induction l generalizing ps cs with
  | nil => simp
  | cons p l ih =>
    simp only [splitAll, bind_ok, pure_ok, Prod.exists, Prod.mk.injEq] at h
    obtain ⟨q', c1, hq, ps1, cs1, h1, rfl, rfl⟩ := h
    intro x hx
    rcases List.mem_cons.1 hx with rfl | hx
    · refine ⟨q', by simp, ?_⟩
      unfold Particle.underPopulatedSplit at hq
      generalize Rng.sample (T := ℝ) _ = y at hq
      obtain ⟨u, s⟩ := y
      obtain ⟨n, _, hq⟩ := bind_ok.1 hq
      generalize Particle.spawnSeeds n _ = y at hq
      obtain ⟨seeds, s'⟩ := y
      cases pure_ok.1 hq
      rfl
    · obtain ⟨q, h2, h3⟩ := ih h1 x hx
      exact ⟨q, by simp [h2], h3⟩

/-- This run tracks a particle. -/
theorem small_visits {dt : ℝ} (hdt : 0 < dt) {s : Started ℝ}
    (hs : startRun List.reverse id ⟨4, true⟩ 2 (smallProblem dt) = .ok (some s)) (fuel : Nat) :
    ∃ d q, RunVisits s.data s.opts fuel s.state d q := by
  obtain ⟨s', e1, e2, e3, e4, e5, e6, mats, e7, e8⟩ := (small_valid hdt).start (so := List.reverse)
    (fun l => List.reverse_perm l) (io := id) (fun l => .refl _) ⟨4, true⟩ (by norm_num) 2 (by rw [small_cells])
  rw [hs] at e1
  cases e1
  have hfuel : cells (smallProblem dt).grid + 1 ≤ 2 := by rw [small_cells]
  have hdata : s.data.nSteps = 1 ∧ s.data.nParticles = 16 ∧ s.data.loadBalance = false ∧
      s.data.lowWeightCutoff = 1 / 1000 := by
    obtain ⟨nd, mats', dom, doms, _, a2, _⟩ := startRun_parts hs
    rw [a2]
    refine ⟨rfl, rfl, rfl, ?_⟩
    show (SimulationParams.default : SimulationParams ℝ).lowWeightCutoff = 1 / 1000
    simp [SimulationParams.default]; norm_num
  obtain ⟨s2, hsync, _, hgn, hdom, w, hw, hsw⟩ := e2.sync (o := s.opts) (n := 0) (by omega) e4.spectrum (fun p h => by
    simp [Container.all, e3.processing, e3.processed, e3.extra] at h)
  have hprep : syncPrepare s.data s.state = .ok s2 := by
    unfold cycleSync at hsync
    simpa using hsync
  obtain ⟨f1, _, _, _, _, f6, _⟩ := syncPrepare_fields hprep
  have hproc : s2.container.processing = [] := by
    rw [f1]; simp [Container.swap, e3.processing, e3.processed]
  obtain ⟨w', w1, w2, _⟩ := e2.weight
  rw [hw] at w1
  cases w1
  have hsw' : s2.srcWeight = w / (16 / 10) := by rw [hsw, hdata.2.1]; norm_num
  obtain ⟨⟨u, c⟩, hpop⟩ := (e2.skeleton (d := s2.unit.dom) (by rw [hdom])).population (c := s2.container) hgn
    (by rw [hdom]; exact hw)
  rw [hdata.2.1] at hpop
  have : w / (((16 : ℕ) : ℝ) / 10) = s2.srcWeight := by rw [hsw']; norm_num
  rw [this] at hpop
  have hpop' := hpop
  have hpos : 0 < s2.unit.unitWeight := by
    simp only [syncPrepare, bind_ok, pure_ok] at hprep
    obtain ⟨w', hw', _, _, rfl⟩ := hprep
    rw [hw] at hw'
    cases hw'
    exact w2
  have hgn1 : s2.globalN = 1 := by
    simp only [syncPrepare, bind_ok, pure_ok] at hprep
    obtain ⟨w', hw', k, hk, rfl⟩ := hprep
    simp only [hdata.2.1, unwrap_ok] at hk
    simp only [Container.swap, e3.processing, e3.processed]
    have : (Flt.mul (Flt.lit 1 (-1)) (Flt.ofNat 16) : ℝ) = 8 / 5 := by
      simp; norm_num
    rw [this, toUsize_eq, if_pos (by norm_num), (Nat.floor_eq_iff (n := 1) (by norm_num)).2 (by norm_num)] at hk
    cases hk
    rfl
  unfold populationControl at hpop
  obtain ⟨⟨u1, c1⟩, hsrc, hpop⟩ := bind_ok.1 hpop
  obtain ⟨f, hf, hpop⟩ := bind_ok.1 hpop
  obtain ⟨ws, ns, sourced, _, _, _, g4, g5, _, _, g8, g9, _⟩ := C35_source e2.source (by omega) hprep hpos hsrc
  rw [hproc, List.nil_append] at g4
  have hlen : s.state.unit.dom.cells.length = 1 := by
    obtain ⟨bc, cs, nodeOf, hb, hlen, _⟩ := unit_mesh (fun l => .refl _) e7 (small_valid hdt).root 2 hfuel e8
    rw [hlen, small_cells]
  obtain ⟨p, hp⟩ : ∃ p, p ∈ sourced := by
    apply List.exists_mem_of_length_pos
    rw [hlen, hdata.2.1] at g9
    have : (0 : ℝ) < sourced.length := by push_cast at g9; linarith
    exact_mod_cast this
  have hf16 : f = 16 := by
    unfold computeSplitFactor at hf
    rw [hdata.2.2.1, hdata.2.1, hgn1] at hf
    simp at hf
    exact hf.symm
  subst hf16
  unfold regulateOrSplit at hpop
  rw [if_neg (by simp), if_pos (by simp)] at hpop
  simp only [Container.split, Container.cleanExtra, bind_ok, pure_ok, Prod.exists, Prod.mk.injEq] at hpop
  obtain ⟨c3, b1, ⟨ps, cs, hsp, rfl, rfl⟩, _, rfl⟩ := hpop
  obtain ⟨p', hp', hwt⟩ := splitAll_weight hsp p (by rw [g4]; exact hp)
  have hkept : p' ∈ retainMut (fun p : Particle ℝ => p.lowWeightRr s.data.lowWeightCutoff s2.srcWeight)
      (ps ++ (c1.extra ++ cs)) := by
    refine List.mem_filterMap.2 ⟨p', by simp [hp'], ?_⟩
    have : p'.lowWeightRr s.data.lowWeightCutoff s2.srcWeight = (p', true) := by
      unfold Particle.lowWeightRr
      rw [if_neg]
      simp only [le_eq, mul_eq, decide_eq_true_eq, not_le]
      rw [hwt, g5 p hp, hdata.2.2.2, hsw']
      linarith
    dsimp only
    rw [this]
    rfl
  obtain ⟨q, hq⟩ := e2.tracking.prepare p'
  exact ⟨_, q, 0, s.state, s2, _, _, p', by omega, .zero, hsync, hpop', hkept, rfl, .start hq⟩

/-- **A run that meets the hypotheses of C76.**  The built-in problem with one cell, sixteen particles, one cycle and a short
time step: it starts, tracks a particle, and comes to its end on any number of threads. -/
theorem small_run : ∃ dt : ℝ, 0 < dt ∧ ∃ s fuel',
    startRun List.reverse id ⟨4, true⟩ 2 (smallProblem dt) = .ok (some s) ∧
    (∀ d q, RunVisits s.data s.opts fuel' s.state d q → Ordinary s.data d (smallProblem dt).grid q) ∧
    (∃ d q, RunVisits s.data s.opts fuel' s.state d q) ∧ (∃ t, DirectRun s.data s.opts fuel' s.state t) ∧
    ∀ threads, threads ≠ 0 → (∀ e, ¬ RunFails s.data ⟨.rayon, 1, threads, 0⟩ s.opts fuel' s.state e) ∧
      ∃ t, RunCore s.data ⟨.rayon, 1, threads, 0⟩ s.opts fuel' s.state t := by
  obtain ⟨X, hX, hb⟩ := small_bound
  have hX0 : 0 < X := lt_of_lt_of_le (by positivity) hX
  have hc0 : (0 : ℝ) < Flt.lightSpeed := (constants_pos).2
  obtain ⟨dt, hdt, h1, h2⟩ : ∃ dt : ℝ, 0 < dt ∧ (Flt.lightSpeed : ℝ) * dt < 10 ∧ X * ((Flt.lightSpeed : ℝ) * dt) < 2 / 5 := by
    refine ⟨1 / (Flt.lightSpeed * (1 + 5 * X)), by positivity, ?_, ?_⟩
    · have : (Flt.lightSpeed : ℝ) * (1 / (Flt.lightSpeed * (1 + 5 * X))) = 1 / (1 + 5 * X) := by field_simp
      rw [this, div_lt_iff₀ (by positivity)]
      linarith
    · have : (Flt.lightSpeed : ℝ) * (1 / (Flt.lightSpeed * (1 + 5 * X))) = 1 / (1 + 5 * X) := by field_simp
      rw [this, mul_one_div, div_lt_iff₀ (by positivity)]
      linarith
  obtain ⟨s, hs, _⟩ := C60_start (small_valid hdt) (so := List.reverse) (fun l => List.reverse_perm l) (io := id)
    (fun l => .refl _) ⟨4, true⟩ (by norm_num) 2 (by rw [small_cells])
  have hd : s.data.dt = dt := by
    obtain ⟨nd, mats', dom, doms, _, a2, _⟩ := startRun_parts hs
    rw [a2]
    rfl
  obtain ⟨fuel', hf⟩ := exists_nat_gt (segmentBound (smallProblem dt).grid ((Flt.lightSpeed : ℝ) * s.data.dt) X)
  have hor := fun d q hq => small_ordinary (d := d) (q := q) hX0.le hdt h1 h2 hs (hb dt s hs) fuel' hq
  obtain ⟨r1, r2⟩ := C76_run (small_valid hdt) (small_filled dt) (so := List.reverse) (fun l => List.reverse_perm l)
    (io := id) (fun l => .refl _) ⟨4, true⟩ (by norm_num) 2 (by rw [small_cells]) hs hX (hb dt s hs)
    (by rw [hd]; exact h1.trans (by norm_num)) hf hor
  exact ⟨dt, hdt, s, fuel', hs, hor, small_visits hdt hs fuel', r1, fun threads ht => r2 _ (.inr ht)⟩
