import Verif.Lemmas.SafeStart
/-!
# C60: a run on a valid input does not panic

`ValidInput` (`Verif/Spec/Valid.lean`) bears on the parameters only.  `RunFails` (`Verif/Spec/Fails.lean`) holds of
every panic that some execution can stop on, under any schedule; `outOfFuel` is no panic, it stands for a run that is
still going on.  Over the reals: rounding, overflow to infinity and NaN are not covered.
-/
open Flt FltReal GridSpec MeshSpec
attribute [local irreducible] Rng.lcg Rng.sample Rng.spawn

/-- **C60** (start).  With a valid input the program goes through its initialisation, on any machine, and whatever the
order in which the hash maps are visited. -/
theorem C60_start {p : Params ℝ} (h : ValidInput p) {so : StrOrder} (hso : ∀ l, (so l).Perm l) {io : IterOrder}
    (hio : ∀ l, (io l).Perm l) (m : Machine) (hm : 1 ≤ m.defaultThreads) (fuel : Nat)
    (hfuel : cells p.grid + 1 ≤ fuel) :
    ∃ s, startRun so io m fuel p = .ok (some s) ∧ s.data.nSteps = p.simulation.nSteps := by
  obtain ⟨s, h1, _, _, _, _, h6, _⟩ := h.start hso hio m hm fuel hfuel
  exact ⟨s, h1, h6⟩

/-- **C60** (run).  No execution of the run that follows stops on a panic: not in a synchronisation, not in population
control, not in the tracking of any particle, for any number of threads, chunk size and interleaving. -/
theorem C60_no_panic {p : Params ℝ} (h : ValidInput p) {so : StrOrder} (hso : ∀ l, (so l).Perm l) {io : IterOrder}
    (hio : ∀ l, (io l).Perm l) (m : Machine) (hm : 1 ≤ m.defaultThreads) (fuel : Nat)
    (hfuel : cells p.grid + 1 ≤ fuel) {s : Started ℝ} (hs : startRun so io m fuel p = .ok (some s)) (fuel' : Nat)
    (e : Panic) (he : RunFails s.data s.exec s.opts fuel' s.state e) : e = .outOfFuel := by
  obtain ⟨s', h1, h2, h3, h4, h5, _⟩ := h.start hso hio m hm fuel hfuel
  rw [hs] at h1
  cases h1
  exact runFails_safe h2 h3 h4 h5 he

/-- **C60** (next step).  As long as the number of cycles is not reached, the next synchronisation and the next
population control give a result, so that the run can only go on tracking particles. -/
theorem C60_progress {p : Params ℝ} (h : ValidInput p) {so : StrOrder} (hso : ∀ l, (so l).Perm l) {io : IterOrder}
    (hio : ∀ l, (io l).Perm l) (m : Machine) (hm : 1 ≤ m.defaultThreads) (fuel : Nat)
    (hfuel : cells p.grid + 1 ≤ fuel) {s : Started ℝ} (hs : startRun so io m fuel p = .ok (some s)) (fuel' n : Nat)
    (hn : n < p.simulation.nSteps) {s1 : SimState ℝ} (hc : Cycles s.data s.exec s.opts fuel' n s.state s1) :
    ∃ s2 u c, cycleSync s.data s.opts n s1 = .ok s2 ∧
      populationControl s.data s2.globalN s2.srcWeight s2.unit s2.container = .ok (u, c) := by
  obtain ⟨s', h1, h2, h3, h4, h5, h6, _⟩ := h.start hso hio m hm fuel hfuel
  rw [hs] at h1
  cases h1
  have no : ∀ e, RunFails s.data s.exec s.opts fuel' s.state e → e = .outOfFuel := fun e he =>
    runFails_safe h2 h3 h4 h5 he
  obtain ⟨a1, a2, a3⟩ := cycles_safe h2 h3 h4 (by omega) hc
  have hg := numGroups_skeleton a2
  obtain ⟨s2, e1, _, e3, e4, w, e5, e6⟩ := (h2.skeleton a2).sync (o := s.opts) (n := n) (by omega) a1.spectrum (fun p h => by
    have := (C27_reachable h2.tracking.energy (a3 p h)).2.2
    omega)
  obtain ⟨⟨u, c⟩, hx⟩ := (h2.skeleton (d := s2.unit.dom) (by rw [e4]; exact a2)).population (c := s2.container) e3
    (by rw [e4]; exact e5)
  exact ⟨s2, u, c, e1, by rw [e6]; exact hx⟩

/-- **C60**, the need of a source.  When the share of some cell in the source weight is no number that fits in a
`usize`, as `0 / 0` when nothing emits, the first population control panics.  For every number type. -/
theorem C60_no_source_stops {T : Type} [Flt T] {data : Data T} {n : Nat} {w r : T} {u : UnitState T} {c : Container T}
    {rates : List T} {cell : CellState T} {rest : List (CellState T)} (hr : sourceRateList data = .ok rates)
    (hu : u.dom.cells = cell :: rest) (hi : rates[cell.material]? = some r)
    (h : Flt.toUsize (Flt.floor ((cell.volume *. r *. data.dt) /. w)) = none) :
    populationControl data n w u c = .error .unwrapNone := by
  unfold populationControl sourceNow
  rw [hr, hu]
  dsimp only [bind, Except.bind]
  unfold sourceCells cellSourceCount
  rw [idx_ok.2 hi]
  dsimp only [bind, Except.bind]
  rw [h]
  rfl

/-- A case, with a share below zero. -/
example : Flt.toUsize (Flt.floor (((-5 : ℝ) * 1 * 1) / 2)) = none := by
  rw [toUsize_eq, if_neg]
  simp only [floor_eq, not_and, not_lt]
  intro h
  exfalso
  have : (⌊((-5 : ℝ) * 1 * 1) / 2⌋ : ℝ) ≤ ((-5 : ℝ) * 1 * 1) / 2 := Int.floor_le _
  linarith

/-! ### The problem that runs without an input file -/

/-- The default settings, with a chosen number of threads and of cycles. -/
noncomputable def chosen (threads steps : Nat) : SimulationParams ℝ :=
  { (SimulationParams.default : SimulationParams ℝ) with nRayonThreads := threads, nSteps := steps }

/-- The built-in problem, with the default settings, is valid. -/
theorem builtin_valid (threads steps : Nat) : ValidInput (builtinParams (chosen threads steps)) := by
  have hd := default_single (seed := 1029384756) (by norm_num)
  have hgrid : (builtinParams (chosen threads steps)).grid =
      (defaultProblem 1029384756).grid := rfl
  have hgeom : (builtinParams (chosen threads steps)).geometries =
      (defaultProblem 1029384756).geometries := by
    simp [builtinParams, Params.supplyDefaults, defaultProblem, SimulationParams.default, chosen]
  have hroot : (builtinParams (chosen threads steps)).rootCell =
      (defaultProblem 1029384756).rootCell := rfl
  have hcells : cells (builtinParams (chosen threads steps)).grid = 1000 := by
    rw [hgrid, default_cells]
  obtain ⟨mp, hmat, q1, q2, q3, q4, q5, q6⟩ : ∃ mp : MaterialParams ℝ,
      (builtinParams (chosen threads steps)).materials = [("source_material", mp)] ∧
      mp.mass = 1000 ∧ mp.totalCrossSection = 1 ∧ mp.scatteringCrossSectionRatio = 1 ∧
      mp.absorptionCrossSectionRatio = 1 ∧ mp.fissionCrossSectionRatio = 1 / 10 ∧ mp.sourceRate = 10 ^ 10 := by
    refine ⟨_, rfl, ?_, ?_, ?_, ?_, ?_, ?_⟩ <;> simp [MaterialParams.default]
  obtain ⟨x, hxs, hnu⟩ : ∃ x : CrossSectionParams ℝ,
      (builtinParams (chosen threads steps)).crossSections = [("flat", x)] ∧
      x.nuBar = 10066330 / 2 ^ 22 := by
    refine ⟨_, rfl, ?_⟩
    simp [CrossSectionParams.default]
    norm_num
  refine ⟨builtin_named _, builtin_consistent _, hd.units, hd.counts, hd.sizes, hd.seed, hd.border, ?_, ?_, ?_, ?_, ?_,
    ?_, ?_, ?_, ?_⟩
  · intro c hc
    rw [hgrid] at hc ⊢
    rw [hgeom]
    exact hd.covered c hc
  · rw [hroot, hgrid]
    exact default_root
  · rw [hcells]
    show 10 * 1000 ≤ 1000000 ∧ 1000000 < 2 ^ 64
    norm_num
  · show 0 < (SimulationParams.default : SimulationParams ℝ).dt
    simp [SimulationParams.default]
  · show 0 < (SimulationParams.default : SimulationParams ℝ).eMin ∧ _ < (SimulationParams.default : SimulationParams ℝ).eMax ∧
      20 ≤ (SimulationParams.default : SimulationParams ℝ).eMax
    refine ⟨?_, ?_, ?_⟩
    · simp [SimulationParams.default]
    · show (SimulationParams.default : SimulationParams ℝ).eMin < (SimulationParams.default : SimulationParams ℝ).eMax
      simp [SimulationParams.default]
      norm_num
    · simp [SimulationParams.default]
  · show 0 < 230
    norm_num
  · intro k m hm
    rw [hmat, HMap.get?_cons] at hm
    split at hm
    · cases hm
      refine ⟨?_, ?_, ⟨?_, ?_, ?_⟩, ?_, ?_⟩
      · rw [q1]; norm_num
      · rw [q2]; norm_num
      · rw [q3]; norm_num
      · rw [q4]; norm_num
      · rw [q5]; norm_num
      · rw [q3, q4, q5]; norm_num
      · rw [q6]; norm_num
    · cases hm
  · intro k y hy
    rw [hxs, HMap.get?_cons] at hy
    split at hy
    · cases hy
      rw [hnu]
      norm_num
    · cases hy
  · obtain ⟨geom, hg, hin⟩ := hd.covered 0 (by rw [default_cells]; norm_num)
    refine ⟨0, by rw [hcells]; norm_num, geom, mp, ⟨[], [], ?_, ?_, by simp⟩, ?_, by rw [q6]; norm_num⟩
    · rw [hgeom]
      simp only [defaultProblem, List.mem_singleton] at hg
      rw [hg]
      rfl
    · rw [hgrid]
      exact hin
    · simp only [defaultProblem, List.mem_singleton] at hg
      rw [hg, hmat]
      exact HMap.get?_cons _ _ _

/-- It runs without a panic, on four threads for instance, with the materials visited in any order. -/
example : ∃ s, startRun List.reverse id ⟨4, true⟩ 1001 (builtinParams (chosen 4 10)) = .ok (some s) ∧
    ∀ fuel e, RunFails s.data s.exec s.opts fuel s.state e → e = .outOfFuel := by
  have hv := builtin_valid 4 10
  have hf : cells (builtinParams (chosen 4 10)).grid + 1 ≤ 1001 := le_of_eq (by
    rw [show cells (builtinParams (chosen 4 10)).grid = 1000 from default_cells 1029384756])
  obtain ⟨s, h1, _⟩ := C60_start hv (so := List.reverse) (fun l => List.reverse_perm l) (io := id)
    (fun l => .refl _) ⟨4, true⟩ (by norm_num) 1001 hf
  exact ⟨s, h1, C60_no_panic hv (so := List.reverse) (fun l => List.reverse_perm l) (io := id)
    (fun l => .refl _) ⟨4, true⟩ (by norm_num) 1001 hf h1⟩
