import Verif.Props.RoundedFlight
import Verif.Props.EndingCase
import Verif.Lemmas.IeeeReal
/-!
# Runs that meet the hypotheses of C65, C66 and C78

The built-in problem in `f32` and `f64`, and, for the theorems that speak of the particles of a run, the run of
`Verif/Props/EndingCase.lean` in exact arithmetic, which follows the same rules.
-/
open Flt FltReal GridSpec MeshSpec Flooding Ieee Config
attribute [local irreducible] Rng.lcg Rng.sample Rng.spawn Rng.draw

/-! ### Exact arithmetic -/

theorem real_fin (x : ℝ) : IsFin x x := rfl

theorem real_usable {x : ℝ} (h : 0 ≤ x) : Usable x := ⟨x, rfl, h⟩

theorem real_reciprocal : Reciprocal ℝ := by
  intro a x hx x0
  obtain rfl : a = x := hx.inj (real_fin _) ▸ rfl
  simpa using x0

/-- A valid input is one that arithmetic following the rules can carry, when this arithmetic is exact. -/
theorem exact_input {p : Params ℝ} (h : ValidInput p) (h16 : 16 ≤ p.simulation.nParticles)
    (h62 : p.simulation.nParticles ≤ 2 ^ 62) : FloatInput p := by
  refine ⟨real_usable h.dt.le, ⟨_, _, real_fin _, real_fin _, h.energies.1.le, h.energies.2.1.le, h.energies.2.2⟩, by simp,
    h.groups, ⟨h16, h62⟩, fun k mp hk => ⟨?_, real_usable (h.materials k mp hk).rate⟩, fun k x hk => ?_⟩
  · have := (h.materials k mp hk).mass
    simpa using this.le
  · obtain ⟨h0, h1⟩ := h.nuBar k x hk
    refine ⟨real_usable h0, ?_⟩
    simp
    linarith

theorem exact_root {p : Params ℝ} {mats : List (Material ℝ)} (h : SingleUnit p mats) (hroot : p.rootCell < cells p.grid) :
    RootInGrid p := by
  intro c0 root hc hw
  change initCenters p.grid 1 _ = _ at hc
  change p.grid.whichCell c0 = _ at hw
  rw [initCenters_eq h] at hc
  cases hc
  have hx : p.grid.nx = p.simulation.nx := rfl
  have hy : p.grid.ny = p.simulation.ny := rfl
  have hz : p.grid.nz = p.simulation.nz := rfl
  have hb := grid_box h
  have h1 := h.counts.1.2
  have h2 := h.counts.2.1.2
  have h3 := h.counts.2.2.2
  have t1 : (p.grid.cellIdxToTuple p.rootCell).1 < p.grid.nx := Nat.mod_lt _ hb.nx
  have t2 : (p.grid.cellIdxToTuple p.rootCell).2.1 < p.grid.ny := Nat.mod_lt _ hb.ny
  rw [whichCell_center hb ⟨by omega, by omega, by have := root_tuple h; omega⟩] at hw
  cases hw
  exact hroot

theorem exact_tables {data : Data ℝ} {dom : Domain ℝ} (h : SafeProblem data dom) (h62 : data.nParticles ≤ 2 ^ 62) :
    FloatTables data dom := by
  refine ⟨fun cell group v hv => real_usable (h.tracking.time.tables.directXs hv), ?_,
    fun cs hcs => real_usable (h.source.volume cs hcs), ?_⟩
  · intro cs hcs m hm iso hi rs hrs r hr s hs
    have t := h.tracking.time.tables
    exact real_usable (mul_nonneg (mul_nonneg (t.fraction m hm iso hi) (t.density cs hcs)) (t.tables rs hrs r hr s hs))
  · obtain ⟨w, h1, h2, _⟩ := h.weight
    have hn : (0 : ℝ) < data.nParticles := by exact_mod_cast lt_of_lt_of_le (by norm_num) h.atLeast
    have hn2 : (data.nParticles : ℝ) ≤ 2 ^ 62 := by exact_mod_cast h62
    refine ⟨w, h1, real_usable h2.le, ?_, ?_⟩
    · simp; positivity
    · have : w / (w / (((1 : ℕ) : ℝ) * 10 ^ (-1 : ℤ) * (data.nParticles : ℝ))) = data.nParticles / 10 := by
        rw [zpow_neg_one]; field_simp; simp
      show decide (w / (w / (((1 : ℕ) : ℝ) * 10 ^ (-1 : ℤ) * (data.nParticles : ℝ))) < ((2 ^ 63 : ℕ) : ℝ)) = true
      rw [this, decide_eq_true_eq]
      push_cast
      linarith

/-- The numbers of particles of the first cycle. -/
theorem exact_count {data : Data ℝ} {o : SyncOpts} {fuel : Nat} {s0 : SimState ℝ} (h : SafeProblem data s0.unit.dom)
    (h0 : InitialState s0) : Countable64 data o fuel s0 0 := by
  intro k s s2 u2 c2 hk hdir hsync hsrc
  obtain rfl : k = 0 := by omega
  cases hdir
  have hprep : syncPrepare data s0 = .ok s2 := by
    unfold cycleSync at hsync
    simpa using hsync
  have hn : 0 < data.nParticles := lt_of_lt_of_le (by norm_num) h.atLeast
  have hmax := h.atMost
  obtain ⟨f1, _⟩ := syncPrepare_fields hprep
  have hproc : s2.container.processing = [] := by
    rw [f1]; simp [Container.swap, h0.processing, h0.processed]
  constructor
  · simp only [syncPrepare, bind_ok, pure_ok] at hprep
    obtain ⟨w', hw', k, hk, rfl⟩ := hprep
    simp only [Container.swap, h0.processing, h0.processed]
    have h1 : (10 : ℝ) ≤ data.nParticles := by exact_mod_cast h.atLeast
    have h2 : (data.nParticles : ℝ) < 2 ^ 64 := by exact_mod_cast hmax
    rw [toSpawn_eq, toUsize_eq, if_pos (by constructor <;> linarith)] at hk
    cases hk
    have h3 : ⌊(data.nParticles : ℝ) / 10⌋₊ ≤ data.nParticles := by
      refine (Nat.floor_le_floor (show (data.nParticles : ℝ) / 10 ≤ data.nParticles by linarith)).trans ?_
      rw [Nat.floor_natCast]
    have : (([] : List (Particle ℝ)) ++ []).length = 0 := rfl
    omega
  · have hpos : 0 < s2.unit.unitWeight := by
      obtain ⟨w, w1, w2, _⟩ := h.weight
      simp only [syncPrepare, bind_ok, pure_ok] at hprep
      obtain ⟨w', hw, _, _, rfl⟩ := hprep
      rw [w1] at hw
      cases hw
      exact w2
    obtain ⟨ws, ns, sourced, _, _, _, g4, _, _, _, g8, _⟩ := C35_source h.source hn hprep hpos hsrc
    rw [hproc, List.nil_append] at g4
    rw [g4]
    have h1 : (data.nParticles : ℝ) < 2 ^ 64 := by exact_mod_cast hmax
    have h2 : (0 : ℝ) < data.nParticles := by exact_mod_cast hn
    have : (sourced.length : ℝ) < 2 ^ 64 := by linarith
    exact_mod_cast this

/-- A valid input gives a problem that meets the hypotheses of C78, in exact arithmetic. -/
theorem exact_problem {p : Params ℝ} (h : ValidInput p) (hm : FilledMaterials p) (h16 : 16 ≤ p.simulation.nParticles)
    (h62 : p.simulation.nParticles ≤ 2 ^ 62) {so : StrOrder} (hso : ∀ l, (so l).Perm l) {io : IterOrder}
    (hio : ∀ l, (io l).Perm l) (m : Machine) (hmt : 1 ≤ m.defaultThreads) {fuel : Nat} (hf : cells p.grid + 1 ≤ fuel)
    {s : Started ℝ} (hs : startRun so io m fuel p = .ok (some s)) :
    RootInGrid p ∧ FloatInput p ∧ FloatTables s.data s.state.unit.dom ∧ TablesSized s.data s.state.unit.dom ∧
    ∀ fuel', Countable64 s.data s.opts fuel' s.state 0 := by
  obtain ⟨s', e1, e2, e3, e4, e5, e6, mats, e7, e8⟩ := h.start hso hio m hmt fuel hf
  rw [hs] at e1
  cases e1
  obtain ⟨_, hset, _⟩ := C64_started hs
  exact ⟨exact_root e7 h.root, exact_input h h16 h62, exact_tables e2 (by rw [hset.nParticles]; exact h62),
    (C67_started_tables hso h.named h.consistent hm hs).tables, fun fuel' => exact_count e2 e3⟩

/-- **A run that meets the hypotheses of C78**, in exact arithmetic, with a particle that is tracked. -/
theorem small_run_rounded : ∃ (p : Params ℝ) (s : Started ℝ) (fuel' : Nat), NamedParams p ∧ Consistent p ∧ RootInGrid p ∧
    FloatInput p ∧ (zero <. p.simulation.lowWeightCutoff) = true ∧
    startRun List.reverse id ⟨4, true⟩ 2 p = .ok (some s) ∧ FloatTables s.data s.state.unit.dom ∧
    TablesSized s.data s.state.unit.dom ∧ 0 < p.simulation.nSteps ∧ Countable64 s.data s.opts fuel' s.state 0 ∧
    ∃ s2 u1 c1 b surv cs, cycleSync s.data s.opts 0 s.state = .ok s2 ∧
      populationControl s.data s2.globalN s2.srcWeight s2.unit s2.container = .ok (u1, c1) ∧
      Generations s.data u1.dom fuel' c1.processing b surv cs ∧
      ∃ q ∈ c1.processing, ReachableBy (CacheAnswer s.data) s.data s.state.unit.dom fuel' q := by
  obtain ⟨dt, hdt, s, fuel', hs, _, ⟨d, q, hv⟩, ⟨t, s1, hrun, _⟩, _⟩ := small_run
  obtain ⟨h1, h2, h3, h4, h5⟩ := exact_problem (small_valid hdt) (small_filled dt) (by show 16 ≤ 16; norm_num)
    (by show 16 ≤ 2 ^ 62; norm_num) (so := List.reverse) (fun l => List.reverse_perm l) (io := id) (fun l => .refl _)
    ⟨4, true⟩ (by norm_num) (by rw [small_cells]) hs
  obtain ⟨_, hset, _⟩ := C64_started hs
  have hn : s.data.nSteps = 1 := hset.nSteps
  refine ⟨_, s, fuel', builtin_named _, builtin_consistent _, h1, h2, ?_, hs, h3, h4, by show 0 < 1; norm_num, h5 _, ?_⟩
  · show (zero <. (SimulationParams.default : SimulationParams ℝ).lowWeightCutoff) = true
    simp [SimulationParams.default]
  · rw [hn] at hrun
    cases hrun with
    | @succ _ _ s0 s2 u c hc hsync hcyc =>
      cases hc
      obtain ⟨u1, c1, b, surv, cs, hpc, hg, _⟩ := hcyc
      obtain ⟨n, s1', s2', u', c', p, hlt, hcyc', hsync', hpc', hp, _⟩ := hv
      obtain rfl : n = 0 := by omega
      cases hcyc'
      rw [hsync] at hsync'
      cases hsync'
      rw [hpc] at hpc'
      cases hpc'
      obtain ⟨_, _, hfresh⟩ := C64_started hs
      have h0 := hfresh.initial
      have hprep : syncPrepare s.data s.state = .ok s2 := by
        unfold cycleSync at hsync
        simpa using hsync
      obtain ⟨f1, _, _, _, _, f6, _⟩ := syncPrepare_fields hprep
      refine ⟨s2, u1, c1, b, surv, cs, hsync, hpc, hg, p, hp,
        populationControl_reach (by rw [f6]) ?_ hpc p (by simp [Container.all, hp])⟩
      rw [f1]
      simp [Container.swap, Container.all, h0.processing, h0.processed, h0.extra]

/-- The contributions of this run, and the weights and times of its particles. -/
example : ∃ (s : Started ℝ) (fuel' : Nat) (s2 : SimState ℝ) (u1 : UnitState ℝ) (c1 : Container ℝ) (b : Balance)
    (surv : List (Particle ℝ)) (cs : List (ℕ × ℝ)),
    populationControl s.data s2.globalN s2.srcWeight s2.unit s2.container = .ok (u1, c1) ∧ c1.processing ≠ [] ∧
    Generations s.data u1.dom fuel' c1.processing b surv cs ∧ ∀ c ∈ cs, (c.2 <. zero) = false := by
  obtain ⟨p, s, fuel', h1, h2, h3, h4, h5, h6, h7, h8, h9, h10, s2, u1, c1, b, surv, cs, g1, g2, g3, q, g4, g5⟩ :=
    small_run_rounded
  exact ⟨s, fuel', s2, u1, c1, b, surv, cs, g2, List.ne_nil_of_mem g4, g3,
    fun c hc => C78_contributions (fun l => List.reverse_perm l) (fun l => .refl _) real_reciprocal h1 h2 h3 h4 h5 h6 h7
      h9 h10 .zero g1 g2 g3 c hc⟩

/-! ### The built-in problem with rounding -/

section builtin
variable {T : Type} [Flt T] [Ieee T]

theorem not_beq_zero {a : T} (h : (zero <. a) = true) : (a ==. (zero : T)) = false := by
  obtain ⟨x, hx, x0⟩ := pos_iff.1 h
  by_contra hc
  rw [Bool.not_eq_false] at hc
  obtain ⟨y, h1, h2⟩ := (beq_iff a zero).1 hc
  have h3 : val (zero : T) = some ((0 : ℝ) : EReal) := fin_zero
  rw [h3] at h2
  cases h2
  rw [hx] at h1
  cases h1
  exact lt_irrefl _ x0

theorem builtin_filled (threads steps : Nat) : FilledMaterials (builtinOf threads steps : Params T) := by
  have h10 : (zero <. ((one : T) /. Flt.ofNat 10)) = true := by
    have : Bd ((one : T) /. Flt.ofNat 10) (1 / 16) 1 := (IsFin.bd fin_one).div (IsFin.bd (fin_ofNat (n := 10) (by norm_num)))
      (by have := Ieee.rep_two_pow (T := T) (k := -4) (by norm_num) (by norm_num); norm_num at this ⊢; exact this)
      rep_one (by norm_num) (by norm_num) (by norm_num) (by norm_num) (by norm_num)
    obtain ⟨x, hx, x0, _⟩ := this
    exact pos_iff.2 ⟨_, hx, by exact_mod_cast lt_of_lt_of_le (by norm_num) x0⟩
  refine ⟨not_beq_zero ((lt_fin fin_zero fin_one).2 (by norm_num)), fun k mp hk => ?_⟩
  rw [builtinOf_materials, HMap.get?_cons] at hk
  split at hk
  · cases hk
    exact ⟨show 0 < 10 by norm_num, show 0 < 9 by norm_num, not_beq_zero h10⟩
  · cases hk

theorem builtin_cutoff : (zero <. (Flt.lit 1 (-3) : T)) = true := by
  obtain ⟨x, hx, x0, _⟩ := lit_bd (T := T) (m := 1) (e := -3) (n := 1) (k := -10) (n' := 1) (k' := 0) (by norm_num) (by norm_num)
          (by norm_num) (by norm_num) (by norm_num) (by norm_num)
  exact pos_iff.2 ⟨_, hx, by exact_mod_cast lt_of_lt_of_le (by norm_num) x0⟩

end builtin

/-- **C78** for the problem that runs without an input file: with the rounding of a format like `f32` and `f64`, for any
number of threads and of cycles and under any schedule, every particle has exactly no time left after each cycle, and an
optical path and an age that are not negative. -/
theorem C78_builtin (F : Format) (hF : F.prec + F.high ≤ -F.low) {threads steps : Nat} {so : StrOrder}
    (hso : ∀ l, (so l).Perm l) {io : IterOrder} (hio : ∀ l, (io l).Perm l) (m : Machine) {fuel : Nat} (hfuel : 1000 ≤ fuel) :
    ∃ s, startRun so io m fuel (builtinOf threads steps : Params (Num F)) = .ok (some s) ∧
      ∀ fuel' n s1, n ≤ steps → Cycles s.data s.exec s.opts fuel' n s.state s1 → ∀ q ∈ s1.container.all,
        (q.timeToCensus ==. zero) = true ∧ (q.numMeanFreePaths <. zero) = false ∧ (q.age <. zero) = false := by
  obtain ⟨s, h1, h2⟩ := builtin_start (threads := threads) (steps := steps) (builtin_sourced F) hso hio m hfuel
  exact ⟨s, h1, fun fuel' n s1 hn hc q hq => C78_survivors hso hio (C78_reciprocal F hF) (builtin_named _)
    (builtin_consistent _) builtin_floatMesh.root (builtin_floatInput (builtin_sourced _)) h1 h2 hn hc q hq⟩

/-- The hypotheses of C78 on the input and on its tables, in `f64`. -/
example : ∃ (p : Params (Num binary64)) (s : Started (Num binary64)), Reciprocal (Num binary64) ∧ NamedParams p ∧
    Consistent p ∧ RootInGrid p ∧ FloatInput p ∧ (zero <. p.simulation.lowWeightCutoff) = true ∧
    startRun id id ⟨8, false⟩ 1000 p = .ok (some s) ∧ FloatTables s.data s.state.unit.dom ∧
    TablesSized s.data s.state.unit.dom ∧ 0 < p.simulation.nSteps := by
  obtain ⟨s, h1, h2⟩ := builtin_start (threads := 8) (steps := 10) (builtin_sourced binary64)
    (so := id) (fun l => .refl _) (io := id) (fun l => .refl _) ⟨8, false⟩ le_rfl
  exact ⟨_, s, C78_formats.2, builtin_named _, builtin_consistent _, builtin_floatMesh.root,
    builtin_floatInput (builtin_sourced _), builtin_cutoff, h1, h2,
    (C67_started_tables (fun l => .refl _) (builtin_named _) (builtin_consistent _) (builtin_filled 8 10) h1).tables,
    by show 0 < 10; norm_num⟩

/-- And in `f32`. -/
example : ∃ (p : Params (Num binary32)) (s : Started (Num binary32)), Reciprocal (Num binary32) ∧ NamedParams p ∧
    Consistent p ∧ RootInGrid p ∧ FloatInput p ∧ (zero <. p.simulation.lowWeightCutoff) = true ∧
    startRun id id ⟨8, false⟩ 1000 p = .ok (some s) ∧ FloatTables s.data s.state.unit.dom ∧
    TablesSized s.data s.state.unit.dom ∧ 0 < p.simulation.nSteps := by
  obtain ⟨s, h1, h2⟩ := builtin_start (threads := 1) (steps := 10) (builtin_sourced binary32)
    (so := id) (fun l => .refl _) (io := id) (fun l => .refl _) ⟨8, false⟩ le_rfl
  exact ⟨_, s, C78_formats.1, builtin_named _, builtin_consistent _, builtin_floatMesh.root,
    builtin_floatInput (builtin_sourced _), builtin_cutoff, h1, h2,
    (C67_started_tables (fun l => .refl _) (builtin_named _) (builtin_consistent _) (builtin_filled 1 10) h1).tables,
    by show 0 < 10; norm_num⟩
