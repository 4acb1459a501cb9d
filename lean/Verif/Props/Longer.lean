import Verif.Spec.Steps
import Verif.Props.Together
import Verif.Props.Seed
import Verif.Props.EndToEnd
/-!
# C86: a longer run begins with the shorter one
-/
open Flt Flooding GridSpec Config
attribute [local irreducible] Rng.lcg Rng.sample Rng.spawn
set_option linter.unusedSectionVars false

section
variable {T : Type} [Flt T] {data : Data T} {ex : ExecInfo} {o : SyncOpts} {fuel n k : Nat}

/-! ### What does not depend on the number of cycles -/

theorem sourceCells_steps (dom : Domain T) (rates : List T) (w : T) : ∀ (l : List (CellState T)) (i : Nat),
    sourceCells (data.withSteps k) dom rates w l i = sourceCells data dom rates w l i := by
  intro l
  induction l with
  | nil => intro i; rfl
  | cons c l ih =>
    intro i
    simp only [sourceCells, ih]
    rfl

theorem populationControl_steps (N : Nat) (w : T) (u : UnitState T) (c : Container T) :
    populationControl (data.withSteps k) N w u c = populationControl data N w u c := by
  unfold populationControl sourceNow
  simp only [sourceCells_steps]
  rfl

theorem scanIsotopes_steps (density : T) (group : Nat) : ∀ (l : List (Isotope T)) (xs : T) (r : Option (Reaction T)),
    scanIsotopes (data.withSteps k) density group l xs r = scanIsotopes data density group l xs r := by
  intro l
  induction l with
  | nil => intro xs r; rfl
  | cons c l ih =>
    intro xs r
    simp only [scanIsotopes, ih]
    rfl

theorem pickReaction_steps (mat : Material T) (density : T) (group : Nat) : ∀ (f : Nat) (xs : T) (r : Option (Reaction T)),
    pickReaction (data.withSteps k) mat density group f xs r = pickReaction data mat density group f xs r := by
  intro f
  induction f with
  | zero => intro xs r; rfl
  | succ f ih => intro xs r; simp only [pickReaction, ih, scanIsotopes_steps]

theorem segmentEvent_steps (dom : Domain T) (f : Nat) (oc : SegOutcome) (st : TrackState T) :
    segmentEvent (data.withSteps k) dom f oc st = segmentEvent data dom f oc st := by
  cases oc with
  | census => rfl
  | facetCrossing => rfl
  | collision =>
    unfold segmentEvent collisionBranch collisionEvent
    simp only [pickReaction_steps]
    rfl

theorem trackStep_steps (dom : Domain T) (f : Nat) (st : TrackState T) :
    trackStep (data.withSteps k) dom f st = trackStep data dom f st := by
  unfold trackStep
  simp only [segmentEvent_steps]
  rfl

theorem trackLoop_steps (dom : Domain T) (c : Nat) : ∀ (f : Nat) (st : TrackState T),
    trackLoop (data.withSteps k) dom c f st = trackLoop data dom c f st := by
  intro f
  induction f with
  | zero => intro st; rfl
  | succ f ih => intro st; simp only [trackLoop, ih, trackStep_steps]

theorem trackAll_steps (dom : Domain T) (f : Nat) : trackAll (data.withSteps k) dom f = trackAll data dom f := by
  funext l
  induction l with
  | nil => rfl
  | cons p l ih =>
    funext b ex
    simp only [trackAll, trackGuts, trackLoop_steps, ih]
    rfl

theorem chunkProg_steps (dom : Domain T) (f : Nat) : chunkProg (data.withSteps k) dom f = chunkProg data dom f := by
  funext ps
  unfold chunkProg
  rw [trackAll_steps]

theorem processSeq_steps (u : UnitState T) (c : Container T) :
    processSeq (data.withSteps k) fuel u c = processSeq data fuel u c := by
  unfold processSeq
  rw [chunkProg_steps]

theorem processParticles_steps {u u' : UnitState T} {c c' : Container T} (h : ProcessParticles data ex fuel u c u' c') :
    ProcessParticles (data.withSteps k) ex fuel u c u' c' := by
  cases h with
  | seq h1 h2 => exact .seq h1 (by rw [processSeq_steps]; exact h2)
  | par h1 h2 h3 h4 h5 h6 h7 => exact .par h1 h2 (by rw [chunkProg_steps]; exact h3) h4 h5 h6 h7

theorem processLoop_steps {u u' : UnitState T} {c c' : Container T} (h : ProcessLoop data ex fuel u c u' c') :
    ProcessLoop (data.withSteps k) ex fuel u c u' c' := by
  induction h with
  | done h => exact .done h
  | iter h1 h2 _ ih => exact .iter h1 (processParticles_steps h2) ih

theorem cycleProcess_steps {N : Nat} {w : T} {u u' : UnitState T} {c c' : Container T}
    (h : CycleProcess data ex fuel N w u c u' c') : CycleProcess (data.withSteps k) ex fuel N w u c u' c' := by
  obtain ⟨u1, c1, h1, h2⟩ := h
  exact ⟨u1, c1, by rw [populationControl_steps]; exact h1, processLoop_steps h2⟩

theorem cycleSync_steps (h1 : n ≤ data.nSteps) (h2 : n ≤ k) (s : SimState T) :
    cycleSync (data.withSteps k) o n s = cycleSync data o n s := by
  have e1 : ¬ n = data.nSteps + 1 := by omega
  have e2 : ¬ n = (data.withSteps k).nSteps + 1 := by
    change ¬ n = k + 1
    omega
  unfold cycleSync
  simp only [if_neg e1, if_neg e2]
  rfl

theorem cycles_steps {s s' : SimState T} (h1 : n ≤ data.nSteps) (h2 : n ≤ k) (h : Cycles data ex o fuel n s s') :
    Cycles (data.withSteps k) ex o fuel n s s' := by
  induction h with
  | zero => exact .zero
  | succ _ hs hp ih =>
    exact .succ (ih (by omega) (by omega)) (by rw [cycleSync_steps (by omega) (by omega)]; exact hs) (cycleProcess_steps hp)

theorem processFails_steps {u : UnitState T} {c : Container T} {e : Panic} (h : ProcessFails data ex fuel u c e) :
    ProcessFails (data.withSteps k) ex fuel u c e := by
  cases h with
  | seq h1 h2 => exact .seq h1 (by rw [processSeq_steps]; exact h2)
  | chunkSize h1 h2 => exact .chunkSize h1 h2
  | worker h1 h2 h3 h4 => exact .worker h1 h2 (by rw [chunkProg_steps]; exact h3) h4
  | tally h1 h2 h3 h4 => exact .tally h1 h2 (by rw [chunkProg_steps]; exact h3) h4

theorem loopFails_steps {u : UnitState T} {c : Container T} {e : Panic} (h : LoopFails data ex fuel u c e) :
    LoopFails (data.withSteps k) ex fuel u c e := by
  induction h with
  | now h1 h2 => exact .now h1 (processFails_steps h2)
  | later h1 h2 _ ih => exact .later h1 (processParticles_steps h2) ih

/-! ### The theorems -/

/-- **C86** (passage).  Take a finished execution of a run of `data.nSteps` cycles, and fewer cycles `n`.  There is an
execution of the run of `n` cycles, with the same settings, whose reports are the first `n` of the longer one; and the
longer one goes on from the very state in which the shorter one ends. -/
theorem C86_passage {s0 t : SimState T} (h0 : StartOfRun s0) (hn : n < data.nSteps)
    (h : RunCore data ex o fuel s0 t) :
    ∃ t0 u c, RunCore (data.withSteps n) ex o fuel s0 t0 ∧ t0.reports = t.reports.take n ∧ t0.reports.length = n ∧
      CycleProcess data ex fuel t0.globalN t0.srcWeight t0.unit t0.container u c := by
  obtain ⟨s1, hc, hs⟩ := h
  obtain ⟨t1, t2, u, c, t3, rest, g1, g2, g3, g4, g5⟩ := cycles_at hn hc hs
  have hl : t2.reports.length = n := by
    have h1 := (cycleSync_after (by omega) h0.initial (cycles_between (by omega) h0.initial g1) g2).steps
    simpa using congrArg List.length h1
  refine ⟨t2, u, c, ⟨t1, show Cycles (data.withSteps n) ex o fuel n s0 t1 from cycles_steps (by omega) le_rfl g1, ?_⟩, ?_, hl, g3⟩
  · change cycleSync (data.withSteps n) o n t1 = _
    rw [cycleSync_steps (by omega) (Nat.le_refl n)]
    exact g2
  · rw [g5, cycleSync_report g4]
    simp only [List.append_assoc]
    rw [← hl, List.take_left']
    rfl

/-- **C86** (failures).  A panic that can stop the shorter run can stop the longer one. -/
theorem C86_fails {s0 : SimState T} {e : Panic} (hn : n ≤ data.nSteps) (h : RunFails (data.withSteps n) ex o fuel s0 e) :
    RunFails data ex o fuel s0 e := by
  have back : (data.withSteps n).withSteps data.nSteps = data := rfl
  cases h with
  | @sync i s _ h1 h2 h3 =>
    have h1' : i ≤ n := h1
    refine .sync (by omega) (back ▸ cycles_steps (k := data.nSteps) h1 (by omega) h2) ?_
    rw [cycleSync_steps (by omega) h1'] at h3
    exact h3
  | @population i s s1 _ h1 h2 h3 h4 =>
    have h1' : i < n := h1
    refine .population (by omega) (back ▸ cycles_steps (k := data.nSteps) (Nat.le_of_lt h1) (by omega) h2) (s1 := s1) ?_ ?_
    · rw [cycleSync_steps (by omega) (by omega)] at h3
      exact h3
    · rw [populationControl_steps] at h4
      exact h4
  | @tracking i s s1 u c _ h1 h2 h3 h4 h5 =>
    have h1' : i < n := h1
    refine .tracking (by omega) (back ▸ cycles_steps (k := data.nSteps) (Nat.le_of_lt h1) (by omega) h2) (s1 := s1) (u := u)
      (c := c) ?_ ?_ (back ▸ loopFails_steps (k := data.nSteps) h5)
    · rw [cycleSync_steps (by omega) (by omega)] at h3
      exact h3
    · rw [populationControl_steps] at h4
      exact h4

end

/-! ### From the input -/

section
variable {T : Type} [Flt T]

theorem initMesh_steps (io : IterOrder) (fuel k : Nat) (p : Params T) (mats : List (Material T)) :
    initMesh io fuel (p.withSteps k) mats = initMesh io fuel p mats := rfl

theorem crossSectionOutput_steps (k : Nat) (p : Params T) (nd : NuclearData T) (mats : List (Material T)) :
    crossSectionOutput (p.withSteps k) nd mats = crossSectionOutput p nd mats := rfl

theorem maxNuBar_steps (so : StrOrder) (k : Nat) (p : Params T) : maxNuBar so (p.withSteps k) = maxNuBar so p := rfl

theorem initData_steps (so : StrOrder) (k : Nat) (p : Params T) :
    initData so (p.withSteps k) = (initData so p).map (Data.withSteps · k) := by
  unfold initData
  rw [initNuclearData_congr (p := p) (q := p.withSteps k) rfl rfl ⟨rfl, rfl, rfl⟩]
  cases initNuclearData so p with
  | error e => rfl
  | ok r =>
    obtain ⟨nd, mats⟩ := r
    simp only [crossSectionOutput_steps, bind, Except.bind]
    cases crossSectionOutput p nd mats with
    | error e => rfl
    | ok _ => rfl

/-- **C86** (start).  The start-up does not depend on the number of cycles: it fails, refuses or succeeds alike, and then
gives the same state and the same data but for this number. -/
theorem C86_start (so : StrOrder) (io : IterOrder) (m : Machine) (fuel k : Nat) (p : Params T) :
    startRun so io m fuel (p.withSteps k) =
      (startRun so io m fuel p).map (Option.map fun s => { s with data := s.data.withSteps k }) := by
  have hi : initRun so io m fuel (p.withSteps k) =
      (initRun so io m fuel p).map fun s => { s with data := s.data.withSteps k } := by
    unfold initRun
    rw [initData_steps]
    change (ProcInfo.new p.execSettings >>= _) = _
    cases ProcInfo.new p.execSettings with
    | error e => rfl
    | ok info =>
      simp only [bind, Except.bind]
      cases initData so p with
      | error e => rfl
      | ok d =>
        simp only [Except.map]
        have hc : initContainers so (p.withSteps k) info.info = initContainers so p info.info := rfl
        rw [hc]
        cases initContainers so p info.info with
        | error e => rfl
        | ok c =>
          dsimp only
          have hu : initUnits io fuel (p.withSteps k) (d.withSteps k).materials = initUnits io fuel p d.materials := by
            unfold initUnits
            rw [initMesh_steps]
            rfl
          rw [hu]
          cases initUnits io fuel p d.materials with
          | error e => rfl
          | ok us =>
            dsimp only
            cases idx us 0 with
            | error e => rfl
            | ok u => rfl
  unfold startRun
  rw [hi]
  have e : (p.withSteps k).simulation.nx * (p.withSteps k).simulation.ny * (p.withSteps k).simulation.nz =
    p.simulation.nx * p.simulation.ny * p.simulation.nz := rfl
  have e' : (p.withSteps k).simulation.nParticles = p.simulation.nParticles := rfl
  dsimp only
  rw [e, e']
  split
  · rfl
  · split
    · rfl
    · split
      · rfl
      · cases initRun so io m fuel p with
        | error e => rfl
        | ok s => rfl

end

theorem ValidInput.withSteps {p : Params ℝ} (h : ValidInput p) (n : Nat) : ValidInput (p.withSteps n) :=
  ⟨⟨h.named.1, h.named.2⟩, ⟨h.consistent.1, h.consistent.2, h.consistent.3, h.consistent.4⟩, h.units, h.counts, h.sizes, h.seed,
    h.border, h.covered, h.root, h.particles, h.dt, h.energies, h.groups, h.materials, h.nuBar, h.emits⟩

/-- The run of fewer cycles, of which the longer one is an execution at first. -/
theorem shorter_passage {T : Type} [Flt T] {so : StrOrder} {io : IterOrder} {m : Machine} {fuel n : Nat} {p : Params T}
    {a : Started T} (ha : startRun so io m fuel p = .ok (some a)) (hn : n ≤ p.simulation.nSteps) {ex : ExecInfo} {f : Nat}
    {t : SimState T} (hr : RunCore a.data ex a.opts f a.state t) :
    ∃ b t0, startRun so io m fuel (p.withSteps n) = .ok (some b) ∧ b.data = a.data.withSteps n ∧ b.state = a.state ∧
      b.opts = a.opts ∧ RunCore b.data ex b.opts f b.state t0 ∧ t0.reports = t.reports.take n := by
  have hN : a.data.nSteps = p.simulation.nSteps := (C64_started ha).2.1.nSteps
  refine ⟨{ a with data := a.data.withSteps n }, ?_⟩
  rw [C86_start, ha]
  rcases Nat.lt_or_ge n a.data.nSteps with hlt | hge
  · obtain ⟨t0, _, _, h1, h2, _⟩ := C86_passage (started_start ha) hlt hr
    exact ⟨t0, rfl, rfl, rfl, rfl, h1, h2⟩
  · obtain rfl : n = a.data.nSteps := by omega
    refine ⟨t, rfl, rfl, rfl, rfl, hr, ?_⟩
    have hl := (C06_cycle_balance a.data ex a.opts f a.state t (started_start ha) hr).1
    rw [← hl, List.take_length]

/-- **C86** (exact arithmetic).  A run on a valid input has finished, under some schedule.  Then the same problem with fewer
cycles starts from the same state; all its executions finish, under any settings of the threads and any schedule; and
their reports, flux included, are the first ones of the longer run. -/
theorem C86_exact {p : Params ℝ} (h : ValidInput p) (hm : FilledMaterials p) {so : StrOrder} (hso : ∀ l, (so l).Perm l)
    {io : IterOrder} (hio : ∀ l, (io l).Perm l) (m : Machine) (ht : 1 ≤ m.defaultThreads) {fuel : Nat}
    (hfuel : cells p.grid + 1 ≤ fuel) {a : Started ℝ} (ha : startRun so io m fuel p = .ok (some a))
    {ex : ExecInfo} {f : Nat} {t : SimState ℝ} (hr : RunCore a.data ex a.opts f a.state t) {n : Nat}
    (hn : n ≤ p.simulation.nSteps) :
    ∃ b, startRun so io m fuel (p.withSteps n) = .ok (some b) ∧ b.state = a.state ∧
      (∀ ex' f' t', RunCore b.data ex' b.opts f' b.state t' → t'.reports = t.reports.take n) ∧
      (∀ ex' f', f ≤ f' → ex'.chunkSize ≠ 0 ∨ ex'.nRayonThreads ≠ 0 →
        (∃ t', RunCore b.data ex' b.opts f' b.state t') ∧ ∀ e, ¬ RunFails b.data ex' b.opts f' b.state e) := by
  obtain ⟨b, t0, hb, _, h2, _, h4, h5⟩ := shorter_passage ha hn hr
  obtain ⟨e1, e2⟩ := C79_exact (h.withSteps n) ⟨hm.1, hm.2⟩ hso hio m ht hfuel hb h4
  exact ⟨b, hb, h2, fun ex' f' t' hr' => by rw [← h5]; exact (e1 ex' f' t' hr').2.2, e2⟩

/-- **C86** (rounding).  The same with the rounding of `f32` or `f64`, for all the counters of the reports. -/
theorem C86_rounded {T : Type} [Flt T] [Ieee T] {so : StrOrder} (hso : ∀ l, (so l).Perm l) {io : IterOrder}
    (hio : ∀ l, (io l).Perm l) {m : Machine} {fuel : Nat} {p : Params T} (hnm : NamedParams p) (hc : Consistent p)
    (hm : FilledMaterials p) (hroot : RootInGrid p) (hi : FloatInput p) {a : Started T}
    (ha : startRun so io m fuel p = .ok (some a)) (ht : FloatTables a.data a.state.unit.dom)
    {ex : ExecInfo} {f : Nat} {t : SimState T} (hr : RunCore a.data ex a.opts f a.state t) {n : Nat}
    (hn : n ≤ p.simulation.nSteps) :
    ∃ b, startRun so io m fuel (p.withSteps n) = .ok (some b) ∧ b.state = a.state ∧
      (∀ ex' f' t', RunCore b.data ex' b.opts f' b.state t' →
        t'.reports.map (fun r => (r.1, r.2.1)) = (t.reports.take n).map fun r => (r.1, r.2.1)) ∧
      (∀ ex' f', f ≤ f' → ex'.chunkSize ≠ 0 ∨ ex'.nRayonThreads ≠ 0 →
        (∃ t', RunCore b.data ex' b.opts f' b.state t') ∧ ∀ e, ¬ RunFails b.data ex' b.opts f' b.state e) := by
  obtain ⟨b, t0, hb, h1, h2, _, h4, h5⟩ := shorter_passage ha hn hr
  have ht' : FloatTables b.data b.state.unit.dom := by
    rw [h1, h2]
    exact ⟨ht.xs, ht.reaction, ht.volume, ht.weight⟩
  obtain ⟨e1, e2⟩ := C79_rounded (p := p.withSteps n) hso hio ⟨hnm.1, hnm.2⟩ ⟨hc.1, hc.2, hc.3, hc.4⟩ ⟨hm.1, hm.2⟩ hroot
    ⟨hi.1, hi.2, hi.3, hi.4, hi.5, hi.6, hi.7⟩ hb ht' h4
  exact ⟨b, hb, h2, fun ex' f' t' hr' => by rw [← h5]; exact (e1 ex' f' t' hr').reports, e2⟩

/-- The hypotheses of `C86_passage` are met by the toy run of two cycles, cut after its first cycle, in which particles are
sourced and tracked. -/
example : StartOfRun toySim ∧ 1 < toyData.nSteps ∧ ∃ t, RunCore toyData toyExec toyOpts 20 toySim t ∧
    ∃ t0, RunCore (toyData.withSteps 1) toyExec toyOpts 20 toySim t0 ∧ t0.reports = t.reports.take 1 ∧
      t0.reports.length = 1 ∧ t.reports.length = 2 := by
  obtain ⟨t, h1, h2, _⟩ := toyRun_core
  have h0 : StartOfRun toySim := ⟨rfl, rfl, rfl, rfl, rfl, rfl⟩
  obtain ⟨t0, _, _, g1, g2, g3, _⟩ := C86_passage (n := 1) h0 (by decide) h1
  exact ⟨h0, by decide, t, h1, t0, g1, g2, g3, (C06_cycle_balance _ _ _ _ _ _ h0 h1).1⟩

/-- Those of `C86_exact` are met by a run of one cycle, which is thus preceded by the run of none. -/
example : ∃ (p : Params ℝ) (a : Started ℝ) (f : Nat) (t : SimState ℝ), ValidInput p ∧ FilledMaterials p ∧
    cells p.grid + 1 ≤ 2 ∧ startRun List.reverse id ⟨4, true⟩ 2 p = .ok (some a) ∧
    RunCore a.data ⟨.rayon, 1, 4, 0⟩ a.opts f a.state t ∧ 0 < p.simulation.nSteps := by
  obtain ⟨dt, hdt, s, fuel', hs, _, _, _, hrun⟩ := small_run
  obtain ⟨t, ht⟩ := (hrun 4 (by norm_num)).2
  exact ⟨smallProblem dt, s, fuel', t, small_valid hdt, small_filled dt, by rw [small_cells], hs, ht, by show 0 < 1; norm_num⟩
