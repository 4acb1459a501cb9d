import Verif.Props.CycleReport
/-!
# The cycle of a finished run that wrote a report
-/
open Flt
set_option linter.unusedSectionVars false
attribute [local irreducible] Rng.lcg Rng.sample Rng.spawn

variable {T : Type} [Flt T] {data : Data T} {ex : ExecInfo} {o : SyncOpts} {fuel : Nat}

theorem cycles_at {n : Nat} : ∀ {k : Nat} {s0 s1 s' : SimState T}, n < k → Cycles data ex o fuel k s0 s1 →
    cycleSync data o k s1 = .ok s' →
    ∃ t1 t2 u c t3 rest, Cycles data ex o fuel n s0 t1 ∧ cycleSync data o n t1 = .ok t2 ∧
      CycleProcess data ex fuel t2.globalN t2.srcWeight t2.unit t2.container u c ∧
      cycleSync data o (n + 1) { t2 with unit := u, container := c } = .ok t3 ∧ s'.reports = t3.reports ++ rest := by
  intro k
  induction k with
  | zero => intro _ _ _ hn; omega
  | succ k ih =>
    intro s0 s1 s' hn h hs
    cases h with
    | @succ _ _ t1 t2 u c hc hsync hp =>
    rcases Nat.lt_or_ge n k with hlt | hge
    · obtain ⟨a1, a2, v, d, a3, rest, g1, g2, g3, g4, g5⟩ := ih hlt hc hsync
      have e := cycleSync_report hs
      dsimp only at e
      exact ⟨a1, a2, v, d, a3, _, g1, g2, g3, g4, by rw [e, g5, List.append_assoc]⟩
    · obtain rfl : n = k := by omega
      exact ⟨t1, t2, u, c, s', [], hc, hsync, hp, hs, by simp⟩

/-- The population control counts no segment. -/
theorem populationControl_segments {n : Nat} {w : T} {u u1 : UnitState T} {c c1 : Container T}
    (h : populationControl data n w u c = .ok (u1, c1)) : u1.balance.numSegments = u.balance.numSegments := by
  simp only [populationControl, sourceNow, bind_ok, pure_ok, Prod.exists, Prod.mk.injEq] at h
  obtain ⟨u3, c3, ⟨_, _, _, _, _, rfl, rfl⟩, f, _, h⟩ := h
  unfold regulateOrSplit at h
  split at h
  · simp only [Container.regulate, Except.ok.injEq, Prod.mk.injEq] at h
    obtain ⟨rfl, rfl⟩ := h
    rfl
  · split at h
    · simp only [Container.split, bind_ok, pure_ok, Prod.exists, Prod.mk.injEq] at h
      obtain ⟨_, _, ⟨_, _, _, rfl, rfl⟩, rfl, rfl⟩ := h
      rfl
    · simp only [Except.ok.injEq, Prod.mk.injEq] at h
      obtain ⟨rfl, rfl⟩ := h
      rfl

/-- The reference of a finished execution, cycle by cycle: the segments that it tracks are those of the report. -/
theorem runCore_at {n : Nat} (hn : n < data.nSteps) {s0 s' : SimState T} (h0 : StartOfRun s0)
    (h : RunCore data ex o fuel s0 s') :
    ∃ t1 t2 u c t3, Cycles data ex o fuel n s0 t1 ∧ cycleSync data o n t1 = .ok t2 ∧
      CycleProcess data ex fuel t2.globalN t2.srcWeight t2.unit t2.container u c ∧
      cycleSync data o (n + 1) { t2 with unit := u, container := c } = .ok t3 ∧
      s'.reports[n]? = some (n, { u.balance with end_ := c.processed.length }, scalarFluxSum u.flux) := by
  obtain ⟨s1, hc, hs⟩ := h
  obtain ⟨t1, t2, u, c, t3, rest, g1, g2, g3, g4, g5⟩ := cycles_at hn hc hs
  refine ⟨t1, t2, u, c, t3, g1, g2, g3, g4, ?_⟩
  have hl : t2.reports.length = n := by
    have h1 := (cycleSync_after (Nat.le_of_lt hn) h0.initial (cycles_between (Nat.le_of_lt hn) h0.initial g1) g2).steps
    have h2 := congrArg List.length h1
    simpa using h2
  rw [g5, cycleSync_report g4]
  simp [hl]
