import Verif.Lemmas.Timing
/-!
# C47: the statistics of the timers are coherent

A run of the program makes the calls `runOps` (`Model/Timers.lean`): the readings of the clock are arbitrary.  The
theorems hold for every number of cycles, every number of tracking loops in each cycle and every history of the
clock, whenever no duration overflows; `C47_no_overflow` says when that is.
-/

/-- **C47, the report.**  After a run of at least one cycle, the shortest, longest, total and average time of every
section (but the main one) are those of the list of the times spent in the section in each cycle. -/
theorem C47_report {ms me : Nat} {cs : List CycleClock} {last : Nat × Nat} {t : Timers} (hne : cs ≠ [])
    (h : Timers.default.run (runOps ms cs last me) = .ok t) {s : Section} (hs : s ≠ .main) :
    Summary (cs.map (·.time s)) (t.sec s) := by
  obtain ⟨c, cs, rfl⟩ := List.exists_cons_of_ne_nil hne
  have hf := (Follows.default s).run h
  have hr := (SectionHist.foldl_run s hs ms me last.1 last.2 c cs).1
  have hst := hf.stats hs
  rw [hr] at hst
  have hn : (c :: cs).map (·.time s) ≠ [] := by simp
  have hlen : 0 < ((c :: cs).map (·.time s)).length := by simp
  have := hst.avg_ge
  exact ⟨⟨hst.min_mem hn, hst.min_le⟩, ⟨hst.max_mem hn, hst.le_max⟩, hst.tot, ⟨hst.min_avg hn, hst.avg_max⟩,
    hst.avg_le, by have := hst.avg_le; have := hst.avg_ge; omega⟩

/-- **C47, the number of calls.**  It is the number of times the section was entered; the last `cycle_sync`, which
belongs to no cycle, is counted. -/
theorem C47_calls {ms me : Nat} {cs : List CycleClock} {last : Nat × Nat} {t : Timers} (hne : cs ≠ [])
    (h : Timers.default.run (runOps ms cs last me) = .ok t) {s : Section} (hs : s ≠ .main) :
    (t.sec s).numCalls = (cs.map (·.calls s)).sum + (if s = .cycleSync then 1 else 0) ∧ t.nAvg = cs.length := by
  obtain ⟨c, cs, rfl⟩ := List.exists_cons_of_ne_nil hne
  have hf := (Follows.default s).run h
  have hr := SectionHist.foldl_run s hs ms me last.1 last.2 c cs
  refine ⟨hf.calls.trans hr.2.2, (hf.num hs).trans ?_⟩
  rw [hr.1]; simp

/-- **C47, the main section.**  Its four statistics are the time between its start and its stop, and it was
entered once. -/
theorem C47_main {ms me : Nat} {cs : List CycleClock} {last : Nat × Nat} {t : Timers}
    (h : Timers.default.run (runOps ms cs last me) = .ok t) :
    (t.sec .main).min = me - ms ∧ (t.sec .main).avg = me - ms ∧ (t.sec .main).max = me - ms ∧
      (t.sec .main).tot = me - ms ∧ (t.sec .main).numCalls = 1 := by
  have hf := (Follows.default .main).run h
  rw [SectionHist.foldl_main] at hf
  have e : runOps ms cs last me =
      ([.start .main ms] ++ cyclesOps 0 cs ++ syncOps cs.length last.1 last.2 ++ [.stop .main me]) ++
        [.updateMain] := by simp [runOps]
  rw [e] at h
  obtain ⟨t1, _, h2⟩ := run_append h
  simp only [Timers.run, List.foldlM_cons, List.foldlM_nil, Timers.step] at h2
  have h2 : t1.updateMain = t := Except.ok.inj h2
  subst h2
  have h3 := hf.st
  have h4 := hf.en
  simp only [Timers.updateMain, Timers.set_self] at h3 h4
  refine ⟨?_, ?_, ?_, ?_, hf.calls⟩ <;> simp only [Timers.updateMain, Timers.set_self, h3, h4]

/-- **C47, when no duration overflows.**  It is enough that the whole run and the time spent in each section fit
in a `Duration` (`2^64` seconds), and that there are fewer than `2^32` cycles. -/
theorem C47_no_overflow {ms me : Nat} {cs : List CycleClock} {last : Nat × Nat} (hne : cs ≠ [])
    (hc : cs.length < 2 ^ 32) (hm : me - ms < 2 ^ 64 * 10 ^ 9)
    (ht : ∀ s, (cs.map (·.time s)).sum + (last.2 - last.1) < 2 ^ 64 * 10 ^ 9) :
    ∃ t, Timers.default.run (runOps ms cs last me) = .ok t := by
  replace hm : me - ms ≤ maxDuration := Nat.le_sub_one_of_lt hm
  replace ht : ∀ s, (cs.map (·.time s)).sum + (last.2 - last.1) ≤ maxDuration := fun s => Nat.le_sub_one_of_lt (ht s)
  obtain ⟨c, cs, rfl⟩ := List.exists_cons_of_ne_nil hne
  apply run_succeeds (h := fun _ => {}) Follows.default
  · intro s
    by_cases hs : s = .main
    · subst hs
      rw [SectionHist.foldl_main]
      simpa [SectionHist.total] using hm
    · have hr := SectionHist.foldl_run s hs ms me last.1 last.2 c cs
      unfold SectionHist.total
      rw [hr.1, hr.2.1]
      have := ht s
      split <;> omega
  · have hr := SectionHist.foldl_run .cycleSync (by simp) ms me last.1 last.2 c cs
    rw [hr.1]
    simpa using hc

/-- **C47, finding.**  The time of the last `cycle_sync` is in no statistic: the cumulative clock of the section,
which is not printed, exceeds the reported total by exactly that time, although the call is counted
(`C47_calls`). -/
theorem C47_last_sync_missing {ms me : Nat} {cs : List CycleClock} {last : Nat × Nat} {t : Timers} (hne : cs ≠ [])
    (h : Timers.default.run (runOps ms cs last me) = .ok t) :
    (t.sec .cycleSync).cumulative = (t.sec .cycleSync).tot + (last.2 - last.1) := by
  have htot := (C47_report hne h (s := .cycleSync) (by simp)).total
  obtain ⟨c, cs, rfl⟩ := List.exists_cons_of_ne_nil hne
  have hf := (Follows.default .cycleSync).run h
  have hr := SectionHist.foldl_run .cycleSync (by simp) ms me last.1 last.2 c cs
  rw [hf.cum, SectionHist.total, hr.1, hr.2.1, htot]
  simp

/-- **C47, the rows of the report** are in microseconds and keep the order. -/
theorem C47_rows {ms me : Nat} {cs : List CycleClock} {last : Nat × Nat} {t : Timers} (hne : cs ≠ [])
    (h : Timers.default.run (runOps ms cs last me) = .ok t) (s : Section) :
    let r := (t.sec s).row
    r.2.1 ≤ r.2.2.1 ∧ r.2.2.1 ≤ r.2.2.2.1 ∧ r.2.2.2.1 ≤ r.2.2.2.2 := by
  by_cases hs : s = .main
  · subst hs
    obtain ⟨h1, h2, h3, h4, _⟩ := C47_main h
    simp [SectionTimer.row, h1, h2, h3, h4]
  · have := C47_report hne h hs
    refine ⟨Nat.div_le_div_right this.ordered.1, Nat.div_le_div_right this.ordered.2, Nat.div_le_div_right ?_⟩
    rw [this.total]
    exact mem_le_sum this.longest.1

/-- **C47 is violated by a run without any cycle**: the shortest time of every section but the main one is
`Duration::MAX`, above the average and the longest time, which are zero. -/
theorem C47_no_cycle_violated {ms me : Nat} {last : Nat × Nat} {t : Timers}
    (h : Timers.default.run (runOps ms [] last me) = .ok t) {s : Section} (hs : s ≠ .main) :
    (t.sec s).min = 2 ^ 64 * 10 ^ 9 - 1 ∧ (t.sec s).avg = 0 ∧ (t.sec s).max = 0 ∧ ¬ (t.sec s).min ≤ (t.sec s).avg := by
  have hf := (Follows.default s).run h
  have hfin : ((runOps ms [] last me).foldl (SectionHist.step s) {}).fin = [] := by
    cases s <;> simp [runOps, cyclesOps, syncOps, SectionHist.step]
  have hst := hf.stats hs
  rw [hfin] at hst
  have h1 := hst.min_nil rfl
  have h2 := hst.max_nil rfl
  have h3 := hst.avg_max
  have h4 : (t.sec s).avg = 0 := by omega
  refine ⟨h1, h4, h2, ?_⟩
  rw [h1, h4, maxDuration]; omega

/-- Two cycles, the second with two tracking loops. -/
def demoClocks : List CycleClock :=
  [{ syncStart := 1, syncStop := 3, popStart := 3, popStop := 8, trackStart := 8,
     loops := [(8, 9, 9, 20)], trackStop := 21 },
   { syncStart := 21, syncStop := 26, popStart := 27, popStop := 29, trackStart := 30,
     loops := [(30, 32, 32, 40), (41, 41, 42, 60)], trackStop := 63 }]

example : ∃ t, Timers.default.run (runOps 0 demoClocks (70, 80) 90) = .ok t ∧
    (t.sec .cycleTrackingProcess).row = (3, 0, 0, 0, 0) ∧ (t.sec .cycleTrackingProcess).min = 11 ∧
    (t.sec .cycleTrackingProcess).avg = 18 ∧ (t.sec .cycleTrackingProcess).max = 26 ∧
    (t.sec .cycleTrackingProcess).tot = 37 ∧ (t.sec .cycleSync).tot = 7 ∧ (t.sec .cycleSync).cumulative = 17 ∧
    (t.sec .main).tot = 90 := ⟨_, rfl, by decide⟩

example : ∃ t, Timers.default.run (runOps 0 demoClocks (70, 80) 90) = .ok t :=
  C47_no_overflow (by simp [demoClocks]) (by simp [demoClocks]) (by decide) (by intro s; cases s <;> decide)

example : ∃ t, Timers.default.run (runOps 0 [] (70, 80) 90) = .ok t := ⟨_, rfl⟩
