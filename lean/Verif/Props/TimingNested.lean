import Verif.Props.Timing
import Mathlib.Tactic.Ring
/-!
# C47: the sections of a run are inside each other

`Instant` never goes backwards.  With such a clock the times of the sections add up.
-/

theorem loops_nested (loops : List (Nat × Nat × Nat × Nat)) {a b : Nat}
    (h : (a :: (loops.flatMap (fun l => [l.1, l.2.1, l.2.2.1, l.2.2.2]) ++ [b])).Pairwise (· ≤ ·)) :
    a + ((loops.map fun l => l.2.1 - l.1).sum + (loops.map fun l => l.2.2.2 - l.2.2.1).sum) ≤ b := by
  induction loops generalizing a with
  | nil => simpa using h
  | cons l loops ih =>
    simp only [List.flatMap_cons, List.cons_append, List.nil_append] at h
    obtain ⟨h1, h⟩ := List.pairwise_cons.1 h
    obtain ⟨h2, h⟩ := List.pairwise_cons.1 h
    obtain ⟨h3, h⟩ := List.pairwise_cons.1 h
    obtain ⟨h4, h⟩ := List.pairwise_cons.1 h
    have := ih h
    have q1 := h1 l.1 (by simp)
    have q2 := h2 l.2.1 (by simp)
    have q3 := h3 l.2.2.1 (by simp)
    have q4 := h4 l.2.2.2 (by simp)
    simp only [List.map_cons, List.sum_cons]
    omega

/-- The readings of an iteration. -/
theorem cycle_readings (step : Nat) (c : CycleClock) :
    (syncOps step c.syncStart c.syncStop ++ processOps c).filterMap TimerOp.reading =
      [c.syncStart, c.syncStop, c.popStart, c.popStop] ++ (c.trackStart ::
        (c.loops.flatMap (fun l => [l.1, l.2.1, l.2.2.1, l.2.2.2]) ++ [c.trackStop])) := by
  have hl : (c.loops.flatMap (fun l => ([.start .cycleTrackingSort l.1, .stop .cycleTrackingSort l.2.1,
      .start .cycleTrackingProcess l.2.2.1, .stop .cycleTrackingProcess l.2.2.2] : List TimerOp))).filterMap
        TimerOp.reading = c.loops.flatMap (fun l => [l.1, l.2.1, l.2.2.1, l.2.2.2]) := by
    induction c.loops with
    | nil => rfl
    | cons l loops ih => rw [List.flatMap_cons, List.filterMap_append, ih]; rfl
  unfold syncOps processOps
  simp only [List.filterMap_append, hl]
  split <;> simp [TimerOp.reading]

theorem cycle_nested {c : CycleClock} {a : Nat} {rest : List Nat}
    (h : (a :: ([c.syncStart, c.syncStop, c.popStart, c.popStop] ++ (c.trackStart ::
        (c.loops.flatMap (fun l => [l.1, l.2.1, l.2.2.1, l.2.2.2]) ++ [c.trackStop])) ++ rest)).Pairwise (· ≤ ·)) :
    c.time .cycleTrackingSort + c.time .cycleTrackingProcess ≤ c.time .cycleTracking ∧
    a + (c.time .cycleSync + c.time .populationControl + c.time .cycleTracking) ≤ c.trackStop ∧
    (c.trackStop :: rest).Pairwise (· ≤ ·) := by
  simp only [List.cons_append, List.nil_append, List.append_assoc] at h
  obtain ⟨h1, h⟩ := List.pairwise_cons.1 h
  obtain ⟨h2, h⟩ := List.pairwise_cons.1 h
  obtain ⟨h3, h⟩ := List.pairwise_cons.1 h
  obtain ⟨h4, h⟩ := List.pairwise_cons.1 h
  obtain ⟨h5, h⟩ := List.pairwise_cons.1 h
  have q1 := h1 c.syncStart (by simp)
  have q2 := h2 c.syncStop (by simp)
  have q3 := h3 c.popStart (by simp)
  have q4 := h4 c.popStop (by simp)
  have q5 := h5 c.trackStart (by simp)
  have hin : (c.trackStart :: (c.loops.flatMap (fun l => [l.1, l.2.1, l.2.2.1, l.2.2.2]) ++ [c.trackStop])).Pairwise
      (· ≤ ·) := by
    have e : c.trackStart :: (c.loops.flatMap (fun l => [l.1, l.2.1, l.2.2.1, l.2.2.2]) ++ (c.trackStop :: rest)) =
      (c.trackStart :: (c.loops.flatMap (fun l => [l.1, l.2.1, l.2.2.1, l.2.2.2]) ++ [c.trackStop])) ++ rest := by simp
    rw [e] at h
    exact (List.pairwise_append.1 h).1
  have hl := loops_nested c.loops hin
  have hr : (c.trackStop :: rest).Pairwise (· ≤ ·) := (List.pairwise_append.1 (List.pairwise_cons.1 h).2).2.1
  refine ⟨?_, ?_, hr⟩
  · simp only [CycleClock.time]
    omega
  · simp only [CycleClock.time]
    omega

theorem cycles_nested (cs : List CycleClock) {a : Nat} (step : Nat) {rest : List Nat}
    (h : (a :: ((cyclesOps step cs).filterMap TimerOp.reading ++ rest)).Pairwise (· ≤ ·)) :
    (∀ c ∈ cs, c.time .cycleTrackingSort + c.time .cycleTrackingProcess ≤ c.time .cycleTracking) ∧
    ∃ a', a + ((cs.map (·.time .cycleSync)).sum + (cs.map (·.time .populationControl)).sum +
      (cs.map (·.time .cycleTracking)).sum) ≤ a' ∧ (a' :: rest).Pairwise (· ≤ ·) := by
  induction cs generalizing a step with
  | nil => exact ⟨by simp, a, by simp, h⟩
  | cons c cs ih =>
    unfold cyclesOps at h
    rw [List.filterMap_append, cycle_readings, List.append_assoc] at h
    obtain ⟨h1, h2, h3⟩ := cycle_nested h
    obtain ⟨e1, a', e2, e3⟩ := ih (step + 1) h3
    refine ⟨?_, a', ?_, e3⟩
    · intro d hd
      rcases List.mem_cons.1 hd with rfl | hd
      · exact h1
      · exact e1 d hd
    · simp only [List.map_cons, List.sum_cons]
      omega

theorem sum_map_le {α : Type} {l : List α} {f g k : α → Nat} (h : ∀ x ∈ l, f x + g x ≤ k x) :
    (l.map f).sum + (l.map g).sum ≤ (l.map k).sum := by
  induction l with
  | nil => simp
  | cons a l ih =>
    have h1 := h a (by simp)
    have h2 := ih fun x hx => h x (by simp [hx])
    simp only [List.map_cons, List.sum_cons]
    omega

/-- **C47, the sections are inside each other.**  With a clock that never goes backwards, the total times of sorting and
processing are together at most that of the tracking, and those of population control, tracking and synchronisation,
with the last synchronisation that no total holds, at most that of the whole program. -/
theorem C47_nested {ms me : Nat} {cs : List CycleClock} {last : Nat × Nat} {t : Timers} (hne : cs ≠ [])
    (h : Timers.default.run (runOps ms cs last me) = .ok t) (hc : Chronological (runOps ms cs last me)) :
    (t.sec .cycleTrackingSort).tot + (t.sec .cycleTrackingProcess).tot ≤ (t.sec .cycleTracking).tot ∧
    (t.sec .populationControl).tot + (t.sec .cycleTracking).tot + (t.sec .cycleSync).tot + (last.2 - last.1) ≤
      (t.sec .main).tot := by
  rw [(C47_report hne h (s := .cycleTrackingSort) (by decide)).total,
    (C47_report hne h (s := .cycleTrackingProcess) (by decide)).total,
    (C47_report hne h (s := .cycleTracking) (by decide)).total,
    (C47_report hne h (s := .populationControl) (by decide)).total,
    (C47_report hne h (s := .cycleSync) (by decide)).total, (C47_main h).2.2.2.1]
  have hr : (runOps ms cs last me).filterMap TimerOp.reading =
      ms :: ((cyclesOps 0 cs).filterMap TimerOp.reading ++ [last.1, last.2, me]) := by
    unfold runOps syncOps
    simp only [List.filterMap_append]
    split <;> simp [TimerOp.reading, List.filterMap_cons]
  unfold Chronological at hc
  rw [hr] at hc
  obtain ⟨h1, a', h2, h3⟩ := cycles_nested cs 0 hc
  refine ⟨sum_map_le h1, ?_⟩
  obtain ⟨q1, h3⟩ := List.pairwise_cons.1 h3
  obtain ⟨q2, h3⟩ := List.pairwise_cons.1 h3
  obtain ⟨q3, _⟩ := List.pairwise_cons.1 h3
  have p1 := q1 last.1 (by simp)
  have p2 := q2 last.2 (by simp)
  have p3 := q3 me (by simp)
  omega

/-- The clocks of the example of C47 never go backwards. -/
example : ∃ t, Timers.default.run (runOps 0 demoClocks (70, 80) 90) = .ok t ∧
    (t.sec .populationControl).tot + (t.sec .cycleTracking).tot + (t.sec .cycleSync).tot + 10 ≤ (t.sec .main).tot := by
  refine ⟨_, rfl, ?_⟩
  exact (C47_nested (ms := 0) (me := 90) (cs := demoClocks) (last := (70, 80)) (by decide) rfl
    (by unfold Chronological; decide)).2
