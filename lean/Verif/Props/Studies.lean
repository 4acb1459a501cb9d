import Verif.Props.Stats
/-!
# C51, C52: comparison of two runs and scaling studies

Over the reals.
-/
open Flt FltReal

/-! ### C51: comparison -/

/-- **C51, the columns of a comparison.**  For two reports of six sections, every section has one line, in the order
of the report; its columns `old` and `new` are the total times, and its column `change` is the relative change of
the average time, in percents. -/
theorem C51_columns {old new : List (SummarizedVariable ℝ)} (ho : old.length = 6) (hn : new.length = 6) :
    ∃ rows, comparisonRows old new = .ok rows ∧ rows.map (·.1) = sectionOrder ∧
      ∀ row ∈ rows, ∃ o n, old[row.1.index]? = some o ∧ new[row.1.index]? = some n ∧ row.2.1 = o.total ∧
        row.2.2.1 = n.total ∧ row.2.2.2 = (n.mean - o.mean) / o.mean * 100 := by
  have hi : ∀ s : Section, s.index < 6 := by intro s; cases s <;> decide
  have hO : ∀ s : Section, timerIndex old s = .ok (old[s.index]'(by rw [ho]; exact hi s)) := fun s =>
    idx_ok.2 (List.getElem?_eq_getElem _)
  have hN : ∀ s : Section, timerIndex new s = .ok (new[s.index]'(by rw [hn]; exact hi s)) := fun s =>
    idx_ok.2 (List.getElem?_eq_getElem _)
  let f : Section → Section × ℝ × ℝ × ℝ := fun s =>
    let o := old[s.index]'(by rw [ho]; exact hi s)
    let n := new[s.index]'(by rw [hn]; exact hi s)
    (s, o.total, n.total, (n.mean - o.mean) / o.mean * 100)
  refine ⟨sectionOrder.map f, ?_, ?_, ?_⟩
  · unfold comparisonRows
    apply mapM_ok_of_forall
    intro s _
    simp only [percentChange, hO, hN, bind, Except.bind, pure, Except.pure, f]
    simp
  · rw [List.map_map]
    simp [Function.comp_def, f]
  · intro row hrow
    obtain ⟨s, _, rfl⟩ := List.mem_map.1 hrow
    exact ⟨_, _, List.getElem?_eq_getElem (by rw [ho]; exact hi s), List.getElem?_eq_getElem (by rw [hn]; exact hi s),
      rfl, rfl, rfl⟩

/-- **C51, when the change is that of the printed totals.**  If the totals are the averages times a common number of
cycles, the column `change` is the relative change of the columns `old` and `new`. -/
theorem C51_same_cycles {old new : List (SummarizedVariable ℝ)} {rows : List (Section × ℝ × ℝ × ℝ)}
    (ho : old.length = 6) (hn : new.length = 6) (h : comparisonRows old new = .ok rows) {cycles : Nat}
    (hc : 0 < cycles) (hto : ∀ o ∈ old, o.total = cycles * o.mean) (htn : ∀ n ∈ new, n.total = cycles * n.mean) :
    ∀ row ∈ rows, row.2.2.2 = (row.2.2.1 - row.2.1) / row.2.1 * 100 := by
  obtain ⟨rows', h1, _, h3⟩ := C51_columns ho hn
  rw [h] at h1
  cases h1
  intro row hrow
  obtain ⟨o, n, e1, e2, e3, e4, e5⟩ := h3 row hrow
  rw [e3, e4, e5, hto o (List.mem_of_getElem? e1), htn n (List.mem_of_getElem? e2)]
  have : (cycles : ℝ) ≠ 0 := by positivity
  rw [← mul_sub, mul_div_mul_left _ _ this]

/-- Two reports in which every section takes 10 per cycle, over 10 and over 20 cycles. -/
noncomputable def tenCycles : List (SummarizedVariable ℝ) := List.replicate 6 ⟨10, 10, 10, 100⟩
/-- See `tenCycles`. -/
noncomputable def twentyCycles : List (SummarizedVariable ℝ) := List.replicate 6 ⟨10, 10, 10, 200⟩

/-- **C51 is violated when the numbers of cycles differ**: the printed totals double and the printed change is
zero. -/
theorem C51_cycles_violated : ∃ rows, comparisonRows tenCycles twentyCycles = .ok rows ∧
    ∀ row ∈ rows, row.2.1 = 100 ∧ row.2.2.1 = 200 ∧ row.2.2.2 = 0 := by
  obtain ⟨rows, h1, _, h3⟩ := C51_columns (old := tenCycles) (new := twentyCycles) rfl rfl
  refine ⟨rows, h1, ?_⟩
  intro row hrow
  obtain ⟨o, n, e1, e2, e3, e4, e5⟩ := h3 row hrow
  have ho := List.eq_of_mem_replicate (List.mem_of_getElem? e1)
  have hn := List.eq_of_mem_replicate (List.mem_of_getElem? e2)
  subst ho hn
  rw [e3, e4, e5]
  norm_num

/-- Two reports meet the hypotheses. -/
example : ∃ rows, comparisonRows tenCycles tenCycles = .ok rows ∧ rows.length = 6 := by
  obtain ⟨rows, h1, h2, _⟩ := C51_columns (old := tenCycles) (new := tenCycles) rfl rfl
  exact ⟨rows, h1, by have := congrArg List.length h2; simpa [sectionOrder] using this⟩

/-! ### C52: scaling studies -/

/-- **C52, the numbers of threads** of the runs of a study are the initial number times the powers of the factor. -/
theorem C52_threads {tInit tIter tFactor : Nat} {threads : List Nat}
    (h : scalingThreads tInit tIter tFactor = .ok threads) :
    threads = (List.range tIter).map fun i => tInit * tFactor ^ i := by
  unfold scalingThreads at h
  apply List.ext_getElem?
  intro i
  by_cases hi : i < tIter
  · obtain ⟨b, hb, hb'⟩ := mapM_ok_getElem h i i (by simp [hi])
    dsimp only at hb'
    split at hb'
    · cases hb'
      rw [hb]; simp [hi]
    · cases hb'
  · have hl := mapM_ok_length h
    rw [List.length_range] at hl
    rw [List.getElem?_eq_none (by omega), List.getElem?_eq_none (by simp; omega)]

/-- The numbers of threads are computed unless one of them overflows. -/
theorem C52_threads_ok {tInit tIter tFactor : Nat} (hi : 0 < tInit) (h : ∀ i < tIter, tInit * tFactor ^ i < 2 ^ 64) :
    ∃ threads, scalingThreads tInit tIter tFactor = .ok threads := by
  unfold scalingThreads
  apply mapM_ok_exists
  intro i hm
  have h1 := h i (List.mem_range.1 hm)
  have h2 : tFactor ^ i ≤ tInit * tFactor ^ i := Nat.le_mul_of_pos_left _ hi
  exact ⟨_, by dsimp only; rw [if_pos ⟨by omega, h1⟩]⟩

/-- **C52, the saved table.**  Line `i` of the table holds the number of threads of run `i` and the average times of
its report; the ideal time is that of the first run in a weak study, and in a strong study it is the time that keeps
`time * threads` equal to that of the first run. -/
theorem C52_tracking {tInit tIter tFactor : Nat} {threads : List Nat} {ty : ScalingType}
    {reports : List (List (SummarizedVariable ℝ))} {rows : List (Nat × ℝ × ℝ × ℝ × ℝ)}
    (hty : ty = .weak ∨ ty = .strong tFactor) (hf : 0 < tFactor)
    (ht : scalingThreads tInit tIter tFactor = .ok threads) (h : trackingRows ty threads reports = .ok rows) :
    rows.length = tIter ∧ reports.length = tIter ∧
    ∃ ref : ℝ, (∃ r0 v0, reports[0]? = some r0 ∧ r0[Section.cycleTracking.index]? = some v0 ∧ ref = v0.mean) ∧
      ∀ (i : Nat) row, rows[i]? = some row → ∃ r a b c, reports[i]? = some r ∧
        r[Section.cycleTracking.index]? = some a ∧ r[Section.cycleTrackingProcess.index]? = some b ∧
        r[Section.cycleTrackingSort.index]? = some c ∧
        row.1 = tInit * tFactor ^ i ∧ row.2.1 = a.mean ∧ row.2.2.2.1 = b.mean ∧ row.2.2.2.2 = c.mean ∧
        (ty = .weak → row.2.2.1 = ref) ∧
        (ty = .strong tFactor → row.2.2.1 * row.1 = ref * tInit) := by
  have hthreads := C52_threads ht
  have htl : threads.length = tIter := by rw [hthreads]; simp
  unfold trackingRows at h
  obtain ⟨avgs, ha, h⟩ := bind_ok.1 h
  obtain ⟨procs, hp, h⟩ := bind_ok.1 h
  obtain ⟨sorts, hs, h⟩ := bind_ok.1 h
  obtain ⟨ref, href, h⟩ := bind_ok.1 h
  obtain ⟨_, h1, h⟩ := bind_ok.1 h
  obtain ⟨_, h2, h⟩ := bind_ok.1 h
  obtain ⟨_, h3, h⟩ := bind_ok.1 h
  have hal := mapM_ok_length ha
  have hl1 : avgs.length = threads.length := by simpa using assertB_ok.1 h1
  have hmean : ∀ (s : Section) (l : List ℝ), (reports.mapM fun r => do
      let x ← timerIndex r s
      pure x.mean) = Except.ok l → ∀ (i : Nat) (m : ℝ), l[i]? = some m →
      ∃ (r : List (SummarizedVariable ℝ)) (v : SummarizedVariable ℝ), reports[i]? = some r ∧ r[s.index]? = some v ∧
        m = v.mean := by
    intro s l hl i m hm
    have hlen := mapM_ok_length hl
    have hi : i < reports.length := by
      have := (List.getElem?_eq_some_iff.1 hm).1
      omega
    obtain ⟨b, hb, hb'⟩ := mapM_ok_getElem hl i reports[i] (List.getElem?_eq_getElem hi)
    obtain ⟨v, hv, hv'⟩ := bind_ok.1 hb'
    rw [hm] at hb
    cases hb
    exact ⟨reports[i], v, List.getElem?_eq_getElem hi, idx_ok.1 hv, (pure_ok.1 hv').symm⟩
  refine ⟨by rw [mapM_ok_length h]; simp [htl], by omega, ref, ?_, ?_⟩
  · obtain ⟨r, v, e1, e2, e3⟩ := hmean _ _ ha 0 ref (idx_ok.1 href)
    exact ⟨r, v, e1, e2, e3⟩
  · intro i row hrow
    have hi : i < threads.length := by
      have h4 := (List.getElem?_eq_some_iff.1 hrow).1
      have h5 := mapM_ok_length h
      simp at h5; omega
    obtain ⟨b, hb, hb'⟩ := mapM_ok_getElem h i i (by simp [hi])
    rw [hrow] at hb
    cases hb
    obtain ⟨n, g1, hb'⟩ := bind_ok.1 hb'
    obtain ⟨a, g2, hb'⟩ := bind_ok.1 hb'
    obtain ⟨p, g3, hb'⟩ := bind_ok.1 hb'
    obtain ⟨c, g4, hb''⟩ := bind_ok.1 hb'
    have := pure_ok.1 hb''
    subst this
    obtain ⟨r, va, k1, k2, k3⟩ := hmean _ _ ha i a (idx_ok.1 g2)
    obtain ⟨r', vp, k4, k5, k6⟩ := hmean _ _ hp i p (idx_ok.1 g3)
    obtain ⟨r'', vs, k7, k8, k9⟩ := hmean _ _ hs i c (idx_ok.1 g4)
    rw [k1] at k4 k7
    cases k4; cases k7
    have hn : n = tInit * tFactor ^ i := by
      have := idx_ok.1 g1
      rw [hthreads] at this
      have hi' : i < tIter := by omega
      simp [hi'] at this
      exact this.symm
    refine ⟨r, va, vp, vs, k1, k2, k5, k8, hn, k3, k6, k9, ?_, ?_⟩
    · rintro rfl; rfl
    · rintro rfl
      simp only [idealTime, FltReal.div_eq, FltReal.ofNat_eq, hn]
      push_cast
      have : (tFactor : ℝ) ^ i ≠ 0 := by positivity
      field_simp

/-- **C52, the plotted speed-up.**  In a strong study the measured speed-up of a run is the ratio of the first
average to its own, and the ideal one is its number of threads. -/
theorem C52_speedup {threads : List Nat} {avgs : List ℝ} {f : Nat} {l : List (ℝ × ℝ)}
    (h : speedups (.strong f) threads avgs = .ok l) :
    l.length = threads.length ∧ ∀ (i : Nat) (y : ℝ × ℝ), l[i]? = some y → ∃ (n : Nat) (a0 ai : ℝ), threads[i]? = some n ∧ avgs[0]? = some a0 ∧
      avgs[i]? = some ai ∧ y = ((n : ℝ), a0 / ai) := by
  unfold speedups at h
  have hl := mapM_ok_length h
  refine ⟨by simpa using hl, ?_⟩
  intro i y hy
  have hi : i < threads.length := by
    have := (List.getElem?_eq_some_iff.1 hy).1
    simpa [hl] using this
  obtain ⟨b, hb, hb'⟩ := mapM_ok_getElem h i i (by simp [hi])
  rw [hy] at hb
  cases hb
  obtain ⟨n, g1, hb'⟩ := bind_ok.1 hb'
  obtain ⟨a0, g2, hb'⟩ := bind_ok.1 hb'
  obtain ⟨ai, g3, hb''⟩ := bind_ok.1 hb'
  have := pure_ok.1 hb''
  subst this
  exact ⟨n, a0, ai, idx_ok.1 g1, idx_ok.1 g2, idx_ok.1 g3, rfl⟩

/-- **C52, the two ideals agree exactly when the study starts with one thread.**  Runs that take exactly the ideal
times of the table (`ref / factor^i`) reach the ideal of the plot (the number of threads) if and only if the first
run uses one thread. -/
theorem C52_ideal_speedup {tInit tFactor i : Nat} {ref : ℝ} (hf : 0 < tFactor) (hr : ref ≠ 0) :
    ref / idealTime (.strong tFactor) ref i = ((tInit * tFactor ^ i : Nat) : ℝ) ↔ tInit = 1 := by
  simp only [idealTime, FltReal.div_eq, FltReal.ofNat_eq]
  push_cast
  have : (tFactor : ℝ) ^ i ≠ 0 := by positivity
  rw [div_div_cancel₀ hr]
  constructor
  · intro h
    have h2 : ((tInit : ℝ) - 1) * (tFactor : ℝ) ^ i = 0 := by linarith
    rcases mul_eq_zero.1 h2 with h3 | h3
    · have : (tInit : ℝ) = 1 := by linarith
      exact_mod_cast this
    · exact absurd h3 this
  · rintro rfl; simp

/-- **C52 is violated from two threads on**: a perfect strong scaling from 2 to 4 threads is plotted with ideal
speed-ups 2 and 4 and measured speed-ups 1 and 2. -/
theorem C52_speedup_violated : scalingThreads 2 2 2 = .ok [2, 4] ∧
    speedups (.strong 2) [2, 4] [(8 : ℝ), 4] = .ok [(2, 1), (4, 2)] := by
  refine ⟨rfl, ?_⟩
  simp only [speedups, List.length_cons, List.length_nil, Nat.zero_add, Nat.reduceAdd,
    show List.range 2 = [0, 1] from rfl, List.mapM_cons, List.mapM_nil, idx, List.getElem?_cons_zero,
    List.getElem?_cons_succ, bind, Except.bind, pure, Except.pure, FltReal.div_eq, FltReal.ofNat_eq]
  norm_num

example : ∃ threads rows, scalingThreads 1 2 2 = .ok threads ∧
    trackingRows (.strong 2) threads [tenCycles, twentyCycles] = .ok rows := by
  refine ⟨[1, 2], [(1, 10, 10 / ((2 ^ 0 : Nat) : ℝ), 10, 10), (2, 10, 10 / ((2 ^ 1 : Nat) : ℝ), 10, 10)], rfl, ?_⟩
  rfl
