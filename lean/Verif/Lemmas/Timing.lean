import Verif.Spec.Timing
import Verif.Lemmas.Except
import Batteries.Tactic.Init
/-! The timers follow the history of one section at a time. -/

/-- History of one section: last start, last stop, time of the current cycle, times of the finished cycles,
number of calls. -/
structure SectionHist where
  st : Nat := 0
  en : Nat := 0
  cur : Nat := 0
  fin : List Nat := []
  calls : Nat := 0

/-- Effect of a call on the history of a section. -/
def SectionHist.step (s : Section) (h : SectionHist) : TimerOp → SectionHist
  | .start s' now => if s' = s then { h with st := now } else h
  | .stop s' now => if s' = s then { h with en := now, cur := h.cur + (now - h.st), calls := h.calls + 1 } else h
  | .clear => if s = .main then h else { h with cur := 0, fin := h.fin ++ [h.cur] }
  | .updateMain => h

def SectionHist.total (h : SectionHist) : Nat := h.fin.sum + h.cur

/-- Statistics of a list of times, possibly empty. -/
structure Stats (fin : List Nat) (x : SectionTimer) : Prop where
  tot : x.tot = fin.sum
  min_mem : fin ≠ [] → x.min ∈ fin
  min_le : ∀ t ∈ fin, x.min ≤ t
  min_nil : fin = [] → x.min = maxDuration
  max_mem : fin ≠ [] → x.max ∈ fin
  le_max : ∀ t ∈ fin, t ≤ x.max
  max_nil : fin = [] → x.max = 0
  min_avg : fin ≠ [] → x.min ≤ x.avg
  avg_max : x.avg ≤ x.max
  avg_le : x.avg * fin.length ≤ x.tot
  avg_ge : 2 * x.tot + fin.length ≤ 2 * (x.avg * fin.length) + fin.length ^ 2

/-- The timers of a section agree with its history. -/
structure Follows (s : Section) (t : Timers) (h : SectionHist) : Prop where
  st : (t.sec s).startClock = h.st
  en : (t.sec s).endClock = h.en
  cur : (t.sec s).lastCycle = h.cur
  cum : (t.sec s).cumulative = h.total
  calls : (t.sec s).numCalls = h.calls
  num : s ≠ .main → t.nAvg = h.fin.length
  stats : s ≠ .main → Stats h.fin (t.sec s)
  bound : h.cur ≤ maxDuration

theorem duration_ok {n m : Nat} : duration n = .ok m ↔ n ≤ maxDuration ∧ m = n := by
  unfold duration
  split <;> rename_i h
  · simp [h, eq_comm]
  · simp [h]

theorem Follows.default (s : Section) : Follows s Timers.default {} := by
  constructor <;> try rfl
  · intro _; rfl
  · intro _
    constructor <;> simp [Timers.default]
  · exact Nat.zero_le _

theorem Stats.clear {fin : List Nat} {x x' : SectionTimer} (h : Stats fin x) (hb : x.lastCycle ≤ maxDuration)
    (hx : x.clear (fin.length + 1) = .ok x') :
    Stats (fin ++ [x.lastCycle]) x' ∧ x'.lastCycle = 0 ∧ x'.startClock = x.startClock ∧
      x'.endClock = x.endClock ∧ x'.cumulative = x.cumulative ∧ x'.numCalls = x.numCalls := by
  unfold SectionTimer.clear at hx
  obtain ⟨a, ha, hx⟩ := bind_ok.1 hx
  obtain ⟨b, hb', hx⟩ := bind_ok.1 hx
  obtain ⟨c, hc, hx⟩ := bind_ok.1 hx
  have := pure_ok.1 hx
  obtain ⟨ha, rfl⟩ := duration_ok.1 ha
  obtain ⟨hb', rfl⟩ := duration_ok.1 hb'
  obtain ⟨hc, rfl⟩ := duration_ok.1 hc
  subst this
  refine ⟨?_, rfl, rfl, rfl, rfl, rfl⟩
  have hn : fin.length + 1 - 1 = fin.length := by omega
  rw [hn] at *
  have h1 := h.avg_le
  have h2 := h.avg_ge
  have h3 := h.avg_max
  have hdiv := Nat.div_mul_le_self (x.avg * fin.length + x.lastCycle) (fin.length + 1)
  have hmod := Nat.div_add_mod (x.avg * fin.length + x.lastCycle) (fin.length + 1)
  have hlt : (x.avg * fin.length + x.lastCycle) % (fin.length + 1) < fin.length + 1 := Nat.mod_lt _ (Nat.succ_pos _)
  have hmin : (if x.min > x.lastCycle then x.lastCycle else x.min) ≤ x.lastCycle := by split <;> omega
  have hmin' : (if x.min > x.lastCycle then x.lastCycle else x.min) ≤ x.min := by split <;> omega
  have hmax : x.lastCycle ≤ (if x.max < x.lastCycle then x.lastCycle else x.max) := by split <;> omega
  have hmax' : x.max ≤ (if x.max < x.lastCycle then x.lastCycle else x.max) := by split <;> omega
  constructor
  · simp [h.tot]
  · intro _
    show (if x.min > x.lastCycle then x.lastCycle else x.min) ∈ _
    split
    · simp
    · rename_i hgt
      by_cases hf : fin = []
      · rw [h.min_nil hf] at hgt ⊢
        have : x.lastCycle = maxDuration := by omega
        simp [this]
      · simp [h.min_mem hf]
  · intro t ht
    rcases List.mem_append.1 ht with ht | ht
    · exact Nat.le_trans hmin' (h.min_le t ht)
    · simp only [List.mem_singleton] at ht
      subst ht; exact hmin
  · intro he; simp at he
  · intro _
    show (if x.max < x.lastCycle then x.lastCycle else x.max) ∈ _
    split
    · simp
    · rename_i hgt
      by_cases hf : fin = []
      · rw [h.max_nil hf] at hgt ⊢
        have : x.lastCycle = 0 := by omega
        simp [this]
      · simp [h.max_mem hf]
  · intro t ht
    rcases List.mem_append.1 ht with ht | ht
    · exact Nat.le_trans (h.le_max t ht) hmax'
    · simp only [List.mem_singleton] at ht
      subst ht; exact hmax
  · intro he; simp at he
  · intro _
    show (if x.min > x.lastCycle then x.lastCycle else x.min) ≤ (x.avg * fin.length + x.lastCycle) / (fin.length + 1)
    rw [Nat.le_div_iff_mul_le (Nat.succ_pos _), Nat.succ_eq_add_one, Nat.mul_add, Nat.mul_one]
    by_cases hf : fin = []
    · subst hf; simp; split <;> omega
    · exact Nat.add_le_add (Nat.mul_le_mul_right _ (Nat.le_trans hmin' (h.min_avg hf))) hmin
  · show (x.avg * fin.length + x.lastCycle) / (fin.length + 1) ≤ (if x.max < x.lastCycle then x.lastCycle else x.max)
    apply Nat.div_le_of_le_mul
    rw [Nat.add_mul, Nat.one_mul, Nat.mul_comm fin.length]
    exact Nat.add_le_add (Nat.mul_le_mul_right _ (Nat.le_trans h3 hmax')) hmax
  · show (x.avg * fin.length + x.lastCycle) / (fin.length + 1) * (fin ++ [x.lastCycle]).length ≤ x.tot + x.lastCycle
    rw [List.length_append, List.length_singleton]
    omega
  · show 2 * (x.tot + x.lastCycle) + (fin ++ [x.lastCycle]).length ≤
      2 * ((x.avg * fin.length + x.lastCycle) / (fin.length + 1) * (fin ++ [x.lastCycle]).length) +
        (fin ++ [x.lastCycle]).length ^ 2
    rw [List.length_append, List.length_singleton, Nat.mul_comm ((x.avg * fin.length + x.lastCycle) / (fin.length + 1))]
    have : (fin.length + 1) ^ 2 = fin.length ^ 2 + 2 * fin.length + 1 := by
      rw [Nat.pow_two, Nat.pow_two, Nat.add_mul, Nat.mul_add]; omega
    omega

theorem Timers.clear_ok {t t' : Timers} (h : t.clear = .ok t') :
    t'.nAvg = t.nAvg + 1 ∧ t.nAvg + 1 < 2 ^ 32 ∧ t'.sec .main = t.sec .main ∧
      ∀ s, s ≠ .main → (t.sec s).clear (t.nAvg + 1) = .ok (t'.sec s) := by
  unfold Timers.clear at h
  dsimp only at h
  split at h
  · rename_i hn
    obtain ⟨a, ha, h⟩ := bind_ok.1 h
    obtain ⟨b, hb, h⟩ := bind_ok.1 h
    obtain ⟨c, hc, h⟩ := bind_ok.1 h
    obtain ⟨d, hd, h⟩ := bind_ok.1 h
    obtain ⟨e, he, h⟩ := bind_ok.1 h
    have := pure_ok.1 h
    subst this
    refine ⟨rfl, hn, rfl, ?_⟩
    intro s hs
    cases s <;> first | exact absurd rfl hs | assumption
  · cases h

theorem Timers.set_self (t : Timers) (s : Section) (x : SectionTimer) : (t.set s x).sec s = x := by
  simp [Timers.set]

theorem Timers.set_other {t : Timers} {s s' : Section} {x : SectionTimer} (h : s' ≠ s) :
    (t.set s x).sec s' = t.sec s' := by
  simp [Timers.set, h]

theorem Follows.step {s : Section} {t t' : Timers} {h : SectionHist} {op : TimerOp} (hf : Follows s t h)
    (hop : t.step op = .ok t') : Follows s t' (h.step s op) := by
  cases op with
  | start s' now =>
    simp only [Timers.step, Except.ok.injEq] at hop
    subst hop
    by_cases hs : s' = s
    · subst hs
      simp only [SectionHist.step, if_true]
      constructor <;> try simp only [Timers.set_self, SectionTimer.start]
      exacts [hf.en, hf.cur, hf.cum, hf.calls, hf.num,
        fun hm => ⟨(hf.stats hm).1, (hf.stats hm).2, (hf.stats hm).3, (hf.stats hm).4, (hf.stats hm).5,
          (hf.stats hm).6, (hf.stats hm).7, (hf.stats hm).8, (hf.stats hm).9, (hf.stats hm).10,
          (hf.stats hm).11⟩, hf.bound]
    · simp only [SectionHist.step, hs, if_false]
      constructor <;> try simp only [Timers.set_other (Ne.symm hs)]
      exacts [hf.st, hf.en, hf.cur, hf.cum, hf.calls, hf.num, hf.stats, hf.bound]
  | stop s' now =>
    simp only [Timers.step] at hop
    obtain ⟨x, hx, h2⟩ := bind_ok.1 hop
    have := pure_ok.1 h2
    subst this
    by_cases hs : s' = s
    · subst hs
      unfold SectionTimer.stop at hx
      obtain ⟨a, ha, hx⟩ := bind_ok.1 hx
      obtain ⟨b, hb, hx⟩ := bind_ok.1 hx
      have := pure_ok.1 hx
      subst this
      obtain ⟨ha, rfl⟩ := duration_ok.1 ha
      obtain ⟨hb, rfl⟩ := duration_ok.1 hb
      simp only [SectionHist.step, if_true]
      constructor <;> try simp only [Timers.set_self, hf.st, hf.cur, hf.cum, hf.calls, SectionHist.total]
      · omega
      · exact hf.num
      · intro hm
        exact ⟨(hf.stats hm).1, (hf.stats hm).2, (hf.stats hm).3, (hf.stats hm).4, (hf.stats hm).5,
          (hf.stats hm).6, (hf.stats hm).7, (hf.stats hm).8, (hf.stats hm).9, (hf.stats hm).10,
          (hf.stats hm).11⟩
      · rw [← hf.cur, ← hf.st]; assumption
    · simp only [SectionHist.step, hs, if_false]
      constructor <;> try simp only [Timers.set_other (Ne.symm hs)]
      exacts [hf.st, hf.en, hf.cur, hf.cum, hf.calls, hf.num, hf.stats, hf.bound]
  | clear =>
    simp only [Timers.step] at hop
    obtain ⟨h1, _, h3, h4⟩ := Timers.clear_ok hop
    by_cases hs : s = .main
    · subst hs
      simp only [SectionHist.step, if_true]
      constructor <;> try simp only [h3]
      exacts [hf.st, hf.en, hf.cur, hf.cum, hf.calls, fun h => absurd rfl h, fun h => absurd rfl h, hf.bound]
    · have hc := h4 s hs
      rw [hf.num hs] at hc
      obtain ⟨hst, e1, e2, e3, e4, e5⟩ := (hf.stats hs).clear (by rw [hf.cur]; exact hf.bound) hc
      rw [hf.cur] at hst
      simp only [SectionHist.step, hs, if_false]
      refine ⟨e2.trans hf.st, e3.trans hf.en, e1, ?_, e5.trans hf.calls, fun _ => ?_, fun _ => hst, Nat.zero_le _⟩
      · rw [e4, hf.cum]; simp [SectionHist.total]
      · rw [h1, hf.num hs]; simp
  | updateMain =>
    simp only [Timers.step, Except.ok.injEq] at hop
    subst hop
    simp only [SectionHist.step, Timers.updateMain]
    by_cases hs : s = .main
    · subst hs
      constructor <;> try simp only [Timers.set_self]
      exacts [hf.st, hf.en, hf.cur, hf.cum, hf.calls, fun h => absurd rfl h, fun h => absurd rfl h, hf.bound]
    · constructor <;> try simp only [Timers.set_other hs]
      exacts [hf.st, hf.en, hf.cur, hf.cum, hf.calls, hf.num, hf.stats, hf.bound]

theorem Follows.run {s : Section} {t t' : Timers} {h : SectionHist} {ops : List TimerOp} (hf : Follows s t h)
    (hr : t.run ops = .ok t') : Follows s t' (ops.foldl (SectionHist.step s) h) := by
  induction ops generalizing t h with
  | nil =>
    simp only [Timers.run, List.foldlM_nil, pure_ok] at hr
    subst hr; exact hf
  | cons op ops ih =>
    simp only [Timers.run, List.foldlM_cons] at hr
    obtain ⟨t1, h1, h2⟩ := bind_ok.1 hr
    exact ih (hf.step h1) h2

/-! ### The history of a run -/

theorem SectionHist.foldl_loops (s : Section) (loops : List (Nat × Nat × Nat × Nat)) (h : SectionHist) :
    let r := (loops.flatMap (fun l =>
      [TimerOp.start .cycleTrackingSort l.1, .stop .cycleTrackingSort l.2.1,
       .start .cycleTrackingProcess l.2.2.1, .stop .cycleTrackingProcess l.2.2.2])).foldl (SectionHist.step s) h
    r.fin = h.fin ∧
    (s = .cycleTrackingSort → r.cur = h.cur + (loops.map fun l => l.2.1 - l.1).sum ∧
      r.calls = h.calls + loops.length) ∧
    (s = .cycleTrackingProcess → r.cur = h.cur + (loops.map fun l => l.2.2.2 - l.2.2.1).sum ∧
      r.calls = h.calls + loops.length) ∧
    (s ≠ .cycleTrackingSort → s ≠ .cycleTrackingProcess → r = h) := by
  induction loops generalizing h with
  | nil => simp
  | cons l loops ih =>
    simp only [List.flatMap_cons, List.foldl_append]
    have := ih ([TimerOp.start .cycleTrackingSort l.1, .stop .cycleTrackingSort l.2.1,
       .start .cycleTrackingProcess l.2.2.1, .stop .cycleTrackingProcess l.2.2.2].foldl (SectionHist.step s) h)
    dsimp only at this ⊢
    obtain ⟨h1, h2, h3, h4⟩ := this
    refine ⟨?_, ?_, ?_, ?_⟩
    · rw [h1]; cases s <;> simp [SectionHist.step]
    · intro hs
      obtain ⟨e1, e2⟩ := h2 hs
      subst hs
      rw [e1, e2]
      simp [SectionHist.step]; omega
    · intro hs
      obtain ⟨e1, e2⟩ := h3 hs
      subst hs
      rw [e1, e2]
      simp [SectionHist.step]; omega
    · intro n1 n2
      rw [h4 n1 n2]
      cases s <;> first | exact absurd rfl n1 | exact absurd rfl n2 | simp [SectionHist.step]

theorem SectionHist.foldl_process (s : Section) (c : CycleClock) (h : SectionHist) (hs : s ≠ .main) :
    let r := (processOps c).foldl (SectionHist.step s) h
    r.fin = h.fin ∧ r.cur = h.cur + (if s = .cycleSync then 0 else c.time s) ∧
      r.calls = h.calls + (if s = .cycleSync then 0 else c.calls s) := by
  simp only [processOps, List.foldl_append]
  generalize hg : [TimerOp.start .populationControl c.popStart, .stop .populationControl c.popStop,
    .start .cycleTracking c.trackStart].foldl (SectionHist.step s) h = g
  have := SectionHist.foldl_loops s c.loops g
  dsimp only at this
  generalize hr : (c.loops.flatMap _).foldl (SectionHist.step s) g = r at this ⊢
  obtain ⟨h1, h2, h3, h4⟩ := this
  cases s
  · exact absurd rfl hs
  · have := h4 (by simp) (by simp); subst this; subst hg
    simp [SectionHist.step, CycleClock.time, CycleClock.calls]
  · have := h4 (by simp) (by simp); subst this; subst hg
    simp [SectionHist.step, CycleClock.time, CycleClock.calls]
  · obtain ⟨e1, e2⟩ := h3 rfl; subst hg
    simp [SectionHist.step] at h1 e1 e2
    simp [SectionHist.step, CycleClock.time, CycleClock.calls, h1, e1, e2]
  · obtain ⟨e1, e2⟩ := h2 rfl; subst hg
    simp [SectionHist.step] at h1 e1 e2
    simp [SectionHist.step, CycleClock.time, CycleClock.calls, h1, e1, e2]
  · have := h4 (by simp) (by simp); subst this; subst hg
    simp [SectionHist.step]

theorem SectionHist.foldl_sync (s : Section) (step a b : Nat) (h : SectionHist) (hs : s ≠ .main) :
    let r := (syncOps step a b).foldl (SectionHist.step s) h
    r.fin = h.fin ++ (if step = 0 then [] else [h.cur]) ∧
      r.cur = (if step = 0 then h.cur else 0) + (if s = .cycleSync then b - a else 0) ∧
      r.calls = h.calls + (if s = .cycleSync then 1 else 0) := by
  by_cases hz : step = 0 <;> cases s <;> simp_all [syncOps, SectionHist.step]

/-- The history of the iterations from a step on and of the last `cycle_sync`. -/
theorem SectionHist.foldl_cycles (s : Section) (hs : s ≠ .main) (cs : List CycleClock) (a b : Nat) (k : Nat) (h : SectionHist) :
    let r := (cyclesOps (k + 1) cs ++ syncOps (k + 1 + cs.length) a b).foldl (SectionHist.step s) h
    r.fin = h.fin ++ h.cur :: cs.map (·.time s) ∧ r.cur = (if s = .cycleSync then b - a else 0) ∧
      r.calls = h.calls + (cs.map (·.calls s)).sum + (if s = .cycleSync then 1 else 0) := by
  induction cs generalizing k h with
  | nil =>
    have := SectionHist.foldl_sync s (k + 1) a b h hs
    simpa [cyclesOps] using this
  | cons c cs ih =>
    simp only [cyclesOps, List.foldl_append, List.append_assoc] at *
    have h1 := SectionHist.foldl_sync s (k + 1) c.syncStart c.syncStop h hs
    dsimp only at h1
    generalize (syncOps (k + 1) c.syncStart c.syncStop).foldl (SectionHist.step s) h = h' at h1 ⊢
    have h2 := SectionHist.foldl_process s c h' hs
    dsimp only at h2
    generalize (processOps c).foldl (SectionHist.step s) h' = h'' at h2 ⊢
    have h3 := ih (k + 1) h''
    have e : k + 1 + (c :: cs).length = k + 1 + 1 + cs.length := by simp; omega
    rw [e]
    obtain ⟨a1, a2, a3⟩ := h1
    obtain ⟨b1, b2, b3⟩ := h2
    obtain ⟨c1, c2, c3⟩ := h3
    simp only [Nat.succ_ne_zero, if_false, Nat.zero_add] at a1 a2
    refine ⟨?_, c2, ?_⟩
    · rw [c1, b1, a1, b2, a2]
      have : (if s = .cycleSync then c.syncStop - c.syncStart else 0) +
          (if s = .cycleSync then 0 else c.time s) = c.time s := by
        by_cases hy : s = .cycleSync
        · subst hy; simp [CycleClock.time]
        · simp [hy]
      simp [this]
    · rw [c3, b3, a3]
      have : (if s = .cycleSync then 1 else 0) + (if s = .cycleSync then 0 else c.calls s) = c.calls s := by
        by_cases hy : s = .cycleSync
        · subst hy; simp [CycleClock.calls]
        · simp [hy]
      simp only [List.map_cons, List.sum_cons]
      omega

theorem SectionHist.foldl_run (s : Section) (hs : s ≠ .main) (ms me a b : Nat) (c : CycleClock) (cs : List CycleClock) :
    let r := (runOps ms (c :: cs) (a, b) me).foldl (SectionHist.step s) {}
    r.fin = (c :: cs).map (·.time s) ∧ r.cur = (if s = .cycleSync then b - a else 0) ∧
      r.calls = ((c :: cs).map (·.calls s)).sum + (if s = .cycleSync then 1 else 0) := by
  have e : runOps ms (c :: cs) (a, b) me = [.start .main ms] ++ (syncOps 0 c.syncStart c.syncStop ++
      (processOps c ++ ((cyclesOps (0 + 1) cs ++ syncOps (0 + 1 + cs.length) a b) ++
        [.stop .main me, .updateMain]))) := by
    simp [runOps, cyclesOps, Nat.add_comm]
  rw [e, List.foldl_append, List.foldl_append, List.foldl_append, List.foldl_append]
  have h0 : [TimerOp.start .main ms].foldl (SectionHist.step s) {} = ({} : SectionHist) := by
    simp [SectionHist.step, Ne.symm hs]
  rw [h0]
  have h1 := SectionHist.foldl_sync s 0 c.syncStart c.syncStop {} hs
  dsimp only at h1
  generalize (syncOps 0 c.syncStart c.syncStop).foldl (SectionHist.step s) {} = h' at h1 ⊢
  have h2 := SectionHist.foldl_process s c h' hs
  dsimp only at h2
  generalize (processOps c).foldl (SectionHist.step s) h' = h'' at h2 ⊢
  have h3 := SectionHist.foldl_cycles s hs cs a b 0 h''
  dsimp only at h3
  generalize (cyclesOps (0 + 1) cs ++ syncOps (0 + 1 + cs.length) a b).foldl (SectionHist.step s) h'' = h3' at h3 ⊢
  have h4 : [TimerOp.stop .main me, .updateMain].foldl (SectionHist.step s) h3' = h3' := by
    simp [SectionHist.step, Ne.symm hs]
  rw [h4]
  obtain ⟨a1, a2, a3⟩ := h1
  obtain ⟨b1, b2, b3⟩ := h2
  obtain ⟨c1, c2, c3⟩ := h3
  dsimp only
  refine ⟨?_, c2, ?_⟩
  · rw [c1, b1, a1, b2, a2]
    have : 0 + (if s = .cycleSync then c.syncStop - c.syncStart else 0) +
        (if s = .cycleSync then 0 else c.time s) = c.time s := by
      by_cases hy : s = .cycleSync
      · subst hy; simp [CycleClock.time]
      · simp [hy]
    simp at this
    simp [this]
  · rw [c3, b3, a3]
    have : (if s = .cycleSync then 1 else 0) + (if s = .cycleSync then 0 else c.calls s) = c.calls s := by
      by_cases hy : s = .cycleSync
      · subst hy; simp [CycleClock.calls]
      · simp [hy]
    simp only [List.map_cons, List.sum_cons]
    omega

/-! ### Durations that fit -/

theorem SectionHist.step_mono (s : Section) (h : SectionHist) (op : TimerOp) :
    h.total ≤ (h.step s op).total ∧ h.fin.length ≤ (h.step s op).fin.length := by
  cases op <;> simp only [SectionHist.step] <;> (try split) <;> simp [SectionHist.total]

theorem SectionHist.foldl_mono (s : Section) (ops : List TimerOp) (h : SectionHist) :
    h.total ≤ (ops.foldl (SectionHist.step s) h).total ∧ h.fin.length ≤ (ops.foldl (SectionHist.step s) h).fin.length := by
  induction ops generalizing h with
  | nil => exact ⟨Nat.le_refl _, Nat.le_refl _⟩
  | cons op ops ih =>
    have h1 := SectionHist.step_mono s h op
    have h2 := ih (h.step s op)
    exact ⟨Nat.le_trans h1.1 h2.1, Nat.le_trans h1.2 h2.2⟩

theorem duration_of_le {n : Nat} (h : n ≤ maxDuration) : duration n = .ok n := duration_ok.2 ⟨h, rfl⟩

theorem Stats.clear_succeeds {fin : List Nat} {x : SectionTimer} (h : Stats fin x)
    (hb : fin.sum + x.lastCycle ≤ maxDuration) : ∃ x', x.clear (fin.length + 1) = .ok x' := by
  have h1 := h.avg_le
  have h2 := h.tot
  unfold SectionTimer.clear
  have hn : fin.length + 1 - 1 = fin.length := by omega
  rw [hn, duration_of_le (n := x.tot + x.lastCycle) (by omega)]
  simp only [bind, Except.bind]
  rw [duration_of_le (n := x.avg * fin.length) (by omega)]
  simp only
  rw [duration_of_le (n := x.avg * fin.length + x.lastCycle) (by omega)]
  exact ⟨_, rfl⟩

theorem step_succeeds {t : Timers} {h : Section → SectionHist} {op : TimerOp} (hf : ∀ s, Follows s t (h s))
    (ht : ∀ s, ((h s).step s op).total ≤ maxDuration)
    (hl : ((h .cycleSync).step .cycleSync op).fin.length < 2 ^ 32) : ∃ t', t.step op = .ok t' := by
  cases op with
  | start s now => exact ⟨_, rfl⟩
  | updateMain => exact ⟨_, rfl⟩
  | stop s now =>
    have h1 := ht s
    have h2 := (hf s).st
    have h3 := (hf s).cur
    have h4 := (hf s).cum
    simp only [SectionHist.step, if_true, SectionHist.total] at h1 h4
    simp only [Timers.step, SectionTimer.stop]
    rw [duration_of_le (by rw [h2, h3]; omega)]
    simp only [bind, Except.bind]
    rw [duration_of_le (by rw [h2, h4]; omega)]
    exact ⟨_, rfl⟩
  | clear =>
    have hc : ∀ s, s ≠ .main → ∃ x', (t.sec s).clear (t.nAvg + 1) = .ok x' := by
      intro s hs
      rw [(hf s).num hs]
      apply ((hf s).stats hs).clear_succeeds
      rw [(hf s).cur]
      have := Nat.le_trans (SectionHist.step_mono s (h s) .clear).1 (ht s)
      exact this
    have hn : t.nAvg + 1 < 2 ^ 32 := by
      rw [(hf .cycleSync).num (by simp)]
      simpa [SectionHist.step] using hl
    obtain ⟨a, ha⟩ := hc .populationControl (by simp)
    obtain ⟨b, hb⟩ := hc .cycleTracking (by simp)
    obtain ⟨c, hc'⟩ := hc .cycleTrackingProcess (by simp)
    obtain ⟨d, hd⟩ := hc .cycleTrackingSort (by simp)
    obtain ⟨e, he⟩ := hc .cycleSync (by simp)
    simp only [Timers.step, Timers.clear, hn, if_true, ha, hb, hc', hd, he, bind, Except.bind]
    exact ⟨_, rfl⟩

theorem run_succeeds {t : Timers} {h : Section → SectionHist} {ops : List TimerOp} (hf : ∀ s, Follows s t (h s))
    (ht : ∀ s, (ops.foldl (SectionHist.step s) (h s)).total ≤ maxDuration)
    (hl : (ops.foldl (SectionHist.step .cycleSync) (h .cycleSync)).fin.length < 2 ^ 32) :
    ∃ t', t.run ops = .ok t' := by
  induction ops generalizing t h with
  | nil => exact ⟨t, rfl⟩
  | cons op ops ih =>
    obtain ⟨t1, h1⟩ := step_succeeds (op := op) hf
      (fun s => Nat.le_trans (SectionHist.foldl_mono s ops _).1 (ht s))
      (Nat.lt_of_le_of_lt (SectionHist.foldl_mono .cycleSync ops _).2 hl)
    obtain ⟨t2, h2⟩ := ih (h := fun s => (h s).step s op) (fun s => (hf s).step h1) ht hl
    refine ⟨t2, ?_⟩
    simp only [Timers.run, List.foldlM_cons, h1]
    exact h2

/-! ### The main section -/

theorem SectionHist.main_frame {ops : List TimerOp} {h : SectionHist}
    (ho : ∀ op ∈ ops, ∀ now, op ≠ .start .main now ∧ op ≠ .stop .main now) :
    ops.foldl (SectionHist.step .main) h = h := by
  induction ops generalizing h with
  | nil => rfl
  | cons op ops ih =>
    rw [List.foldl_cons, ih (fun o ho' => ho o (List.mem_cons_of_mem _ ho'))]
    have h1 := ho op (List.mem_cons_self)
    cases op with
    | start s now =>
      have : s ≠ .main := fun e => (h1 now).1 (by rw [e])
      simp [SectionHist.step, this]
    | stop s now =>
      have : s ≠ .main := fun e => (h1 now).2 (by rw [e])
      simp [SectionHist.step, this]
    | clear => simp [SectionHist.step]
    | updateMain => rfl

theorem cyclesOps_main (k : Nat) (cs : List CycleClock) :
    ∀ op ∈ cyclesOps k cs, ∀ now, op ≠ .start .main now ∧ op ≠ .stop .main now := by
  induction cs generalizing k with
  | nil => intro op hop; simp [cyclesOps] at hop
  | cons c cs ih =>
    intro op hop now
    simp only [cyclesOps, List.mem_append] at hop
    rcases hop with (hop | hop) | hop
    · unfold syncOps at hop
      split at hop <;> simp at hop <;> (rcases hop with rfl | rfl | rfl <;> simp)
    · simp only [processOps, List.mem_append, List.mem_flatMap, List.mem_cons, List.not_mem_nil, or_false] at hop
      rcases hop with ((rfl | rfl | rfl) | ⟨l, _, rfl | rfl | rfl | rfl⟩) | rfl <;> simp
    · exact ih _ op hop now

theorem syncOps_main (k a b : Nat) :
    ∀ op ∈ syncOps k a b, ∀ now, op ≠ .start .main now ∧ op ≠ .stop .main now := by
  intro op hop now
  unfold syncOps at hop
  split at hop <;> simp at hop <;> (rcases hop with rfl | rfl | rfl <;> simp)

/-- The timers of the main section before `update_main_stats`. -/
theorem SectionHist.foldl_main (ms me : Nat) (cs : List CycleClock) (last : Nat × Nat) :
    (runOps ms cs last me).foldl (SectionHist.step .main) {} =
      { st := ms, en := me, cur := me - ms, fin := [], calls := 1 } := by
  simp only [runOps, List.foldl_append]
  rw [SectionHist.main_frame (cyclesOps_main 0 cs), SectionHist.main_frame (syncOps_main _ _ _)]
  simp [SectionHist.step]

theorem run_append {ops ops' : List TimerOp} {t t' : Timers} (h : t.run (ops ++ ops') = .ok t') :
    ∃ t1, t.run ops = .ok t1 ∧ t1.run ops' = .ok t' := by
  simp only [Timers.run, List.foldlM_append] at h
  exact bind_ok.1 h

theorem mem_le_sum {l : List Nat} {a : Nat} (h : a ∈ l) : a ≤ l.sum := by
  induction l with
  | nil => cases h
  | cons b l ih =>
    rcases List.mem_cons.1 h with rfl | h
    · simp
    · have := ih h
      simp only [List.sum_cons]; omega
