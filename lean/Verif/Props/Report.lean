import Verif.Lemmas.Report
import Verif.Lemmas.StartFloat
import Verif.Props.Stats
import Verif.Props.Results
import Verif.Props.Timing
import Verif.Props.Reproducible
import Mathlib.Tactic.Positivity
/-!
# C69: the files of a run tell what happened in it

The theorems hold for every input that starts, every run of it (every schedule of the threads), every history of the
clock in which no duration overflows, and whatever the files contained before.  All but the last hold for every
number type.
-/
open Flt Config
set_option linter.unusedSectionVars false
attribute [local irreducible] Rng.lcg Rng.sample Rng.spawn

section
variable {T : Type} [Flt T] {so : StrOrder} {io : IterOrder} {m : Machine} {fuel fuel' : Nat} {p : Params T}
  {a : Started T} {ex : ExecInfo} {s : SimState T} {ms me : Nat} {cs : List CycleClock} {last : Nat × Nat} {t : Timers}
  {fmt : TextFormat T} {sfmt : SpectrumFormat T} {old : TextFile × TextFile} {files : RunFiles}

/-! ### Parts of a started run -/

theorem started_start (h : startRun so io m fuel p = .ok (some a)) : StartOfRun a.state := by
  obtain ⟨_, _, hf⟩ := C64_started h
  exact ⟨hf.particles.1, hf.particles.2.1, hf.particles.2.2, hf.counters.1, hf.counters.2.1, hf.counters.2.2.1⟩

theorem started_energies (hso : ∀ l, (so l).Perm l) (hp : NamedParams p) (hc : Consistent p)
    (h : startRun so io m fuel p = .ok (some a)) :
    a.data.nuclear.energies.length = p.simulation.nGroups + 1 ∧
      a.state.spectrum = List.replicate (p.simulation.nGroups + 1) 0 := by
  obtain ⟨_, hset, hf⟩ := C64_started h
  obtain ⟨nd, mats, dom, doms, h1, h2, _⟩ := startRun_parts h
  obtain ⟨nd', mats', e1, _, e3, _⟩ := initNuclearData_ok hp hc hso
  rw [h1] at e1
  cases e1
  refine ⟨?_, ?_⟩
  · rw [h2]
    show nd.energies.length = _
    rw [e3, energyLevels_length]
  · rw [hf.spectrum, hset.groups]

theorem spectrum_length (hso : ∀ l, (so l).Perm l) (hp : NamedParams p) (hc : Consistent p)
    (h : startRun so io m fuel p = .ok (some a)) (hr : RunCore a.data ex a.opts fuel' a.state s) :
    s.spectrum.length = p.simulation.nGroups + 1 := by
  obtain ⟨h1, h2⟩ := started_energies hso hp hc h
  have h0 := started_start h
  have hl : a.state.spectrum.length = a.data.nuclear.energies.length := by rw [h1, h2]; simp
  obtain ⟨s1, hc1, hs⟩ := hr
  have hi := C45_in_range a.data ex a.opts fuel' _ a.state s1 h0 hl (Nat.le_refl _) hc1
  have hb := cycles_between (Nat.le_refl _) h0.initial hc1
  obtain ⟨_, h3, _⟩ := cycleSync_spectrum (Nat.le_refl _) hb.processing hs
  rw [← h1, ← hi.1]
  split at h3
  · exact (countSpectrum_spec h3).1
  · rw [← Except.ok.inj h3]

/-- The lines of the report of the tallies are those of the cycles. -/
theorem report_lines (h : startRun so io m fuel p = .ok (some a)) (hr : RunCore a.data ex a.opts fuel' a.state s)
    (hcs : cs.length = p.simulation.nSteps) {ts : List Timers}
    (hts : printedTimers (runOps ms cs last me) Timers.default = .ok ts) :
    (List.zipWith tallyLine s.reports ts).length = p.simulation.nSteps ∧
    (∀ i r c, s.reports[i]? = some r → cs[i]? = some c →
      (List.zipWith tallyLine s.reports ts)[i]? = some (lineOf i r c)) ∧
    LinesBalance (List.zipWith tallyLine s.reports ts) := by
  have h0 := started_start h
  obtain ⟨_, hset, _⟩ := C64_started h
  have h6 := C06_cycle_balance a.data ex a.opts fuel' a.state s h0 hr
  have h7 := C07_counters_chain a.data ex a.opts fuel' a.state s h0 hr
  have h8 := C08_event_counters a.data ex a.opts fuel' a.state s h0 hr
  have hlr : s.reports.length = p.simulation.nSteps := by rw [h6.1, hset.nSteps]
  have hlt : ts.length = cs.length := by
    have := congrArg List.length (printedTimers_run hts (s := .cycleSync) (by simp))
    simpa using this
  have htime : ∀ x, x ≠ Section.main → ∀ (i : Nat) (t : Timers) (c : CycleClock), ts[i]? = some t → cs[i]? = some c →
      (t.sec x).lastCycle = c.time x := by
    intro x hx i t c hi hc
    have := congrArg (·[i]?) (printedTimers_run hts hx)
    simpa [List.getElem?_map, hi, hc] using this
  have hstep : ∀ (i : Nat) (r : Nat × Balance × T), s.reports[i]? = some r → r.1 = i := by
    intro i r hi
    have h1 := congrArg (·[i]?) h7.1
    have hlt' : i < a.data.nSteps := by rw [← h6.1]; exact (List.getElem?_eq_some_iff.1 hi).1
    simpa [List.getElem?_map, hi, hlt'] using h1
  have hget : ∀ (i : Nat) (l : TallyLine T), (List.zipWith tallyLine s.reports ts)[i]? = some l →
      ∃ r t, s.reports[i]? = some r ∧ ts[i]? = some t ∧ l = tallyLine r t := by
    intro i l hl
    rw [List.getElem?_zipWith] at hl
    cases hr' : s.reports[i]? with
    | none => rw [hr'] at hl; simp at hl
    | some r =>
      cases ht' : ts[i]? with
      | none => rw [hr', ht'] at hl; simp at hl
      | some t => rw [hr', ht'] at hl; simp at hl; exact ⟨r, t, rfl, rfl, hl.symm⟩
  refine ⟨by rw [List.length_zipWith, hlr, hlt, hcs, Nat.min_self], ?_, ?_, ?_, ?_, ?_, ?_⟩
  · intro i r c hi hc
    obtain ⟨t, ht⟩ : ∃ t, ts[i]? = some t := by
      have := (List.getElem?_eq_some_iff.1 hc).1
      exact ⟨_, List.getElem?_eq_getElem (hlt ▸ this)⟩
    rw [List.getElem?_zipWith, hi, ht]
    simp only [tallyLine, lineOf, hstep i r hi, htime .populationControl (by simp) i t c ht hc,
      htime .cycleTracking (by simp) i t c ht hc, htime .cycleSync (by simp) i t c ht hc]
  · intro l hl
    obtain ⟨i, hi⟩ := List.getElem?_of_mem hl
    obtain ⟨r, t, hri, _, rfl⟩ := hget i l hi
    exact h6.2 r (List.mem_of_getElem? hri)
  · intro l hl
    obtain ⟨i, hi⟩ := List.getElem?_of_mem hl
    obtain ⟨r, t, hri, _, rfl⟩ := hget i l hi
    exact (h8 r (List.mem_of_getElem? hri)).1
  · intro i l hi
    obtain ⟨r, t, hri, _, rfl⟩ := hget i l hi
    exact hstep i r hri
  · intro l hi
    obtain ⟨r, t, hri, _, rfl⟩ := hget 0 l hi
    exact h7.2.1 r hri
  · intro i l l' hi hi'
    obtain ⟨r, t, hri, _, rfl⟩ := hget i l hi
    obtain ⟨r', t', hri', _, rfl⟩ := hget (i + 1) l' hi'
    show r'.2.1.start = r.2.1.census
    rw [h7.2.2.2.1 i r r' hri hri', h7.2.2.1 r (List.mem_of_getElem? hri)]

theorem writeFiles_ok {p : SimulationParams T} {energies : List T} {ops : List TimerOp}
    (h : writeFiles fmt sfmt p energies s ops old = .ok files) :
    ∃ ts t, printedTimers ops Timers.default = .ok ts ∧ Timers.default.run ops = .ok t ∧
      summaryFile fmt p.csv s.reports ts old.1 = .ok files.tallies ∧
      files.timers = (if p.csv then some (timerFile fmt (fun x => efficiency (t.sec x)) t) else old.2) ∧
      printSpectrum sfmt p.energySpectrum energies s.spectrum = .ok files.spectrum := by
  unfold writeFiles at h
  obtain ⟨ts, h1, h⟩ := bind_ok.1 h
  obtain ⟨t, h2, h⟩ := bind_ok.1 h
  obtain ⟨f, h3, h⟩ := bind_ok.1 h
  obtain ⟨g, h4, h⟩ := bind_ok.1 h
  cases pure_ok.1 h
  exact ⟨ts, t, h1, h2, h3, rfl, h4⟩

/-! ### The files -/

/-- **C69, the files are written.**  After every run whose durations do not overflow, the three files are written
without a panic. -/
theorem C69_written (hso : ∀ l, (so l).Perm l) (hp : NamedParams p) (hc : Consistent p)
    (h : startRun so io m fuel p = .ok (some a)) (hr : RunCore a.data ex a.opts fuel' a.state s)
    (ht : Timers.default.run (runOps ms cs last me) = .ok t) (hcs : cs.length = p.simulation.nSteps)
    (fmt : TextFormat T) (sfmt : SpectrumFormat T) (old : TextFile × TextFile) :
    ∃ files, writeFiles fmt sfmt p.simulation a.data.nuclear.energies s (runOps ms cs last me) old = .ok files := by
  obtain ⟨ts, hts⟩ := printedTimers_ok ht
  obtain ⟨_, _, hb⟩ := report_lines h hr hcs hts
  have hsum : ∃ f, summaryFile fmt p.simulation.csv s.reports ts old.1 = .ok f := by
    unfold summaryFile
    cases p.simulation.csv with
    | false => exact ⟨_, fold_off fmt _ _⟩
    | true =>
      by_cases hne : List.zipWith tallyLine s.reports ts = []
      · rw [hne]; exact ⟨_, rfl⟩
      · exact ⟨_, fold_on fmt hne hb.numbered _⟩
  have hspec : ∃ f, printSpectrum sfmt p.simulation.energySpectrum a.data.nuclear.energies s.spectrum = .ok f := by
    by_cases hn : p.simulation.energySpectrum = ""
    · exact ⟨none, by unfold printSpectrum; rw [if_pos hn]⟩
    · obtain ⟨lines, hl, _⟩ := printSpectrum_ok (fmt := sfmt) hn (energies := a.data.nuclear.energies)
        (spectrum := s.spectrum) (by rw [spectrum_length hso hp hc h hr, (started_energies hso hp hc h).1])
      exact ⟨_, hl⟩
  obtain ⟨f, hf⟩ := hsum
  obtain ⟨g, hg⟩ := hspec
  exact ⟨_, bind_ok.2 ⟨ts, hts, bind_ok.2 ⟨t, ht, bind_ok.2 ⟨f, hf, bind_ok.2 ⟨g, hg, rfl⟩⟩⟩⟩⟩

/-- **C69, the report of the tallies.**  When it is asked for and there is at least one cycle, it has its line of
names and one line for each cycle, in order and nothing else, whatever was in the file before: the line of cycle `i`
has the counters and the flux of this cycle and the times spent in this cycle; together the lines account for all the
particles.  When it is not asked for, neither of the two tables is touched. -/
theorem C69_tallies (h : startRun so io m fuel p = .ok (some a)) (hr : RunCore a.data ex a.opts fuel' a.state s)
    (hcs : cs.length = p.simulation.nSteps)
    (hw : writeFiles fmt sfmt p.simulation a.data.nuclear.energies s (runOps ms cs last me) old = .ok files) :
    (p.simulation.csv = false → files.tallies = old.1 ∧ files.timers = old.2) ∧
    (p.simulation.csv = true → p.simulation.nSteps ≠ 0 → ∃ lines, files.tallies = some (tallyFile fmt lines) ∧
      lines.length = p.simulation.nSteps ∧ s.reports.length = p.simulation.nSteps ∧
      (∀ i r c, s.reports[i]? = some r → cs[i]? = some c → lines[i]? = some (lineOf i r c)) ∧
      LinesBalance lines) := by
  obtain ⟨ts, t, hts, _, h3, h4, _⟩ := writeFiles_ok hw
  obtain ⟨l1, l2, l3⟩ := report_lines h hr hcs hts
  have hlr : s.reports.length = p.simulation.nSteps := by
    rw [(C06_cycle_balance a.data ex a.opts fuel' a.state s (started_start h) hr).1, (C64_started h).2.1.nSteps]
  unfold summaryFile at h3
  refine ⟨fun hv => ?_, fun hv hn => ⟨_, ?_, l1, hlr, l2, l3⟩⟩
  · rw [hv] at h3 h4
    rw [fold_off] at h3
    exact ⟨(Except.ok.inj h3).symm, by simpa using h4⟩
  · rw [hv, fold_on fmt (by rw [← List.length_pos_iff]; omega) l3.numbered] at h3
    exact (Except.ok.inj h3).symm

/-- **C69, an old report may stay.**  A run of no cycle that is asked for the report leaves the file of an earlier run
as it was, and makes none if there was none. -/
theorem C69_tallies_no_cycle (h : startRun so io m fuel p = .ok (some a))
    (hr : RunCore a.data ex a.opts fuel' a.state s) (hcs : cs.length = p.simulation.nSteps)
    (hn : p.simulation.nSteps = 0)
    (hw : writeFiles fmt sfmt p.simulation a.data.nuclear.energies s (runOps ms cs last me) old = .ok files) :
    files.tallies = old.1 := by
  obtain ⟨ts, t, hts, _, h3, _, _⟩ := writeFiles_ok hw
  obtain ⟨l1, _, _⟩ := report_lines h hr hcs hts
  unfold summaryFile at h3
  rw [List.length_eq_zero_iff.1 (l1.trans hn)] at h3
  exact (Except.ok.inj h3).symm

/-- **C69, what the post-processing reads.**  From the two tables of a run, it reads in each column of the tallies the
values of this column, cycle after cycle, in a table that accounts for all the particles; and, for each section, the
shortest, average, longest and total time in microseconds of the times spent in it in the cycles. -/
theorem C69_read_back (hf : fmt.Sound) (h : startRun so io m fuel p = .ok (some a))
    (hr : RunCore a.data ex a.opts fuel' a.state s) (hcs : cs.length = p.simulation.nSteps)
    (hv : p.simulation.csv = true) (hn : p.simulation.nSteps ≠ 0)
    (hw : writeFiles fmt sfmt p.simulation a.data.nuclear.energies s (runOps ms cs last me) old = .ok files) :
    ∃ tallies timers, files.tallies = some tallies ∧ files.timers = some timers ∧
      (∃ lines report, LinesBalance lines ∧ lines.length = p.simulation.nSteps ∧
        (∀ i r c, s.reports[i]? = some r → cs[i]? = some c → lines[i]? = some (lineOf i r c)) ∧
        readTallies fmt tallies = .ok report ∧
        ∀ d : TalliedData, tallyIndex report d = .ok (TalliedVariable.new (lines.map (·.quantity d)))) ∧
      (∃ report, readTimers fmt timers = .ok report ∧ ∀ x, x ≠ .main → ∃ st,
        Summary (cs.map (·.time x)) st ∧ timerIndex report x = .ok
          { lowest := Flt.ofNat (st.min / 1000), mean := Flt.ofNat (st.avg / 1000),
            highest := Flt.ofNat (st.max / 1000), total := Flt.ofNat (st.tot / 1000) }) := by
  obtain ⟨lines, e, l1, _, l2, l3⟩ := (C69_tallies h hr hcs hw).2 hv hn
  obtain ⟨ts, t, _, ht, _, h4, _⟩ := writeFiles_ok hw
  rw [if_pos hv] at h4
  obtain ⟨report, r1, _, r2⟩ := C48_tallies_read_back hf lines
  obtain ⟨report', q1, _, q2⟩ := C48_timers_read_back hf (fun x => efficiency (t.sec x)) t
  refine ⟨_, _, e, h4, ⟨lines, report, l3, l1, l2, r1, r2⟩, report', q1, fun x hx => ⟨t.sec x, ?_, q2 x⟩⟩
  exact C47_report (by rw [← List.length_pos_iff]; omega) ht hx

/-- **C69, the energy spectrum.**  It is written, in the file of the given name with `.dat` added, exactly when a name
is given: two lines of head, then one line for each energy level, in order, in which one reads the number of the
level, its energy and its count in the spectrum; the counts add up to the particles left at the end of the cycles. -/
theorem C69_spectrum (hso : ∀ l, (so l).Perm l) (hp : NamedParams p) (hc : Consistent p) (hf : sfmt.Sound)
    (h : startRun so io m fuel p = .ok (some a)) (hr : RunCore a.data ex a.opts fuel' a.state s)
    (hw : writeFiles fmt sfmt p.simulation a.data.nuclear.energies s (runOps ms cs last me) old = .ok files) :
    (p.simulation.energySpectrum = "" → files.spectrum = none) ∧
    (p.simulation.energySpectrum ≠ "" → ∃ lines : List (List Char),
      files.spectrum = some (p.simulation.energySpectrum ++ ".dat", spectrumHead ++ lines) ∧
      lines.length = p.simulation.nGroups + 1 ∧ a.data.nuclear.energies.length = p.simulation.nGroups + 1 ∧
      s.spectrum.length = p.simulation.nGroups + 1 ∧
      (∀ (i n : Nat) (e : T), a.data.nuclear.energies[i]? = some e → s.spectrum[i]? = some n →
        lines[i]?.map barCells = some [sfmt.showNat i, sfmt.showFixed e, sfmt.showNat n]) ∧
      s.spectrum.sum = (s.reports.map fun r => r.2.1.census).sum) := by
  obtain ⟨ts, t, _, _, _, _, h5⟩ := writeFiles_ok hw
  refine ⟨fun hn => ?_, fun hn => ?_⟩
  · unfold printSpectrum at h5
    rw [if_pos hn] at h5
    exact (Except.ok.inj h5).symm
  · have hlen := spectrum_length hso hp hc h hr
    obtain ⟨he, hs0⟩ := started_energies hso hp hc h
    obtain ⟨lines, e1, e2, e3⟩ := printSpectrum_ok (fmt := sfmt) hn (energies := a.data.nuclear.energies)
      (spectrum := s.spectrum) (by rw [hlen, he])
    rw [e1] at h5
    have h0 := started_start h
    have htot := (C45_total a.data ex a.opts fuel' a.state s h0 hr).1 ((C64_started h).2.1.spectrum.2 hn)
    have h7 := C07_counters_chain a.data ex a.opts fuel' a.state s h0 hr
    refine ⟨lines, (Except.ok.inj h5).symm, by rw [e2, he], he, hlen, ?_, ?_⟩
    · intro i n e hie hin
      obtain ⟨n', g1, g2⟩ := e3 i e hie
      rw [hin] at g1
      cases g1
      rw [g2, Option.map_some, spectrumLine_cells hf]
    · rw [htot, hs0, List.sum_replicate, endPopulations]
      have : (s.reports.map fun r => r.2.1.end_) = s.reports.map fun r => r.2.1.census :=
        List.map_congr_left fun r hr => h7.2.2.1 r hr
      rw [this]; simp
end

/-! ### The quotients -/

theorem asSecs_real (n : Nat) : (asSecs n : ℝ) = n / 10 ^ 9 := by
  have h := Nat.div_add_mod n (10 ^ 9)
  have h' : (10 ^ 9 : ℝ) * ((n / 10 ^ 9 : ℕ) : ℝ) + ((n % 10 ^ 9 : ℕ) : ℝ) = n := by exact_mod_cast h
  simp only [asSecs, FltReal.add_eq, FltReal.div_eq, FltReal.ofNat_eq]
  rw [eq_div_iff (by norm_num), ← h']
  push_cast
  ring

/-- **C69, segments.**  In every arithmetic, the number of segments from which the figure of merit is computed is the sum
of the numbers of segments of the cycles. -/
theorem C69_segments {T : Type} [Flt T] {so : StrOrder} {io : IterOrder} {m : Machine} {fuel fuel' : ℕ} {p : Params T}
    {a : Started T} {ex : ExecInfo} {s : SimState T} (h : startRun so io m fuel p = .ok (some a))
    (hr : RunCore a.data ex a.opts fuel' a.state s) :
    s.cumulative.numSegments = (s.reports.map fun r => r.2.1.numSegments).sum := by
  rw [(C07_counters_chain a.data ex a.opts fuel' a.state s (started_start h) hr).2.2.2.2.2.1]
  have key : ∀ (l : List (ℕ × Balance × T)) (b : Balance),
      ((l.map fun r => r.2.1).foldl Balance.add b).numSegments =
        b.numSegments + (l.map fun r => r.2.1.numSegments).sum := by
    intro l
    induction l with
    | nil => intro b; simp
    | cons r l ih =>
      intro b
      rw [List.map_cons, List.foldl_cons, ih, List.map_cons, List.sum_cons]
      simp only [Balance.add]
      omega
  have := key s.reports {}
  simpa [Balance.sum] using this

/-- **C69, the quotients**, over the reals.  The efficiency of a section lies between 0 and 100; the figure of merit,
when the time spent tracking is not zero, is the number of segments of all the cycles divided by the seconds spent
tracking in all the cycles. -/
theorem C69_quotients {so : StrOrder} {io : IterOrder} {m : Machine} {fuel fuel' : ℕ} {p : Params ℝ}
    {a : Started ℝ} {ex : ExecInfo} {s : SimState ℝ} {ms me : ℕ} {cs : List CycleClock} {last : ℕ × ℕ} {t : Timers}
    (h : startRun so io m fuel p = .ok (some a)) (hr : RunCore a.data ex a.opts fuel' a.state s) (hne : cs ≠ [])
    (ht : Timers.default.run (runOps ms cs last me) = .ok t) :
    (∀ x, 0 ≤ (efficiency (t.sec x) : ℝ) ∧ (efficiency (t.sec x) : ℝ) ≤ 100) ∧
    ((cs.map (·.time .cycleTracking)).sum ≠ 0 →
      (figureOfMerit s.cumulative.numSegments t : ℝ) =
        (s.reports.map fun r => r.2.1.numSegments).sum / ((cs.map (·.time .cycleTracking)).sum / 10 ^ 9)) := by
  have havg : ∀ x, (t.sec x).avg ≤ (t.sec x).max := by
    intro x
    by_cases hx : x = .main
    · subst hx
      obtain ⟨_, h2, h3, _⟩ := C47_main ht
      omega
    · exact (C47_report hne ht hx).ordered.2
  refine ⟨fun x => ?_, fun _ => ?_⟩
  · have h1 : ((t.sec x).avg : ℝ) ≤ (t.sec x).max := by exact_mod_cast havg x
    have h0 : (0 : ℝ) ≤ (t.sec x).avg := Nat.cast_nonneg _
    simp only [efficiency, FltReal.add_eq, FltReal.div_eq, FltReal.mul_eq, FltReal.lit_eq, asSecs_real]
    have hpos : (0 : ℝ) < ((t.sec x).max : ℝ) / 10 ^ 9 + ((1 : ℕ) : ℝ) * 10 ^ (-80 : ℤ) := by positivity
    have h80 : (0 : ℝ) ≤ ((1 : ℕ) : ℝ) * 10 ^ (-80 : ℤ) := by positivity
    refine ⟨by positivity, ?_⟩
    rw [div_le_iff₀ hpos]
    have : ((t.sec x).avg : ℝ) / 10 ^ 9 ≤ (t.sec x).max / 10 ^ 9 := by gcongr
    push_cast
    norm_num at this ⊢
    linarith
  · have hseg := C69_segments h hr
    simp only [figureOfMerit, FltReal.div_eq, FltReal.ofNat_eq, asSecs_real, hseg,
      (C47_report hne ht (s := .cycleTracking) (by simp)).total]

/-! ### A run that meets the hypotheses -/

namespace FilesRun

/-- The toy input of two materials, for two cycles, with the tables and an energy spectrum asked for. -/
def input : Params Toy :=
  { TwoMaterials.first with
    simulation := { TwoMaterials.first.simulation with nSteps := 2, csv := true, energySpectrum := "levels" } }

/-- One cycle, evaluated. -/
def cycle (a : Started Toy) (n : Nat) (s : SimState Toy) : Except Panic (SimState Toy) := do
  let s ← cycleSync a.data a.opts n s
  let (u, c) ← populationControl a.data s.globalN s.srcWeight s.unit s.container
  let (u, c) ← processLoopSeq a.data 60 10 u c
  return { s with unit := u, container := c }

/-- The run, evaluated. -/
def run (a : Started Toy) : Except Panic (SimState Toy) := do
  let s ← cycle a 0 a.state
  let s ← cycle a 1 s
  cycleSync a.data a.opts 2 s

theorem run_sound {a : Started Toy} (hn : a.data.nSteps = 2) {s : SimState Toy} (h : run a = .ok s) :
    RunCore a.data ⟨.sequential, 1, 1, 0⟩ a.opts 60 a.state s := by
  have hc : ∀ n s0 s1 s2, Cycles a.data ⟨.sequential, 1, 1, 0⟩ a.opts 60 n s0 s1 → cycle a n s1 = .ok s2 →
      Cycles a.data ⟨.sequential, 1, 1, 0⟩ a.opts 60 (n + 1) s0 s2 := by
    intro n s0 s1 s2 h1 h2
    simp only [cycle, bind_ok, Prod.exists] at h2
    obtain ⟨s', hs, u, c, hp, u', c', hl, h2⟩ := h2
    rw [← pure_ok.1 h2]
    exact .succ h1 hs ⟨u, c, hp, processLoopSeq_sound rfl hl⟩
  simp only [run, bind_ok] at h
  obtain ⟨s1, h1, s2, h2, h3⟩ := h
  exact ⟨s2, by rw [hn]; exact hc _ _ _ _ (hc _ _ _ _ .zero h1) h2, by rw [hn]; exact h3⟩

/-- Readings of a clock, in nanoseconds. -/
def clock : List CycleClock :=
  [{ syncStart := 10, syncStop := 2010, popStart := 3000, popStop := 9000, trackStart := 9100,
     loops := [(9200, 9300, 9400, 2000000), (2000100, 2000200, 2000300, 3000000)], trackStop := 3000100 },
   { syncStart := 3000200, syncStop := 3004200, popStart := 3005000, popStop := 3006000, trackStart := 3006100,
     loops := [(3006200, 3006300, 3006400, 5000000)], trackStop := 5000100 }]

/-- The notation of the spectrum. -/
def notation' : SpectrumFormat Toy where
  showNat n := List.replicate n '1'
  showFixed x := List.replicate x.natAbs '1'

theorem notation_sound : notation'.Sound :=
  ⟨fun n => by simp [notation', List.mem_replicate], fun x => by simp [notation', List.mem_replicate]⟩

/-- Test evaluated by the kernel. -/
def check : Bool :=
  match startRun id id ⟨1, true⟩ 50 input with
  | .ok (some a) => decide (a.data.nSteps = 2) &&
    match run a with
    | .ok s => decide ((s.reports.map fun r => (r.1, r.2.1.source, r.2.1.split, r.2.1.collision, r.2.1.numSegments)) =
        [(0, 2, 18, 45, 72), (1, 2, 19, 14, 35)])
    | .error _ => false
  | _ => false

theorem check_true : check = true := by decide +kernel

theorem clock_ok : ∃ t, Timers.default.run (runOps 0 clock (5000200, 5001000) 5002000) = .ok t :=
  C47_no_overflow (by simp [clock]) (by simp [clock]) (by decide) (fun s => by cases s <;> decide)

/-- The input starts, a run of two cycles with 59 collisions finishes, its files are written, and the table of the
tallies, read back, holds the numbers of the two cycles; an older file of the same name is gone. -/
example : ∃ a s files, startRun id id ⟨1, true⟩ 50 input = .ok (some a) ∧
    RunCore a.data ⟨.sequential, 1, 1, 0⟩ a.opts 60 a.state s ∧
    writeFiles toyFormat notation' input.simulation a.data.nuclear.energies s
      (runOps 0 clock (5000200, 5001000) 5002000) (some ["old".toList], none) = .ok files ∧
    (∃ tallies report, files.tallies = some tallies ∧ tallies.length = 3 ∧
      readTallies toyFormat tallies = .ok report ∧
      tallyIndex report .collision = .ok (TalliedVariable.new [Flt.ofNat 45, Flt.ofNat 14]) ∧
      tallyIndex report .cycleSync = .ok (TalliedVariable.new [asSecs 2000, asSecs 4000])) ∧
    ∃ lines, files.spectrum = some ("levels.dat", lines) ∧ lines.length = 5 := by
  have hk := check_true
  unfold check at hk
  split at hk
  · next a ha =>
    rw [Bool.and_eq_true, decide_eq_true_eq] at hk
    obtain ⟨hn, hk⟩ := hk
    split at hk
    · next s hs =>
      have hk := of_decide_eq_true hk
      have hr := run_sound hn hs
      obtain ⟨t, ht⟩ := clock_ok
      have hid : ∀ l : List String, (id l).Perm l := fun l => .refl l
      have hp : NamedParams input := ⟨TwoMaterials.named.1.materials, TwoMaterials.named.1.crossSections⟩
      have hc : Consistent input :=
        ⟨TwoMaterials.consistent.1, TwoMaterials.consistent.2, TwoMaterials.consistent.3, TwoMaterials.consistent.4⟩
      obtain ⟨files, hf⟩ := C69_written hid hp hc ha hr ht rfl toyFormat notation' (some ["old".toList], none)
      obtain ⟨lines, e1, l1, hlr, l2, _⟩ := (C69_tallies ha hr rfl hf).2 rfl (by decide)
      obtain ⟨slines, e2, e3, _⟩ := (C69_spectrum hid hp hc notation_sound ha hr hf).2 (by decide)
      obtain ⟨report, r1, _, r2⟩ := C48_tallies_read_back toyFormat_sound lines
      have hlr : s.reports.length = 2 := hlr
      have l1 : lines.length = 2 := l1
      obtain ⟨ra, rb, hab⟩ := List.length_eq_two.1 hlr
      obtain ⟨la, lb, hl⟩ := List.length_eq_two.1 l1
      subst hl
      rw [hab] at hk l2
      have ea := l2 0 ra _ rfl rfl
      have eb := l2 1 rb _ rfl rfl
      simp only [List.getElem?_cons_zero, List.getElem?_cons_succ, Option.some.injEq] at ea eb
      simp only [List.map_cons, List.map_nil, List.cons.injEq, Prod.mk.injEq, and_true] at hk
      refine ⟨a, s, files, ha, hr, hf, ⟨_, report, e1, rfl, r1, ?_, ?_⟩, _, e2, ?_⟩
      · rw [r2, ea, eb]
        simp only [List.map_cons, List.map_nil, TallyLine.quantity, lineOf, hk.1.2.2.2.1, hk.2.2.2.2.1]
      · rw [r2, ea, eb]
        rfl
      · rw [List.length_append, e3]; rfl
    · cases hk
  · cases hk

/-- The two cycles of this run have 72 and 35 segments. -/
example : ∃ a s, startRun id id ⟨1, true⟩ 50 input = .ok (some a) ∧
    RunCore a.data ⟨.sequential, 1, 1, 0⟩ a.opts 60 a.state s ∧ s.cumulative.numSegments = 107 := by
  have hk := check_true
  unfold check at hk
  split at hk
  · next a ha =>
    rw [Bool.and_eq_true, decide_eq_true_eq] at hk
    obtain ⟨hn, hk⟩ := hk
    split at hk
    · next s hs =>
      have hk := congrArg (fun l => (l.map fun x => x.2.2.2.2).sum) (of_decide_eq_true hk)
      rw [List.map_map] at hk
      have hr := run_sound hn hs
      exact ⟨a, s, ha, hr, (C69_segments ha hr).trans hk⟩
    · cases hk
  · cases hk

end FilesRun
