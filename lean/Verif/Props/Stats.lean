import Verif.Lemmas.Stats
import Verif.Model.ToyInst
/-!
# C48: the statistics of the post-processing, and the reports it reads

The numerical statements are over the reals; the statements on the layout of the files and tables hold for every
number type.
-/
open Flt

/-! ### Variance, covariance, correlation -/

/-- **C48, mean and variance** are the mean of the values and the mean of the squared deviations; the variance is
not negative, and it is zero exactly when all the values are equal to the mean. -/
theorem C48_variance (xs : List ℝ) (hne : xs ≠ []) :
    (TalliedVariable.new xs).mean = xs.sum / xs.length ∧
    (TalliedVariable.new xs).variance = (xs.map fun x => (x - xs.sum / xs.length) ^ 2).sum / xs.length ∧
    0 ≤ (TalliedVariable.new xs).variance ∧
    ((TalliedVariable.new xs).variance = 0 ↔ ∀ x ∈ xs, x = xs.sum / xs.length) := by
  refine ⟨new_mean xs, ?_, ?_, ?_⟩
  · rw [new_variance, coMoment_self]; rfl
  · rw [new_variance]; exact coMoment_self_nonneg xs
  · rw [new_variance, coMoment_self]
    have hlen : (xs.length : ℝ) ≠ 0 := by
      have := List.length_pos_iff.2 hne
      positivity
    rw [div_eq_zero_iff, or_iff_left hlen]
    have hnn : ∀ y ∈ xs.map (fun x => (x - meanOf xs) ^ 2), 0 ≤ y := by
      intro y hy
      obtain ⟨x, _, rfl⟩ := List.mem_map.1 hy
      positivity
    rw [list_sum_eq_zero hnn]
    constructor
    · intro h x hx
      have := h _ (List.mem_map.2 ⟨x, hx, rfl⟩)
      have := pow_eq_zero_iff (two_ne_zero) |>.1 this
      unfold meanOf at this
      linarith
    · intro h y hy
      obtain ⟨x, hx, rfl⟩ := List.mem_map.1 hy
      unfold meanOf
      rw [← h x hx]; simp

/-- **C48, covariance.**  For two lists of the same length it is the mean of the products of the deviations, it is
symmetric, and it is the variance on equal arguments; for different lengths it panics. -/
theorem C48_covariance (xs ys : List ℝ) :
    (xs.length = ys.length →
      covariance (TalliedVariable.new xs) (TalliedVariable.new ys) = .ok
        (((xs.zip ys).map fun p => (p.1 - xs.sum / xs.length) * (p.2 - ys.sum / ys.length)).sum / xs.length)) ∧
    (xs.length = ys.length →
      covariance (TalliedVariable.new xs) (TalliedVariable.new ys) =
        covariance (TalliedVariable.new ys) (TalliedVariable.new xs)) ∧
    covariance (TalliedVariable.new xs) (TalliedVariable.new xs) = .ok (TalliedVariable.new xs).variance ∧
    (xs.length ≠ ys.length →
      covariance (TalliedVariable.new xs) (TalliedVariable.new ys) = .error .assertFailed) := by
  refine ⟨fun h => ?_, fun h => ?_, ?_, fun h => ?_⟩
  · rw [covariance_new, if_pos h]; rfl
  · rw [covariance_new, covariance_new, if_pos h, if_pos h.symm, coMoment_symm _ _ h]
  · rw [covariance_new, if_pos rfl, new_variance]
  · rw [covariance_new, if_neg h]

/-- **C48, correlation.**  It lies between -1 and 1. -/
theorem C48_correlation_range (xs ys : List ℝ) (h : xs.length = ys.length) :
    ∃ r, correlation (TalliedVariable.new xs) (TalliedVariable.new ys) = .ok r ∧ -1 ≤ r ∧ r ≤ 1 := by
  unfold correlation
  simp only [FltReal.beq_eq, FltReal.zero_eq, new_variance, Bool.or_eq_true, decide_eq_true_eq]
  by_cases hz : coMoment xs xs = 0 ∨ coMoment ys ys = 0
  · rw [if_pos hz]; exact ⟨0, rfl, by norm_num, by norm_num⟩
  · rw [if_neg hz, covariance_new, if_pos h]
    refine ⟨_, rfl, ?_⟩
    push Not at hz
    have h1 := lt_of_le_of_ne (coMoment_self_nonneg xs) (Ne.symm hz.1)
    have h2 := lt_of_le_of_ne (coMoment_self_nonneg ys) (Ne.symm hz.2)
    have hp : 0 < Real.sqrt (coMoment xs xs * coMoment ys ys) := Real.sqrt_pos.2 (mul_pos h1 h2)
    simp only [FltReal.div_eq, FltReal.sqrt_eq, FltReal.mul_eq]
    have habs : |coMoment xs ys| ≤ Real.sqrt (coMoment xs xs * coMoment ys ys) :=
      Real.abs_le_sqrt (coMoment_sq_le xs ys h)
    rw [← abs_le, abs_div, abs_of_pos hp]
    exact (div_le_one hp).2 habs

/-- **C48, correlation, special cases.**  It is 0 when a variance is 0, 1 for a variable with itself otherwise, and
symmetric. -/
theorem C48_correlation_cases (xs ys : List ℝ) :
    ((TalliedVariable.new xs).variance = 0 ∨ (TalliedVariable.new ys).variance = 0 →
      correlation (TalliedVariable.new xs) (TalliedVariable.new ys) = .ok 0) ∧
    ((TalliedVariable.new xs).variance ≠ 0 →
      correlation (TalliedVariable.new xs) (TalliedVariable.new xs) = .ok 1) ∧
    (xs.length = ys.length → correlation (TalliedVariable.new xs) (TalliedVariable.new ys) =
      correlation (TalliedVariable.new ys) (TalliedVariable.new xs)) := by
  unfold correlation
  simp only [FltReal.beq_eq, FltReal.zero_eq, new_variance, Bool.or_eq_true, decide_eq_true_eq]
  refine ⟨fun hz => if_pos hz, fun hz => ?_, fun h => ?_⟩
  · rw [if_neg (by simpa using hz), covariance_new, if_pos rfl]
    have h1 := lt_of_le_of_ne (coMoment_self_nonneg xs) (Ne.symm hz)
    simp only [FltReal.div_eq, FltReal.sqrt_eq, FltReal.mul_eq]
    rw [Real.sqrt_mul_self h1.le]
    simp only [bind, Except.bind, pure, Except.pure]
    rw [div_self hz]
  · by_cases hz : coMoment xs xs = 0 ∨ coMoment ys ys = 0
    · rw [if_pos hz, if_pos hz.symm]
    · rw [if_neg hz, if_neg (fun e => hz e.symm), covariance_new, covariance_new, if_pos h, if_pos h.symm,
        coMoment_symm _ _ h]
      simp only [FltReal.mul_eq, mul_comm]

example : (TalliedVariable.new ([1, 2, 3] : List ℝ)).variance ≠ 0 := by
  rw [Ne, (C48_variance [1, 2, 3] (by simp)).2.2.2]
  norm_num

/-! ### The table of correlations -/

variable {T : Type} [Flt T]

/-- **C48, the table.**  Entry `11 * r + c` of the flattened table is the correlation of the quantity of row `r`
with the quantity of column `c`; the table has 44 entries. -/
theorem C48_table {report : List (TalliedVariable T)} {data : List T} (h : correlationResults report = .ok data) :
    data.length = 44 ∧ ∀ r c x y, correlationRows[r]? = some x → correlationCols[c]? = some y →
      ∃ vx vy v, report[x.index]? = some vx ∧ report[y.index]? = some vy ∧ correlation vx vy = .ok v ∧
        data[11 * r + c]? = some v := by
  unfold correlationResults at h
  obtain ⟨table, ht, h2⟩ := bind_ok.1 h
  have := pure_ok.1 h2
  subst this
  have hlen := mapM_ok_length ht
  have hrow : ∀ row ∈ table, row.length = 11 := by
    intro row hrow
    obtain ⟨a, _, ha⟩ := mapM_ok_mem ht hrow
    exact mapM_ok_length ha
  have hflat : ∀ (t : List (List T)), (∀ row ∈ t, row.length = 11) → t.flatten.length = 11 * t.length ∧
      ∀ r c row, t[r]? = some row → c < 11 → t.flatten[11 * r + c]? = row[c]? := by
    intro t
    induction t with
    | nil => intro _; exact ⟨rfl, by intro r c row hr; simp at hr⟩
    | cons a t ih =>
      intro hall
      have ha := hall a (by simp)
      have ih := ih (fun r hr => hall r (by simp [hr]))
      refine ⟨by simp [ha, ih.1]; omega, ?_⟩
      intro r c row hr hc
      rw [List.flatten_cons]
      cases r with
      | zero =>
        simp only [List.getElem?_cons_zero, Option.some.injEq] at hr
        subst hr
        rw [List.getElem?_append_left (by omega)]; simp
      | succ r =>
        simp only [List.getElem?_cons_succ] at hr
        rw [List.getElem?_append_right (by omega), ha]
        have : 11 * (r + 1) + c - 11 = 11 * r + c := by omega
        rw [this]
        exact ih.2 r c row hr hc
  have hf := hflat table hrow
  refine ⟨by rw [hf.1, hlen]; rfl, ?_⟩
  intro r c x y hx hy
  obtain ⟨row, hr, hrow'⟩ := mapM_ok_getElem ht r x hx
  obtain ⟨v, hv, hv'⟩ := mapM_ok_getElem hrow' c y hy
  obtain ⟨vx, h1, hv'⟩ := bind_ok.1 hv'
  obtain ⟨vy, h2', hv''⟩ := bind_ok.1 hv'
  have hc : c < 11 := by
    have := (List.getElem?_eq_some_iff.1 hy).1
    exact this
  exact ⟨vx, vy, v, idx_ok.1 h1, idx_ok.1 h2', hv'', by rw [hf.2 r c row hr hc]; exact hv⟩

/-- **C48, the saved table.**  `correlation.csv` has a line for each row, labelled with the name of its quantity,
and its columns are in the order of the names of the first line: the number of the line named `x` in the column
named `y` is the correlation of `x` and `y`. -/
theorem C48_saved {report : List (TalliedVariable T)} {data : List T} (h : correlationResults report = .ok data) :
    ∃ lines, saveCorrelation data = .ok lines ∧ lines.map Prod.fst = correlationRows.map TalliedData.display ∧
      correlationHeader = correlationCols.map TalliedData.display ∧
      ∀ x ∈ correlationRows, ∀ (c : Nat) (y : TalliedData), correlationCols[c]? = some y →
        ∃ line ∈ lines, line.1 = x.display ∧
          ∃ vx vy v, report[x.index]? = some vx ∧ report[y.index]? = some vy ∧ correlation vx vy = .ok v ∧
            line.2[c]? = some v := by
  obtain ⟨hl, ht⟩ := C48_table h
  obtain ⟨label, hlab⟩ : ∃ label : Nat → String, ∀ i, i < 4 → correlationLabel i = .ok (label i) := by
    refine ⟨fun i => match correlationLabel i with | .ok l => l | .error _ => "", ?_⟩
    intro i hi
    match i, hi with
    | 0, _ => rfl
    | 1, _ => rfl
    | 2, _ => rfl
    | 3, _ => rfl
  have hrowOk : ∀ i, i < 4 → ∃ vs : List T, ((List.range 11).mapM fun c => idx data (c + 11 * i)) = .ok vs ∧
      ∀ c, c < 11 → vs[c]? = data[11 * i + c]? := by
    intro i hi
    have := mapM_ok_exists (f := fun c => idx data (c + 11 * i)) (l := List.range 11) (by
      intro c hc
      rw [List.mem_range] at hc
      have : c + 11 * i < data.length := by omega
      exact ⟨data[c + 11 * i], idx_ok.2 (List.getElem?_eq_getElem this)⟩)
    obtain ⟨vs, hvs⟩ := this
    refine ⟨vs, hvs, ?_⟩
    intro c hc
    obtain ⟨b, hb, hb'⟩ := mapM_ok_getElem hvs c c (by simp [hc])
    rw [hb, ← idx_ok.1 hb', Nat.add_comm]
  have hall : ∃ lines, saveCorrelation data = .ok lines := by
    unfold saveCorrelation
    apply mapM_ok_exists
    intro i hi
    rw [List.mem_range] at hi
    obtain ⟨vs, hvs, _⟩ := hrowOk i hi
    exact ⟨_, by rw [hlab i hi, hvs]; rfl⟩
  obtain ⟨lines, hlines⟩ := hall
  refine ⟨lines, hlines, ?_, by decide, ?_⟩
  · unfold saveCorrelation at hlines
    have hlen := mapM_ok_length hlines
    have hget : ∀ i, i < 4 → ∃ b, lines[i]? = some b ∧ correlationLabel i = .ok b.1 := by
      intro i hi
      obtain ⟨b, hb, hb'⟩ := mapM_ok_getElem hlines i i (by simp [hi])
      obtain ⟨l, h1, hb'⟩ := bind_ok.1 hb'
      obtain ⟨vs, h2, hb''⟩ := bind_ok.1 hb'
      have := pure_ok.1 hb''
      subst this
      exact ⟨_, hb, h1⟩
    match lines, hlen, hget with
    | [a, b, c, d], _, hget =>
      obtain ⟨a', ha, ha'⟩ := hget 0 (by omega)
      obtain ⟨b', hb, hb'⟩ := hget 1 (by omega)
      obtain ⟨c', hc, hc'⟩ := hget 2 (by omega)
      obtain ⟨d', hd, hd'⟩ := hget 3 (by omega)
      simp only [List.getElem?_cons_zero, List.getElem?_cons_succ, Option.some.injEq] at ha hb hc hd
      subst ha hb hc hd
      simp only [correlationLabel, Except.ok.injEq] at ha' hb' hc' hd'
      simp [← ha', ← hb', ← hc', ← hd', correlationRows, TalliedData.display]
  · intro x hx c y hy
    obtain ⟨r, hr⟩ := List.getElem?_of_mem hx
    obtain ⟨vx, vy, v, h1, h2, h3, h4⟩ := ht r c x y hr hy
    have hr4 : r < 4 := (List.getElem?_eq_some_iff.1 hr).1
    have hc : c < 11 := (List.getElem?_eq_some_iff.1 hy).1
    unfold saveCorrelation at hlines
    obtain ⟨b, hb, hb'⟩ := mapM_ok_getElem hlines r r (by simp [hr4])
    obtain ⟨l, e1, hb'⟩ := bind_ok.1 hb'
    obtain ⟨vs, e2, hb''⟩ := bind_ok.1 hb'
    have := pure_ok.1 hb''
    subst this
    refine ⟨_, List.mem_of_getElem? hb, ?_, vx, vy, v, h1, h2, h3, ?_⟩
    · match r, hr4 with
      | 0, _ => simp [correlationRows, correlationLabel] at hr e1; subst hr; exact e1.symm
      | 1, _ => simp [correlationRows, correlationLabel] at hr e1; subst hr; exact e1.symm
      | 2, _ => simp [correlationRows, correlationLabel] at hr e1; subst hr; exact e1.symm
      | 3, _ => simp [correlationRows, correlationLabel] at hr e1; subst hr; exact e1.symm
    · obtain ⟨vs', e3, e4⟩ := hrowOk r hr4
      rw [e2] at e3
      cases e3
      rw [← h4]; exact e4 c hc

/-! ### Reading back the reports -/

theorem fields_sound {fmt : TextFormat T} (hf : fmt.Sound) (l : TallyLine T) :
    (l.fields fmt).length = 17 ∧ (∀ f ∈ l.fields fmt, ';' ∉ f) ∧
      ∀ d : TalliedData, ∃ f, (l.fields fmt)[d.index]? = some f ∧ fmt.parse f = some (l.quantity d) := by
  refine ⟨rfl, ?_, ?_⟩
  · intro f hfm
    simp only [TallyLine.fields, List.mem_cons, List.not_mem_nil, or_false] at hfm
    rcases hfm with rfl | rfl | rfl | rfl | rfl | rfl | rfl | rfl | rfl | rfl | rfl | rfl | rfl | rfl | rfl | rfl | rfl <;>
      first | exact hf.nat_sep _ | exact hf.num_sep _
  · intro d
    cases d <;> refine ⟨_, rfl, ?_⟩ <;> first | exact hf.nat _ | exact hf.num _

theorem tallied_of_index {i : Nat} (h : i < 17) : ∃ d : TalliedData, d.index = i := by
  have : ∀ i : Fin 17, ∃ d : TalliedData, d.index = i := by
    intro i
    fin_cases i
    exacts [⟨.cycle, rfl⟩, ⟨.start, rfl⟩, ⟨.source, rfl⟩, ⟨.rr, rfl⟩, ⟨.split, rfl⟩, ⟨.absorb, rfl⟩,
      ⟨.scatter, rfl⟩, ⟨.fission, rfl⟩, ⟨.produce, rfl⟩, ⟨.collision, rfl⟩, ⟨.escape, rfl⟩, ⟨.census, rfl⟩,
      ⟨.numSeg, rfl⟩, ⟨.scalarFlux, rfl⟩, ⟨.populationControl, rfl⟩, ⟨.cycleTracking, rfl⟩, ⟨.cycleSync, rfl⟩]
  exact this ⟨i, h⟩

theorem header_sound : ∀ f ∈ tallyHeader, ';' ∉ f := by decide

/-- **C48, the report of the tallies is read back in the order in which it is written**: whatever the cycles, the
variable of each quantity holds the values of this quantity, cycle after cycle. -/
theorem C48_tallies_read_back {fmt : TextFormat T} (hf : fmt.Sound) (ls : List (TallyLine T)) :
    ∃ report, readTallies fmt (tallyFile fmt ls) = .ok report ∧ report.length = 17 ∧
      ∀ d : TalliedData, tallyIndex report d = .ok (TalliedVariable.new (ls.map (·.quantity d))) := by
  have h1 : csvRecords ';' (tallyFile fmt ls) = .ok (ls.map (·.fields fmt)) := by
    have := csvRecords_join (sep := ';') (header := tallyHeader) (rows := ls.map (·.fields fmt))
      (by decide) header_sound (by
        intro r hr
        obtain ⟨l, _, rfl⟩ := List.mem_map.1 hr
        exact ⟨(fields_sound hf l).1, (fields_sound hf l).2.1⟩)
    rw [List.map_map] at this
    exact this
  have hparse : ∀ l : TallyLine T, ∃ vs, parseRecord fmt (l.fields fmt) = .ok vs ∧
      ∀ d : TalliedData, vs[d.index]? = some (l.quantity d) := by
    intro l
    have hex : ∃ vs, parseRecord fmt (l.fields fmt) = .ok vs := by
      unfold parseRecord
      apply mapM_ok_exists
      intro i hi
      obtain ⟨d, rfl⟩ := tallied_of_index (List.mem_range.1 hi)
      obtain ⟨f, e1, e2⟩ := (fields_sound hf l).2.2 d
      exact ⟨l.quantity d, by rw [e1]; simp only [unwrap, bind, Except.bind]; rw [e2]⟩
    obtain ⟨vs, hvs⟩ := hex
    refine ⟨vs, hvs, ?_⟩
    intro d
    have hd : d.index < 17 := by cases d <;> decide
    unfold parseRecord at hvs
    obtain ⟨b, hb, hb'⟩ := mapM_ok_getElem hvs d.index d.index (by simp [hd])
    obtain ⟨f, e1, e2⟩ := (fields_sound hf l).2.2 d
    rw [e1] at hb'
    simp only [unwrap, bind, Except.bind] at hb'
    rw [e2] at hb'
    simp only [Except.ok.injEq] at hb'
    rw [hb, hb']
  choose val hval hvalq using hparse
  have h2 : (ls.map (·.fields fmt)).mapM (parseRecord fmt) = .ok (ls.map val) := by
    rw [List.mapM_map]
    exact mapM_ok_of_forall fun l _ => hval l
  have h3 : ∀ i, i < 17 → ∀ d : TalliedData, d.index = i →
      ((ls.map val).mapM fun r => idx r i) = .ok (ls.map (·.quantity d)) := by
    intro i _ d hd
    rw [List.mapM_map]
    apply mapM_ok_of_forall
    intro l _
    exact idx_ok.2 (by rw [← hd]; exact hvalq l d)
  obtain ⟨cols, hcols⟩ : ∃ cols, columnsOf (ls.map val) = .ok cols := by
    unfold columnsOf
    apply mapM_ok_exists
    intro i hi
    obtain ⟨d, hd⟩ := tallied_of_index (List.mem_range.1 hi)
    exact ⟨_, h3 i (List.mem_range.1 hi) d hd⟩
  refine ⟨cols.map TalliedVariable.new, ?_, ?_, ?_⟩
  · unfold readTallies
    rw [h1]; simp only [bind, Except.bind]
    rw [h2]; simp only
    rw [hcols]; rfl
  · rw [List.length_map]
    unfold columnsOf at hcols
    rw [mapM_ok_length hcols]; simp
  · intro d
    have hd : d.index < 17 := by cases d <;> decide
    unfold columnsOf at hcols
    obtain ⟨b, hb, hb'⟩ := mapM_ok_getElem hcols d.index d.index (by simp [hd])
    rw [h3 d.index hd d rfl] at hb'
    cases hb'
    exact idx_ok.2 (by simp [hb])

theorem timer_fields_sound {fmt : TextFormat T} (hf : fmt.Sound) (eff : Section → T) (t : Timers) (s : Section) :
    (timerFields fmt eff t s).length = timerHeader.length ∧ ∀ f ∈ timerFields fmt eff t s, ';' ∉ f := by
  refine ⟨rfl, ?_⟩
  intro f hfm
  simp only [timerFields, List.mem_cons, List.not_mem_nil, or_false] at hfm
  rcases hfm with rfl | rfl | rfl | rfl | rfl | rfl | rfl
  · cases s <;> decide
  · exact hf.nat_sep _
  · exact hf.natE_sep _
  · exact hf.natE_sep _
  · exact hf.natE_sep _
  · exact hf.natE_sep _
  · exact hf.tenth_sep _

/-- **C48, the report of the timers is read back in the order in which it is written**: the entry of each section
holds its shortest, average, longest and total time in microseconds. -/
theorem C48_timers_read_back {fmt : TextFormat T} (hf : fmt.Sound) (eff : Section → T) (t : Timers) :
    ∃ report, readTimers fmt (timerFile fmt eff t) = .ok report ∧ report.length = 6 ∧
      ∀ s, timerIndex report s = .ok
        { lowest := Flt.ofNat ((t.sec s).min / 1000), mean := Flt.ofNat ((t.sec s).avg / 1000),
          highest := Flt.ofNat ((t.sec s).max / 1000), total := Flt.ofNat ((t.sec s).tot / 1000) } := by
  have h1 : csvRecords ';' (timerFile fmt eff t) = .ok (sectionOrder.map (timerFields fmt eff t)) := by
    have := csvRecords_join (sep := ';') (header := timerHeader) (rows := sectionOrder.map (timerFields fmt eff t))
      (by decide) (by decide) (by
        intro r hr
        obtain ⟨s, _, rfl⟩ := List.mem_map.1 hr
        exact timer_fields_sound hf eff t s)
    rw [List.map_map] at this
    exact this
  let val : Section → SummarizedVariable T := fun s =>
    { lowest := Flt.ofNat ((t.sec s).min / 1000), mean := Flt.ofNat ((t.sec s).avg / 1000),
      highest := Flt.ofNat ((t.sec s).max / 1000), total := Flt.ofNat ((t.sec s).tot / 1000) }
  have h2 : ∀ s, parseTimer fmt (timerFields fmt eff t s) = .ok (val s) := by
    intro s
    simp [parseTimer, timerFields, SectionTimer.row, hf.natE, unwrap, bind, Except.bind, pure, Except.pure, val]
  refine ⟨sectionOrder.map val, ?_, rfl, ?_⟩
  · unfold readTimers
    rw [h1]
    simp [sectionOrder, fillTimers, h2, idx, bind, Except.bind, List.replicate]
  · intro s
    cases s <;> rfl

omit [Flt T] in
theorem fillTimers_spec {fmt : TextFormat T} {rs : List (List (List Char))} {i : Nat} {res res' : List (SummarizedVariable T)}
    (h : fillTimers fmt i rs res = .ok res') :
    (rs ≠ [] → i + rs.length ≤ res.length) ∧ res'.length = res.length ∧
      (∀ j, j < i ∨ i + rs.length ≤ j → res'[j]? = res[j]?) ∧
      ∀ j r, rs[j]? = some r → ∃ v, parseTimer fmt r = .ok v ∧ res'[i + j]? = some v := by
  induction rs generalizing i res with
  | nil =>
    cases h
    exact ⟨by simp, rfl, fun _ _ => rfl, by simp⟩
  | cons r rs ih =>
    simp only [fillTimers, bind_ok] at h
    obtain ⟨x, hx, v, hv, h⟩ := h
    have hi : i < res.length := (List.getElem?_eq_some_iff.1 (idx_ok.1 hx)).1
    obtain ⟨h1, h2, h3, h4⟩ := ih h
    rw [List.length_set] at h1 h2
    refine ⟨fun _ => ?_, h2, fun j hj => ?_, fun j r' hr => ?_⟩
    · cases rs with
      | nil => simpa using hi
      | cons _ _ => have := h1 (by simp); simp only [List.length_cons] at this ⊢; omega
    · rw [h3 j (by simp only [List.length_cons] at hj; omega), List.getElem?_set_ne]
      simp only [List.length_cons] at hj
      omega
    · cases j with
      | zero =>
        cases hr
        exact ⟨v, hv, by rw [Nat.add_zero, h3 i (by omega), List.getElem?_set_self hi]⟩
      | succ j =>
        obtain ⟨v', e1, e2⟩ := h4 j r' (by simpa using hr)
        exact ⟨v', e1, by rw [← e2]; congr 1; omega⟩

/-- **C48, any report of timers**: it has at most six records, the entries are filled in their order, and the ones that
have no record are zero. -/
theorem C48_timers_any {fmt : TextFormat T} {file : List (List Char)} {report : List (SummarizedVariable T)}
    (h : readTimers fmt file = .ok report) :
    ∃ records, csvRecords ';' file = .ok records ∧ records.length ≤ 6 ∧ report.length = 6 ∧
      (∀ (i : Nat) r, records[i]? = some r → ∃ v, parseTimer fmt r = .ok v ∧ report[i]? = some v) ∧
      ∀ i, records.length ≤ i → i < 6 → report[i]? = some ⟨zero, zero, zero, zero⟩ := by
  unfold readTimers at h
  obtain ⟨records, h1, h⟩ := bind_ok.1 h
  obtain ⟨e1, e2, e3, e4⟩ := fillTimers_spec h
  rw [List.length_replicate] at e1 e2
  refine ⟨records, h1, ?_, e2, fun i r hr => ?_, fun i hi h6 => ?_⟩
  · cases records with
    | nil => simp
    | cons r rs => have := e1 (by simp); omega
  · have := e4 i r hr
    rwa [Nat.zero_add] at this
  · rw [e3 i (.inr (by omega)), List.getElem?_replicate, if_pos h6]

/-! ### A format that meets the contract -/

/-- Unary notation with a sign. -/
def showToy (x : Int) : List Char := (if x < 0 then ['-'] else []) ++ List.replicate x.natAbs '1'

def parseToy : List Char → Int
  | '-' :: l => -(l.length : Int)
  | l => (l.length : Int)

/-- The notation for the fixed-point numbers of `Toy`. -/
def toyFormat : TextFormat Toy where
  showNat n := showToy (Flt.ofNat (T := Toy) n)
  showNatE n := showToy (Flt.ofNat (T := Toy) n)
  showNum := showToy
  showTenth _ := []
  parse l := some (parseToy l)

theorem parse_showToy (x : Int) : parseToy (showToy x) = x := by
  unfold showToy
  by_cases hx : x < 0
  · simp only [hx, if_true, List.cons_append, List.nil_append, parseToy, List.length_replicate]; omega
  · simp only [hx, if_false, List.nil_append]
    cases hn : x.natAbs with
    | zero => simp [parseToy]; omega
    | succ n =>
      rw [List.replicate_succ]
      simp [parseToy]; omega

theorem toyFormat_parse (x : Int) : toyFormat.parse (showToy x) = some x := congrArg some (parse_showToy x)

theorem toyFormat_sep (x : Int) : ';' ∉ showToy x := by
  unfold showToy
  intro h
  rcases List.mem_append.1 h with h | h
  · split at h <;> simp at h
  · have := List.eq_of_mem_replicate h
    revert this; decide

/-- The hypotheses on the format can be met. -/
theorem toyFormat_sound : toyFormat.Sound where
  nat_sep _ := toyFormat_sep _
  natE_sep _ := toyFormat_sep _
  num_sep _ := toyFormat_sep _
  tenth_sep _ := by simp [toyFormat]
  nat _ := toyFormat_parse _
  natE _ := toyFormat_parse _
  num _ := toyFormat_parse _

/-- Two cycles, read back: the number of census events and the synchronisation times. -/
example : ∃ report, readTallies toyFormat (tallyFile toyFormat
      [⟨0, { start := 5, census := 3 }, 7, 1, 2, 3⟩, ⟨1, { start := 3, census := 1 }, 4, 5, 6, -7⟩]) = .ok report ∧
    tallyIndex report .census = .ok (TalliedVariable.new [Flt.ofNat 3, Flt.ofNat 1]) ∧
    tallyIndex report .cycleSync = .ok (TalliedVariable.new [3, -7]) := by
  obtain ⟨r, h1, _, h2⟩ := C48_tallies_read_back toyFormat_sound
    [⟨0, { start := 5, census := 3 }, 7, 1, 2, 3⟩, ⟨1, { start := 3, census := 1 }, 4, 5, 6, -7⟩]
  exact ⟨r, h1, h2 .census, h2 .cycleSync⟩

/-- A report with one record only. -/
example : ∃ report : List (SummarizedVariable Toy), readTimers toyFormat
      [List.replicate 6 ';', [';', ';', '1', ';', '1', '1', ';', '1', '1', '1', ';', '-', '1', ';']] = .ok report ∧
    report[0]? = some { lowest := (1 : Int), mean := (2 : Int), highest := (3 : Int), total := (-1 : Int) } ∧
    report[1]? = some ⟨zero, zero, zero, zero⟩ :=
  ⟨_, rfl, rfl, rfl⟩
