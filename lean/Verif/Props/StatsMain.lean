import Verif.Props.Studies
import Verif.Spec.StatsMain
import Verif.Lemmas.Fails
/-!
# C88: the program that analyses the reports

For every type of numbers.
-/
open Flt

set_option linter.unusedSectionVars false

section
variable {T : Type} [Flt T]

theorem mapM_map_ok {ε α β γ : Type} {f : β → Except ε γ} {h : α → β} {m : α → γ} {l : List α}
    (H : ∀ a ∈ l, f (h a) = .ok (m a)) : (l.map h).mapM f = .ok (l.map m) := by
  induction l with
  | nil => rfl
  | cons a l ih =>
    rw [List.map_cons, List.mapM_cons, H a (by simp), ih fun b hb => H b (by simp [hb])]
    rfl

theorem idx_map_range {α : Type} {k i : Nat} (m : Nat → α) (h : i < k) : idx ((List.range k).map m) i = .ok (m i) :=
  idx_ok.2 (by simp [h])

@[simp] theorem Acts.compute_bind {α β : Type} (x : Except Panic α) (f : α → Acts T β) :
    (Acts.compute x >>= f) = match x with
      | .ok a => f a
      | .error e => ([], .error e) := by
  cases x <;> rfl

theorem Acts.compute_ok {α β : Type} (a : α) (f : α → Acts T β) : (Acts.compute (.ok a) >>= f) = f a := rfl

@[simp] theorem Acts.emit_bind {β : Type} (e : Effect T) (f : Unit → Acts T β) :
    (Acts.emit e >>= f) = (e :: (f ()).1, (f ()).2) := rfl

theorem Acts.bind_eq {α β : Type} (x : Acts T α) (f : α → Acts T β) : (x >>= f) = Acts.bind x f := rfl

/-- The tables of a study from the reports of its runs. -/
theorem study_rows {fmt : TextFormat T} (hf : fmt.Sound) {files : Files} {root : List Char} {init iter factor : Nat}
    {t : Nat → Timers} (hs : StudyFiles fmt files root init iter factor t) :
    ∃ r : ScalingResults T,
      scalingResults fmt files root ⟨some init, some iter, some factor⟩ = .ok r ∧
      r.threads = (List.range iter).map (fun i => init * factor ^ i) ∧
      othersRows r.threads r.reports = .ok ((List.range iter).map (othersLine init factor t)) ∧
      (0 < iter → ∀ ty, trackingRows ty r.threads r.reports =
        .ok ((List.range iter).map (trackingLine ty init factor t))) := by
  have hthr : scalingThreads init iter factor = .ok ((List.range iter).map fun i => init * factor ^ i) := by
    obtain ⟨l, hl⟩ := C52_threads_ok hs.threads hs.small
    rw [hl, C52_threads hl]
  let g : Nat → List (SummarizedVariable T) := fun n =>
    match openTimers fmt files (reportName fmt root n) with
    | .ok r => r
    | .error _ => []
  have hg : ∀ i < iter, openTimers fmt files (reportName fmt root (init * factor ^ i)) =
      .ok (g (init * factor ^ i)) ∧ ∀ s, ∃ v, timerIndex (g (init * factor ^ i)) s = .ok v ∧
        v.mean = averageMicros (t i) s := by
    intro i hi
    obtain ⟨eff, he⟩ := hs.reports i hi
    obtain ⟨r, h1, _, h3⟩ := C48_timers_read_back hf eff (t i)
    have ho : openTimers fmt files (reportName fmt root (init * factor ^ i)) = .ok r := by
      unfold openTimers reportName
      rw [he]
      exact h1
    have hgr : g (init * factor ^ i) = r := by simp only [g, ho]
    rw [hgr]
    exact ⟨ho, fun s => ⟨_, h3 s, rfl⟩⟩
  have hcol : ∀ s, (((List.range iter).map fun i => g (init * factor ^ i)).mapM fun r => do
      let x ← timerIndex r s
      pure x.mean) = .ok ((List.range iter).map fun i => (averageMicros (t i) s : T)) := by
    intro s
    apply mapM_map_ok
    intro i hi
    obtain ⟨v, hv, hm⟩ := (hg i (List.mem_range.1 hi)).2 s
    rw [hv, ← hm]
    rfl
  refine ⟨⟨(List.range iter).map fun i => init * factor ^ i, (List.range iter).map fun i => g (init * factor ^ i)⟩,
    ?_, rfl, ?_, ?_⟩
  · have hr : (((List.range iter).map fun i => init * factor ^ i).mapM fun n =>
        openTimers fmt files (reportName fmt root n)) = .ok ((List.range iter).map fun i => g (init * factor ^ i)) :=
      mapM_map_ok fun i hi => (hg i (List.mem_range.1 hi)).1
    unfold scalingResults
    by_cases h0 : iter = 0
    · subst h0
      rfl
    · simp only [unwrap, bind, Except.bind, if_neg h0, hthr, hr]
      rfl
  · unfold othersRows
    simp only [hcol]
    simp only [bind, Except.bind, assertB, List.length_map, List.length_range, beq_self_eq_true, if_true]
    apply mapM_ok_of_forall
    intro i hi
    have hi' := List.mem_range.1 hi
    simp only [idx_map_range _ hi']
    rfl
  · intro h0 ty
    unfold trackingRows
    simp only [hcol]
    simp only [bind, Except.bind, assertB, List.length_map, List.length_range, beq_self_eq_true, if_true,
      idx_map_range _ h0]
    apply mapM_ok_of_forall
    intro i hi
    have hi' := List.mem_range.1 hi
    simp only [idx_map_range _ hi']
    cases ty <;> rfl

/-- **C88, the tables of a study.**  When every run of a study has left its report, the study without plots saves the
two tables with one line for each run, in the order of the runs, and ends normally. -/
theorem C88_study {fmt : TextFormat T} (hf : fmt.Sound) {files : Files} {root : List Char} {init iter factor : Nat}
    {t : Nat → Timers} (hs : StudyFiles fmt files root init iter factor t) (hi : 0 < iter) (ty : ScalingType) :
    scalingStudy fmt files ⟨some init, some iter, some factor⟩ false ty root =
      (studyTables ty init iter factor t, .ok ()) := by
  obtain ⟨r, h1, _, h3, h4⟩ := study_rows hf hs
  unfold scalingStudy
  rw [Acts.compute_bind, h1]
  simp only [Acts.emit_bind, Acts.compute_bind, h3, h4 hi ty]
  rfl

/-- **C88, the plots of a study** of at least two runs follow the tables. -/
theorem C88_plots {fmt : TextFormat T} (hf : fmt.Sound) {files : Files} {root : List Char} {init iter factor : Nat}
    {t : Nat → Timers} (hs : StudyFiles fmt files root init iter factor t) (hi : 2 ≤ iter) (ty : ScalingType) :
    scalingStudy fmt files ⟨some init, some iter, some factor⟩ true ty root =
      (studyTables ty init iter factor t ++
        [.plot (.tracking ty) 0, .plot (.tracking ty) 1, .plot (.tracking ty) 2], .ok ()) := by
  obtain ⟨r, h1, h2, h3, h4⟩ := study_rows hf hs
  unfold scalingStudy
  rw [Acts.compute_bind, h1]
  simp only [Acts.emit_bind, Acts.compute_bind, h3, h4 (by omega : 0 < iter) ty]
  simp only [scalingPlot, h2, idx_map_range _ (by omega : 1 < iter), idx_map_range _ (by omega : 0 < iter),
    Acts.compute_bind]
  rfl

/-- **C88 is violated by the plots of a single run**: both tables are saved, then the program panics before any
plot. -/
theorem C88_single_run_violated {fmt : TextFormat T} (hf : fmt.Sound) {files : Files} {root : List Char}
    {init factor : Nat} {t : Nat → Timers} (hs : StudyFiles fmt files root init 1 factor t) (ty : ScalingType) :
    scalingStudy fmt files ⟨some init, some 1, some factor⟩ true ty root =
      (studyTables ty init 1 factor t, .error .indexOutOfBounds) := by
  obtain ⟨r, h1, h2, h3, h4⟩ := study_rows hf hs
  unfold scalingStudy
  rw [Acts.compute_bind, h1]
  simp only [Acts.emit_bind, Acts.compute_bind, h3, h4 (by omega : 0 < 1) ty]
  simp only [scalingPlot, h2]
  rfl

/-- **C88, a study without runs** panics and leaves the first table empty but for its title. -/
theorem C88_no_run {fmt : TextFormat T} {files : Files} {root : List Char} {init factor : Option Nat} (plot : Bool)
    (ty : ScalingType) :
    scalingStudy fmt files ⟨init, some 0, factor⟩ plot ty root =
      ([.create (.tracking ty)], .error .indexOutOfBounds) := rfl

/-- **C88, a report that is missing or cannot be read** ends the study before any table is touched. -/
theorem C88_missing {fmt : TextFormat T} {files : Files} {root : List Char} {init iter factor i : Nat} (hi : i < iter)
    (h : files (root ++ fmt.showNat (init * factor ^ i) ++ ['.', 'c', 's', 'v']) = none ∨
      ∃ file e, files (root ++ fmt.showNat (init * factor ^ i) ++ ['.', 'c', 's', 'v']) = some file ∧
        readTimers fmt file = .error e) (plot : Bool) (ty : ScalingType) :
    ∃ e, scalingStudy fmt files ⟨some init, some iter, some factor⟩ plot ty root = ([], .error e) := by
  have hbad : ∃ e, openTimers fmt files (reportName fmt root (init * factor ^ i)) = .error e := by
    unfold openTimers reportName
    rcases h with h | ⟨file, e, h, he⟩
    · exact ⟨_, by rw [h]; rfl⟩
    · exact ⟨e, by rw [h]; exact he⟩
  have hfail : ∃ e, scalingResults fmt files root ⟨some init, some iter, some factor⟩ = .error e := by
    cases hr : scalingResults fmt files root ⟨some init, some iter, some factor⟩ with
    | error e => exact ⟨e, rfl⟩
    | ok r =>
      exfalso
      unfold scalingResults at hr
      rw [show unwrap (some iter) = .ok iter from rfl] at hr
      obtain ⟨_, h1, hr⟩ := bind_ok.1 hr
      cases h1
      dsimp only at hr
      rw [if_neg (by omega)] at hr
      obtain ⟨_, h1, hr⟩ := bind_ok.1 hr
      cases h1
      obtain ⟨_, h1, hr⟩ := bind_ok.1 hr
      cases h1
      obtain ⟨threads, h2', hr⟩ := bind_ok.1 hr
      obtain ⟨reports, h3, _⟩ := bind_ok.1 hr
      have hthr := C52_threads h2'
      obtain ⟨b, _, hb⟩ := mapM_ok_getElem h3 i (init * factor ^ i) (by rw [hthr]; simp [hi])
      obtain ⟨e, he⟩ := hbad
      rw [he] at hb
      cases hb
  obtain ⟨e, he⟩ := hfail
  exact ⟨e, by unfold scalingStudy; rw [Acts.compute_bind, he]⟩

theorem inTurn_cons (x : Acts T Unit) (l : List (Acts T Unit)) : inTurn (x :: l) = (x >>= fun _ => inTurn l) := by
  obtain ⟨a, b⟩ := x
  cases b <;> rfl

theorem inTurn_unit (x : Acts T Unit) : (x >>= fun _ => Acts.pure ()) = x := by
  obtain ⟨a, b⟩ := x
  cases b with
  | error e => rfl
  | ok u => exact congrArg (·, Except.ok u) (List.append_nil a)

/-- **C88, the studies are independent.**  A command line with several studies does what the command lines with one of
them each do, one after the other: comparison, correlations, weak scaling, strong scaling.  A study that panics hides
those after it. -/
theorem C88_studies (fmt : TextFormat T) (files : Files) (c : StatsCli) :
    statsMain fmt files c = inTurn ((List.range 4).map fun k => statsMain fmt files (c.only k)) := by
  have hp : ∀ x : Acts T Unit, (Acts.pure () >>= fun _ => x) = x := fun x => rfl
  have e0 : statsMain fmt files (c.only 0) = ifSome c.comparison (comparisonStudy fmt files c.plot) :=
    inTurn_unit _
  have e1 : statsMain fmt files (c.only 1) = ifSome c.correlation (correlationStudy fmt files c.plot) :=
    inTurn_unit _
  have e2 : statsMain fmt files (c.only 2) = ifSome c.weakRoot (scalingStudy fmt files c.params c.plot .weak) :=
    inTurn_unit _
  have e3 : statsMain fmt files (c.only 3) = ifSome c.strongRoot (fun root =>
      Acts.compute (unwrap c.params.tFactor) >>= fun factor =>
        scalingStudy fmt files c.params c.plot (.strong factor) root) := rfl
  rw [show List.range 4 = [0, 1, 2, 3] from rfl]
  simp only [List.map_cons, List.map_nil, e0, e1, e2, e3]
  rw [inTurn_cons, inTurn_cons, inTurn_cons, inTurn_cons]
  rw [show (inTurn ([] : List (Acts T Unit))) = Acts.pure () from rfl, inTurn_unit]
  rfl

/-- **C88, the comparison of two runs.**  When both have left their report, the table has a line for each section, with
the times of the first run before those of the second; without one of the two reports nothing is written. -/
theorem C88_comparison {fmt : TextFormat T} (hf : fmt.Sound) {files : Files} {a b : List Char} {old new : Timers}
    {eo en : Section → T} (ha : files a = some (timerFile fmt eo old)) (hb : files b = some (timerFile fmt en new))
    (plot : Bool) :
    comparisonStudy fmt files plot (a, b) =
      ([.create .comparison, .lines .comparison (.comparison (sectionOrder.map (comparisonLine old new)))] ++
        (if plot then [.plot .comparison 0] else []), .ok ()) := by
  obtain ⟨ro, h1, _, h2⟩ := C48_timers_read_back hf eo old
  obtain ⟨rn, h3, _, h4⟩ := C48_timers_read_back hf en new
  have ho : openTimers fmt files a = .ok ro := by
    unfold openTimers
    rw [ha]
    exact h1
  have hn : openTimers fmt files b = .ok rn := by
    unfold openTimers
    rw [hb]
    exact h3
  have hr : comparisonRows ro rn = .ok (sectionOrder.map (comparisonLine old new)) := by
    unfold comparisonRows
    apply mapM_ok_of_forall
    intro s _
    simp only [percentChange, h2, h4, bind, Except.bind, pure, Except.pure]
    rfl
  unfold comparisonStudy
  simp only [Acts.compute_bind, ho, hn, hr, Acts.emit_bind]
  cases plot <;> rfl

/-- **C88, a comparison without one of its reports** writes nothing. -/
theorem C88_comparison_missing {fmt : TextFormat T} {files : Files} {a b : List Char}
    (h : files a = none ∨ files b = none) (plot : Bool) :
    ∃ e, comparisonStudy fmt files plot (a, b) = ([], .error e) := by
  unfold comparisonStudy
  rw [Acts.compute_bind]
  cases ho : openTimers fmt files a with
  | error e => exact ⟨e, rfl⟩
  | ok r =>
    have ha : files a ≠ none := by
      intro h0
      unfold openTimers at ho
      rw [h0] at ho
      cases ho
    have hb : files b = none := h.resolve_left ha
    refine ⟨.unwrapNone, ?_⟩
    simp only [Acts.compute_bind]
    unfold openTimers
    rw [hb]
    rfl

theorem correlation_total {x y : TalliedVariable T} (h : x.values.length = y.values.length) :
    ∃ v, correlation x y = .ok v := by
  unfold correlation covariance
  split
  · exact ⟨_, rfl⟩
  · simp only [assertB, h, beq_self_eq_true, if_true]
    exact ⟨_, rfl⟩

/-- **C88, the correlations of a run.**  From the report of the tallies of a run, the table has a line for each of the
four times and a column for each of the eleven counters; it holds their correlations over the cycles of the run. -/
theorem C88_correlation {fmt : TextFormat T} (hf : fmt.Sound) {files : Files} {name : List Char}
    {ls : List (TallyLine T)} (h : files name = some (tallyFile fmt ls)) (plot : Bool) :
    ∃ rows, correlationStudy fmt files plot name =
      ([.create .correlation, .lines .correlation (.correlation rows)] ++
        (if plot then [.plot .correlation 0] else []), .ok ()) ∧
      rows.map Prod.fst = ["CycleSync", "CycleTracking", "PopulationControl", "Cycle"] ∧
      ∀ x ∈ correlationRows, ∀ (c : Nat) (y : TalliedData), correlationCols[c]? = some y →
        ∃ row ∈ rows, row.1 = x.display ∧ ∃ v, row.2[c]? = some v ∧
          correlation (TalliedVariable.new (ls.map (·.quantity x))) (TalliedVariable.new (ls.map (·.quantity y))) =
            .ok v := by
  obtain ⟨report, h1, _, h2⟩ := C48_tallies_read_back hf ls
  obtain ⟨data, h3⟩ : ∃ data, correlationResults report = .ok data := by
    unfold correlationResults
    obtain ⟨table, ht⟩ := mapM_ok_exists (l := correlationRows) (f := fun r => correlationCols.mapM fun c => do
        let x ← tallyIndex report r
        let y ← tallyIndex report c
        correlation x y) (by
      intro r _
      apply mapM_ok_exists
      intro c _
      rw [h2, h2]
      exact correlation_total (by simp [new_values]))
    exact ⟨table.flatten, by rw [ht]; rfl⟩
  obtain ⟨rows, h4, h5, _, h6⟩ := C48_saved h3
  refine ⟨rows, ?_, h5, ?_⟩
  · unfold correlationStudy
    rw [h]
    rw [show unwrap (some (tallyFile fmt ls)) = .ok (tallyFile fmt ls) from rfl, Acts.compute_ok, h1, Acts.compute_ok, h3,
      Acts.compute_ok, Acts.emit_bind, h4, Acts.compute_ok, Acts.emit_bind]
    cases plot <;> rfl
  · intro x hx c y hy
    obtain ⟨row, hr, e1, vx, vy, v, e2, e3, e4, e5⟩ := h6 x hx c y hy
    have q1 := idx_ok.1 (h2 x)
    have q2 := idx_ok.1 (h2 y)
    rw [e2] at q1
    rw [e3] at q2
    cases q1
    cases q2
    exact ⟨row, hr, e1, v, e5, e4⟩

theorem inTurn_ok {x y : List (Effect T)} {z : Acts T Unit} {g : Unit → Acts T Unit} (hz : z = (x, .ok ()))
    (h : g () = (y, .ok ())) : (z >>= g) = (x ++ y, .ok ()) := by
  subst hz
  show (x ++ (g ()).1, (g ()).2) = (x ++ y, Except.ok ())
  rw [h]

/-- **C88, the whole program.**  With all the reports present, a command line that asks for all four studies writes
the table of the comparison, that of the correlations, those of the weak and those of the strong study, each followed
by its plots if they are asked for, and ends normally. -/
theorem C88_whole {fmt : TextFormat T} (hf : fmt.Sound) {files : Files} {a b name weak strong : List Char}
    {old new : Timers} {eo en : Section → T} {ls : List (TallyLine T)} {init iter factor : Nat} {tw ts : Nat → Timers}
    (ha : files a = some (timerFile fmt eo old)) (hb : files b = some (timerFile fmt en new))
    (hn : files name = some (tallyFile fmt ls)) (hw : StudyFiles fmt files weak init iter factor tw)
    (hs : StudyFiles fmt files strong init iter factor ts) (hi : 2 ≤ iter) (plot : Bool) :
    ∃ rows, statsMain fmt files ⟨some (a, b), some name, some weak, some strong, ⟨some init, some iter, some factor⟩,
        plot⟩ =
      (([.create .comparison, .lines .comparison (.comparison (sectionOrder.map (comparisonLine old new)))] ++
          plotsOf plot .comparison 1) ++
        (([.create .correlation, .lines .correlation (.correlation rows)] ++ plotsOf plot .correlation 1) ++
        ((studyTables .weak init iter factor tw ++ plotsOf plot (.tracking .weak) 3) ++
        (studyTables (.strong factor) init iter factor ts ++ plotsOf plot (.tracking (.strong factor)) 3))),
      .ok ()) := by
  have hstudy : ∀ {root t} (ty : ScalingType), StudyFiles fmt files root init iter factor t →
      scalingStudy fmt files ⟨some init, some iter, some factor⟩ plot ty root =
        (studyTables ty init iter factor t ++ plotsOf plot (.tracking ty) 3, .ok ()) := by
    intro root t ty h
    cases plot
    · rw [C88_study hf h (by omega) ty, plotsOf, if_neg (by decide), List.append_nil]
    · exact C88_plots hf h hi ty
  obtain ⟨rows, hr, _⟩ := C88_correlation hf hn plot
  have hp : ∀ f : OutFile, plotsOf (T := T) plot f 1 = if plot then [.plot f 0] else [] := fun _ => rfl
  refine ⟨rows, ?_⟩
  unfold statsMain
  simp only [ifSome]
  rw [hp, hp]
  exact inTurn_ok (C88_comparison hf ha hb plot) (inTurn_ok hr (inTurn_ok (hstudy .weak hw)
    (hstudy (.strong factor) hs)))

/-- Pieces of the program that create given tables, or the first of them. -/
def Acts.Creates {α : Type} (x : Acts T α) (fs : List OutFile) : Prop := (x.1.filterMap Effect.created) <+: fs ∧
  ((∃ a, x.2 = .ok a) → x.1.filterMap Effect.created = fs)

theorem Acts.Creates.bind {α β : Type} {x : Acts T α} {f : α → Acts T β} {l m : List OutFile} (hx : x.Creates l)
    (hf : ∀ a, (f a).Creates m) : (x >>= f).Creates (l ++ m) := by
  obtain ⟨e, r⟩ := x
  cases r with
  | error p =>
    refine ⟨hx.1.trans (List.prefix_append l m), ?_⟩
    rintro ⟨a, ha⟩
    cases ha
  | ok a =>
    have h1 : e.filterMap Effect.created = l := hx.2 ⟨a, rfl⟩
    show Acts.Creates (e ++ (f a).1, (f a).2) (l ++ m)
    refine ⟨?_, fun h => ?_⟩
    · show (e ++ (f a).1).filterMap Effect.created <+: l ++ m
      rw [List.filterMap_append, h1]
      exact (List.prefix_append_right_inj l).2 (hf a).1
    · show (e ++ (f a).1).filterMap Effect.created = l ++ m
      rw [List.filterMap_append, h1, (hf a).2 h]

theorem Acts.Creates.compute {α : Type} (x : Except Panic α) : (Acts.compute x : Acts T α).Creates [] :=
  ⟨List.nil_prefix, fun _ => rfl⟩

theorem Acts.Creates.create (f : OutFile) : (Acts.emit (.create f) : Acts T Unit).Creates [f] :=
  ⟨List.prefix_rfl, fun _ => rfl⟩

theorem Acts.Creates.lines (f : OutFile) (l : TableLines T) : (Acts.emit (.lines f l) : Acts T Unit).Creates [] :=
  ⟨List.nil_prefix, fun _ => rfl⟩

theorem Acts.Creates.plot (f : OutFile) (i : Nat) : (Acts.emit (.plot f i) : Acts T Unit).Creates [] :=
  ⟨List.nil_prefix, fun _ => rfl⟩

theorem Acts.Creates.pure {α : Type} (a : α) : (Acts.pure a : Acts T α).Creates [] :=
  ⟨List.nil_prefix, fun _ => rfl⟩

theorem scalingStudy_creates (fmt : TextFormat T) (files : Files) (p : ScalingParams) (plot : Bool) (ty : ScalingType)
    (root : List Char) : (scalingStudy fmt files p plot ty root).Creates [.tracking ty, .others ty] := by
  have hp : ∀ th i, (scalingPlot ty th i : Acts T Unit).Creates [] := fun th i =>
    (Acts.Creates.compute _).bind fun _ => (Acts.Creates.compute _).bind fun _ => Acts.Creates.plot _ _
  refine (Acts.Creates.compute _).bind fun r => (Acts.Creates.create _).bind fun _ => (Acts.Creates.compute _).bind
    fun rows => (Acts.Creates.lines _ _).bind fun _ => (Acts.Creates.create _).bind (m := []) fun _ =>
    (Acts.Creates.compute _).bind fun o => (Acts.Creates.lines _ _).bind fun _ => ?_
  split
  · exact (hp _ _).bind fun _ => (hp _ _).bind fun _ => hp _ _
  · exact Acts.Creates.pure _

theorem comparisonStudy_creates (fmt : TextFormat T) (files : Files) (plot : Bool) (names : List Char × List Char) :
    (comparisonStudy fmt files plot names).Creates [.comparison] := by
  refine (Acts.Creates.compute _).bind fun _ => (Acts.Creates.compute _).bind fun _ => (Acts.Creates.compute _).bind
    fun _ => (Acts.Creates.create _).bind (m := []) fun _ => (Acts.Creates.lines _ _).bind fun _ => ?_
  split
  · exact Acts.Creates.plot _ _
  · exact Acts.Creates.pure _

theorem correlationStudy_creates (fmt : TextFormat T) (files : Files) (plot : Bool) (name : List Char) :
    (correlationStudy fmt files plot name).Creates [.correlation] := by
  refine (Acts.Creates.compute _).bind fun _ => (Acts.Creates.compute _).bind fun _ => (Acts.Creates.compute _).bind
    fun _ => (Acts.Creates.create _).bind (m := []) fun _ => (Acts.Creates.compute _).bind fun _ =>
    (Acts.Creates.lines _ _).bind fun _ => ?_
  split
  · exact Acts.Creates.plot _ _
  · exact Acts.Creates.pure _

theorem ifSome_creates {α : Type} (o : Option α) (f : α → Acts T Unit) (l : List OutFile)
    (h : ∀ a, (f a).Creates l) : (ifSome o f).Creates (if o.isSome then l else []) := by
  cases o with
  | none => exact Acts.Creates.pure _
  | some a => exact h a

/-- **C88, the tables that are written.**  A command line that ends normally creates the tables of the studies it asks
for and no others, each once, under different names; one that panics creates the first few of them. -/
theorem C88_tables (fmt : TextFormat T) (files : Files) (c : StatsCli) :
    (statsMain fmt files c).1.filterMap Effect.created <+: askedTables c ∧
    ((statsMain fmt files c).2 = .ok () → (statsMain fmt files c).1.filterMap Effect.created = askedTables c) ∧
    ((askedTables c).map OutFile.name).Nodup := by
  have h : (statsMain fmt files c).Creates (askedTables c) := by
    have h3 : ∀ root, (Acts.compute (unwrap c.params.tFactor) >>= fun factor =>
        scalingStudy fmt files c.params c.plot (.strong factor) root : Acts T Unit).Creates
          [.tracking (.strong (c.params.tFactor.getD 0)), .others (.strong (c.params.tFactor.getD 0))] := by
      intro root
      cases hfac : c.params.tFactor with
      | none => exact ⟨List.nil_prefix, by rintro ⟨a, ha⟩; cases ha⟩
      | some f => exact scalingStudy_creates fmt files c.params c.plot (.strong f) root
    have := (ifSome_creates c.comparison _ _ (comparisonStudy_creates fmt files c.plot)).bind fun _ =>
      (ifSome_creates c.correlation _ _ (correlationStudy_creates fmt files c.plot)).bind fun _ =>
      (ifSome_creates c.weakRoot _ _ (scalingStudy_creates fmt files c.params c.plot .weak)).bind fun _ =>
      ifSome_creates c.strongRoot _ _ h3
    exact this
  refine ⟨h.1, fun hok => h.2 ⟨(), hok⟩, ?_⟩
  unfold askedTables
  cases c.comparison <;> cases c.correlation <;> cases c.weakRoot <;> cases c.strongRoot <;> simp [OutFile.name]

theorem weak_stops {fmt : TextFormat T} {files : Files} {root : List Char} {strong : Option (List Char)}
    {p : ScalingParams} {plot : Bool} {l : List (Effect T)} {e : Panic}
    (h : scalingStudy fmt files p plot .weak root = (l, .error e)) :
    statsMain fmt files ⟨none, none, some root, strong, p, plot⟩ = (l, .error e) := by
  unfold statsMain
  simp only [ifSome]
  rw [h]
  rfl

/-- **C88, missing numbers.**  On a command line that is accepted, both scaling studies find their three numbers. -/
theorem C88_accepted {c : StatsCli} (h : c.accepted = true) (hs : c.weakRoot.isSome ∨ c.strongRoot.isSome) :
    ∃ init iter factor, c.params = ⟨some init, some iter, some factor⟩ := by
  obtain ⟨_, _, w, s, ⟨a, b, f⟩, _⟩ := c
  cases w <;> cases s <;> cases a <;> cases b <;> cases f <;> simp_all [StatsCli.accepted]

end

/-! ### A case that meets the hypotheses -/

/-- Reports of runs with 1, 2 and 4 threads, all of them with the timers of a program that has not started. -/
def toyFiles : Files := fun name =>
  if name ∈ [reportName toyFormat ['r'] 1, reportName toyFormat ['r'] 2, reportName toyFormat ['r'] 4] then
    some (timerFile toyFormat (fun _ => 0) Timers.default)
  else none

theorem toy_study : StudyFiles toyFormat toyFiles ['r'] 1 3 2 fun _ => Timers.default where
  threads := by decide
  small := by
    intro i hi
    interval_cases i <;> norm_num
  reports := by
    intro i hi
    refine ⟨fun _ => 0, ?_⟩
    refine if_pos ?_
    interval_cases i <;> simp [reportName]

/-- The study saves its two tables, and its three plots when they are asked for. -/
example : scalingStudy toyFormat toyFiles ⟨some 1, some 3, some 2⟩ false (.strong 2) ['r'] =
      (studyTables (.strong 2) 1 3 2 fun _ => Timers.default, .ok ()) ∧
    ∃ l, scalingStudy toyFormat toyFiles ⟨some 1, some 3, some 2⟩ true (.strong 2) ['r'] = (l, .ok ()) ∧
      l.length = 7 :=
  ⟨C88_study toyFormat_sound toy_study (by decide) _, _, C88_plots toyFormat_sound toy_study (by decide) _, rfl⟩

theorem toy_names {root : List Char} {n k : Nat}
    (h : reportName toyFormat root n = reportName toyFormat root k) : (Flt.ofNat n : Toy) = Flt.ofNat k := by
  have h1 : toyFormat.showNat n = toyFormat.showNat k := List.append_cancel_left (List.append_cancel_right h)
  have h2 := congrArg toyFormat.parse h1
  rw [toyFormat_sound.nat, toyFormat_sound.nat] at h2
  exact Option.some.inj h2

/-- A study of four runs lacks a report. -/
example : ∃ e, scalingStudy toyFormat toyFiles ⟨some 1, some 4, some 2⟩ false .weak ['r'] = ([], .error e) := by
  refine C88_missing (i := 3) (by decide) (.inl (if_neg fun h => ?_)) _ _
  have h' : reportName toyFormat ['r'] (1 * 2 ^ 3) ∈
      [reportName toyFormat ['r'] 1, reportName toyFormat ['r'] 2, reportName toyFormat ['r'] 4] := h
  simp only [List.mem_cons, List.not_mem_nil, or_false] at h'
  rcases h' with h' | h' | h' <;> exact absurd (toy_names h') (by decide)

/-- A single run cannot be plotted, and the strong study that should follow is lost. -/
example : ∃ l, statsMain toyFormat toyFiles ⟨none, none, some ['r'], some ['r'], ⟨some 1, some 1, some 2⟩, true⟩ =
    (l, .error .indexOutOfBounds) ∧ l.length = 4 :=
  ⟨_, weak_stops (C88_single_run_violated toyFormat_sound
    ⟨by decide, fun i hi => toy_study.small i (by omega), fun i hi => toy_study.reports i (by omega)⟩ .weak), rfl⟩

/-- Two of the reports can be compared. -/
example : ∃ l, comparisonStudy toyFormat toyFiles true (reportName toyFormat ['r'] 1, reportName toyFormat ['r'] 2) =
    (l, .ok ()) ∧ l.length = 3 :=
  ⟨_, C88_comparison toyFormat_sound (if_pos (by simp)) (if_pos (by simp)) true, rfl⟩

/-- A report of the tallies of two cycles. -/
example : ∃ l, correlationStudy toyFormat (fun _ => some (tallyFile toyFormat
    [⟨1, {}, Flt.ofNat 1, Flt.ofNat 2, Flt.ofNat 3, Flt.ofNat 4⟩, ⟨2, {}, Flt.ofNat 1, Flt.ofNat 3, Flt.ofNat 3,
      Flt.ofNat 5⟩])) false ['t'] = (l, .ok ()) ∧ l.length = 2 := by
  obtain ⟨rows, h, _⟩ := C88_correlation toyFormat_sound (files := fun _ => some (tallyFile toyFormat
    [⟨1, {}, Flt.ofNat 1, Flt.ofNat 2, Flt.ofNat 3, Flt.ofNat 4⟩, ⟨2, {}, Flt.ofNat 1, Flt.ofNat 3, Flt.ofNat 3,
      Flt.ofNat 5⟩])) (name := ['t']) rfl false
  exact ⟨_, h, rfl⟩

/-- The runs of `toyFiles`, and a report of the tallies of one cycle for every other name. -/
def moreFiles : Files := fun n =>
  match toyFiles n with
  | some f => some f
  | none => some (tallyFile toyFormat [⟨1, {}, Flt.ofNat 1, Flt.ofNat 2, Flt.ofNat 3, Flt.ofNat 4⟩])

theorem more_of_toy {n : List Char} {f : List (List Char)} (h : toyFiles n = some f) : moreFiles n = some f := by
  unfold moreFiles
  rw [h]

/-- All four studies with their plots. -/
example : ∃ l, statsMain toyFormat moreFiles
    ⟨some (reportName toyFormat ['r'] 1, reportName toyFormat ['r'] 2), some ['t'], some ['r'], some ['r'],
      ⟨some 1, some 3, some 2⟩, true⟩ = (l, .ok ()) ∧ l.length = 20 := by
  have ht : toyFiles ['t'] = none := if_neg (by simp [reportName])
  have hstudy : StudyFiles toyFormat moreFiles ['r'] 1 3 2 fun _ => Timers.default :=
    ⟨by decide, toy_study.small, fun i hi => (toy_study.reports i hi).imp fun _ h => more_of_toy h⟩
  have h1 : moreFiles (reportName toyFormat ['r'] 1) = some (timerFile toyFormat (fun _ => 0) Timers.default) :=
    more_of_toy (if_pos (by simp))
  have h2 : moreFiles (reportName toyFormat ['r'] 2) = some (timerFile toyFormat (fun _ => 0) Timers.default) :=
    more_of_toy (if_pos (by simp))
  have h3 : moreFiles ['t'] =
      some (tallyFile toyFormat [⟨1, {}, Flt.ofNat 1, Flt.ofNat 2, Flt.ofNat 3, Flt.ofNat 4⟩]) := by
    unfold moreFiles
    rw [ht]
  obtain ⟨rows, h⟩ := C88_whole toyFormat_sound h1 h2 h3 hstudy hstudy (by decide) true
  exact ⟨_, h, rfl⟩
