import Verif.Spec.Report
import Verif.Lemmas.Timing
import Verif.Lemmas.Stats
/-! The files of a run. -/
open Flt
set_option linter.unusedSectionVars false
variable {T : Type} [Flt T]

/-! ### Times -/

theorem printedTimers_ok {ops : List TimerOp} {t t' : Timers} (h : t.run ops = .ok t') :
    ∃ ts, printedTimers ops t = .ok ts := by
  induction ops generalizing t with
  | nil => exact ⟨[], rfl⟩
  | cons op ops ih =>
    simp only [Timers.run, List.foldlM_cons] at h
    obtain ⟨t1, h1, h2⟩ := bind_ok.1 h
    obtain ⟨ts, hts⟩ := ih h2
    exact ⟨_, bind_ok.2 ⟨t1, h1, bind_ok.2 ⟨ts, hts, rfl⟩⟩⟩

theorem printedTimers_fin {s : Section} (hs : s ≠ .main) {ops : List TimerOp} {t : Timers} {ts : List Timers}
    {h : SectionHist} (hf : Follows s t h) (hp : printedTimers ops t = .ok ts) :
    (ops.foldl (SectionHist.step s) h).fin = h.fin ++ ts.map fun t => (t.sec s).lastCycle := by
  induction ops generalizing t ts h with
  | nil =>
    cases hp; simp
  | cons op ops ih =>
    obtain ⟨t1, h1, hp⟩ := bind_ok.1 hp
    obtain ⟨rest, h2, hp⟩ := bind_ok.1 hp
    have e := ih (hf.step h1) h2
    rw [List.foldl_cons, e, ← pure_ok.1 hp]
    cases op with
    | start s' now =>
      rw [if_neg (by simp)]
      simp only [SectionHist.step]
      split <;> rfl
    | stop s' now =>
      rw [if_neg (by simp)]
      simp only [SectionHist.step]
      split <;> rfl
    | clear =>
      rw [if_pos rfl]
      simp only [SectionHist.step, if_neg hs]
      simp [hf.cur]
    | updateMain =>
      rw [if_neg (by simp)]
      rfl

/-- The times printed at the end of the cycles are those of the cycles. -/
theorem printedTimers_run {ms me : Nat} {cs : List CycleClock} {last : Nat × Nat} {ts : List Timers}
    (hp : printedTimers (runOps ms cs last me) Timers.default = .ok ts) {s : Section} (hs : s ≠ .main) :
    (ts.map fun t => (t.sec s).lastCycle) = cs.map (·.time s) := by
  have h := printedTimers_fin hs (Follows.default s) hp
  cases cs with
  | nil =>
    have e : ((runOps ms [] last me).foldl (SectionHist.step s) {}).fin = [] := by
      simp only [runOps, cyclesOps, syncOps, List.append_nil, List.length_nil, ne_eq, not_true_eq_false, if_false,
        List.cons_append, List.nil_append, List.foldl_cons, List.foldl_nil]
      simp only [SectionHist.step]
      repeat' split
      all_goals rfl
    rw [e] at h
    simpa using h.symm
  | cons c cs =>
    have e := (SectionHist.foldl_run s hs ms me last.1 last.2 c cs).1
    rw [e] at h
    simpa using h.symm

/-! ### The file of the tallies -/

theorem printSummary_off (fmt : TextFormat T) (l : TallyLine T) (file : TextFile) :
    printSummary fmt false l file = .ok file := by
  unfold printSummary
  simp [pure, Except.pure]

theorem printSummary_next (fmt : TextFormat T) {l : TallyLine T} (h : l.step ≠ 0) (lines : List (List Char)) :
    printSummary fmt true l (some lines) = .ok (some (lines ++ [joinFields ';' (l.fields fmt)])) := by
  unfold printSummary
  simp [h, unwrap, pure, Except.pure, bind, Except.bind]

theorem printSummary_first (fmt : TextFormat T) {l : TallyLine T} (h : l.step = 0) (file : TextFile) :
    printSummary fmt true l file = .ok (some (tallyFile fmt [l])) := by
  unfold printSummary
  simp [h, unwrap, pure, Except.pure, bind, Except.bind, tallyFile]

theorem fold_off (fmt : TextFormat T) (ls : List (TallyLine T)) (file : TextFile) :
    ls.foldlM (fun f l => printSummary fmt false l f) file = .ok file := by
  induction ls with
  | nil => rfl
  | cons l ls ih =>
    rw [List.foldlM_cons, printSummary_off]; exact ih

theorem fold_next (fmt : TextFormat T) (ls done : List (TallyLine T)) (h : ∀ l ∈ ls, l.step ≠ 0) :
    ls.foldlM (fun f l => printSummary fmt true l f) (some (tallyFile fmt done)) =
      .ok (some (tallyFile fmt (done ++ ls))) := by
  induction ls generalizing done with
  | nil => simp [pure, Except.pure]
  | cons l ls ih =>
    rw [List.foldlM_cons, printSummary_next fmt (h l (by simp))]
    have := ih (done ++ [l]) (fun l hl => h l (by simp [hl]))
    rw [List.append_assoc] at this
    rw [List.singleton_append] at this
    rw [← this]
    simp [bind, Except.bind, tallyFile]

/-- The file after some cycles numbered from 0 has one line for each, whatever was there before. -/
theorem fold_on (fmt : TextFormat T) {ls : List (TallyLine T)} (hne : ls ≠ [])
    (h : ∀ (i : Nat) (l : TallyLine T), ls[i]? = some l → l.step = i) (file : TextFile) :
    ls.foldlM (fun f l => printSummary fmt true l f) file = .ok (some (tallyFile fmt ls)) := by
  obtain ⟨l, ls, rfl⟩ := List.exists_cons_of_ne_nil hne
  rw [List.foldlM_cons, printSummary_first fmt (h 0 l rfl)]
  show ls.foldlM _ _ = _
  rw [fold_next fmt ls [l]]
  · rfl
  · intro l' hl'
    obtain ⟨i, hi⟩ := List.getElem?_of_mem hl'
    have := h (i + 1) l' (by simpa using hi)
    omega

/-! ### The spectrum -/

theorem dropWhile_spaces (n : Nat) (s : List Char) (h : ∀ c ∈ s.head?, c ≠ ' ') :
    (List.replicate n ' ' ++ s).dropWhile (· = ' ') = s := by
  induction n with
  | zero =>
    cases s with
    | nil => rfl
    | cons c s =>
      have := h c (by simp)
      simp [this]
  | succ n ih => simpa [List.replicate_succ, List.dropWhile_cons] using ih

theorem trimSpaces_pad (n m : Nat) {s : List Char} (h : ' ' ∉ s) :
    trimSpaces (List.replicate n ' ' ++ s ++ List.replicate m ' ') = s := by
  have hne : ∀ c ∈ s, c ≠ ' ' := fun c hc e => h (e ▸ hc)
  unfold trimSpaces
  by_cases hs : s = []
  · subst hs
    rw [List.append_nil, ← List.replicate_add]
    have := dropWhile_spaces (n + m) [] (by simp)
    rw [List.append_nil] at this
    rw [this]; rfl
  · rw [List.append_assoc, dropWhile_spaces]
    · rw [List.reverse_append, List.reverse_replicate, dropWhile_spaces, List.reverse_reverse]
      intro c hc
      exact hne c (by simpa using List.mem_of_mem_head? hc)
    · intro c hc
      rw [List.head?_append_of_ne_nil _ hs] at hc
      exact hne c (List.mem_of_mem_head? hc)

/-- Reading a line of the spectrum gives the three things written in it. -/
theorem spectrumLine_cells {fmt : SpectrumFormat T} (hf : fmt.Sound) (i : Nat) (e : T) (n : Nat) :
    barCells (spectrumLine fmt i e n) = [fmt.showNat i, fmt.showFixed e, fmt.showNat n] := by
  have hbar : " | ".toList = [' ', '|', ' '] := by decide
  have hp : ∀ k s, '|' ∉ s → '|' ∉ padLeft k s := by
    intro k s hs hm
    rcases List.mem_append.1 hm with h | h
    · have := List.eq_of_mem_replicate h
      exact absurd this (by decide)
    · exact hs h
  have e1 : spectrumLine fmt i e n = (padLeft 18 (fmt.showNat i) ++ [' ']) ++ '|' ::
      ((' ' :: padLeft 20 (fmt.showFixed e) ++ [' ']) ++ '|' :: (' ' :: padLeft 13 (fmt.showNat n))) := by
    simp [spectrumLine, hbar]
  have h1 : '|' ∉ padLeft 18 (fmt.showNat i) ++ [' '] := by
    have := hp 18 _ (hf.nat i).2
    simp [this]
  have h2 : '|' ∉ ' ' :: padLeft 20 (fmt.showFixed e) ++ [' '] := by
    have := hp 20 _ (hf.fixed e).2
    simp [this]
  have h3 : '|' ∉ ' ' :: padLeft 13 (fmt.showNat n) := by
    have := hp 13 _ (hf.nat n).2
    simp [this]
  unfold barCells
  rw [e1, splitFields_append h1, splitFields_append h2, splitFields_single h3]
  have t : ∀ k s, ' ' ∉ s → trimSpaces (padLeft k s ++ [' ']) = s ∧ trimSpaces (' ' :: padLeft k s ++ [' ']) = s ∧
      trimSpaces (' ' :: padLeft k s) = s := by
    intro k s hs
    refine ⟨trimSpaces_pad (k - s.length) 1 hs, ?_, ?_⟩
    · have := trimSpaces_pad (k - s.length + 1) 1 hs
      simpa [padLeft, List.replicate_succ] using this
    · have := trimSpaces_pad (k - s.length + 1) 0 hs
      simpa [padLeft, List.replicate_succ] using this
  simp only [List.map_cons, List.map_nil]
  rw [(t 18 _ (hf.nat i).1).1, (t 20 _ (hf.fixed e).1).2.1, (t 13 _ (hf.nat n).1).2.2]

theorem printSpectrum_ok {fmt : SpectrumFormat T} {name : String} (hn : name ≠ "") {energies : List T}
    {spectrum : List Nat} (hl : energies.length ≤ spectrum.length) :
    ∃ lines, printSpectrum fmt name energies spectrum = .ok (some (name ++ ".dat", spectrumHead ++ lines)) ∧
      lines.length = energies.length ∧
      ∀ i e, energies[i]? = some e → ∃ n, spectrum[i]? = some n ∧ lines[i]? = some (spectrumLine fmt i e n) := by
  have hex : ∃ lines, ((List.range energies.length).mapM fun i => do
      let e ← idx energies i
      let n ← idx spectrum i
      return spectrumLine fmt i e n) = .ok lines := by
    apply mapM_ok_exists
    intro i hi
    have hi := List.mem_range.1 hi
    exact ⟨_, bind_ok.2 ⟨energies[i], idx_ok.2 (List.getElem?_eq_getElem hi),
      bind_ok.2 ⟨spectrum[i], idx_ok.2 (List.getElem?_eq_getElem (by omega)), rfl⟩⟩⟩
  obtain ⟨lines, h⟩ := hex
  refine ⟨lines, ?_, ?_, ?_⟩
  · unfold printSpectrum
    rw [if_neg hn]
    exact bind_ok.2 ⟨lines, h, rfl⟩
  · rw [mapM_ok_length h, List.length_range]
  · intro i e he
    have hi := (List.getElem?_eq_some_iff.1 he).1
    obtain ⟨l, hl, hl'⟩ := mapM_ok_getElem h i i (by simp [hi])
    obtain ⟨e', h1, hl'⟩ := bind_ok.1 hl'
    obtain ⟨n, h2, hl'⟩ := bind_ok.1 hl'
    rw [idx_ok.1 h1] at he
    cases he
    exact ⟨n, idx_ok.1 h2, by rw [hl, ← pure_ok.1 hl']⟩
