import Verif.Lemmas.Groups
import Verif.Props.Balance
import Verif.Model.Coral
import Verif.Model.Real
import Mathlib.Tactic.Linarith
import Mathlib.Tactic.NormNum
/-!
# C45, C49: energy spectrum and fluence check

C45 and the first part of C49 hold for every `Flt T`; the meaning of the fluence check is stated over
the reals.
-/
open Flt
set_option linter.unusedSectionVars false
attribute [local irreducible] Rng.lcg Rng.sample Rng.spawn
variable {T : Type} [Flt T]

/-! ## Specification -/

/-- Number of particles of a list in an energy group. -/
def groupCount (ps : List (Particle T)) (g : Nat) : Nat := ps.countP (fun p => p.energyGroup = g)

/-- Total population at the end of the cycles, as reported. -/
def endPopulations (s : SimState T) : Nat := (s.reports.map (fun r => r.2.1.end_)).sum

/-- Relative difference to the average, in percent of the middle of the two. -/
noncomputable def relDiffPercent (v average : ℝ) : ℝ := |v - average| / ((v + average) / 2) * 100

/-! ## C45 -/

/-- **C45**, indices: after any number of cycles, under any schedule, recording the survivors in a
spectrum with one entry per energy level (the size the program allocates) is always possible. -/
theorem C45_in_range (data : Data T) (ex : ExecInfo) (o : SyncOpts) (fuel n : Nat) (s0 s : SimState T)
    (h0 : StartOfRun s0) (hlen : s0.spectrum.length = data.nuclear.energies.length)
    (hn : n ≤ data.nSteps) (h : Cycles data ex o fuel n s0 s) :
    s.spectrum.length = data.nuclear.energies.length ∧
    (∀ p ∈ s.container.processed, p.energyGroup < s.spectrum.length) ∧
    ∃ t, updateSpectrum o.spectrumOn s.container s.spectrum = .ok t := by
  have hl : s.spectrum.length = data.nuclear.energies.length := by
    induction h with
    | zero => exact hlen
    | @succ n s s1 s2 u c hc hsync _ ih =>
      have hb := cycles_between (by omega) h0.initial hc
      obtain ⟨_, h2, _⟩ := cycleSync_spectrum (by omega) hb.processing hsync
      dsimp only
      rw [← ih h0 hlen (by omega)]
      split at h2
      · exact (countSpectrum_spec h2).1
      · rw [← Except.ok.inj h2]
  have hb := cycles_between hn h0.initial h
  have hg := cycles_groups hn h0.initial h
  refine ⟨hl, by rw [hl]; exact hg, ?_⟩
  unfold updateSpectrum
  split
  · rw [hb.processing]
    exact countSpectrum_ok _ _ (by rw [hl]; exact hg)
  · exact ⟨_, rfl⟩

/-- **C45**, one cycle: at the end of cycle `n + 1` the entry of each group grows by the number of
surviving particles of the group when an output name is given, and is unchanged otherwise.  The
survivors are the particles that start the next cycle, as many as the `End` counter reports. -/
theorem C45_each_cycle (data : Data T) (ex : ExecInfo) (o : SyncOpts) (fuel n : Nat)
    (s0 s s' : SimState T) (h0 : StartOfRun s0) (hn : n + 1 ≤ data.nSteps)
    (h : Cycles data ex o fuel (n + 1) s0 s) (hs : cycleSync data o (n + 1) s = .ok s') :
    s'.spectrum.length = s.spectrum.length ∧
    (∀ g v, s.spectrum[g]? = some v →
      s'.spectrum[g]? = some (v + if o.spectrumOn then groupCount s'.container.processing g else 0)) ∧
    s'.reports.getLast?.map (fun r => r.2.1.end_) = some s'.container.processing.length := by
  have hb := cycles_between hn h0.initial h
  have ha := cycleSync_after hn h0.initial hb hs
  obtain ⟨h1, h2, _⟩ := cycleSync_spectrum hn hb.processing hs
  rw [h1]
  refine ⟨?_, ?_, ?_⟩
  · split at h2
    · exact (countSpectrum_spec h2).1
    · rw [← Except.ok.inj h2]
  · intro g v hv
    cases ho : o.spectrumOn with
    | false =>
      rw [ho, if_neg (by simp)] at h2
      rw [← Except.ok.inj h2]
      simpa using hv
    | true =>
      rw [ho, if_pos (by simp)] at h2
      simpa [groupCount] using (countSpectrum_spec h2).2 g v hv
  · have hst := ha.startOk
    rw [h1] at hst
    have hne : s'.reports ≠ [] := by
      intro he
      have := ha.steps
      rw [he] at this
      simp at this
    cases hl : s'.reports.getLast? with
    | none => rw [List.getLast?_eq_none_iff] at hl; exact (hne hl).elim
    | some r => rw [hl] at hst; simp only [Option.map_some, Option.getD_some] at hst ⊢; rw [hst]

/-- **C45**, whole run: starting from a zero spectrum, the entries sum to the sum of the end-of-cycle
populations when an output name is given; otherwise the spectrum is untouched. -/
theorem C45_total (data : Data T) (ex : ExecInfo) (o : SyncOpts) (fuel : Nat) (s0 s : SimState T)
    (h0 : StartOfRun s0) (h : RunCore data ex o fuel s0 s) :
    (o.spectrumOn = true → s.spectrum.sum = s0.spectrum.sum + endPopulations s) ∧
    (o.spectrumOn = false → s.spectrum = s0.spectrum) := by
  obtain ⟨s1, hc, hsync⟩ := h
  have key : ∀ n s1 s2, n ≤ data.nSteps → Cycles data ex o fuel n s0 s1 →
      cycleSync data o n s1 = .ok s2 →
      (o.spectrumOn = true → s2.spectrum.sum = s0.spectrum.sum + endPopulations s2) ∧
      (o.spectrumOn = false → s2.spectrum = s0.spectrum) := by
    intro n
    induction n with
    | zero =>
      intro s1 s2 hn hc hsy
      cases hc
      have hb := cycles_between (Nat.zero_le _) h0.initial (Cycles.zero (data := data) (ex := ex) (o := o)
        (fuel := fuel) (s := s0))
      obtain ⟨_, h2, _⟩ := cycleSync_spectrum hn hb.processing hsy
      have ha := cycleSync_after hn h0.initial hb hsy
      rw [if_neg (by simp)] at h2
      have h2 := Except.ok.inj h2
      have hr : s2.reports = [] := by simpa using ha.steps
      simp [endPopulations, hr, h2]
    | succ n ih =>
      intro s1 s2 hn hc hsy
      have hb := cycles_between hn h0.initial hc
      obtain ⟨h1, h2, _⟩ := cycleSync_spectrum hn hb.processing hsy
      cases hc with
      | @succ _ _ sa sb u c hc hsync' hproc =>
        obtain ⟨i1, i2⟩ := ih sa sb (by omega) hc hsync'
        have hrep : s2.reports.map (fun r => r.2.1.end_) =
            sb.reports.map (fun r => r.2.1.end_) ++ [c.processed.length] := by
          unfold cycleSync at hsy
          rw [if_pos (by omega)] at hsy
          simp only [bind_ok] at hsy
          obtain ⟨sx, hf, hsy⟩ := hsy
          rw [if_neg (by omega)] at hsy
          obtain ⟨_, _, f3, _⟩ := syncFinalize_fields hf
          obtain ⟨_, _, p3, _⟩ := syncPrepare_fields hsy
          rw [p3, f3]
          simp
        constructor
        · intro ho
          rw [if_pos (by simp [ho])] at h2
          have := countSpectrum_sum h2
          dsimp only at this
          rw [this, i1 ho, endPopulations, endPopulations, hrep]
          simp; omega
        · intro ho
          rw [if_neg (by simp [ho])] at h2
          exact (Except.ok.inj h2).symm.trans (i2 ho)
  exact key data.nSteps s1 s (Nat.le_refl _) hc hsync

/-- The toy run counts its five survivors (four after the first cycle, one after the second). -/
example : ∃ s, StartOfRun toySim ∧ RunCore toyData toyExec toyOpts 20 toySim s ∧ s.spectrum.sum = 5 ∧
    toySim.spectrum.length = toyData.nuclear.energies.length := by
  obtain ⟨s, h1, _, h3⟩ := toyRun_core
  exact ⟨s, ⟨rfl, rfl, rfl, rfl, rfl, rfl⟩, h1, by rw [h3]; rfl, rfl⟩

/-! ## C49 -/

theorem fluenceCompute_nil (n : Nat) (flux : List T) : fluenceCompute ([] : List T) n flux = [] := by
  simp [fluenceCompute]

/-- **C49**, the table stays empty: the fluence table is created empty, and after every run with every
option it is still empty. -/
theorem C49_fluence_never_filled (data : Data T) (ex : ExecInfo) (o : SyncOpts) (fuel : Nat)
    (s0 s : SimState T) (h0 : StartOfRun s0) (hf : s0.fluence = []) (h : RunCore data ex o fuel s0 s) :
    s.fluence = [] := by
  have sync : ∀ n s1 s2, n ≤ data.nSteps → Cycles data ex o fuel n s0 s1 → s1.fluence = [] →
      cycleSync data o n s1 = .ok s2 → s2.fluence = [] := by
    intro n s1 s2 hn hc hs1 hsy
    obtain ⟨_, _, h3⟩ := cycleSync_spectrum hn (cycles_between hn h0.initial hc).processing hsy
    rw [h3, hs1, fluenceCompute_nil]
    simp
  have key : ∀ n s1, n ≤ data.nSteps → Cycles data ex o fuel n s0 s1 → s1.fluence = [] := by
    intro n
    induction n with
    | zero => intro s1 _ hc; cases hc; exact hf
    | succ n ih =>
      intro s1 hn hc
      cases hc with
      | @succ _ _ sa sb u c hc hsync' hproc =>
        exact sync n sa sb (by omega) hc (ih sa (by omega) hc) hsync'
  obtain ⟨s1, hc, hsync⟩ := h
  exact sync data.nSteps s1 s (Nat.le_refl _) hc (key _ s1 (Nat.le_refl _) hc) hsync

/-- **C49**, violation: the check passes at the end of every run, whatever the flux was. -/
theorem C49_violated_check_always_passes (data : Data ℝ) (ex : ExecInfo) (o : SyncOpts) (fuel : Nat)
    (s0 s : SimState ℝ) (h0 : StartOfRun s0) (hf : s0.fluence = []) (h : RunCore data ex o fuel s0 s) :
    fluenceTest s.fluence = true := by
  rw [C49_fluence_never_filled data ex o fuel s0 s h0 hf h]
  simp [fluenceTest]

theorem foldl_max_le (f : ℝ → ℝ) (l : List ℝ) (m b : ℝ) :
    l.foldl (fun m v => Max.max m (f v)) m ≤ b ↔ m ≤ b ∧ ∀ v ∈ l, f v ≤ b := by
  induction l generalizing m with
  | nil => simp
  | cons a l ih =>
    rw [List.foldl_cons, ih, max_le_iff]
    simp [and_assoc]

theorem foldl_add_real (l : List ℝ) (a : ℝ) : l.foldl (fun x y => x + y) a = a + l.sum := by
  induction l generalizing a with
  | nil => simp
  | cons x l ih => rw [List.foldl_cons, ih, List.sum_cons]; ring

/-- **C49**, what the check means on a filled table: it passes exactly when no cell deviates by more
than 6 % from the average (fluences are not negative and not all zero). -/
theorem C49_check_meaning (cells : List ℝ) (hpos : ∀ v ∈ cells, 0 ≤ v) (hsum : 0 < cells.sum) :
    fluenceTest cells = true ↔
      ∀ v ∈ cells, relDiffPercent v (cells.sum / cells.length) ≤ 6 ∧
        0 < (v + cells.sum / cells.length) / 2 := by
  have hne : cells ≠ [] := by rintro rfl; simp at hsum
  have hl : (0 : ℝ) < cells.length := by exact_mod_cast List.length_pos_iff.2 hne
  have hav : 0 < cells.sum / cells.length := div_pos hsum hl
  have h1 : fluenceTest cells = true ↔ ∀ v ∈ cells, relDiffPercent v (cells.sum / cells.length) ≤ 6 := by
    simp only [fluenceTest, FltReal.add_eq, FltReal.zero_eq, FltReal.div_eq, FltReal.ofNat_eq,
      FltReal.max_eq, FltReal.abs_eq, FltReal.sub_eq, FltReal.two_eq, FltReal.mul_eq, FltReal.le_eq,
      decide_eq_true_eq, foldl_add_real, zero_add]
    rw [foldl_max_le (fun v => |v - cells.sum / cells.length| / ((v + cells.sum / cells.length) / 2) *
      ((100 : ℕ) : ℝ))]
    simp only [relDiffPercent, Nat.cast_ofNat]
    exact ⟨fun h => h.2, fun h => ⟨by norm_num, h⟩⟩
  rw [h1]
  constructor
  · intro h v hv
    exact ⟨h v hv, by have := hpos v hv; linarith⟩
  · intro h v hv
    exact (h v hv).1

/-- **C49**, what the accumulation would do on a table with one entry per cell: each entry grows by
the flux of its cell summed over the groups. -/
theorem C49_accumulation (fluence : List T) (numGroups : Nat) (flux : List T) (hn : 0 < numGroups)
    (hlen : flux.length = fluence.length * numGroups) :
    (fluenceCompute fluence numGroups flux).length = fluence.length ∧
    ∀ i v, fluence[i]? = some v → (fluenceCompute fluence numGroups flux)[i]? =
      some (v +. Flt.sum ((flux.drop (i * numGroups)).take numGroups)) := by
  have haux : ∀ (fl fx : List T) (m : Nat), fx.length = fl.length * numGroups → fx.length ≤ m →
      (chunksAux numGroups m fx).length = fl.length ∧
      ∀ i v, fl[i]? = some v → (List.zipWith (fun f c => f +. Flt.sum c) fl
        (chunksAux numGroups m fx))[i]? = some (v +. Flt.sum ((fx.drop (i * numGroups)).take numGroups)) := by
    intro fl
    induction fl with
    | nil =>
      intro fx m h1 h2
      have : fx = [] := List.length_eq_zero_iff.1 (by simpa using h1)
      subst this
      refine ⟨?_, by simp⟩
      cases m <;> rfl
    | cons f fl ih =>
      intro fx m h1 h2
      rw [List.length_cons, Nat.add_mul, Nat.one_mul] at h1
      cases fx with
      | nil => simp at h1; omega
      | cons x fx =>
        cases m with
        | zero => simp at h2
        | succ m =>
          obtain ⟨i1, i2⟩ := ih ((x :: fx).drop numGroups) m (by rw [List.length_drop]; omega)
            (by rw [List.length_drop]; omega)
          rw [chunksAux]
          · refine ⟨by rw [List.length_cons, i1, List.length_cons], ?_⟩
            intro i v hv
            cases i with
            | zero =>
              simp only [List.getElem?_cons_zero, Option.some.injEq] at hv
              subst hv
              simp
            | succ i =>
              rw [List.zipWith_cons_cons, List.getElem?_cons_succ]
              rw [i2 i v (by simpa using hv), List.drop_drop]
              congr 5
              rw [Nat.add_mul]; omega
          · simp
  obtain ⟨h1, h2⟩ := haux fluence flux flux.length hlen (Nat.le_refl _)
  unfold fluenceCompute chunks
  dsimp only
  rw [h1, List.drop_length, List.append_nil]
  exact ⟨by rw [List.length_zipWith, h1, Nat.min_self], h2⟩

/-- The check would reject a flux four times larger in the second cell ... -/
example : fluenceTest ([1, 4] : List ℝ) = false := by
  rw [Bool.eq_false_iff, ne_eq, C49_check_meaning _ (by simp) (by norm_num)]
  intro h
  have := (h 1 (by simp)).1
  norm_num [relDiffPercent, abs_of_neg] at this

/-- ... and accepts a nearly homogeneous one. -/
example : fluenceTest ([100, 101] : List ℝ) = true := by
  rw [C49_check_meaning _ (by simp) (by norm_num)]
  intro v hv
  simp only [List.mem_cons, List.not_mem_nil, or_false] at hv
  rcases hv with rfl | rfl <;> norm_num [relDiffPercent, abs_of_neg, abs_of_pos]

/-- A state with flux 1 and 4 in its two cells: the benchmark bookkeeping leaves the table empty and
the check passes, although the accumulation on a sized table would give the rejected values. -/
example :
    (∃ s, syncFinalize ⟨true, false⟩ 1 { toySim with unit := { toyUnit with flux := [1024, 4096] } } = .ok s ∧
      s.fluence = [] ∧ fluenceTest s.fluence = true) ∧
    fluenceCompute ([0, 0] : List Toy) 1 [1024, 4096] = [1024, 4096] ∧
    fluenceTest ([1024, 4096] : List Toy) = false := by
  refine ⟨⟨_, rfl, rfl, by decide +kernel⟩, by decide +kernel, by decide +kernel⟩
