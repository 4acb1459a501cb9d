import Verif.Props.TimingNested
import Verif.Props.Benchmark
import Verif.Props.Report
import Verif.Lemmas.IeeeBounds
import Mathlib.Tactic.Positivity
/-!
# C47: the ratings of the report
-/
open Flt FltReal

theorem efficiency_real (x : SectionTimer) : (efficiency x : ℝ) =
    100 * (x.avg / 10 ^ 9) / (x.max / 10 ^ 9 + 1 / 10 ^ 80) := by
  unfold efficiency
  rw [asSecs_real, asSecs_real]
  simp only [add_eq, div_eq, mul_eq, lit_eq]
  norm_num

/-- **C47, the efficiency.**  After a run of at least one cycle, the efficiency of every section is between 0 and 100; it
is the share of the average time in the longest one, to within 1e-60; so it is practically 100 when all the cycles took
the same time, and practically lower otherwise.  The rating of a section that never took any time is 0. -/
theorem C47_efficiency {ms me : Nat} {cs : List CycleClock} {last : Nat × Nat} {t : Timers} (hne : cs ≠ [])
    (h : Timers.default.run (runOps ms cs last me) = .ok t) (s : Section) :
    0 ≤ (efficiency (t.sec s) : ℝ) ∧ (efficiency (t.sec s) : ℝ) ≤ 100 ∧
    ((t.sec s).max = 0 → (efficiency (t.sec s) : ℝ) = 0) ∧
    (0 < (t.sec s).max → |(efficiency (t.sec s) : ℝ) - 100 * ((t.sec s).avg / (t.sec s).max)| ≤ 1 / 10 ^ 60) := by
  have hle : (t.sec s).avg ≤ (t.sec s).max := by
    by_cases hs : s = .main
    · subst hs
      have := C47_main h
      omega
    · exact (C47_report hne h hs).ordered.2
  rw [efficiency_real]
  have ha : (0 : ℝ) ≤ (t.sec s).avg := Nat.cast_nonneg _
  have hm : ((t.sec s).avg : ℝ) ≤ (t.sec s).max := by exact_mod_cast hle
  generalize ((t.sec s).avg : ℝ) = a at ha hm ⊢
  have hpos : (0 : ℝ) < (t.sec s).max / 10 ^ 9 + 1 / 10 ^ 80 := by positivity
  refine ⟨by positivity, ?_, fun h0 => ?_, fun h0 => ?_⟩
  · rw [div_le_iff₀ hpos]
    have : (0 : ℝ) < 1 / 10 ^ 80 := by positivity
    linarith
  · rw [h0] at hm
    have : a = 0 := le_antisymm (by simpa using hm) ha
    rw [this]
    simp
  · have h1 : (1 : ℝ) ≤ (t.sec s).max := by exact_mod_cast h0
    generalize ((t.sec s).max : ℝ) = m at hm hpos h1 ⊢
    have hm0 : 0 < m := by linarith
    have e : 100 * (a / 10 ^ 9) / (m / 10 ^ 9 + 1 / 10 ^ 80) - 100 * (a / m) =
        -((100 * (a / m)) * (1 / 10 ^ 80) / (m / 10 ^ 9 + 1 / 10 ^ 80)) := by
      field_simp
      ring
    have q : a / m ≤ 1 := (div_le_one hm0).2 hm
    have q0 : 0 ≤ a / m := by positivity
    rw [e, abs_neg, abs_of_nonneg (by positivity), div_le_iff₀ hpos]
    have : (1 : ℝ) / 10 ^ 9 ≤ m / 10 ^ 9 + 1 / 10 ^ 80 := by
      have : (1 : ℝ) / 10 ^ 9 ≤ m / 10 ^ 9 := by gcongr
      have : (0 : ℝ) < 1 / 10 ^ 80 := by positivity
      linarith
    calc 100 * (a / m) * (1 / 10 ^ 80) ≤ 100 * 1 * (1 / 10 ^ 80) := by gcongr
      _ ≤ 1 / 10 ^ 60 * (1 / 10 ^ 9) := by norm_num
      _ ≤ _ := by gcongr

/-- **C47, the figure of merit.**  After a run of at least one cycle whose tracking took some time, the figure of merit
times the seconds spent in tracking is the number of segments. -/
theorem C47_merit {ms me : Nat} {cs : List CycleClock} {last : Nat × Nat} {t : Timers} (hne : cs ≠ [])
    (h : Timers.default.run (runOps ms cs last me) = .ok t) (segments : Nat)
    (hpos : 0 < (cs.map (·.time .cycleTracking)).sum) :
    (figureOfMerit segments t : ℝ) * ((cs.map (·.time .cycleTracking)).sum / 10 ^ 9 : ℝ) = segments := by
  unfold figureOfMerit
  rw [asSecs_real, (C47_report hne h (s := .cycleTracking) (by decide)).total]
  simp only [div_eq, ofNat_eq]
  have : (0 : ℝ) < ((cs.map (·.time .cycleTracking)).sum : Nat) := by exact_mod_cast hpos
  field_simp

open Ieee in
theorem asSecs_zero {F : Format} : (asSecs 0 : Num F).val = some 0 := by
  have hz : IsFin (Flt.ofNat 0 : Num F) 0 := by simpa [IsI] using isI_ofNat (T := Num F) (n := 0) (by norm_num)
  have hg : IsFin (Flt.ofNat (10 ^ 9) : Num F) (10 ^ 9) := by
    have h := rnd_exact (T := Num F) 1953125 9 (by norm_num) (by norm_num) (by norm_num)
    have e := val_ofNat (T := Num F) (10 ^ 9)
    have q : ((10 ^ 9 : Nat) : ℝ) = ((1953125 : ℕ) : ℝ) * 2 ^ (9 : ℤ) := by norm_num
    rw [q, h] at e
    rw [show (10 ^ 9 : ℝ) = ((1953125 : ℕ) : ℝ) * 2 ^ (9 : ℤ) by norm_num]
    exact e
  have hd : IsFin ((Flt.ofNat 0 : Num F) /. Flt.ofNat (10 ^ 9)) 0 := by
    have := IsFin.div hz hg (by norm_num) (by rw [zero_div]; exact hz.rep)
    rwa [zero_div] at this
  have := IsFin.add hz hd (by rw [add_zero]; exact hz.rep)
  rw [add_zero] at this
  exact this

/-- **C47 is violated by a run without any cycle**: in binary arithmetic its figure of merit is not a number. -/
theorem C47_merit_violated (F : Format) {ms me : Nat} {last : Nat × Nat} {t : Timers}
    (h : Timers.default.run (runOps ms [] last me) = .ok t) :
    (figureOfMerit 0 t : Num F).val = none := by
  have hf := (Follows.default .cycleTracking).run h
  have hfin : ((runOps ms [] last me).foldl (SectionHist.step .cycleTracking) {}).fin = [] := by
    simp [runOps, cyclesOps, syncOps, SectionHist.step]
  have hst := hf.stats (by decide)
  rw [hfin] at hst
  have h0 : (t.sec .cycleTracking).tot = 0 := hst.tot
  unfold figureOfMerit
  refine Num.div_zero_nan Num.zero_val ?_
  rw [h0]
  exact asSecs_zero

/-- Of the two cycles of this run, the tracking took 13 and 33 nanoseconds: 23 on average.  With 46 segments, one
segment took one nanosecond. -/
example : ∃ t, Timers.default.run (runOps 0 demoClocks (70, 80) 90) = .ok t ∧
    (t.sec .cycleTracking).avg = 23 ∧ (t.sec .cycleTracking).max = 33 ∧
    |(efficiency (t.sec .cycleTracking) : ℝ) - 100 * (23 / 33)| ≤ 1 / 10 ^ 60 ∧
    (figureOfMerit 46 t : ℝ) * (46 / 10 ^ 9) = 46 := by
  have hr : ∃ t, Timers.default.run (runOps 0 demoClocks (70, 80) 90) = .ok t ∧
      (t.sec .cycleTracking).avg = 23 ∧ (t.sec .cycleTracking).max = 33 := ⟨_, rfl, by decide⟩
  obtain ⟨t, h, h1, h2⟩ := hr
  have e := (C47_efficiency (by decide) h .cycleTracking).2.2.2 (by omega)
  have m := C47_merit (by decide) h 46 (by decide)
  rw [h1, h2] at e
  have hsum : (demoClocks.map (·.time .cycleTracking)).sum = 46 := by decide
  rw [hsum] at m
  exact ⟨t, h, h1, h2, by exact_mod_cast e, by exact_mod_cast m⟩

example : ∃ t, Timers.default.run (runOps 0 [] (70, 80) 90) = .ok t ∧ (figureOfMerit 0 t : Num binary64).val = none := by
  have hr : ∃ t, Timers.default.run (runOps 0 [] (70, 80) 90) = .ok t := ⟨_, rfl⟩
  obtain ⟨t, h⟩ := hr
  exact ⟨t, h, C47_merit_violated _ h⟩
