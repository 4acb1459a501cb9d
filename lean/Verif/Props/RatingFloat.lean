import Verif.Props.Rating
import Verif.Lemmas.RatingRound
/-!
# C47: the ratings of the report, with rounding
-/
open Flt Ieee
variable {T : Type} [Flt T] [Ieee T]

/-- **C47, the efficiency with rounding.**  After a run of at least one cycle, the efficiency of a section that took some
time, but never 36 years (2^60 nanoseconds) in a cycle, is a number that differs by at most 0.001 from the share of the
average time in the longest one, in percent. -/
theorem C47_efficiency_rounded {ms me : Nat} {cs : List CycleClock} {last : Nat × Nat} {t : Timers} (hne : cs ≠ [])
    (h : Timers.default.run (runOps ms cs last me) = .ok t) (s : Section) (h0 : 0 < (t.sec s).max)
    (hm : (t.sec s).max ≤ 2 ^ 60) :
    ∃ e : ℝ, val (efficiency (t.sec s) : T) = some (e : EReal) ∧
      |e - 100 * ((t.sec s).avg / (t.sec s).max)| ≤ 1 / 1000 := by
  have hle : (t.sec s).avg ≤ (t.sec s).max := by
    by_cases hs : s = .main
    · subst hs
      have := C47_main h
      omega
    · exact (C47_report hne h hs).ordered.2
  obtain ⟨e, he, hb⟩ := (efficiency_rel (T := T) hle h0 hm).close (by positivity) le_rfl
  refine ⟨e, he, hb.trans ?_⟩
  have hp : (0 : ℝ) < (t.sec s).max := by exact_mod_cast h0
  have : ((t.sec s).avg : ℝ) / (t.sec s).max ≤ 1 := (div_le_one hp).2 (by exact_mod_cast hle)
  linarith

/-- **C47, the figure of merit with rounding.**  When the tracking took some time, the figure of merit is the number of
segments per second of tracking, with a relative error of at most 1e-5. -/
theorem C47_merit_rounded {ms me : Nat} {cs : List CycleClock} {last : Nat × Nat} {t : Timers} (hne : cs ≠ [])
    (h : Timers.default.run (runOps ms cs last me) = .ok t) (segments : Nat) {d : Nat}
    (hd : (cs.map (·.time .cycleTracking)).sum = d) (h0 : 0 < d) (hm : d ≤ 2 ^ 60) (hs : segments ≤ 2 ^ 60)
    (hr : segments ≤ 2 ^ 30 * d) :
    ∃ f : ℝ, val (figureOfMerit segments t : T) = some (f : EReal) ∧
      |f - segments / (d / 10 ^ 9)| ≤ (segments / (d / 10 ^ 9) / 10 ^ 5 : ℝ) := by
  have e : (t.sec .cycleTracking).tot = d := (C47_report hne h (s := .cycleTracking) (by decide)).total.trans hd
  have := merit_rel (T := T) (t := t) (segments := segments) hs (by omega) (by omega) (by rw [e]; exact hr)
  rw [e] at this
  obtain ⟨f, hf, hb⟩ := this.close (by positivity) (by norm_num)
  exact ⟨f, hf, hb⟩

/-- The tracking took 13 and 33 nanoseconds in the two cycles of this run, with 46 segments. -/
example : ∃ t, Timers.default.run (runOps 0 demoClocks (70, 80) 90) = .ok t ∧
    (∃ e : ℝ, val (efficiency (t.sec .cycleTracking) : Num binary64) = some (e : EReal) ∧
      |e - 100 * (23 / 33)| ≤ 1 / 1000) ∧
    ∃ f : ℝ, val (figureOfMerit 46 t : Num binary64) = some (f : EReal) ∧ |f - 10 ^ 9| ≤ 10 ^ 4 := by
  have hr : ∃ t, Timers.default.run (runOps 0 demoClocks (70, 80) 90) = .ok t ∧
      (t.sec .cycleTracking).avg = 23 ∧ (t.sec .cycleTracking).max = 33 := ⟨_, rfl, by decide⟩
  obtain ⟨t, h, h1, h2⟩ := hr
  obtain ⟨e, e1, e2⟩ := C47_efficiency_rounded (T := Num binary64) (by decide) h .cycleTracking (by omega)
    (by rw [h2]; norm_num)
  obtain ⟨f, f1, f2⟩ := C47_merit_rounded (T := Num binary64) (by decide) h 46 (d := 46) (by decide) (by norm_num)
    (by norm_num) (by norm_num) (by norm_num)
  rw [h1, h2] at e2
  refine ⟨t, h, ⟨e, e1, by exact_mod_cast e2⟩, f, f1, ?_⟩
  norm_num at f2 ⊢
  exact f2
