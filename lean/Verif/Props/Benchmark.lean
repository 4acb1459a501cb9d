import Verif.Props.Balance
import Verif.Props.Results
import Verif.Model.Coral
import Verif.Model.Real
import Verif.Lemmas.Binary
import Mathlib.Tactic.Positivity
import Mathlib.Tactic.FieldSimp
/-!
# C68: what the verdicts of the benchmark checks mean
-/
open Flt
set_option linter.unusedSectionVars false

/-! ## Specification -/

/-- Expected shares of absorptions, scatterings and fissions, and the tolerance, of the two benchmarks
CORAL 1 expects 0.04 : 1 : 0.05 within 1 %, CORAL 2 expects 0.094 : 0.83 : 0.075 within 1.1 %. -/
noncomputable def expectedShares (coral1 : Bool) : ℝ × ℝ × ℝ × ℝ :=
  if coral1 then (4 / 100, 1, 5 / 100, 1 / 100) else (94 / 1000, 830 / 1000, 75 / 1000, 11 / 1000)

/-- The counts, each divided by its expected share, agree within the tolerance, whichever is compared to which. -/
def SharesKept (coral1 : Bool) (absorb scatter fission : ℝ) : Prop :=
  let (a, s, f, tol) := expectedShares coral1
  let counts := [absorb / a, scatter / s, fission / f]
  ∀ x ∈ counts, ∀ y ∈ counts, |x / y - 1| ≤ tol

/-! ## Any arithmetic -/
section
variable {T : Type} [Flt T]

/-- **C68**.  A standard run is not checked.  After a run of a benchmark the checks are all made, without a panic:
no particle is reported as lost, and the number of facet crossings of the event check is the number of segments that
ended on a facet, summed over the cycles.  (The fluence check passes whatever the flux was, see C49.) -/
theorem C68_checks (data : Data T) (ex : ExecInfo) (o : SyncOpts) (fuel : Nat) (s0 s : SimState T)
    (h0 : StartOfRun s0) (h : RunCore data ex o fuel s0 s) :
    coralChecks .standard s = .ok none ∧
    ∀ bench, bench ≠ .standard → ∃ v, coralChecks bench s = .ok (some v) ∧ v.missing = true ∧
      v.ratios = balanceRatioTest (T := T) (bench = .coral1) s.cumulative ∧ v.fluence = fluenceTest s.fluence ∧
      ∃ crossings : List Nat, crossings.length = data.nSteps ∧
        (∀ (i : Nat) (r : Nat × Balance × T) (n : Nat), s.reports[i]? = some r → crossings[i]? = some n →
          facetCrossingCount r.2.1 = .ok n) ∧
        v.events = (Flt.abs ((Flt.ofNat crossings.sum : T) /. Flt.ofNat s.cumulative.collision -. one)
          <=. one /. Flt.ofNat 100) := by
  refine ⟨rfl, fun bench hb => ?_⟩
  obtain ⟨cr, h1, h2, h3, _⟩ := C08_no_underflow data ex o fuel s0 s h0 h
  have hm := (C07_counters_chain data ex o fuel s0 s h0 h).2.2.2.2.2.2
  unfold coralChecks
  rw [if_neg hb]
  unfold balanceEventTest
  rw [h3]
  exact ⟨_, rfl, hm, rfl, rfl, cr, h1, h2, rfl⟩

end

/-- **C68**, crossings.  The number of facet crossings is what is missing to the collisions and the censuses to make up
the segments; when they are already more than the segments, the subtraction panics. -/
theorem C68_crossings (b : Balance) :
    (∀ n, facetCrossingCount b = .ok n ↔ b.numSegments = b.collision + b.census + n) ∧
    (facetCrossingCount b = .error .overflow ↔ b.numSegments < b.collision + b.census) := by
  unfold facetCrossingCount
  split
  · exact ⟨fun n => ⟨nofun, fun h => by omega⟩, fun _ => by omega, fun _ => rfl⟩
  split
  · exact ⟨fun n => ⟨nofun, fun h => by omega⟩, fun _ => by omega, fun _ => rfl⟩
  · refine ⟨fun n => ⟨fun h => ?_, fun h => ?_⟩, nofun, fun h => by omega⟩
    · have := Except.ok.inj h
      omega
    · exact congrArg _ (by omega)

/-- Ten segments, of which three collisions and two censuses: five crossings.  Four censuses more are too many. -/
example : facetCrossingCount { numSegments := 10, collision := 3, census := 2 } = .ok 5 ∧
    facetCrossingCount { numSegments := 10, collision := 3, census := 8 } = .error .overflow :=
  ⟨((C68_crossings _).1 5).2 rfl, (C68_crossings _).2.2 (by decide)⟩

/-! ## Real numbers -/

/-- **C68**, events.  With collisions, the event check passes exactly when the number of facet crossings and that of
collisions differ by at most one percent of the latter. -/
theorem C68_events (b : Balance) (crossings : Nat) (hc : facetCrossingCount b = .ok crossings)
    (hpos : 0 < b.collision) :
    ∃ pass, balanceEventTest (T := ℝ) b = .ok pass ∧
      (pass = true ↔ |(crossings : ℝ) - b.collision| ≤ b.collision / 100) := by
  have hp : (0 : ℝ) < b.collision := by exact_mod_cast hpos
  refine ⟨_, by unfold balanceEventTest; rw [hc]; rfl, ?_⟩
  simp only [FltReal.le_eq, FltReal.abs_eq, FltReal.sub_eq, FltReal.div_eq, FltReal.ofNat_eq, FltReal.one_eq,
    decide_eq_true_eq, Nat.cast_ofNat]
  have : (crossings : ℝ) / b.collision - 1 = (crossings - b.collision) / b.collision := by field_simp
  rw [this, abs_div, abs_of_pos hp, div_le_iff₀ hp]
  constructor <;> intro h <;> linarith

/-- **C68**, ratios.  With reactions of each kind, the ratio check passes exactly when the expected shares are kept. -/
theorem C68_ratios (coral1 : Bool) (b : Balance) (ha : 0 < b.absorb) (hs : 0 < b.scatter) (hf : 0 < b.fission) :
    balanceRatioTest (T := ℝ) coral1 b = true ↔ SharesKept coral1 b.absorb b.scatter b.fission := by
  have ha' : (0 : ℝ) < b.absorb := by exact_mod_cast ha
  have hs' : (0 : ℝ) < b.scatter := by exact_mod_cast hs
  have hf' : (0 : ℝ) < b.fission := by exact_mod_cast hf
  have e : ∀ x y a c : ℝ, 0 < y → 0 < c → x / a * (c / y) = x / a / (y / c) := by
    intro x y a c hy hc; field_simp
  have self : ∀ x a : ℝ, 0 < x → 0 < a → x / a / (x / a) - 1 = 0 := by
    intro x a hx ha
    rw [div_self (by positivity)]; norm_num
  have l1 : (Flt.lit 5 (-2) : ℝ) = 5 / 100 := by rw [FltReal.lit_eq]; norm_num
  have l2 : (Flt.lit 75 (-3) : ℝ) = 75 / 1000 := by rw [FltReal.lit_eq]; norm_num
  have l3 : (Flt.lit 1 0 : ℝ) = 1 := by rw [FltReal.lit_eq]; norm_num
  have l4 : (Flt.lit 830 (-3) : ℝ) = 830 / 1000 := by rw [FltReal.lit_eq]; norm_num
  have l5 : (Flt.lit 4 (-2) : ℝ) = 4 / 100 := by rw [FltReal.lit_eq]; norm_num
  have l6 : (Flt.lit 94 (-3) : ℝ) = 94 / 1000 := by rw [FltReal.lit_eq]; norm_num
  have l7 : (Flt.lit 11 (-1) : ℝ) = 11 / 10 := by rw [FltReal.lit_eq]; norm_num
  have l8 : (11 / 10 / 100 : ℝ) = 11 / 1000 := by norm_num
  have main : ∀ a s f tol : ℝ, 0 < a → 0 < s → 0 < f → 0 < tol →
      ((!(decide (tol < |b.absorb / a * (s / b.scatter) - 1|) || decide (tol < |b.absorb / a * (f / b.fission) - 1|) ||
        decide (tol < |b.scatter / s * (a / b.absorb) - 1|) || decide (tol < |b.scatter / s * (f / b.fission) - 1|) ||
        decide (tol < |b.fission / f * (a / b.absorb) - 1|) || decide (tol < |b.fission / f * (s / b.scatter) - 1|))) =
        true ↔ ∀ x ∈ [b.absorb / a, b.scatter / s, b.fission / f], ∀ y ∈ [b.absorb / a, b.scatter / s, b.fission / f],
          |x / y - 1| ≤ tol) := by
    intro a s f tol h1 h2 h3 h4
    simp only [Bool.not_eq_true', Bool.or_eq_false_iff, decide_eq_false_iff_not, not_lt, List.mem_cons,
      List.not_mem_nil, or_false, forall_eq_or_imp, forall_eq]
    rw [e _ _ _ _ hs' h2, e _ _ _ _ hf' h3, e _ _ _ _ ha' h1, e _ _ _ _ hf' h3, e _ _ _ _ ha' h1, e _ _ _ _ hs' h2,
      self _ _ ha' h1, self _ _ hs' h2, self _ _ hf' h3, abs_zero]
    have := h4.le
    tauto
  cases coral1
  · have := main (94 / 1000) (830 / 1000) (75 / 1000) (11 / 1000) (by norm_num) (by norm_num) (by norm_num) (by norm_num)
    simpa [balanceRatioTest, SharesKept, expectedShares, l2, l4, l6, l7, l8] using this
  · have := main (4 / 100) 1 (5 / 100) (1 / 100) (by norm_num) (by norm_num) (by norm_num) (by norm_num)
    simpa [balanceRatioTest, SharesKept, expectedShares, l1, l3, l5] using this

/-! ## Numbers of a binary format -/

namespace Num
variable {F : Format}

theorem lit_pos {m : ℕ} {e : ℤ} (h0 : (2 : ℝ) ^ (-10 : ℤ) ≤ m * 10 ^ e) : ∃ x, (Flt.lit m e : Num F).val = some x ∧ 0 < x := by
  refine ⟨_, Ieee.val_lit (T := Num F) m e, ?_⟩
  have h1 : ((((1 : ℕ) : ℝ) * 2 ^ (-10 : ℤ) : ℝ) : EReal) ≤ (((m : ℝ) * 10 ^ e : ℝ) : EReal) := by
    rw [EReal.coe_le_coe_iff]; simpa using h0
  have h2 := Ieee.rndLit_mono (T := Num F) h1
  rw [Ieee.rndLit_exact 1 (-10) (by norm_num) (by norm_num) (by norm_num)] at h2
  refine lt_of_lt_of_le ?_ h2
  rw [← EReal.coe_zero, EReal.coe_lt_coe_iff]
  positivity

theorem zero_val : (Flt.ofNat 0 : Num F).val = some 0 := by
  have := Ieee.val_ofNat (T := Num F) 0
  have h := Ieee.rnd_exact (T := Num F) 0 0 (by norm_num) (by norm_num) (by norm_num)
  simp only [Nat.cast_zero, zero_mul] at h
  rw [Nat.cast_zero, h] at this
  exact this

theorem div_zero_inf {a b : Num F} {x : EReal} (ha : a.val = some x) (hx : x ≠ 0) (hb : b.val = some 0) :
    (a /. b).val = some ⊤ ∨ (a /. b).val = some ⊥ := by
  show (Num.div a b).val = _ ∨ (Num.div a b).val = _
  unfold Num.div
  rw [ha, hb]
  dsimp only
  rw [if_pos rfl, if_neg hx]
  split
  · right; show some (F.rnd ⊥) = _; simp [Format.rnd]
  · left; show some (F.rnd ⊤) = _; simp [Format.rnd]

theorem div_zero_nan {a b : Num F} (ha : a.val = some 0) (hb : b.val = some 0) : (a /. b).val = none := by
  show (Num.div a b).val = _
  unfold Num.div
  rw [ha, hb]
  dsimp only
  rw [if_pos rfl, if_pos rfl]
  rfl

theorem abs_nan {a : Num F} (h : a.val = none) : (Flt.abs a).val = none := by
  show (if ∃ x, a.val = some x ∧ x < 0 then a.opp else (⟨a.val, false, a.rep⟩ : Num F)).val = none
  rw [if_neg (by rw [h]; rintro ⟨x, hx, _⟩; cases hx)]
  exact h

theorem abs_inf {a : Num F} (h : a.val = some ⊤ ∨ a.val = some ⊥) : (Flt.abs a).val = some ⊤ := by
  show (if ∃ x, a.val = some x ∧ x < 0 then a.opp else (⟨a.val, false, a.rep⟩ : Num F)).val = some ⊤
  rcases h with h | h
  · rw [if_neg (by rw [h]; rintro ⟨x, hx, h0⟩; cases hx; simp at h0)]
    exact h
  · rw [if_pos ⟨⊥, h, by simp⟩]
    show a.val.map (- ·) = _
    rw [h]; simp

/-- Comparing a number that is zero with another one: not-a-number. -/
theorem ratio_nan {x r q y : Num F} {v w : EReal} (hx : x.val = some 0) (hr : r.val = some v) (hv : v ≠ 0)
    (hq : q.val = some w) (hw : w ≠ 0) (hy : y.val = some 0) :
    (Flt.abs ((x /. r) *. (q /. y) -. one)).val = none := by
  apply abs_nan
  have h1 : (x /. r).val = some 0 := by
    rw [show (x /. r).val = _ from div_val x r (by rw [hr]; simpa using hv), hx, hr]
    unfold ieeeDiv
    dsimp only
    rw [if_neg (by rintro ⟨h | h, _⟩ <;> simp at h), EReal.zero_div]
    have h := Ieee.rnd_exact (T := Num F) 0 0 (by norm_num) (by norm_num) (by norm_num)
    simp only [Nat.cast_zero, zero_mul] at h
    exact congrArg some h
  have h2 : ((x /. r) *. (q /. y)).val = none := by
    rw [show ((x /. r) *. (q /. y)).val = _ from mul_val _ _, h1]
    unfold ieeeMul
    rcases div_zero_inf hq hw hy with h | h <;> rw [h] <;> dsimp only <;> rw [if_pos (by simp)]
  rw [show ((x /. r) *. (q /. y) -. one).val = _ from add_val _ _, h2]
  rfl

theorem gt_nan {a b : Num F} (h : a.val = none) : (a >. b) = false := by
  rw [Bool.eq_false_iff]
  intro hc
  obtain ⟨x, y, _, hy, _⟩ := (cmp_iff _ b a).1 hc
  rw [h] at hy
  cases hy

end Num

/-- **C68**, ratios, violation: with rounding, when no reaction has happened at all, every ratio is not-a-number and
the check passes, for both benchmarks and in every format. -/
theorem C68_ratios_violated (F : Format) (coral1 : Bool) (b : Balance) (ha : b.absorb = 0) (hs : b.scatter = 0)
    (hf : b.fission = 0) : balanceRatioTest (T := Num F) coral1 b = true := by
  have l : ∀ x y : Num F, (∃ v, x.val = some v ∧ 0 < v) → (∃ v, y.val = some v ∧ 0 < v) →
      (Flt.abs ((Flt.ofNat 0 /. x) *. (y /. Flt.ofNat 0) -. one) : Num F).val = none := by
    rintro x y ⟨v, hv, hv0⟩ ⟨w, hw, hw0⟩
    exact Num.ratio_nan Num.zero_val hv hv0.ne' hw hw0.ne' Num.zero_val
  have h1 : ∃ v, (Flt.lit 5 (-2) : Num F).val = some v ∧ 0 < v := Num.lit_pos (by norm_num)
  have h2 : ∃ v, (Flt.lit 75 (-3) : Num F).val = some v ∧ 0 < v := Num.lit_pos (by norm_num)
  have h3 : ∃ v, (Flt.lit 1 0 : Num F).val = some v ∧ 0 < v := Num.lit_pos (by norm_num)
  have h4 : ∃ v, (Flt.lit 830 (-3) : Num F).val = some v ∧ 0 < v := Num.lit_pos (by norm_num)
  have h5 : ∃ v, (Flt.lit 4 (-2) : Num F).val = some v ∧ 0 < v := Num.lit_pos (by norm_num)
  have h6 : ∃ v, (Flt.lit 94 (-3) : Num F).val = some v ∧ 0 < v := Num.lit_pos (by norm_num)
  unfold balanceRatioTest
  rw [ha, hs, hf]
  cases coral1
  · simp only [Bool.false_eq_true, if_false, Num.gt_nan (l _ _ h6 h4), Num.gt_nan (l _ _ h6 h2), Num.gt_nan (l _ _ h4 h6),
      Num.gt_nan (l _ _ h4 h2), Num.gt_nan (l _ _ h2 h6), Num.gt_nan (l _ _ h2 h4)]
    rfl
  · simp only [if_true, Num.gt_nan (l _ _ h5 h3), Num.gt_nan (l _ _ h5 h1), Num.gt_nan (l _ _ h3 h5),
      Num.gt_nan (l _ _ h3 h1), Num.gt_nan (l _ _ h1 h5), Num.gt_nan (l _ _ h1 h3)]
    rfl

/-- **C68**, events: with rounding, the event check does not pass when there is no collision. -/
theorem C68_events_none (F : Format) (b : Balance) (crossings : Nat) (hc : facetCrossingCount b = .ok crossings)
    (h0 : b.collision = 0) : balanceEventTest (T := Num F) b = .ok false := by
  unfold balanceEventTest
  rw [hc, h0]
  show Except.ok _ = _
  congr 1
  rw [Bool.eq_false_iff]
  intro h
  obtain ⟨x, y, hx, hy, hle⟩ := (Num.cmp_iff _ _ _).1 h
  have hone : (one : Num F).val = some 1 := by
    have h := Ieee.rnd_exact (T := Num F) 1 0 (by norm_num) (by norm_num) (by norm_num)
    have := Ieee.val_ofNat (T := Num F) 1
    simp only [Nat.cast_one, one_mul, zpow_zero] at h
    rw [Nat.cast_one, h] at this
    exact this
  obtain ⟨v, hv⟩ : ∃ v, (Flt.ofNat crossings : Num F).val = some v := ⟨_, Ieee.val_ofNat (T := Num F) crossings⟩
  by_cases hz : v = 0
  · subst hz
    have h1 : ((Flt.ofNat crossings : Num F) /. Flt.ofNat 0 -. one).val = none := by
      rw [show ((Flt.ofNat crossings : Num F) /. Flt.ofNat 0 -. one).val = _ from Num.add_val _ _,
        Num.div_zero_nan hv Num.zero_val]
      rfl
    rw [Num.abs_nan h1] at hx
    cases hx
  · have h1 : ((Flt.ofNat crossings : Num F) /. Flt.ofNat 0 -. one).val = some ⊤ ∨
        ((Flt.ofNat crossings : Num F) /. Flt.ofNat 0 -. one).val = some ⊥ := by
      rw [show ((Flt.ofNat crossings : Num F) /. Flt.ofNat 0 -. one).val = _ from Num.add_val _ _]
      have hn : (Num.opp (one : Num F)).val = some (-1) := by
        show (one : Num F).val.map (- ·) = _
        rw [hone]; rfl
      have hb : (-1 : EReal) ≠ ⊥ := by
        rw [show (-1 : EReal) = ((-1 : ℝ) : EReal) by norm_num]; exact EReal.coe_ne_bot _
      have ht : (-1 : EReal) ≠ ⊤ := by
        rw [show (-1 : EReal) = ((-1 : ℝ) : EReal) by norm_num]; exact EReal.coe_ne_top _
      rcases Num.div_zero_inf hv hz Num.zero_val with h | h <;> rw [h, hn] <;> unfold ieeeAdd <;> dsimp only
      · left
        rw [if_neg (by rintro (⟨_, h⟩ | ⟨h, _⟩); exacts [hb h, bot_ne_top h.symm]), EReal.top_add_of_ne_bot hb]
        simp [Format.rnd]
      · right
        rw [if_neg (by rintro (⟨h, _⟩ | ⟨_, h⟩); exacts [bot_ne_top h, ht h]), EReal.bot_add]
        simp [Format.rnd]
    rw [Num.abs_inf h1] at hx
    cases hx
    have h100 : (Flt.ofNat 100 : Num F).val = some ((100 : ℝ) : EReal) := by
      have h := Ieee.rnd_exact (T := Num F) 100 0 (by norm_num) (by norm_num) (by norm_num)
      have := Ieee.val_ofNat (T := Num F) 100
      simp only [zpow_zero, mul_one] at h
      rw [h] at this
      exact this
    have hd : ((one : Num F) /. Flt.ofNat 100).val = some (F.rnd (1 / ((100 : ℝ) : EReal))) := by
      rw [show ((one : Num F) /. Flt.ofNat 100).val = _ from Num.div_val _ _ (by rw [h100]; simp), hone, h100]
      unfold ieeeDiv
      dsimp only
      rw [if_neg (by rintro ⟨_, h | h⟩; exacts [EReal.coe_ne_top _ h, EReal.coe_ne_bot _ h])]
    rw [hd] at hy
    cases hy
    have hm : F.rnd (1 / ((100 : ℝ) : EReal)) ≤ F.rnd 1 := by
      refine Ieee.rnd_mono (T := Num F) ?_
      rw [← EReal.coe_one, ← EReal.coe_div, EReal.coe_le_coe_iff]; norm_num
    have h1 := Ieee.rnd_exact (T := Num F) 1 0 (by norm_num) (by norm_num) (by norm_num)
    simp only [Nat.cast_one, one_mul, zpow_zero] at h1
    rw [show F.rnd 1 = 1 from h1] at hm
    have := hle.trans hm
    rw [top_le_iff, ← EReal.coe_one] at this
    exact EReal.coe_ne_top _ this

/-! ## The hypotheses are met -/

theorem coralChecks_events {T : Type} [Flt T] {bench : BenchType} {s : SimState T} {v : Verdicts}
    (h : coralChecks bench s = .ok (some v)) : balanceEventTest (T := T) s.cumulative = .ok v.events := by
  unfold coralChecks at h
  split at h
  · cases h
  · obtain ⟨e, he, h⟩ := bind_ok.1 h
    cases pure_ok.1 h
    exact he

/-- The toy run has collisions of each kind; its event and ratio checks can be evaluated. -/
example : ∃ s, RunCore toyData toyExec toyOpts 20 toySim s ∧ StartOfRun toySim ∧
    ∃ v, coralChecks .coral2 s = .ok (some v) ∧ v.missing = true ∧ v.events = false ∧ v.ratios = false := by
  obtain ⟨s, h1, h2, _⟩ := toyRun_core
  have h0 : StartOfRun toySim := ⟨rfl, rfl, rfl, rfl, rfl, rfl⟩
  refine ⟨s, h1, h0, ?_⟩
  have hcum := (C07_counters_chain _ _ _ _ _ _ h0 h1).2.2.2.2.2.1
  have hc : s.cumulative = Balance.sum (toyReports.map fun r => r.2) := by
    rw [hcum, ← h2, List.map_map]; rfl
  obtain ⟨v, hv, hm, hr, _, cr, _, _, he⟩ := (C68_checks _ _ _ _ _ _ h0 h1).2 .coral2 (by decide)
  refine ⟨v, hv, hm, ?_, ?_⟩
  · have hk := coralChecks_events hv
    rw [hc, show balanceEventTest (T := Toy) (Balance.sum (toyReports.map fun r => r.2)) = .ok false by
      decide +kernel] at hk
    exact (Except.ok.inj hk).symm
  · rw [hr, hc]; decide +kernel

/-- Counts that keep the shares of CORAL 1, and counts that do not; the event check passes at 101 crossings for 100
collisions and not at 102. -/
example : balanceRatioTest (T := ℝ) true { absorb := 4, scatter := 100, fission := 5 } = true ∧
    balanceRatioTest (T := ℝ) true { absorb := 5, scatter := 100, fission := 5 } = false ∧
    balanceEventTest (T := ℝ) { numSegments := 201, collision := 100 } = .ok true ∧
    balanceEventTest (T := ℝ) { numSegments := 202, collision := 100 } = .ok false := by
  refine ⟨?_, ?_, ?_, ?_⟩
  · rw [C68_ratios _ _ (by norm_num) (by norm_num) (by norm_num)]
    intro x hx y hy
    simp only [List.mem_cons, List.not_mem_nil, or_false] at hx hy
    rcases hx with rfl | rfl | rfl <;> rcases hy with rfl | rfl | rfl <;> norm_num
  · rw [Bool.eq_false_iff, ne_eq, C68_ratios _ _ (by norm_num) (by norm_num) (by norm_num)]
    intro h
    have := h (5 / (4 / 100)) (by simp) (100 / 1) (by simp)
    norm_num [abs_of_pos] at this
  · obtain ⟨p, h1, h2⟩ := C68_events { numSegments := 201, collision := 100 } 101 rfl (by norm_num)
    rw [h1, h2.2 (by norm_num [abs_of_pos])]
  · obtain ⟨p, h1, h2⟩ := C68_events { numSegments := 202, collision := 100 } 102 rfl (by norm_num)
    have : p = false := by
      rw [Bool.eq_false_iff, ne_eq, h2]
      norm_num [abs_of_pos]
    rw [h1, this]
