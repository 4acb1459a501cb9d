import Verif.Model.ToyProblem
import Verif.Lemmas.CycleCount
/-!
# A concrete run

The toy problem of `Verif/Model/ToyProblem.lean` evaluated by the kernel: a run of two cycles with
sourcing, splitting, roulette, scattering, absorption, fission, escape and census.  It meets the
hypotheses of the theorems about whole runs.
-/
open Flt

/-- Sequential execution settings. -/
def toyExec : ExecInfo := { policy := .sequential, nUnits := 1, nRayonThreads := 1, chunkSize := 0 }

/-- Output options of the toy run. -/
def toyOpts : SyncOpts := ⟨false, true⟩

/-- What the toy run reports: index of the cycle and balance. -/
def toyReports : List (Nat × Balance) :=
  [(0, { absorb := 0, census := 4, escape := 0, collision := 0, end_ := 4, fission := 0,
         produce := 0, scatter := 0, start := 0, source := 1, overRr := 0, weightRr := 12,
         split := 15, numSegments := 4 }),
   (1, { absorb := 7, census := 1, escape := 4, collision := 15, end_ := 1, fission := 4,
         produce := 8, scatter := 4, start := 4, source := 1, overRr := 0, weightRr := 8,
         split := 11, numSegments := 20 })]

/-- Test evaluated by the kernel. -/
def toyCheck : Bool :=
  match toyRun with
  | .ok s => decide ((s.reports.map fun r => (r.1, r.2.1)) = toyReports) && decide (s.spectrum = [5, 0]) &&
    decide (s.unit.dom.cells.map (·.sourceTally) = [2])
  | .error _ => false

theorem toyCheck_true : toyCheck = true := by decide +kernel

theorem toyRun_ok : ∃ s, toyRun = .ok s ∧ (s.reports.map fun r => (r.1, r.2.1)) = toyReports ∧
    s.spectrum = [5, 0] ∧ s.unit.dom.cells.map (·.sourceTally) = [2] := by
  have h := toyCheck_true
  unfold toyCheck at h
  split at h
  · next s hs =>
    simp only [Bool.and_eq_true, decide_eq_true_eq] at h
    exact ⟨s, hs, h.1.1, h.1.2, h.2⟩
  · cases h

theorem toyCycle_sound {n : Nat} {s0 s s' : SimState Toy}
    (h0 : Cycles toyData toyExec toyOpts 20 n s0 s) (h : toyCycle n s = .ok s') :
    Cycles toyData toyExec toyOpts 20 (n + 1) s0 s' := by
  simp only [toyCycle, bind_ok, pure_ok, Prod.exists] at h
  obtain ⟨s1, hs1, u, c, hpc, u2, c2, hl, rfl⟩ := h
  exact .succ h0 hs1 ⟨u, c, hpc, processLoopSeq_sound rfl hl⟩

/-- The toy run is a run of the model. -/
theorem toyRun_core : ∃ s, RunCore toyData toyExec toyOpts 20 toySim s ∧
    (s.reports.map fun r => (r.1, r.2.1)) = toyReports ∧ s.spectrum = [5, 0] := by
  obtain ⟨s, hs, h1, h2, _⟩ := toyRun_ok
  refine ⟨s, ?_, h1, h2⟩
  simp only [toyRun, bind_ok] at hs
  obtain ⟨s1, hs1, s2, hs2, hs3⟩ := hs
  exact ⟨s2, toyCycle_sound (toyCycle_sound .zero hs1) hs2, hs3⟩

theorem toySim_initial : InitialState toySim := ⟨rfl, rfl, rfl, rfl, rfl, rfl⟩
