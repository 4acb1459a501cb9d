import Verif.Model.Timers
/-!
# What the timers should report
-/

/-- Time spent in a section during one iteration of the core loop. -/
def CycleClock.time (c : CycleClock) : Section → Nat
  | .main => 0
  | .populationControl => c.popStop - c.popStart
  | .cycleTracking => c.trackStop - c.trackStart
  | .cycleTrackingProcess => (c.loops.map fun l => l.2.2.2 - l.2.2.1).sum
  | .cycleTrackingSort => (c.loops.map fun l => l.2.1 - l.1).sum
  | .cycleSync => c.syncStop - c.syncStart

/-- Number of times a section is entered during one iteration of the core loop. -/
def CycleClock.calls (c : CycleClock) : Section → Nat
  | .main => 0
  | .cycleTrackingProcess | .cycleTrackingSort => c.loops.length
  | _ => 1

/-- The statistics of a section are those of a list of times. -/
structure Summary (times : List Nat) (x : SectionTimer) : Prop where
  shortest : x.min ∈ times ∧ ∀ t ∈ times, x.min ≤ t
  longest : x.max ∈ times ∧ ∀ t ∈ times, t ≤ x.max
  total : x.tot = times.sum
  ordered : x.min ≤ x.avg ∧ x.avg ≤ x.max
  average_le : x.avg * times.length ≤ x.tot
  average_ge : x.tot < x.avg * times.length + times.length ^ 2

/-- The reading of the clock that a call makes. -/
def TimerOp.reading : TimerOp → Option Nat
  | .start _ now => some now
  | .stop _ now => some now
  | _ => none

/-- The clock never goes backwards during a sequence of calls. -/
def Chronological (ops : List TimerOp) : Prop := (ops.filterMap TimerOp.reading).Pairwise (· ≤ ·)
