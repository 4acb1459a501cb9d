import Verif.Model.Flt
/-!
# Timers

Models `fastiron/src/utils/mc_fast_timer.rs` and the places where `fastiron/src/main.rs` calls it.

Simplifications.  A `Duration` is its number of nanoseconds; `Duration::MAX` is one nanosecond below `2^64`
seconds, and sums and products above it panic.  The quotient of a duration by an integer is rounded down.  A
reading of the clock is a number of nanoseconds given by the environment; `duration_since` gives zero when the
clock went backwards, as the subtraction of natural numbers does.  The counter of calls (`u64`) is a natural
number.
-/

/-- `Section`, `mc_fast_timer.rs` 16-30. -/
inductive Section where
  | main
  | populationControl
  | cycleTracking
  | cycleTrackingProcess
  | cycleTrackingSort
  | cycleSync
deriving DecidableEq, Repr

/-- `MCFastTimer`, `mc_fast_timer.rs` 46-59, and the entries of the four arrays of `MCFastTimerContainer` (82-90)
for one section. -/
structure SectionTimer where
  startClock : Nat
  endClock : Nat
  lastCycle : Nat
  cumulative : Nat
  numCalls : Nat
  avg : Nat
  max : Nat
  min : Nat
  tot : Nat
deriving DecidableEq, Repr

/-- `MCFastTimerContainer`, `mc_fast_timer.rs` 75-91: the arrays are functions of the section. -/
structure Timers where
  nAvg : Nat
  sec : Section → SectionTimer

/-- `Duration::MAX`. -/
def maxDuration : Nat := 2 ^ 64 * 10 ^ 9 - 1

/-- A duration, or the panic of its computation. -/
def duration (n : Nat) : Except Panic Nat := if n ≤ maxDuration then .ok n else .error .overflow

/-- `MCFastTimerContainer::default`, `mc_fast_timer.rs` 229-240 and 61-71. -/
def Timers.default : Timers :=
  { nAvg := 0
    sec := fun _ => { startClock := 0, endClock := 0, lastCycle := 0, cumulative := 0, numCalls := 0,
                      avg := 0, max := 0, min := maxDuration, tot := 0 } }

/-- Assignment to the entry of a section. -/
def Timers.set (t : Timers) (s : Section) (x : SectionTimer) : Timers :=
  { t with sec := fun s' => if s' = s then x else t.sec s' }

/-- `start`, `mc_fast_timer.rs` 243-246. -/
def SectionTimer.start (x : SectionTimer) (now : Nat) : SectionTimer := { x with startClock := now }

/-- `stop`, `mc_fast_timer.rs` 249-259. -/
def SectionTimer.stop (x : SectionTimer) (now : Nat) : Except Panic SectionTimer := do
  let last ← duration (x.lastCycle + (now - x.startClock))
  let cum ← duration (x.cumulative + (now - x.startClock))
  return { x with endClock := now, lastCycle := last, cumulative := cum, numCalls := x.numCalls + 1 }

/-- One section in `clear_last_cycle_timers`, `mc_fast_timer.rs` 198-212; `n` is the new value of `n_avg`. -/
def SectionTimer.clear (n : Nat) (x : SectionTimer) : Except Panic SectionTimer := do
  let tot ← duration (x.tot + x.lastCycle)
  let prod ← duration (x.avg * (n - 1))
  let num ← duration (prod + x.lastCycle)
  return { x with
    tot := tot
    min := if x.min > x.lastCycle then x.lastCycle else x.min
    max := if x.max < x.lastCycle then x.lastCycle else x.max
    avg := num / n
    lastCycle := 0 }

/-- `clear_last_cycle_timers`, `mc_fast_timer.rs` 189-214: every section but the first. -/
def Timers.clear (t : Timers) : Except Panic Timers := do
  let n := t.nAvg + 1
  if n < 2 ^ 32 then
    let pc ← (t.sec .populationControl).clear n
    let ct ← (t.sec .cycleTracking).clear n
    let cp ← (t.sec .cycleTrackingProcess).clear n
    let cs ← (t.sec .cycleTrackingSort).clear n
    let sy ← (t.sec .cycleSync).clear n
    return { nAvg := n
             sec := fun s => match s with
               | .main => t.sec .main
               | .populationControl => pc
               | .cycleTracking => ct
               | .cycleTrackingProcess => cp
               | .cycleTrackingSort => cs
               | .cycleSync => sy }
  else .error .overflow

/-- `update_main_stats`, `mc_fast_timer.rs` 217-226. -/
def Timers.updateMain (t : Timers) : Timers :=
  let x := t.sec .main
  let d := x.endClock - x.startClock
  t.set .main { x with avg := d, min := d, max := d, tot := d }

/-- The calls of the timers. -/
inductive TimerOp where
  | start (s : Section) (now : Nat)
  | stop (s : Section) (now : Nat)
  | clear
  | updateMain
deriving DecidableEq, Repr

/-- Effect of a call. -/
def Timers.step (t : Timers) : TimerOp → Except Panic Timers
  | .start s now => .ok (t.set s ((t.sec s).start now))
  | .stop s now => do
    let x ← (t.sec s).stop now
    return t.set s x
  | .clear => t.clear
  | .updateMain => .ok t.updateMain

/-- Effect of a sequence of calls. -/
def Timers.run (ops : List TimerOp) (t : Timers) : Except Panic Timers := ops.foldlM Timers.step t

/-- The readings of the clock during one iteration of the core loop: `cycle_sync` and `cycle_process`. -/
structure CycleClock where
  syncStart : Nat
  syncStop : Nat
  popStart : Nat
  popStop : Nat
  trackStart : Nat
  /-- for each iteration of the tracking loop: start and stop of the sort, start and stop of the processing -/
  loops : List (Nat × Nat × Nat × Nat)
  trackStop : Nat
deriving DecidableEq, Repr

/-- The calls made by `cycle_sync`, `main.rs` 236-284, at a given step. -/
def syncOps (step start stop : Nat) : List TimerOp :=
  [.start .cycleSync start] ++ (if step ≠ 0 then [.clear] else []) ++ [.stop .cycleSync stop]

/-- The calls made by `cycle_process`, `main.rs` 296-343. -/
def processOps (c : CycleClock) : List TimerOp :=
  [.start .populationControl c.popStart, .stop .populationControl c.popStop,
   .start .cycleTracking c.trackStart] ++
  c.loops.flatMap (fun l =>
    [.start .cycleTrackingSort l.1, .stop .cycleTrackingSort l.2.1,
     .start .cycleTrackingProcess l.2.2.1, .stop .cycleTrackingProcess l.2.2.2]) ++
  [.stop .cycleTracking c.trackStop]

/-- The calls made by the iterations of the core loop from a given step on, `main.rs` 121-130. -/
def cyclesOps : Nat → List CycleClock → List TimerOp
  | _, [] => []
  | step, c :: cs => syncOps step c.syncStart c.syncStop ++ processOps c ++ cyclesOps (step + 1) cs

/-- All the calls of a run, `main.rs` 119-139 and 166: the iterations, the last `cycle_sync` and the end. -/
def runOps (mainStart : Nat) (cs : List CycleClock) (lastSync : Nat × Nat) (mainStop : Nat) :
    List TimerOp :=
  [.start .main mainStart] ++ cyclesOps 0 cs ++ syncOps cs.length lastSync.1 lastSync.2 ++
  [.stop .main mainStop, .updateMain]

/-- One line of `cumulative_report`, `mc_fast_timer.rs` 160-173: calls, shortest, average, longest and total in
microseconds. -/
def SectionTimer.row (x : SectionTimer) : Nat × Nat × Nat × Nat × Nat :=
  (x.numCalls, x.min / 1000, x.avg / 1000, x.max / 1000, x.tot / 1000)
