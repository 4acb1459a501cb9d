import Verif.Spec.Stats
import Verif.Model.StatsMain
/-!
# What a scaling study is about

A study is a series of runs; run `i` used `init * factor ^ i` threads and left the report of its timers in a file whose
name ends with this number.
-/
open Flt

variable {T : Type} [Flt T]

/-- All the runs of a study have left their reports; `t i` are the timers of run `i`. -/
structure StudyFiles (fmt : TextFormat T) (files : Files) (root : List Char) (init iter factor : Nat)
    (t : Nat → Timers) : Prop where
  threads : 0 < init
  small : ∀ i < iter, init * factor ^ i < 2 ^ 64
  reports : ∀ i < iter, ∃ eff : Section → T,
    files (root ++ fmt.showNat (init * factor ^ i) ++ ['.', 'c', 's', 'v']) = some (timerFile fmt eff (t i))

/-- The average time of a section per cycle, in microseconds rounded down. -/
def averageMicros (t : Timers) (s : Section) : T := Flt.ofNat ((t.sec s).avg / 1000)

/-- The line of a run in the table of the tracking: threads, average tracking time, ideal tracking time, average
processing time and average sorting time.  The ideal is the time of the first run, divided by the factor between the
numbers of threads in a strong study. -/
def trackingLine (ty : ScalingType) (init factor : Nat) (t : Nat → Timers) (i : Nat) : Nat × T × T × T × T :=
  (init * factor ^ i, averageMicros (t i) .cycleTracking,
    match ty with
    | .weak => averageMicros (t 0) .cycleTracking
    | .strong f => averageMicros (t 0) .cycleTracking /. Flt.ofNat (f ^ i),
    averageMicros (t i) .cycleTrackingProcess, averageMicros (t i) .cycleTrackingSort)

/-- The line of a run in the other table: threads, time of the whole program, average times of population control and
of synchronisation. -/
def othersLine (init factor : Nat) (t : Nat → Timers) (i : Nat) : Nat × T × T × T :=
  (init * factor ^ i, averageMicros (t i) .main, averageMicros (t i) .populationControl,
    averageMicros (t i) .cycleSync)

/-- The two tables of a study. -/
def studyTables (ty : ScalingType) (init iter factor : Nat) (t : Nat → Timers) : List (Effect T) :=
  [.create (.tracking ty), .lines (.tracking ty) (.tracking ((List.range iter).map (trackingLine ty init factor t))),
   .create (.others ty), .lines (.others ty) (.others ((List.range iter).map (othersLine init factor t)))]

/-- The command line with one study only: 0 for the comparison, 1 for the correlations, 2 for the weak and 3 for the
strong scaling. -/
def StatsCli.only (c : StatsCli) (k : Nat) : StatsCli :=
  { c with
    comparison := if k = 0 then c.comparison else none
    correlation := if k = 1 then c.correlation else none
    weakRoot := if k = 2 then c.weakRoot else none
    strongRoot := if k = 3 then c.strongRoot else none }

/-- Several programs one after the other, up to the first that panics. -/
def inTurn : List (Acts T Unit) → Acts T Unit
  | [] => ([], .ok ())
  | (effects, .ok _) :: rest => (effects ++ (inTurn rest).1, (inTurn rest).2)
  | (effects, .error e) :: _ => (effects, .error e)

/-- The table that an effect creates. -/
def Effect.created : Effect T → Option OutFile
  | .create f => some f
  | _ => none

/-- The tables that a command line asks for, in the order in which they are written. -/
def askedTables (c : StatsCli) : List OutFile :=
  (if c.comparison.isSome then [.comparison] else []) ++
  ((if c.correlation.isSome then [.correlation] else []) ++
  ((if c.weakRoot.isSome then [.tracking .weak, .others .weak] else []) ++
  (if c.strongRoot.isSome then
    [.tracking (.strong (c.params.tFactor.getD 0)), .others (.strong (c.params.tFactor.getD 0))] else [])))

/-- The line of a section in the comparison of two runs: the total times in microseconds and the change of the average
time in percents. -/
def comparisonLine (old new : Timers) (s : Section) : Section × T × T × T :=
  (s, Flt.ofNat ((old.sec s).tot / 1000), Flt.ofNat ((new.sec s).tot / 1000),
    (averageMicros new s -. averageMicros old s) /. averageMicros old s *. Flt.ofNat 100)

/-- The plots of a study, if they are asked for. -/
def plotsOf (plot : Bool) (f : OutFile) (k : Nat) : List (Effect T) :=
  if plot then (List.range k).map (.plot f) else []
