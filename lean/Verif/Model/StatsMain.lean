import Verif.Model.Stats
/-!
# The program `fastiron-stats`

Models `fastiron-stats/src/main.rs`, the options of `fastiron-stats/src/command_line.rs` and the scaling studies of
`fastiron-stats/src/structures/processed.rs` 292-613 from the files they read to the tables they save.

Simplifications.  The files that exist are a function from names to contents.  What the program writes is the list of
its effects: a table is created with its title line, then its lines are added.  Of a plot only its reading of the data
and the fact that it is shown are modelled, and `gnuplot` is supposed to be installed.  Messages on the terminal are
left out, and so is the help that is shown when there is no option at all.  The conversion of the index of a run to
`u32` is left out, because so many runs would overflow the number of threads.
-/
open Flt

/-- `ScalingParams`, `command_line.rs` 47-60. -/
structure ScalingParams where
  tInit : Option Nat
  tIter : Option Nat
  tFactor : Option Nat
deriving DecidableEq, Repr

/-- `Cli`, `command_line.rs` 9-44; the option of the comparison has two names (`num_args(2)`). -/
structure StatsCli where
  comparison : Option (List Char × List Char)
  correlation : Option (List Char)
  weakRoot : Option (List Char)
  strongRoot : Option (List Char)
  params : ScalingParams
  plot : Bool
deriving DecidableEq, Repr

/-- `requires_all(vec!["t_init", "t_iter", "t_factor"])` of the two scaling options, `command_line.rs` 19-36: other
command lines end in an error message of `clap`. -/
def StatsCli.accepted (c : StatsCli) : Bool :=
  (c.weakRoot.isNone && c.strongRoot.isNone) ||
    (c.params.tInit.isSome && c.params.tIter.isSome && c.params.tFactor.isSome)

/-- The files that can be opened. -/
abbrev Files := List Char → Option (List (List Char))

/-- The tables that the program saves. -/
inductive OutFile where
  | comparison
  | correlation
  | tracking (ty : ScalingType)
  | others (ty : ScalingType)
deriving DecidableEq, Repr

/-- The name of a table, `processed.rs` 50, 182, 325-328 and 365-368. -/
def OutFile.name : OutFile → String
  | .comparison => "comparison.csv"
  | .correlation => "correlation.csv"
  | .tracking .weak => "weak_scaling_tracking.csv"
  | .tracking (.strong _) => "strong_scaling_tracking.csv"
  | .others .weak => "weak_scaling_others.csv"
  | .others (.strong _) => "strong_scaling_others.csv"

/-- The lines of a table. -/
inductive TableLines (T : Type) where
  | comparison (rows : List (Section × T × T × T))
  | correlation (rows : List (String × List T))
  | tracking (rows : List (Nat × T × T × T × T))
  | others (rows : List (Nat × T × T × T))

/-- What the program does to the outside. -/
inductive Effect (T : Type) where
  /-- a table is emptied or created, and its title line is written -/
  | create (f : OutFile)
  /-- lines are added to a table -/
  | lines (f : OutFile) (ls : TableLines T)
  /-- a plot is shown: its number among those of the study -/
  | plot (f : OutFile) (i : Nat)

/-- A piece of the program: its effects, then its result or its panic. -/
def Acts (T α : Type) := List (Effect T) × Except Panic α

namespace Acts
variable {T α β : Type}

/-- Nothing, with a result. -/
def pure (a : α) : Acts T α := ([], .ok a)

/-- One piece and then another: a panic of the first one hides the second. -/
def bind (x : Acts T α) (f : α → Acts T β) : Acts T β :=
  match x.2 with
  | .ok a => (x.1 ++ (f a).1, (f a).2)
  | .error e => (x.1, .error e)

instance : Monad (Acts T) where
  pure := Acts.pure
  bind := Acts.bind

/-- An effect. -/
def emit (e : Effect T) : Acts T Unit := ([e], .ok ())

/-- A computation without effects. -/
def compute (x : Except Panic α) : Acts T α := ([], x)

end Acts

variable {T : Type} [Flt T]

/-- The part of `ScalingResults`, `processed.rs` 300-317, from which its six lists of times are taken: the numbers of
threads and the report of each run. -/
structure ScalingResults (T : Type) where
  threads : List Nat
  reports : List (List (SummarizedVariable T))

/-- The name of the report of a run, `processed.rs` 580: `format!("{}{}.csv", root_path, n_thread)`. -/
def reportName (fmt : TextFormat T) (root : List Char) (n : Nat) : List Char :=
  root ++ fmt.showNat n ++ ['.', 'c', 's', 'v']

/-- `TimerReport::from(File::open(filename).unwrap())`, `processed.rs` 581 and `main.rs` 19-20. -/
def openTimers (fmt : TextFormat T) (files : Files) (name : List Char) :
    Except Panic (List (SummarizedVariable T)) := do
  let file ← unwrap (files name)
  readTimers fmt file

/-- `ScalingResults::from`, `processed.rs` 571-612.  The first number of threads and the factor are only unwrapped for
an existing run. -/
def scalingResults (fmt : TextFormat T) (files : Files) (root : List Char) (p : ScalingParams) :
    Except Panic (ScalingResults T) := do
  let iter ← unwrap p.tIter
  let threads ← if iter = 0 then .ok [] else do
    let init ← unwrap p.tInit
    let factor ← unwrap p.tFactor
    scalingThreads init iter factor
  let reports ← threads.mapM fun n => openTimers fmt files (reportName fmt root n)
  return { threads := threads, reports := reports }

/-- `save_others`, `processed.rs` 360-388: threads, total time, average times of population control and of
synchronisation. -/
def othersRows (threads : List Nat) (reports : List (List (SummarizedVariable T))) :
    Except Panic (List (Nat × T × T × T)) := do
  let mains ← reports.mapM fun r => do return (← timerIndex r .main).mean
  let pops ← reports.mapM fun r => do return (← timerIndex r .populationControl).mean
  let syncs ← reports.mapM fun r => do return (← timerIndex r .cycleSync).mean
  assertB (mains.length == threads.length)
  assertB (pops.length == threads.length)
  assertB (syncs.length == threads.length)
  (List.range threads.length).mapM fun i => do
    return (← idx threads i, ← idx mains i, ← idx pops i, ← idx syncs i)

/-- `plot_tracking`, `plot_se` and `plot_others`, `processed.rs` 442-561 and 391-440: all three read the number of
threads of the second and of the first run for the scale of the axis. -/
def scalingPlot (ty : ScalingType) (threads : List Nat) (i : Nat) : Acts T Unit := do
  let _ ← Acts.compute (idx threads 1)
  let _ ← Acts.compute (idx threads 0)
  Acts.emit (.plot (.tracking ty) i)

/-- A scaling study, `main.rs` 48-62 and 64-81. -/
def scalingStudy (fmt : TextFormat T) (files : Files) (p : ScalingParams) (plot : Bool) (ty : ScalingType)
    (root : List Char) : Acts T Unit := do
  let r ← Acts.compute (scalingResults fmt files root p)
  Acts.emit (.create (.tracking ty))
  let rows ← Acts.compute (trackingRows ty r.threads r.reports)
  Acts.emit (.lines (.tracking ty) (.tracking rows))
  Acts.emit (.create (.others ty))
  let others ← Acts.compute (othersRows r.threads r.reports)
  Acts.emit (.lines (.others ty) (.others others))
  if plot then
    scalingPlot ty r.threads 0
    scalingPlot ty r.threads 1
    scalingPlot ty r.threads 2
  else Acts.pure ()

/-- The comparison of two reports, `main.rs` 16-29. -/
def comparisonStudy (fmt : TextFormat T) (files : Files) (plot : Bool) (names : List Char × List Char) :
    Acts T Unit := do
  let old ← Acts.compute (openTimers fmt files names.1)
  let new ← Acts.compute (openTimers fmt files names.2)
  let rows ← Acts.compute (comparisonRows old new)
  Acts.emit (.create .comparison)
  Acts.emit (.lines .comparison (.comparison rows))
  if plot then Acts.emit (.plot .comparison 0) else Acts.pure ()

/-- The correlations of a report of the tallies, `main.rs` 31-46. -/
def correlationStudy (fmt : TextFormat T) (files : Files) (plot : Bool) (name : List Char) : Acts T Unit := do
  let file ← Acts.compute (unwrap (files name))
  let report ← Acts.compute (readTallies fmt file)
  let data ← Acts.compute (correlationResults report)
  Acts.emit (.create .correlation)
  let rows ← Acts.compute (saveCorrelation data)
  Acts.emit (.lines .correlation (.correlation rows))
  if plot then Acts.emit (.plot .correlation 0) else Acts.pure ()

/-- `if let Some(x) = option { … }`. -/
def ifSome {α : Type} (o : Option α) (f : α → Acts T Unit) : Acts T Unit :=
  match o with
  | some a => f a
  | none => Acts.pure ()

/-- `main`, `main.rs` 12-83. -/
def statsMain (fmt : TextFormat T) (files : Files) (c : StatsCli) : Acts T Unit := do
  ifSome c.comparison (comparisonStudy fmt files c.plot)
  ifSome c.correlation (correlationStudy fmt files c.plot)
  ifSome c.weakRoot (scalingStudy fmt files c.params c.plot .weak)
  ifSome c.strongRoot fun root => do
    let factor ← Acts.compute (unwrap c.params.tFactor)
    scalingStudy fmt files c.params c.plot (.strong factor) root
