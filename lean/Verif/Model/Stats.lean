import Verif.Model.Tallies
import Verif.Model.Timers
/-!
# Reports and their post-processing

Models the two reports written by `fastiron` (`fastiron/src/data/tallies.rs` 255-328 and
`fastiron/src/utils/mc_fast_timer.rs` 115-186, the `csv` branches) and the program `fastiron-stats` that reads them
(`fastiron-stats/src/structures/raw.rs` and `processed.rs`), without its plots.

Simplifications.  A file is a list of lines and a line a list of characters.  The `csv` crate is modelled by its
behaviour on files without quotes: fields are separated by `;`, the first line is skipped, and a record whose number
of fields differs from the first line is an error, which the callers unwrap.  Formatting and parsing of numbers are
parameters (`TextFormat`).  The files themselves (opening, appending) are not modelled.
-/
open Flt

/-- Formatting and parsing of numbers. -/
structure TextFormat (T : Type) where
  /-- `{}` of an integer -/
  showNat : Nat → List Char
  /-- `{:e}` of an integer -/
  showNatE : Nat → List Char
  /-- `{:e}` of a float -/
  showNum : T → List Char
  /-- `{:.1}` of a float -/
  showTenth : T → List Char
  /-- `StringRecord::trim` and `str::parse::<f64>` -/
  parse : List Char → Option T

/-- A line of fields separated by a character, as `writeln!` makes it. -/
def joinFields (sep : Char) : List (List Char) → List Char
  | [] => []
  | [f] => f
  | f :: g :: fs => f ++ sep :: joinFields sep (g :: fs)

/-- The fields of a line, as the `csv` crate finds them. -/
def splitFields (sep : Char) : List Char → List (List Char)
  | [] => [[]]
  | c :: cs =>
    if c = sep then [] :: splitFields sep cs
    else match splitFields sep cs with
      | [] => [[c]]
      | f :: fs => (c :: f) :: fs

/-- `csv::Reader::records`, each unwrapped: the records after the first line, all of its length. -/
def csvRecords (sep : Char) : List (List Char) → Except Panic (List (List (List Char)))
  | [] => .ok []
  | header :: lines => lines.mapM fun l => do
    let r := splitFields sep l
    if r.length = (splitFields sep header).length then .ok r else .error .unwrapNone

/-! ### The report of the tallies -/

/-- What one line of the report of the tallies is made of: the step, the balance of the cycle, the sum of the scalar
flux and the times of the three sections. -/
structure TallyLine (T : Type) where
  step : Nat
  bal : Balance
  flux : T
  cyInit : T
  cyTrack : T
  cyFin : T

/-- The first line of `tallies_report.csv`, `tallies.rs` 277. -/
def tallyHeader : List (List Char) :=
  ["cycle", "start", "source", "rr", "split", "absorb", "scatter", "fission", "produce", "collision", "escape",
   "census", "num_seg", "scalar_flux", "ppControl(s)", "cycleTracking(s)", "cycleSync(s)"].map String.toList

/-- The fields of a line of `tallies_report.csv`, `tallies.rs` 306-326. -/
def TallyLine.fields {T : Type} (fmt : TextFormat T) (l : TallyLine T) : List (List Char) :=
  [fmt.showNat l.step, fmt.showNat l.bal.start, fmt.showNat l.bal.source,
   fmt.showNat (l.bal.overRr + l.bal.weightRr), fmt.showNat l.bal.split, fmt.showNat l.bal.absorb,
   fmt.showNat l.bal.scatter, fmt.showNat l.bal.fission, fmt.showNat l.bal.produce, fmt.showNat l.bal.collision,
   fmt.showNat l.bal.escape, fmt.showNat l.bal.census, fmt.showNat l.bal.numSegments,
   fmt.showNum l.flux, fmt.showNum l.cyInit, fmt.showNum l.cyTrack, fmt.showNum l.cyFin]

/-- `tallies_report.csv` after some cycles. -/
def tallyFile {T : Type} (fmt : TextFormat T) (ls : List (TallyLine T)) : List (List Char) :=
  joinFields ';' tallyHeader :: ls.map fun l => joinFields ';' (l.fields fmt)

/-- `TalliedData`, `raw.rs` 17-52. -/
inductive TalliedData where
  | cycle | start | source | rr | split | absorb | scatter | fission | produce | collision | escape | census
  | numSeg | scalarFlux | populationControl | cycleTracking | cycleSync
deriving DecidableEq, Repr

/-- The discriminants of `TalliedData`, `raw.rs` 17-52. -/
def TalliedData.index : TalliedData → Nat
  | .cycle => 0 | .start => 1 | .source => 2 | .rr => 3 | .split => 4 | .absorb => 5 | .scatter => 6
  | .fission => 7 | .produce => 8 | .collision => 9 | .escape => 10 | .census => 11 | .numSeg => 12
  | .scalarFlux => 13 | .populationControl => 14 | .cycleTracking => 15 | .cycleSync => 16

/-- `Display for TalliedData`, `raw.rs` 55-80. -/
def TalliedData.display : TalliedData → String
  | .cycle => "Cycle" | .start => "Start" | .source => "Source" | .rr => "Rr" | .split => "Split"
  | .absorb => "Absorb" | .scatter => "Scatter" | .fission => "Fission" | .produce => "Produce"
  | .collision => "Collision" | .escape => "Escape" | .census => "Census" | .numSeg => "NumSeg"
  | .scalarFlux => "ScalarFlux" | .populationControl => "PopulationControl"
  | .cycleTracking => "CycleTracking" | .cycleSync => "CycleSync"

/-- `TalliedVariable`, `raw.rs` 88-96. -/
structure TalliedVariable (T : Type) where
  values : List T
  mean : T
  variance : T

section
variable {T : Type} [Flt T]

/-- `TalliedVariable::new`, `raw.rs` 101-116. -/
def TalliedVariable.new (values : List T) : TalliedVariable T :=
  let n : T := Flt.ofNat values.length
  let mean := Flt.sum values /. n
  let var := Flt.sum (values.map fun x => (x -. mean) *. (x -. mean)) /. n
  { values := values, mean := mean, variance := var }

/-- `covariance`, `raw.rs` 123-129. -/
def covariance (x y : TalliedVariable T) : Except Panic T := do
  assertB (x.values.length == y.values.length)
  let cov := Flt.sum ((x.values.zip y.values).map fun p => (p.1 -. x.mean) *. (p.2 -. y.mean))
  return cov /. Flt.ofNat x.values.length

/-- `correlation`, `raw.rs` 136-143. -/
def correlation (x y : TalliedVariable T) : Except Panic T :=
  if (x.variance ==. zero) || (y.variance ==. zero) then .ok zero
  else do
    let cov ← covariance x y
    return cov /. Flt.sqrt (x.variance *. y.variance)

/-- One record of `TalliesReport::from`, `raw.rs` 157-166: the 17 first fields, parsed. -/
def parseRecord (fmt : TextFormat T) (r : List (List Char)) : Except Panic (List T) :=
  (List.range 17).mapM fun i => do
    let f ← unwrap r[i]?
    unwrap (fmt.parse f)

/-- The columns of a list of records, `raw.rs` 154-166: `values[idx].push(val)`. -/
def columnsOf (rows : List (List T)) : Except Panic (List (List T)) :=
  (List.range 17).mapM fun i => rows.mapM fun r => idx r i

/-- `TalliesReport::from`, `raw.rs` 152-172. -/
def readTallies (fmt : TextFormat T) (file : List (List Char)) : Except Panic (List (TalliedVariable T)) := do
  let records ← csvRecords ';' file
  let rows ← records.mapM (parseRecord fmt)
  let cols ← columnsOf rows
  return cols.map TalliedVariable.new

/-- `Index<TalliedData>`, `raw.rs` 174-180. -/
def tallyIndex (report : List (TalliedVariable T)) (d : TalliedData) : Except Panic (TalliedVariable T) :=
  idx report d.index

/-! ### Correlations -/

/-- `CORRELATION_COLS`, `processed.rs` 147-159. -/
def correlationCols : List TalliedData :=
  [.start, .rr, .split, .absorb, .scatter, .fission, .produce, .collision, .escape, .census, .numSeg]

/-- `CORRELATION_ROWS`, `processed.rs` 162-167. -/
def correlationRows : List TalliedData := [.cycleSync, .cycleTracking, .populationControl, .cycle]

/-- `CorrelationResults::from`, `processed.rs` 270-287: the table, then its flattening by `transmute`, which keeps
the rows one after the other. -/
def correlationResults (report : List (TalliedVariable T)) : Except Panic (List T) := do
  let table ← correlationRows.mapM fun r => correlationCols.mapM fun c => do
    let x ← tallyIndex report r
    let y ← tallyIndex report c
    correlation x y
  return table.flatten

/-- The first line of `correlation.csv`, `processed.rs` 186-190, after the empty field. -/
def correlationHeader : List String :=
  ["Start", "Rr", "Split", "Absorb", "Scatter", "Fission", "Produce", "Collision", "Escape", "Census", "NumSeg"]

/-- The label of a line of `correlation.csv`, `processed.rs` 195-201. -/
def correlationLabel : Nat → Except Panic String
  | 0 => .ok "CycleSync"
  | 1 => .ok "CycleTracking"
  | 2 => .ok "PopulationControl"
  | 3 => .ok "Cycle"
  | _ => .error .unreachable

/-- `CorrelationResults::save`, `processed.rs` 178-218: the label and the values of each line. -/
def saveCorrelation (data : List T) : Except Panic (List (String × List T)) :=
  (List.range 4).mapM fun i => do
    let l ← correlationLabel i
    let vs ← (List.range 11).mapM fun c => idx data (c + 11 * i)
    return (l, vs)

/-! ### The report of the timers -/

/-- `Display for Section`, `mc_fast_timer.rs` 32-43. -/
def Section.display : Section → String
  | .main => "Section::Main                 "
  | .populationControl => "Section::PopulationControl    "
  | .cycleTracking => "Section::CycleTracking        "
  | .cycleTrackingProcess => "Section::CycleTrackingProcess "
  | .cycleTrackingSort => "Section::CycleTrackingSort    "
  | .cycleSync => "Section::CycleSync            "

/-- The sections in the order of the report, `mc_fast_timer.rs` 141-153. -/
def sectionOrder : List Section :=
  [.main, .populationControl, .cycleTracking, .cycleTrackingProcess, .cycleTrackingSort, .cycleSync]

/-- The first line of `timers_report.csv`, `mc_fast_timer.rs` 136. -/
def timerHeader : List (List Char) :=
  ["Timer Name", "#calls", "Shortest(µs)", "Average(µs)", "Longest(µs)", "Total(µs)", "Efficiency(%)"].map
    String.toList

/-- The fields of a line of `timers_report.csv`, `mc_fast_timer.rs` 170-179; `eff` is the efficiency. -/
def timerFields (fmt : TextFormat T) (eff : Section → T) (t : Timers) (s : Section) : List (List Char) :=
  let r := (t.sec s).row
  [s.display.toList, fmt.showNat r.1, fmt.showNatE r.2.1, fmt.showNatE r.2.2.1, fmt.showNatE r.2.2.2.1,
   fmt.showNatE r.2.2.2.2, fmt.showTenth (eff s)]

/-- `timers_report.csv`. -/
def timerFile (fmt : TextFormat T) (eff : Section → T) (t : Timers) : List (List Char) :=
  joinFields ';' timerHeader :: sectionOrder.map fun s => joinFields ';' (timerFields fmt eff t s)

/-- `SummarizedVariable`, `raw.rs` 228-239. -/
structure SummarizedVariable (T : Type) where
  mean : T
  lowest : T
  highest : T
  total : T

/-- `TIMERS_ARR` and the discriminants of `TimerSV`, `raw.rs` 186-209. -/
def Section.index : Section → Nat
  | .main => 0 | .populationControl => 1 | .cycleTracking => 2 | .cycleTrackingProcess => 3
  | .cycleTrackingSort => 4 | .cycleSync => 5

/-- One record of `TimerReport::from`, `raw.rs` 254-262. -/
def parseTimer (fmt : TextFormat T) (r : List (List Char)) : Except Panic (SummarizedVariable T) := do
  let lowest ← unwrap (r[2]?.bind fmt.parse)
  let mean ← unwrap (r[3]?.bind fmt.parse)
  let highest ← unwrap (r[4]?.bind fmt.parse)
  let total ← unwrap (r[5]?.bind fmt.parse)
  return { mean := mean, lowest := lowest, highest := highest, total := total }

/-- The loop of `TimerReport::from`, `raw.rs` 253-262: record `i` replaces entry `i`; a seventh record is out of
bounds. -/
def fillTimers (fmt : TextFormat T) : Nat → List (List (List Char)) → List (SummarizedVariable T) →
    Except Panic (List (SummarizedVariable T))
  | _, [], res => .ok res
  | i, r :: rs, res => do
    let _ ← idx res i
    let v ← parseTimer fmt r
    fillTimers fmt (i + 1) rs (res.set i v)

/-- `TimerReport::from`, `raw.rs` 248-266. -/
def readTimers (fmt : TextFormat T) (file : List (List Char)) : Except Panic (List (SummarizedVariable T)) := do
  let records ← csvRecords ';' file
  fillTimers fmt 0 records (List.replicate 6 ⟨zero, zero, zero, zero⟩)

/-- `Index<TimerSV>`, `raw.rs` 268-274. -/
def timerIndex (report : List (SummarizedVariable T)) (s : Section) : Except Panic (SummarizedVariable T) :=
  idx report s.index

/-! ### Comparison of two reports -/

/-- `relative_change` and `percents`, `processed.rs` 125-138. -/
def percentChange (old new : List (SummarizedVariable T)) (s : Section) : Except Panic T := do
  let n ← timerIndex new s
  let o ← timerIndex old s
  return (n.mean -. o.mean) /. o.mean *. Flt.ofNat 100

/-- `ComparisonResults::from` and `save`, `processed.rs` 123-141 and 46-64: for each section the two numbers of the
columns `old` and `new` and the number of the column `change`. -/
def comparisonRows (old new : List (SummarizedVariable T)) : Except Panic (List (Section × T × T × T)) :=
  sectionOrder.mapM fun s => do
    let p ← percentChange old new s
    let o ← timerIndex old s
    let n ← timerIndex new s
    return (s, o.total, n.total, p)

/-! ### Scaling studies -/

/-- `ScalingType`, `processed.rs` 292-297. -/
inductive ScalingType where
  | weak
  | strong (factor : Nat)
deriving DecidableEq, Repr

/-- `n_threads`, `processed.rs` 574-576: `t_init * t_factor^idx` for each run; the `usize`
overflow is an error. -/
def scalingThreads (tInit tIter tFactor : Nat) : Except Panic (List Nat) :=
  (List.range tIter).mapM fun i =>
    let n := tInit * tFactor ^ i
    if tFactor ^ i < 2 ^ 64 ∧ n < 2 ^ 64 then .ok n else .error .overflow

/-- The ideal tracking time of a run, `save_tracking`, `processed.rs` 342-345. -/
def idealTime (ty : ScalingType) (ref : T) (i : Nat) : T :=
  match ty with
  | .weak => ref
  | .strong factor => ref /. Flt.ofNat (factor ^ i)

/-- `save_tracking`, `processed.rs` 321-357: threads, average tracking time, ideal, processing and sorting. -/
def trackingRows (ty : ScalingType) (threads : List Nat) (reports : List (List (SummarizedVariable T))) :
    Except Panic (List (Nat × T × T × T × T)) := do
  let avgs ← reports.mapM fun r => do return (← timerIndex r .cycleTracking).mean
  let procs ← reports.mapM fun r => do return (← timerIndex r .cycleTrackingProcess).mean
  let sorts ← reports.mapM fun r => do return (← timerIndex r .cycleTrackingSort).mean
  let ref ← idx avgs 0
  assertB (avgs.length == threads.length)
  assertB (procs.length == threads.length)
  assertB (sorts.length == threads.length)
  (List.range threads.length).mapM fun i => do
    return (← idx threads i, ← idx avgs i, idealTime ty ref i, ← idx procs i, ← idx sorts i)

/-- `y_ideal` and `y_real` of `plot_se`, `processed.rs` 397-411. -/
def speedups (ty : ScalingType) (threads : List Nat) (avgs : List T) : Except Panic (List (T × T)) :=
  (List.range threads.length).mapM fun i => do
    let n ← idx threads i
    let a0 ← idx avgs 0
    let ai ← idx avgs i
    let ideal : T := match ty with
      | .weak => one
      | .strong _ => Flt.ofNat n
    return (ideal, a0 /. ai)
end
