import Verif.Model.Stats
import Verif.Model.Cycle
import Verif.Model.Params
/-!
# The files a run leaves

Models the writing of `tallies_report.csv` by `print_summary` (`fastiron/src/data/tallies.rs` 249-328), of the energy
spectrum by `print_spectrum` (`fastiron/src/data/energy_spectrum.rs` 41-70), and the two quotients printed by
`cumulative_report` (`fastiron/src/utils/mc_fast_timer.rs` 115-186).

Simplifications.  A file is the list of its lines, and `none` when there is no such file.  Creating a file and writing
to it never fail; opening a file that does not exist for appending does.  The lines on the console have the same
fields as the ones of the file and are not modelled.  The times, which the program prints as `f64`, are numbers of the
type of the other numbers.
-/
open Flt

variable {T : Type} [Flt T]

/-- A file of text. -/
abbrev TextFile := Option (List (List Char))

/-- `Duration::as_secs_f64`: the seconds, plus the nanoseconds divided by `1e9`. -/
def asSecs (n : Nat) : T := Flt.ofNat (n / 10 ^ 9) +. Flt.ofNat (n % 10 ^ 9) /. Flt.ofNat (10 ^ 9)

/-- The line of a cycle, `tallies.rs` 280-285 and 306-326: the report of the tallies and `get_last_cycle`
(`mc_fast_timer.rs` 262-265) of three sections. -/
def tallyLine (r : Nat × Balance × T) (t : Timers) : TallyLine T :=
  { step := r.1
    bal := r.2.1
    flux := r.2.2
    cyInit := asSecs (t.sec .populationControl).lastCycle
    cyTrack := asSecs (t.sec .cycleTracking).lastCycle
    cyFin := asSecs (t.sec .cycleSync).lastCycle }

/-- `print_summary`, `tallies.rs` 249-328: at the first step the file is made anew with the names of the columns;
then a line is appended. -/
def printSummary (fmt : TextFormat T) (csv : Bool) (l : TallyLine T) (file : TextFile) : Except Panic TextFile := do
  let file := if l.step = 0 then (if csv then some [joinFields ';' tallyHeader] else file) else file
  if csv then
    let lines ← unwrap file
    return some (lines ++ [joinFields ';' (l.fields fmt)])
  else return file

/-- The timers at each call of `print_summary`: it is called just before `clear_last_cycle_timers`,
`main.rs` 246-253. -/
def printedTimers : List TimerOp → Timers → Except Panic (List Timers)
  | [], _ => .ok []
  | op :: ops, t => do
    let t' ← t.step op
    let rest ← printedTimers ops t'
    return if op = .clear then t :: rest else rest

/-- The file after all the cycles of a run, given what was there before: `reports` are the tallies at each call of
`print_summary` and `ts` the timers. -/
def summaryFile (fmt : TextFormat T) (csv : Bool) (reports : List (Nat × Balance × T)) (ts : List Timers)
    (file : TextFile) : Except Panic TextFile :=
  (List.zipWith tallyLine reports ts).foldlM (fun f l => printSummary fmt csv l f) file

/-- Formatting of the numbers of the energy spectrum. -/
structure SpectrumFormat (T : Type) where
  /-- `{}` of an integer -/
  showNat : Nat → List Char
  /-- `{:.15}` of a float -/
  showFixed : T → List Char

/-- Alignment to the right with spaces, `{:>n}`. -/
def padLeft (n : Nat) (s : List Char) : List Char := List.replicate (n - s.length) ' ' ++ s

/-- The first two lines of the spectrum, `energy_spectrum.rs` 51-61. -/
def spectrumHead : List (List Char) :=
  ["energy level index |         energy level |         count".toList,
   "-------------------|----------------------|--------------".toList]

/-- A line of the spectrum, `energy_spectrum.rs` 64-68. -/
def spectrumLine (fmt : SpectrumFormat T) (i : Nat) (e : T) (n : Nat) : List Char :=
  padLeft 18 (fmt.showNat i) ++ " | ".toList ++ padLeft 20 (fmt.showFixed e) ++ " | ".toList ++
    padLeft 13 (fmt.showNat n)

/-- `print_spectrum`, `energy_spectrum.rs` 41-70: the name of the file and its lines, or nothing. -/
def printSpectrum (fmt : SpectrumFormat T) (name : String) (energies : List T) (spectrum : List Nat) :
    Except Panic (Option (String × List (List Char))) :=
  if name = "" then .ok none
  else do
    let lines ← (List.range energies.length).mapM fun i => do
      let e ← idx energies i
      let n ← idx spectrum i
      return spectrumLine fmt i e n
    return some (name ++ ".dat", spectrumHead ++ lines)

/-- The efficiency of a section, `mc_fast_timer.rs` 162-163 and 177-178. -/
def efficiency (x : SectionTimer) : T :=
  (Flt.lit 100 0 *. asSecs x.avg) /. (asSecs x.max +. Flt.lit 1 (-80))

/-- The figure of merit, `mc_fast_timer.rs` 182-185. -/
def figureOfMerit (numSegments : Nat) (t : Timers) : T :=
  Flt.ofNat numSegments /. asSecs (t.sec .cycleTracking).tot

/-- The files after a run. -/
structure RunFiles where
  /-- `tallies_report.csv` -/
  tallies : TextFile
  /-- `timers_report.csv` -/
  timers : TextFile
  /-- the name of the energy spectrum and its lines, when it is written -/
  spectrum : Option (String × List (List Char))

/-- Writing the files of a run: `print_summary` in each `cycle_sync` (`main.rs` 246-250), then `cumulative_report` and
`print_spectrum` in `game_over` (`main.rs` 168-173).  `s` is the last state of the run, `ops` are the calls of the
timers, `old` the two files of tables before the run. -/
def writeFiles (fmt : TextFormat T) (sfmt : SpectrumFormat T) (p : SimulationParams T) (energies : List T)
    (s : SimState T) (ops : List TimerOp) (old : TextFile × TextFile) : Except Panic RunFiles := do
  let ts ← printedTimers ops Timers.default
  let t ← Timers.default.run ops
  let tallies ← summaryFile fmt p.csv s.reports ts old.1
  let timers := if p.csv then some (timerFile fmt (fun x => efficiency (t.sec x)) t) else old.2
  let spectrum ← printSpectrum sfmt p.energySpectrum energies s.spectrum
  return { tallies := tallies, timers := timers, spectrum := spectrum }
