import Verif.Model.Report
import Verif.Spec.Timing
import Verif.Spec.Stats
/-!
# What the files of a run should contain
-/
open Flt
variable {T : Type} [Flt T]

/-- A text without the spaces around it. -/
def trimSpaces (s : List Char) : List Char := ((s.dropWhile (· = ' ')).reverse.dropWhile (· = ' ')).reverse

/-- The cells of a line of a table whose columns are separated by bars. -/
def barCells (line : List Char) : List (List Char) := (splitFields '|' line).map trimSpaces

/-- Numbers are written without spaces and bars. -/
structure SpectrumFormat.Sound (fmt : SpectrumFormat T) : Prop where
  nat : ∀ n, ' ' ∉ fmt.showNat n ∧ '|' ∉ fmt.showNat n
  fixed : ∀ x, ' ' ∉ fmt.showFixed x ∧ '|' ∉ fmt.showFixed x

/-- The line of the report that belongs to a cycle: its number, its counters and flux `r`, and the times spent in its
sections, measured with the readings `c` of the clock. -/
def lineOf (i : Nat) (r : Nat × Balance × T) (c : CycleClock) : TallyLine T :=
  { step := i, bal := r.2.1, flux := r.2.2
    cyInit := asSecs (c.time .populationControl)
    cyTrack := asSecs (c.time .cycleTracking)
    cyFin := asSecs (c.time .cycleSync) }

/-- The lines of a report follow the particles: every cycle accounts for its particles and collisions, the first
starts with no particle, and each of the others with the particles that the one before it left. -/
structure LinesBalance (lines : List (TallyLine T)) : Prop where
  balance : ∀ l ∈ lines, l.bal.start + l.bal.source + l.bal.produce + l.bal.split =
    l.bal.absorb + l.bal.census + l.bal.escape + (l.bal.overRr + l.bal.weightRr) + l.bal.fission
  collisions : ∀ l ∈ lines, l.bal.collision = l.bal.scatter + l.bal.absorb + l.bal.fission
  numbered : ∀ (i : Nat) (l : TallyLine T), lines[i]? = some l → l.step = i
  first : ∀ l : TallyLine T, lines[0]? = some l → l.bal.start = 0
  chain : ∀ (i : Nat) (l l' : TallyLine T), lines[i]? = some l → lines[i + 1]? = some l' → l'.bal.start = l.bal.census
