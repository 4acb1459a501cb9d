import Verif.Model.Stats
import Verif.Model.Real
/-!
# What the reports contain
-/

/-- Formatting and parsing agree: no formatted number contains a separator, and parsing gives the number back.
This is the contract of `format!` and `str::parse` for the values that a report holds. -/
structure TextFormat.Sound {T : Type} [Flt T] (fmt : TextFormat T) : Prop where
  nat_sep : ∀ n, ';' ∉ fmt.showNat n
  natE_sep : ∀ n, ';' ∉ fmt.showNatE n
  num_sep : ∀ x, ';' ∉ fmt.showNum x
  tenth_sep : ∀ x, ';' ∉ fmt.showTenth x
  nat : ∀ n, fmt.parse (fmt.showNat n) = some (Flt.ofNat n)
  natE : ∀ n, fmt.parse (fmt.showNatE n) = some (Flt.ofNat n)
  num : ∀ x, fmt.parse (fmt.showNum x) = some x

/-- The quantity of a line of the report that a column should hold. -/
def TallyLine.quantity {T : Type} [Flt T] (l : TallyLine T) : TalliedData → T
  | .cycle => Flt.ofNat l.step
  | .start => Flt.ofNat l.bal.start
  | .source => Flt.ofNat l.bal.source
  | .rr => Flt.ofNat (l.bal.overRr + l.bal.weightRr)
  | .split => Flt.ofNat l.bal.split
  | .absorb => Flt.ofNat l.bal.absorb
  | .scatter => Flt.ofNat l.bal.scatter
  | .fission => Flt.ofNat l.bal.fission
  | .produce => Flt.ofNat l.bal.produce
  | .collision => Flt.ofNat l.bal.collision
  | .escape => Flt.ofNat l.bal.escape
  | .census => Flt.ofNat l.bal.census
  | .numSeg => Flt.ofNat l.bal.numSegments
  | .scalarFlux => l.flux
  | .populationControl => l.cyInit
  | .cycleTracking => l.cyTrack
  | .cycleSync => l.cyFin

/-- The mean of a list of reals. -/
noncomputable def meanOf (l : List ℝ) : ℝ := l.sum / l.length

/-- The mean of the products of the deviations of two lists. -/
noncomputable def coMoment (xs ys : List ℝ) : ℝ :=
  ((xs.zip ys).map fun p => (p.1 - meanOf xs) * (p.2 - meanOf ys)).sum / xs.length
