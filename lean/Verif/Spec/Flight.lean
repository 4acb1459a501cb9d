import Verif.Spec.Direct
import Verif.Model.Real
/-!
# Specification: flights without collision

The flight of a particle from one collision to the next, through cells, reflections and census.  The history of a
particle is the one of `Verif/Spec/Direct.lean`: with one thread and without cache.
-/

/-- A leg of a flight: its length and the macroscopic total cross-section along it. -/
structure Leg where
  length : ℝ
  xs : ℝ

/-- The optical depth of a flight: length times cross-section, added over its legs. -/
noncomputable def opticalDepth (legs : List Leg) : ℝ := (legs.map fun s => s.length * s.xs).sum

/-- The next segment of `p` is the leg `leg`; it ends with `o` and makes the particle `q`. -/
structure NextLeg (data : Data ℝ) (dom : Domain ℝ) (p : Particle ℝ) (leg : Leg) (o : SegOutcome) (q : Particle ℝ) :
    Prop where
  xs : directXs data dom p.cell p.energyGroup = .ok leg.xs
  segment : directOutcome data dom p = .ok (o, q)
  length : q.segmentPathLength = leg.length

/-- How a particle goes on after a segment that did not end with a collision: it enters the next cell or is reflected,
or it waits for the next cycle. -/
def GoesOn (data : Data ℝ) (dom : Domain ℝ) (o : SegOutcome) (q p' : Particle ℝ) : Prop :=
  (o = .facetCrossing ∧ ∃ st, facetBranch dom
    { particle := { q with numSegments := q.numSegments + 1 }, balance := {}, extra := [] } = .ok (true, st) ∧
    p' = st.particle) ∨
  (o = .census ∧ gutsPrepare data { q with numSegments := q.numSegments + 1 } = .ok p')

/-- The particle `p` flies along the legs without colliding and is then `q`. -/
inductive Flies (data : Data ℝ) (dom : Domain ℝ) : Particle ℝ → List Leg → Particle ℝ → Prop where
  | here (p : Particle ℝ) : Flies data dom p [] p
  | leg {p : Particle ℝ} {leg : Leg} {o : SegOutcome} {q p' : Particle ℝ} {legs : List Leg} {r : Particle ℝ} :
      NextLeg data dom p leg o q → o ≠ .collision → GoesOn data dom o q p' → Flies data dom p' legs r →
      Flies data dom p (leg :: legs) r

/-- The same particle with `τ` mean free paths to its next collision and the generator in the state `s`. -/
def Particle.withDepth (p : Particle ℝ) (τ : ℝ) (s : BitVec 64) : Particle ℝ :=
  { p with numMeanFreePaths := τ, seed := s }

/-- The particle moves, has time left, and every cross-section is positive. -/
structure CanFly (data : Data ℝ) (dom : Domain ℝ) (p : Particle ℝ) : Prop where
  energy : 0 < p.kineticEnergy
  time : 0 ≤ p.timeToCensus
  step : 0 ≤ data.dt
  xs : ∀ cell group x, directXs data dom cell group = .ok x → 0 < x
