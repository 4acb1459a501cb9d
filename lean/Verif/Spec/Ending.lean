import Verif.Spec.Home
import Verif.Spec.Direct
/-!
# Specification: the states of a tracking phase, and the ones that may prevent its end
-/
open Flt

/-- `Visits data dom fuel p q`: `q` is a state of `p`, or of a particle born from it, at the beginning of a
segment of the tracking phase of a cycle. -/
inductive Visits {T : Type} [Flt T] (data : Data T) (dom : Domain T) (fuel : Nat) (p : Particle T) :
    Particle T → Prop where
  | start {q} : gutsPrepare data p = .ok q → Visits data dom fuel p q
  /-- the particle goes on after the event at the end of the segment -/
  | next {q o r b st} : Visits data dom fuel p q → directOutcome data dom q = .ok (o, r) →
      segmentEvent data dom fuel o
        { particle := { r with numSegments := r.numSegments +. one }, balance := b, extra := [] } = .ok (true, st) →
      Visits data dom fuel p st.particle
  /-- a particle born in that event -/
  | born {q o r b keep st c c'} : Visits data dom fuel p q → directOutcome data dom q = .ok (o, r) →
      segmentEvent data dom fuel o
        { particle := { r with numSegments := r.numSegments +. one }, balance := b, extra := [] } = .ok (keep, st) →
      c ∈ st.extra → gutsPrepare data c = .ok c' → Visits data dom fuel p c'

/-- `RunVisits data o fuel s0 d q`: `q` is the state of a particle of the run from `s0`, at the beginning of a segment
in some cycle, where the unit is `d`.  The run is the one where every particle is tracked on its own. -/
def RunVisits {T : Type} [Flt T] (data : Data T) (o : SyncOpts) (fuel : Nat) (s0 : SimState T) (d : Domain T)
    (q : Particle T) : Prop :=
  ∃ n s1 s2 u c p, n < data.nSteps ∧ DirectCycles data o fuel n s0 s1 ∧ cycleSync data o n s1 = .ok s2 ∧
    populationControl data s2.globalN s2.srcWeight s2.unit s2.container = .ok (u, c) ∧ p ∈ c.processing ∧ u.dom = d ∧
    Visits data d fuel p q

namespace GridSpec

/-- After more than ten million segments, the particle is on a face of its cell or beyond it, and heads outwards. -/
def Astray (g : Grid ℝ) (t : Nat × Nat × Nat) (p : Particle ℝ) : Prop :=
  10000000 < p.numSegments ∧ ∃ f, 0 ≤ beyond g t p.coordinate f ∧ 0 < outward p.direction f

/-- Nothing exceptional happens in the segment that starts from `q`. -/
structure Ordinary (data : Data ℝ) (dom : Domain ℝ) (g : Grid ℝ) (q : Particle ℝ) : Prop where
  /-- if the length of its flight is to be drawn, the generator gives neither 0 nor 1 -/
  flight : q.numMeanFreePaths = 0 → (Rng.sample (T := ℝ) q.seed).1 ≠ 0 ∧ (Rng.sample (T := ℝ) q.seed).1 ≠ 1
  /-- it is not displaced by the rescue of the particles with more than ten million segments -/
  place : ∀ c, CellAt dom q.cell c → ¬ Astray g (g.cellIdxToTuple c) q
  /-- it does not collide exactly at the end of the cycle, nor where there is nothing to collide with -/
  collision : ∀ r, directOutcome data dom q = .ok (.collision, r) → r.timeToCensus ≠ 0 ∧ r.totalCrossSection ≠ 0

/-- Bound on the number of collisions of a particle that can still travel the length `B`, where no macroscopic
cross-section is above `X`. -/
noncomputable def collisionBound (B X : ℝ) : ℝ := X * B * 2 ^ 64 + 1

/-- Bound on the number of segments of a particle that can still travel the length `B`. -/
noncomputable def segmentBound (g : Grid ℝ) (B X : ℝ) : ℝ :=
  (2 * (g.nx + g.ny + g.nz) + 1) * collisionBound B X +
    (g.nx * (B / g.lx + 2) + g.ny * (B / g.ly + 2) + g.nz * (B / g.lz + 2))

end GridSpec
