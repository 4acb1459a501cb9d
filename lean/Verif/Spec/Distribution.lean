import Verif.Props.Directions
import Verif.Lemmas.Uniform
import Mathlib.MeasureTheory.Measure.Lebesgue.Basic
/-!
# Specification: distributions of quantities computed from uniform numbers

The chance of an event is the area (or length) of the numbers of the unit square (or interval) that lead to it.
-/
open MeasureTheory

/-- The number drawn by the generator after `k` others. -/
noncomputable def Rng.nthDraw (s : BitVec 64) (k : Nat) : ℝ := Rng.draw (Rng.lcg^[k] s)

/-- Chance that one uniform number meets `P`. -/
noncomputable def chance1 (P : ℝ → Prop) : ENNReal := volume {u : ℝ | (0 ≤ u ∧ u ≤ 1) ∧ P u}

/-- Chance that two independent uniform numbers meet `P`. -/
noncomputable def chance2 (P : ℝ → ℝ → Prop) : ENNReal :=
  volume {q : ℝ × ℝ | (0 ≤ q.1 ∧ q.1 ≤ 1) ∧ (0 ≤ q.2 ∧ q.2 ≤ 1) ∧ P q.1 q.2}

/-- `x` is uniform between `a` and `b`. -/
def UniformOn (x : ℝ → ℝ) (a b : ℝ) : Prop :=
  ∀ t, a ≤ t → t ≤ b → chance1 (fun u => x u ≤ t) = ENNReal.ofReal ((t - a) / (b - a))

/-- Three axes at right angles. -/
structure Axes (a b c : Vec3 ℝ) : Prop where
  unit_a : IsUnit3 a
  unit_b : IsUnit3 b
  unit_c : IsUnit3 c
  ab : dot3 a b = 0
  ac : dot3 a c = 0
  bc : dot3 b c = 0

/-- The coordinates of `d` along three axes. -/
def coordsAlong (a b c d : Vec3 ℝ) : ℝ × ℝ × ℝ := (dot3 a d, dot3 b d, dot3 c d)

/-- A direction computed from two uniform numbers has no preferred orientation: it is of length 1, the chance to fall
in a set is the same whatever the axes the set is drawn on, and the component along any axis is uniform between
-1 and 1. -/
structure Isotropic (dir : ℝ → ℝ → Vec3 ℝ) : Prop where
  unit : ∀ u v, 0 ≤ u → u ≤ 1 → 0 ≤ v → v ≤ 1 → IsUnit3 (dir u v)
  axes : ∀ a b c, Axes a b c → ∀ A : Set (ℝ × ℝ × ℝ), MeasurableSet A →
    chance2 (fun u v => coordsAlong a b c (dir u v) ∈ A) = chance2 (fun u v => ((dir u v).x, (dir u v).y, (dir u v).z) ∈ A)
  even : ∀ n, IsUnit3 n → ∀ t, -1 ≤ t → t ≤ 1 →
    chance2 (fun u v => dot3 n (dir u v) ≤ t) = ENNReal.ofReal ((t + 1) / 2)
