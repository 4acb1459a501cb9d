import Verif.Model.Real
import Verif.Model.Vec3
import Mathlib.Analysis.InnerProductSpace.PiL2
import Mathlib.LinearAlgebra.CrossProduct
/-!
# Vectors of the program and vectors of the space
-/

/-- The coordinates of a vector. -/
def Vec3.coords (u : Vec3 ℝ) : Fin 3 → ℝ := ![u.x, u.y, u.z]

/-- The vector of the Euclidean space of dimension three with the same coordinates. -/
noncomputable def Vec3.euclid (u : Vec3 ℝ) : EuclideanSpace ℝ (Fin 3) := WithLp.toLp 2 u.coords

/-- A coordinate whose square is far from the limits of the format. -/
def Moderate (x : ℝ) : Prop := x = 0 ∨ ((2 : ℝ) ^ (-30 : ℤ) ≤ |x| ∧ |x| ≤ 2 ^ (29 : ℤ))
