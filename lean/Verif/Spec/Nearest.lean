import Verif.Model.Vec3
import Verif.Model.Real
/-!
# Nearest point of a list: specification
-/

/-- Squared Euclidean distance. -/
noncomputable def sqDist (p q : Vec3 ℝ) : ℝ := (p.x - q.x) ^ 2 + (p.y - q.y) ^ 2 + (p.z - q.z) ^ 2

/-- `k` is the position in the list of a point at minimal distance of `p`. -/
def IsNearest (points : List (Vec3 ℝ)) (p : Vec3 ℝ) (k : Nat) : Prop :=
  ∃ c, points[k]? = some c ∧ ∀ c' ∈ points, sqDist p c ≤ sqDist p c'
