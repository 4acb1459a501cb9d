import Verif.Spec.Box
/-!
# Triangles and rays, over the reals
-/
open GridSpec

/-- The point is in the triangle: it is a mean of the corners with weights of sum one, none of them
below `-tol`.  For `tol = 0` this is the closed triangle. -/
def InTriangle (tol : ℝ) (p0 p1 p2 q : Vec3 ℝ) : Prop :=
  ∃ a b c : ℝ, a + b + c = 1 ∧ -tol ≤ a ∧ -tol ≤ b ∧ -tol ≤ c ∧
    q = ⟨a * p0.x + b * p1.x + c * p2.x, a * p0.y + b * p1.y + c * p2.y, a * p0.z + b * p1.z + c * p2.z⟩

/-- The point reached from `r` by going a distance `s` along the unit direction `d`. -/
noncomputable def along (r d : Vec3 ℝ) (s : ℝ) : Vec3 ℝ := ⟨r.x + s * d.x, r.y + s * d.y, r.z + s * d.z⟩

/-- The ray from `r` along `d` is in the closed cell up to the distance `s` and not after. -/
structure ExitsAt (g : Grid ℝ) (t : Nat × Nat × Nat) (r d : Vec3 ℝ) (s : ℝ) : Prop where
  inside : ∀ u, 0 ≤ u → u ≤ s → InClosedCell g t (along r d u)
  outside : ∀ u, s < u → ¬ InClosedCell g t (along r d u)

/-- The point is in the interior of the cell. -/
def InOpenCell (g : Grid ℝ) (t : Nat × Nat × Nat) (r : Vec3 ℝ) : Prop :=
  (t.1 * g.dx < r.x ∧ r.x < (t.1 + 1) * g.dx) ∧
  (t.2.1 * g.dy < r.y ∧ r.y < (t.2.1 + 1) * g.dy) ∧
  (t.2.2 * g.dz < r.z ∧ r.z < (t.2.2 + 1) * g.dz)
