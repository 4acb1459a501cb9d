import Verif.Spec.GridSpec
import Verif.Model.Real
import Verif.Model.Vec3
/-!
# Boxes of the grid, over the reals
-/

/-- A grid of `nx * ny * nz` equal cells over the box `[0,lx] × [0,ly] × [0,lz]`, as the program
builds it, with positive sizes. -/
structure BoxGrid (g : Grid ℝ) : Prop where
  nx : 0 < g.nx
  ny : 0 < g.ny
  nz : 0 < g.nz
  lx : 0 < g.lx
  ly : 0 < g.ly
  lz : 0 < g.lz
  dx : g.dx = g.lx / g.nx
  dy : g.dy = g.ly / g.ny
  dz : g.dz = g.lz / g.nz

namespace GridSpec

/-- The point is in the half-open cell of these coordinates. -/
def InCell (g : Grid ℝ) (t : Nat × Nat × Nat) (r : Vec3 ℝ) : Prop :=
  (t.1 * g.dx ≤ r.x ∧ r.x < (t.1 + 1) * g.dx) ∧
  (t.2.1 * g.dy ≤ r.y ∧ r.y < (t.2.1 + 1) * g.dy) ∧
  (t.2.2 * g.dz ≤ r.z ∧ r.z < (t.2.2 + 1) * g.dz)

/-- The point is in the closed cell of these coordinates. -/
def InClosedCell (g : Grid ℝ) (t : Nat × Nat × Nat) (r : Vec3 ℝ) : Prop :=
  (t.1 * g.dx ≤ r.x ∧ r.x ≤ (t.1 + 1) * g.dx) ∧
  (t.2.1 * g.dy ≤ r.y ∧ r.y ≤ (t.2.1 + 1) * g.dy) ∧
  (t.2.2 * g.dz ≤ r.z ∧ r.z ≤ (t.2.2 + 1) * g.dz)

/-- Centre of a cell. -/
noncomputable def boxCenter (g : Grid ℝ) (t : Nat × Nat × Nat) : Vec3 ℝ :=
  ⟨t.1 * g.dx + g.dx / 2, t.2.1 * g.dy + g.dy / 2, t.2.2 * g.dz + g.dz / 2⟩

end GridSpec
