import Verif.Model.Grid
/-!
# What the grid means

Independent description of the cells, faces and boxes of a grid, used to state the geometric
properties.
-/

namespace GridSpec
variable {T : Type}

/-- Number of cells. -/
def cells (g : Grid T) : Nat := g.nx * g.ny * g.nz

/-- Coordinates of a cell that exists. -/
def InGrid (g : Grid T) (t : Nat × Nat × Nat) : Prop := t.1 < g.nx ∧ t.2.1 < g.ny ∧ t.2.2 < g.nz

/-- Coordinates of a node that exists, in one of the four sub-lattices. -/
def NodeInGrid (g : Grid T) (t : Nat × Nat × Nat × Nat) : Prop :=
  t.1 ≤ g.nx ∧ t.2.1 ≤ g.ny ∧ t.2.2.1 ≤ g.nz ∧ t.2.2.2 < 4

/-- The six faces, in the order of the code: +x, -x, +y, -y, +z, -z. -/
inductive Face where
  | xp | xm | yp | ym | zp | zm
deriving DecidableEq, Repr

/-- Position of a face in the lists of the code. -/
def Face.num : Face → Nat
  | .xp => 0 | .xm => 1 | .yp => 2 | .ym => 3 | .zp => 4 | .zm => 5

/-- The face seen from the other side. -/
def Face.opposite : Face → Face
  | .xp => .xm | .xm => .xp | .yp => .ym | .ym => .yp | .zp => .zm | .zm => .zp

/-- The face is on the border of the problem. -/
def OnBorder (g : Grid T) (t : Nat × Nat × Nat) : Face → Prop
  | .xp => t.1 + 1 = g.nx
  | .xm => t.1 = 0
  | .yp => t.2.1 + 1 = g.ny
  | .ym => t.2.1 = 0
  | .zp => t.2.2 + 1 = g.nz
  | .zm => t.2.2 = 0

/-- Coordinates of the cell on the other side of a face that is not on the border. -/
def across (t : Nat × Nat × Nat) : Face → Nat × Nat × Nat
  | .xp => (t.1 + 1, t.2.1, t.2.2)
  | .xm => (t.1 - 1, t.2.1, t.2.2)
  | .yp => (t.1, t.2.1 + 1, t.2.2)
  | .ym => (t.1, t.2.1 - 1, t.2.2)
  | .zp => (t.1, t.2.1, t.2.2 + 1)
  | .zm => (t.1, t.2.1, t.2.2 - 1)

end GridSpec
