import Verif.Spec.GridSpec
import Verif.Spec.Box
import Verif.Spec.Nearest
import Verif.Model.Partition
/-!
# The cells of several units

Each unit has a root cell.  `near c` is the number of the unit whose centre is the nearest of cell `c`.  A unit grows
from its root: it meets the cells around the root and around those of its cells that it has met.
-/
open GridSpec

namespace Units
variable {T : Type}

/-- Two different cells of the grid with a common face, edge or corner. -/
def Touch (g : Grid T) (c d : Nat) : Prop :=
  c < cells g ∧ d < cells g ∧ c ≠ d ∧
  ((g.cellIdxToTuple c).1 ≤ (g.cellIdxToTuple d).1 + 1 ∧ (g.cellIdxToTuple d).1 ≤ (g.cellIdxToTuple c).1 + 1) ∧
  ((g.cellIdxToTuple c).2.1 ≤ (g.cellIdxToTuple d).2.1 + 1 ∧
    (g.cellIdxToTuple d).2.1 ≤ (g.cellIdxToTuple c).2.1 + 1) ∧
  ((g.cellIdxToTuple c).2.2 ≤ (g.cellIdxToTuple d).2.2 + 1 ∧
    (g.cellIdxToTuple d).2.2 ≤ (g.cellIdxToTuple c).2.2 + 1)

/-- Two cells of the grid with a common face. -/
def Adjacent (g : Grid T) (c d : Nat) : Prop :=
  c < cells g ∧ ∃ f, ¬ OnBorder g (g.cellIdxToTuple c) f ∧ d = g.cellTupleToIdx (across (g.cellIdxToTuple c) f)

/-- The cells a unit meets while it grows from its root. -/
inductive Met (g : Grid T) (near root : Nat → Nat) (u : Nat) : Nat → Prop
  | root : Met g near root u (root u)
  | around {c} : Touch g (root u) c → Met g near root u c
  | grow {c d} : Met g near root u d → near d = u → Touch g d c → Met g near root u c

/-- The cells of a unit: those it has met and whose nearest centre is its own. -/
def Owned (g : Grid T) (near root : Nat → Nat) (u c : Nat) : Prop := Met g near root u c ∧ near c = u

/-- A unit has to know a cell of another one: some cell on the other side of a face is nearest to its own centre. -/
def Faces (g : Grid T) (near : Nat → Nat) (u c : Nat) : Prop := ∃ j, Adjacent g c j ∧ near j = u

/-- What unit `u` knows at the end, when `cellsOf v` lists the cells of unit `v`: the number of each of its cells, the
unit and the number of each cell of another unit it faces, the unit of the other cells it has met, and nothing
else. -/
structure Knows (g : Grid T) (near root : Nat → Nat) (cellsOf : Nat → List Nat) (u : Nat) (p : Partition) : Prop where
  gid : p.domainGid = u
  nodup : (cellsOf u).Nodup
  listed : ∀ c, c ∈ cellsOf u ↔ Owned g near root u c
  own : ∀ i c, (cellsOf u)[i]? = some c →
    p.cellInfoMap.get? c = some ⟨some u, some 0, some u, some i⟩
  remote : ∀ v i c, v ≠ u → (cellsOf v)[i]? = some c → Faces g near u c →
    p.cellInfoMap.get? c = some ⟨some v, some 0, some v, some i⟩
  other : ∀ c, Met g near root u c → near c ≠ u → ¬ (Owned g near root (near c) c ∧ Faces g near u c) →
    p.cellInfoMap.get? c = some ⟨some (near c), none, none, none⟩
  only : ∀ c, c ∈ p.cellInfoMap.keys →
    Met g near root u c ∨ (Owned g near root (near c) c ∧ Faces g near u c)
  neighbours : ∀ v, v ∈ p.nbrDomains ↔ v ≠ u ∧ ∃ c, Met g near root u c ∧ near c = v

/-- The unit has the cell as one of its own, with a number. -/
def Holds (p : Partition) (c : Nat) : Prop :=
  ∃ i, p.cellInfoMap.get? c = some ⟨some p.domainGid, some 0, some p.domainGid, some i⟩

/-- The centre of a cell. -/
noncomputable def centre (g : Grid ℝ) (c : Nat) : Vec3 ℝ := boxCenter g (g.cellIdxToTuple c)

/-- A grid of moderate size, and one root cell for each unit. -/
structure Rooted (g : Grid ℝ) (roots : List Nat) : Prop where
  box : BoxGrid g
  counts : g.nx ≤ 2 ^ 64 ∧ g.ny ≤ 2 ^ 64 ∧ g.nz ≤ 2 ^ 64
  nonempty : roots ≠ []
  inside : ∀ r ∈ roots, r < cells g
  size : ∃ L, 1 ≤ L ∧ g.lx ≤ L ∧ g.ly ≤ L ∧ g.lz ≤ L ∧ (roots.length : ℝ) * L ^ 3 < 5 * 2 ^ 64

end Units
