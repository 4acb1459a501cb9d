import Verif.Spec.Triangle
import Verif.Spec.Startup
import Verif.Spec.Reach
/-!
# Specification: a particle in its cell

Over the reals, in the mesh of a single-unit run.
-/
open Flt
namespace GridSpec

/-- How far the point is beyond a face of the cell; negative on the side of the cell. -/
noncomputable def beyond (g : Grid ℝ) (t : Nat × Nat × Nat) (r : Vec3 ℝ) : Face → ℝ
  | .xp => r.x - (t.1 + 1) * g.dx
  | .xm => t.1 * g.dx - r.x
  | .yp => r.y - (t.2.1 + 1) * g.dy
  | .ym => t.2.1 * g.dy - r.y
  | .zp => r.z - (t.2.2 + 1) * g.dz
  | .zm => t.2.2 * g.dz - r.z

/-- How fast the direction leaves the cell by a face. -/
def outward (d : Vec3 ℝ) : Face → ℝ
  | .xp => d.x | .xm => -d.x | .yp => d.y | .ym => -d.y | .zp => d.z | .zm => -d.z

/-- The point is on the plane of the face and the direction points out of the cell. -/
def LeavesBy (g : Grid ℝ) (t : Nat × Nat × Nat) (r d : Vec3 ℝ) (f : Face) : Prop :=
  beyond g t r f = 0 ∧ 0 < outward d f

/-- The particle is leaving by a face, and is so near to an edge of it that its ray reaches the plane of
another face less than `1e-9` beyond the first one. -/
def AtEdge (g : Grid ℝ) (t : Nat × Nat × Nat) (r d : Vec3 ℝ) : Prop :=
  ∃ f f', LeavesBy g t r d f ∧ beyond g t r f' < 0 ∧ 0 < outward d f' ∧
    beyond g t (along r d (-beyond g t r f' / outward d f')) f ≤ 1 / 10 ^ 9

/-- The particle is leaving by a face after more than ten million segments. -/
def WornOut (g : Grid ℝ) (t : Nat × Nat × Nat) (p : Particle ℝ) : Prop :=
  10000000 < p.numSegments ∧ ∃ f, LeavesBy g t p.coordinate p.direction f

/-- The particle is in the closed box of the cell number `c`, and this is its cell. -/
def AtHomeIn (dom : Domain ℝ) (g : Grid ℝ) (p : Particle ℝ) (c : Nat) : Prop :=
  CellAt dom p.cell c ∧ InClosedCell g (g.cellIdxToTuple c) p.coordinate

end GridSpec

/-- `Descends data dom fuel q p`: `p` is a later state of `q`, or of a particle made from it. -/
inductive Descends {T : Type} [Flt T] (data : Data T) (dom : Domain T) (fuel : Nat) (q : Particle T) :
    Particle T → Prop where
  | refl : Descends data dom fuel q q
  /-- the population games keep the particle or copy it -/
  | overRr {p f} : Descends data dom fuel q p → Descends data dom fuel q (p.overPopulatedRr f).1
  | lowRr {p c w} : Descends data dom fuel q p → Descends data dom fuel q (p.lowWeightRr c w).1
  | split {p f p' cs r} : Descends data dom fuel q p → p.underPopulatedSplit f = .ok (p', cs) →
      r ∈ p' :: cs → Descends data dom fuel q r
  | prepared {p r} : Descends data dom fuel q p → gutsPrepare data p = .ok r → Descends data dom fuel q r
  /-- a segment and its event -/
  | event {d p tr o p' b ex keep st' new r} : d.skeleton = dom.skeleton → Descends data dom fuel q p →
      (outcome data d p).May tr (o, p') →
      segmentEvent data d fuel o
        { particle := { p' with numSegments := p'.numSegments +. one }, balance := b, extra := ex } =
        .ok (keep, st') →
      st'.extra = ex ++ new → r ∈ st'.particle :: new → Descends data dom fuel q r
