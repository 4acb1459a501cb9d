import Verif.Model.Cycle
import Verif.Lemmas.Prog
/-!
# Specification: the particles of a simulation

`Reachable data dom fuel p`: particle `p` can exist at some moment of a simulation of this problem,
whatever the number of cycles, the schedule and the population-control factors.  Theorem
`cycles_reachable` (`Verif/Lemmas/Reach.lean`) shows that every particle of every run is of this kind.
-/
open Flt
variable {T : Type} [Flt T]

/-- Everything in a domain except the source tallies. -/
def Domain.skeleton (dom : Domain T) : Domain T :=
  { dom with cells := dom.cells.map fun c => { c with sourceTally := 0 } }

/-- The reads of a trace give values allowed by `G`. -/
def Ev.LoadsIn (G : Nat → T → Prop) (tr : List (Ev T)) : Prop := ∀ i v, Ev.load i v ∈ tr → G i v

/-- See the file header.  The domain only changes in its source tallies.  `G d i v`: entry `i` of the
cross-section cache may be read as `v`. -/
inductive ReachableBy (G : Domain T → Nat → T → Prop) (data : Data T) (dom : Domain T) (fuel : Nat) :
    Particle T → Prop where
  /-- drawn from the source -/
  | sourced {d w i cell s p} : d.skeleton = dom.skeleton → d.cells[i]? = some cell →
      sourceParticle data d w i cell s = .ok p → ReachableBy G data dom fuel p
  /-- went through the over-population game -/
  | overRr {p f} : ReachableBy G data dom fuel p → ReachableBy G data dom fuel (p.overPopulatedRr f).1
  /-- went through the low-weight game -/
  | lowRr {p c w} : ReachableBy G data dom fuel p → ReachableBy G data dom fuel (p.lowWeightRr c w).1
  /-- split, or a copy made by a split -/
  | split {p f p' cs q} : ReachableBy G data dom fuel p → p.underPopulatedSplit f = .ok (p', cs) →
      q ∈ p' :: cs → ReachableBy G data dom fuel q
  /-- prepared for a cycle -/
  | prepared {p q} : ReachableBy G data dom fuel p → gutsPrepare data p = .ok q → ReachableBy G data dom fuel q
  /-- after a segment and its event, or created by the event -/
  | event {d p tr o q b ex keep st' new r} : d.skeleton = dom.skeleton → ReachableBy G data dom fuel p →
      (outcome data d p).May tr (o, q) → Ev.LoadsIn (G d) tr →
      segmentEvent data d fuel o
        { particle := { q with numSegments := q.numSegments +. one }, balance := b, extra := ex } =
        .ok (keep, st') →
      st'.extra = ex ++ new → r ∈ st'.particle :: new → ReachableBy G data dom fuel r

/-- The answers of the shared memory are arbitrary. -/
abbrev Reachable (data : Data T) (dom : Domain T) (fuel : Nat) (p : Particle T) : Prop :=
  ReachableBy (fun _ _ _ => True) data dom fuel p

/-- What can be in an entry of the cross-section cache: zero, or a cross-section computed for this entry. -/
def CacheAnswer (data : Data T) (dom : Domain T) (i : Nat) (v : T) : Prop :=
  v = zero ∨ ∃ cell group, i = cell * dom.numGroups + group ∧ directXs data dom cell group = .ok v

/-- The states met while tracking a particle from `st0`, after each event.  The answers of the shared
memory are arbitrary. -/
inductive Visited (data : Data T) (dom : Domain T) (fuel : Nat) (st0 : TrackState T) : TrackState T → Prop where
  | start : Visited data dom fuel st0 st0
  | step {st st1 st2 : TrackState T} {tr o p keep} : Visited data dom fuel st0 st →
      (outcome data dom st.particle).May tr (o, p) →
      st1 = { st with
        particle := { p with numSegments := p.numSegments +. one }
        balance := { st.balance with numSegments := st.balance.numSegments + 1 } } →
      segmentEvent data dom fuel o st1 = .ok (keep, st2) → Visited data dom fuel st0 st2

/-- `Processed data dom fuel p q`: tracking particle `p` through a cycle can leave it as `q`. -/
def Processed (data : Data T) (dom : Domain T) (fuel : Nat) (p q : Particle T) : Prop :=
  ∃ (st st' : TrackState T) (tr : List (Ev T)), st.particle = p ∧ (trackGuts data dom fuel st).May tr st' ∧
    st'.particle = q
