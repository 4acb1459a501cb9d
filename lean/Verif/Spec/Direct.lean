import Verif.Model.Cycle
/-!
# Specification: tracking without shared memory

The behaviour against which the threaded code is compared (C09, C10, C11): every particle is tracked
on its own, cross-sections are computed directly at each segment, there is no cache, no shared tally,
no chunk and no thread.  The history of a particle is a function of that particle only.
-/
open Flt
variable {T : Type} [Flt T]

/-- What the tracking of one particle produces. -/
structure Hist (T : Type) where
  /-- the particle at the end -/
  particle : Particle T
  /-- its events -/
  balance : Balance
  /-- the particles it created -/
  extra : List (Particle T)
  /-- flux contributions: (entry, path length times weight), one per segment -/
  contribs : List (Nat × T)

/-- A segment with a directly computed cross-section. -/
def directOutcome (data : Data T) (dom : Domain T) (p : Particle T) :
    Except Panic (SegOutcome × Particle T) := do
  let speed := p.getSpeed
  let (force, p) := prepareForced p
  let xs ← directXs data dom p.cell p.energyGroup
  outcomeWithXs dom speed force p xs

/-- Segments of a particle until it stops. -/
def directLoop (data : Data T) (dom : Domain T) (cfuel : Nat) : Nat → Particle T → Except Panic (Hist T)
  | 0, _ => .error .outOfFuel
  | fuel + 1, p => do
    let (o, q) ← directOutcome data dom p
    let q := { q with numSegments := q.numSegments +. one }
    let c := (fluxIndex dom.numGroups q.cell q.energyGroup, q.segmentPathLength *. q.weight)
    let (keep, st) ← segmentEvent data dom cfuel o
      { particle := q, balance := { numSegments := 1 }, extra := [] }
    if keep then
      let h ← directLoop data dom cfuel fuel st.particle
      return { particle := h.particle, balance := st.balance.add h.balance,
               extra := st.extra ++ h.extra, contribs := c :: h.contribs }
    else
      return { particle := st.particle, balance := st.balance, extra := st.extra, contribs := [c] }

/-- History of a particle in a cycle. -/
def directHist (data : Data T) (dom : Domain T) (fuel : Nat) (p : Particle T) :
    Except Panic (Hist T) := do
  let q ← gutsPrepare data p
  directLoop data dom fuel fuel q

/-- Flux after a list of contributions, added in that order. -/
def addContribs (flux : List T) (cs : List (Nat × T)) : List T :=
  cs.foldl (fun f c => f.modify c.1 (fun x => x +. c.2)) flux

/-- Two flux tables obtained from the same contributions added in different orders. -/
def FluxRel (f f' : List T) : Prop :=
  ∃ base cs cs', cs.Perm cs' ∧ f = addContribs base cs ∧ f' = addContribs base cs'

/-- The generations of particles of a tracking phase: the given particles, then the ones they create,
and so on.  `b` counts all the events, `surv` are the particles left, `cs` the flux contributions. -/
inductive Generations (data : Data T) (dom : Domain T) (fuel : Nat) :
    List (Particle T) → Balance → List (Particle T) → List (Nat × T) → Prop where
  | done : Generations data dom fuel [] {} [] []
  | next {ps hs b surv cs} : ps ≠ [] → ps.mapM (directHist data dom fuel) = .ok hs →
      Generations data dom fuel (hs.flatMap (·.extra)) b surv cs →
      Generations data dom fuel ps ((Balance.sum (hs.map (·.balance))).add b)
        ((hs.map (·.particle)).filter (fun p => p.species ≠ .unknown) ++ surv)
        (hs.flatMap (·.contribs) ++ cs)

/-- A cycle without cache and threads. -/
def DirectCycle (data : Data T) (fuel : Nat) (globalN : Nat) (srcWeight : T)
    (u : UnitState T) (c : Container T) (u' : UnitState T) (c' : Container T) : Prop :=
  ∃ u1 c1 b surv cs, populationControl data globalN srcWeight u c = .ok (u1, c1) ∧
    Generations data u1.dom fuel c1.processing b surv cs ∧
    u' = { u1 with balance := u1.balance.add b, flux := addContribs u1.flux cs } ∧
    c' = { processing := [], processed := c1.processed ++ surv, extra := [] }

/-- `n` cycles without cache and threads. -/
inductive DirectCycles (data : Data T) (o : SyncOpts) (fuel : Nat) :
    Nat → SimState T → SimState T → Prop where
  | zero {s} : DirectCycles data o fuel 0 s s
  | succ {n s s1 s2 u c} : DirectCycles data o fuel n s s1 →
      cycleSync data o n s1 = .ok s2 →
      DirectCycle data fuel s2.globalN s2.srcWeight s2.unit s2.container u c →
      DirectCycles data o fuel (n + 1) s { s2 with unit := u, container := c }

/-- A run without cache and threads. -/
def DirectRun (data : Data T) (o : SyncOpts) (fuel : Nat) (s s' : SimState T) : Prop :=
  ∃ s1, DirectCycles data o fuel data.nSteps s s1 ∧ cycleSync data o data.nSteps s1 = .ok s'
