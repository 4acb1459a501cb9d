import Verif.Model.Prog
import Verif.Model.Mct
/-!
# Tracking of one particle

Models `fastiron/src/simulation/{macro_cross_section, mc_segment_outcome, collision_event,
mc_facet_crossing_event, cycle_tracking}.rs`.
-/
open Flt

/-- Read-only data of the problem: the parts of `MonteCarloData` (`montecarlo.rs` 30-45) and of
`Parameters` used by the simulation. -/
structure Data (T : Type) where
  dt : T
  eMin : T
  eMax : T
  nParticles : Nat
  nSteps : Nat
  lowWeightCutoff : T
  loadBalance : Bool
  nUnits : Nat
  nuclear : NuclearData T
  materials : List (Material T)
  /-- `params.material_params[name].source_rate` -/
  sourceRates : List (String × T)

/-- The part of `MonteCarloUnit` (`montecarlo.rs` 64-75) that is read-only during tracking. -/
structure Domain (T : Type) where
  globalDomain : Nat
  cells : List (CellState T)
  mesh : Mesh T
  /-- `xs_cache.num_groups` -/
  numGroups : Nat

variable {T : Type} [Flt T]

/-- `macroscopic_total_cross_section`, `macro_cross_section.rs` 15-36. -/
def macroscopicTotalXs (data : Data T) (mat : Material T) (isotopeIdx : Nat) (density : T)
    (group : Nat) : Except Panic T := do
  let iso ← idx mat.iso isotopeIdx
  if (iso.atomFraction ==. zero) || (density ==. zero) then return Flt.lit 1 (-20)
  let micro ← data.nuclear.getTotalCrossSection iso.gid group
  return iso.atomFraction *. density *. micro

/-- `weighted_macroscopic_cross_section`, `macro_cross_section.rs` 43-62. -/
def weightedMacroXs (data : Data T) (matGid : Nat) (density : T) (group : Nat) :
    Except Panic T := do
  let mat ← idx data.materials matGid
  let l ← (List.range mat.iso.length).mapM fun i => macroscopicTotalXs data mat i density group
  return Flt.sum l

/-- `MCSegmentOutcome`, `mc_segment_outcome.rs` 28-35. -/
inductive SegOutcome where
  | collision
  | facetCrossing
  | census
deriving DecidableEq, Repr

/-- `DistanceHandler`, `mc_segment_outcome.rs` 38-49. -/
structure DistanceHandler (T : Type) where
  collision : T
  facetCrossing : T
  census : T
  minDist : T
  outcome : SegOutcome

/-- `DistanceHandler::default`, `mc_segment_outcome.rs` 77-88. -/
def DistanceHandler.default : DistanceHandler T :=
  { collision := Flt.huge, facetCrossing := Flt.huge, census := Flt.huge, minDist := Flt.huge,
    outcome := .collision }

/-- `DistanceHandler::update`, `mc_segment_outcome.rs` 55-65. -/
def DistanceHandler.update (h : DistanceHandler T) (o : SegOutcome) (d : T) : DistanceHandler T :=
  let h := match o with
    | .collision => { h with collision := d }
    | .facetCrossing => { h with facetCrossing := d }
    | .census => { h with census := d }
  if d <. h.minDist then { h with minDist := d, outcome := o } else h

/-- `DistanceHandler::force_collision`, `mc_segment_outcome.rs` 68-74. -/
def DistanceHandler.forceCollision (_ : DistanceHandler T) : DistanceHandler T :=
  { collision := Flt.tiny, facetCrossing := Flt.huge, census := Flt.huge, minDist := Flt.tiny,
    outcome := .collision }

/-- Direct computation of the cross-section of a cell and group, `mc_segment_outcome.rs` 130-137. -/
def directXs (data : Data T) (dom : Domain T) (cell group : Nat) : Except Panic T := do
  let cs ← idx dom.cells cell
  weightedMacroXs data cs.material cs.cellNumberDensity group

/-- Cached cross-section look-up, `mc_segment_outcome.rs` 122-140. -/
def cachedXs (data : Data T) (dom : Domain T) (cell group : Nat) : Prog T T :=
  .load (cell * dom.numGroups + group) fun pcxs =>
    if pcxs >. zero then .ret pcxs
    else
      match directXs data dom cell group with
      | .error e => .fail e
      | .ok tmp => .store (cell * dom.numGroups + group) tmp fun _ => .ret tmp

/-- First part of `outcome` that only touches the particle: `mc_segment_outcome.rs` 114-118. -/
def prepareForced (p : Particle T) : Bool × Particle T :=
  let force := p.numMeanFreePaths <. zero
  (force, if force then { p with numMeanFreePaths := Flt.small } else p)

/-- Preparation of the particle with the cross-section, `mc_segment_outcome.rs` 142-153. -/
def prepareXs (p : Particle T) (xs : T) : Particle T :=
  let p := { p with
    totalCrossSection := xs
    meanFreePath := if xs ==. zero then Flt.huge else one /. xs }
  if p.numMeanFreePaths ==. zero then p.sampleNumMfp else p

/-- Choice of the outcome and update of the particle, `mc_segment_outcome.rs` 158-219, given the
speed computed at the beginning and the nearest facet. -/
def applyOutcome (p : Particle T) (speed : T) (force : Bool) (nf : NearestFacet T) :
    Except Panic (SegOutcome × Particle T) := do
  let h : DistanceHandler T := DistanceHandler.default
  let h := h.update .collision (p.numMeanFreePaths *. p.meanFreePath)
  let h := h.update .census (speed *. p.timeToCensus)
  let p := { p with normalDot := nf.dotProduct }
  let h := h.update .facetCrossing nf.distanceToFacet
  let h := if force then h.forceCollision else h
  assertB (h.minDist >=. zero)
  let p := { p with segmentPathLength := h.minDist }
  let p := { p with
    numMeanFreePaths := p.numMeanFreePaths -. p.segmentPathLength /. p.meanFreePath }
  let p := match h.outcome with
    | .collision => { p with numMeanFreePaths := zero, lastEvent := .collision }
    | .facetCrossing => { p with facet := nf.facet, lastEvent := .facetCrossingTransitExit }
    | .census => { p with timeToCensus := Flt.min zero p.timeToCensus, lastEvent := .census }
  if p.segmentPathLength ==. zero then return (h.outcome, p)
  let p := p.moveAlongSegment
  let t := p.segmentPathLength /. speed
  let p := { p with timeToCensus := p.timeToCensus -. t, age := p.age +. t }
  return (h.outcome, { p with timeToCensus := Flt.max p.timeToCensus zero })

/-- Everything in `outcome` after the cross-section is known, `mc_segment_outcome.rs` 142-219. -/
def outcomeWithXs (dom : Domain T) (speed : T) (force : Bool) (p : Particle T) (xs : T) :
    Except Panic (SegOutcome × Particle T) := do
  let p := prepareXs p xs
  -- the collision and census distances only depend on fields that `nearest_facet` leaves unchanged
  let (nf, p) ← nearestFacet dom.mesh p
  applyOutcome p speed force nf

/-- `outcome`, `mc_segment_outcome.rs` 100-220. -/
def outcome (data : Data T) (dom : Domain T) (p : Particle T) : Prog T (SegOutcome × Particle T) :=
  let speed := p.getSpeed
  let (force, p) := prepareForced p
  (cachedXs data dom p.cell p.energyGroup).bind fun xs =>
    Prog.ofExcept (outcomeWithXs dom speed force p xs)

/-- Inner loop of `collision_event` over the reactions of one isotope, `collision_event.rs` 47-60. -/
def scanReactions (fraction density : T) (group : Nat) :
    List (Reaction T) → T → Option (Reaction T) → Except Panic (T × Option (Reaction T))
  | [], xs, r => .ok (xs, r)
  | c :: cs, xs, r => do
    let xs ←
      if (fraction ==. zero) || (density ==. zero) then pure (xs -. Flt.lit 1 (-20))
      else do
        let s ← idx c.crossSection group
        pure (xs -. fraction *. density *. s)
    if xs <. zero then return (xs, some c)
    else scanReactions fraction density group cs xs r

/-- Loop of `collision_event` over the isotopes, `collision_event.rs` 45-64. -/
def scanIsotopes (data : Data T) (density : T) (group : Nat) :
    List (Isotope T) → T → Option (Reaction T) → Except Panic (T × Option (Reaction T))
  | [], xs, r => .ok (xs, r)
  | iso :: is, xs, r => do
    let rs ← idx data.nuclear.isotopes iso.gid
    let (xs, r) ← scanReactions iso.atomFraction density group rs xs r
    if xs <. zero then return (xs, r)
    else scanIsotopes data density group is xs r

/-- `while current_xsection >= zero()`, `collision_event.rs` 44-65. -/
def pickReaction (data : Data T) (mat : Material T) (density : T) (group : Nat) :
    Nat → T → Option (Reaction T) → Except Panic (Option (Reaction T))
  | 0, _, _ => .error .outOfFuel
  | fuel + 1, xs, r => do
    if xs >=. zero then
      let (xs, r) ← scanIsotopes data density group mat.iso xs r
      pickReaction data mat density group fuel xs r
    else return r

/-- Tally of a collision, `collision_event.rs` 81-92. -/
def tallyCollision (b : Balance) (t : ReactionType) (nOut : Nat) : Balance :=
  let b := { b with collision := b.collision + 1 }
  match t with
  | .scatter => { b with scatter := b.scatter + 1 }
  | .absorption => { b with absorb := b.absorb + 1 }
  | .fission => { b with fission := b.fission + 1, produce := b.produce + nOut }

/-- Result of an event on a particle. -/
structure TrackState (T : Type) where
  particle : Particle T
  balance : Balance
  extra : List (Particle T)

/-- `collision_event`, `collision_event.rs` 29-94. -/
def collisionEvent (data : Data T) (fuel : Nat) (matGid : Nat) (density : T) (st : TrackState T) :
    Except Panic (Bool × TrackState T) := do
  let (xs, p) := st.particle.getCurrentXs
  let mat ← idx data.materials matGid
  let r ← pickReaction data mat density p.energyGroup fuel xs none
  match r with
  | none => .error .assertFailed
  | some r =>
    let (nOut, p, ex) ← p.sampleCollision r mat.mass
    return (decide (nOut ≥ 1),
      { particle := p, balance := tallyCollision st.balance r.rtype nOut, extra := st.extra ++ ex })

/-- `facet_crossing_event`, `mc_facet_crossing_event.rs` 19-49. -/
def facetCrossingEvent (p : Particle T) (adj : SubfacetAdj) : Except Panic (Particle T) :=
  match adj.event with
  | .transitOnProcessor => do
    let d ← unwrap adj.adjacent.domain
    let c ← unwrap adj.adjacent.cell
    let f ← unwrap adj.adjacent.facet
    return { p with domain := d, cell := c, facet := f, lastEvent := .facetCrossingTransitExit }
  | .boundaryEscape => .ok { p with lastEvent := .facetCrossingEscape }
  | .boundaryReflection => .ok { p with lastEvent := .facetCrossingReflection }
  | .transitOffProcessor => do
    let d ← unwrap adj.adjacent.domain
    let c ← unwrap adj.adjacent.cell
    let f ← unwrap adj.adjacent.facet
    return { p with domain := d, cell := c, facet := f, lastEvent := .facetCrossingCommunication }
  | .undefined => .error .adjacencyUndefined

/-- Collision branch of `cycle_tracking_function`, `cycle_tracking.rs` 75-89. -/
def collisionBranch (data : Data T) (dom : Domain T) (fuel : Nat) (st : TrackState T) :
    Except Panic (Bool × TrackState T) := do
  let cs ← idx dom.cells st.particle.cell
  let (keep, st) ← collisionEvent data fuel cs.material cs.cellNumberDensity st
  let g ← getEnergyGroups data.nuclear.energies st.particle.kineticEnergy
  let p := { st.particle with energyGroup := g }
  let p := if keep then p else { p with species := .unknown }
  return (keep, { st with particle := p })

/-- Facet branch of `cycle_tracking_function`, `cycle_tracking.rs` 90-126. -/
def facetBranch (dom : Domain T) (st : TrackState T) : Except Panic (Bool × TrackState T) := do
  let conn ← idx dom.mesh.cellConnectivity st.particle.cell
  let fa ← idx conn.facet st.particle.facet
  let p ← facetCrossingEvent st.particle fa.subfacet
  match p.lastEvent with
  | .facetCrossingTransitExit => return (true, { st with particle := p })
  | .facetCrossingReflection =>
    let planes ← idx dom.mesh.cellGeometry p.cell
    let plane ← idx planes p.facet
    return (true, { st with particle := reflectParticle p plane })
  | .facetCrossingCommunication => .error .unimplemented
  | .facetCrossingEscape =>
    return (false, { st with
      particle := { p with lastEvent := .facetCrossingEscape, species := .unknown }
      balance := { st.balance with escape := st.balance.escape + 1 } })
  | _ => .error .unreachable

/-- The `match segment_outcome` of `cycle_tracking_function`, `cycle_tracking.rs` 74-132:
whether tracking goes on, and the new state. -/
def segmentEvent (data : Data T) (dom : Domain T) (fuel : Nat) (o : SegOutcome) (st : TrackState T) :
    Except Panic (Bool × TrackState T) :=
  match o with
  | .collision => collisionBranch data dom fuel st
  | .facetCrossing => facetBranch dom st
  | .census => .ok (false, { st with balance := { st.balance with census := st.balance.census + 1 } })

/-- One iteration of `cycle_tracking_function`, `cycle_tracking.rs` 60-132. -/
def trackStep (data : Data T) (dom : Domain T) (fuel : Nat) (st : TrackState T) :
    Prog T (Bool × TrackState T) :=
  (outcome data dom st.particle).bind fun (o, p) =>
    let p := { p with numSegments := p.numSegments +. one }
    let st : TrackState T := { st with
      particle := p
      balance := { st.balance with numSegments := st.balance.numSegments + 1 } }
    .addFlux (fluxIndex dom.numGroups p.cell p.energyGroup) (p.segmentPathLength *. p.weight) fun _ =>
      Prog.ofExcept (segmentEvent data dom fuel o st)

/-- `cycle_tracking_function`, `cycle_tracking.rs` 51-136 (the `loop`, with fuel). -/
def trackLoop (data : Data T) (dom : Domain T) (cfuel : Nat) :
    Nat → TrackState T → Prog T (TrackState T)
  | 0, _ => .fail .outOfFuel
  | fuel + 1, st =>
    (trackStep data dom cfuel st).bind fun (keep, st) =>
      if keep then trackLoop data dom cfuel fuel st else .ret st

/-- Preparation of a particle by `cycle_tracking_guts`, `cycle_tracking.rs` 38-46. -/
def gutsPrepare (data : Data T) (p : Particle T) : Except Panic (Particle T) := do
  let p := if p.timeToCensus <=. zero then
    { p with timeToCensus := p.timeToCensus +. data.dt } else p
  let p := { p with age := Flt.max p.age zero }
  let g ← getEnergyGroups data.nuclear.energies p.kineticEnergy
  return { p with energyGroup := g }

/-- `cycle_tracking_guts`, `cycle_tracking.rs` 31-49. -/
def trackGuts (data : Data T) (dom : Domain T) (fuel : Nat) (st : TrackState T) :
    Prog T (TrackState T) :=
  (Prog.ofExcept (gutsPrepare data st.particle)).bind fun p =>
    trackLoop data dom fuel fuel { st with particle := p }
