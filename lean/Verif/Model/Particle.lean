import Verif.Model.Rng
import Verif.Model.Vec3
import Verif.Model.Tallies
import Verif.Model.Nuclear
/-!
# Particles

Models `fastiron/src/particles/mc_particle.rs`.
-/
open Flt

/-- `Species`, `mc_particle.rs` 23-31. -/
inductive Species where
  | unknown
  | known
deriving DecidableEq, Repr

/-- `MCParticle`, `mc_particle.rs` 36-81. -/
structure Particle (T : Type) where
  coordinate : Vec3 T
  direction : Vec3 T
  kineticEnergy : T
  energyGroup : Nat
  weight : T
  species : Species
  timeToCensus : T
  age : T
  totalCrossSection : T
  meanFreePath : T
  segmentPathLength : T
  numMeanFreePaths : T
  numSegments : T
  seed : BitVec 64
  identifier : BitVec 64
  lastEvent : TallyEvent
  domain : Nat
  cell : Nat
  facet : Nat
  normalDot : T
deriving DecidableEq, Repr

namespace Particle
variable {T : Type} [Flt T]

/-- `MCParticle::default()`. -/
def default : Particle T :=
  { coordinate := Vec3.zero, direction := Vec3.zero, kineticEnergy := zero, energyGroup := 0,
    weight := zero, species := .known, timeToCensus := zero, age := zero,
    totalCrossSection := zero, meanFreePath := zero, segmentPathLength := zero,
    numMeanFreePaths := zero, numSegments := zero, seed := 0#64, identifier := 0#64,
    lastEvent := .census, domain := 0, cell := 0, facet := 0, normalDot := zero }

/-- `move_particle_along_segment`, `mc_particle.rs` 87-89. -/
def moveAlongSegment (p : Particle T) : Particle T :=
  { p with coordinate := p.coordinate.add (p.direction.smul p.segmentPathLength) }

/-- `sample_num_mfp`, `mc_particle.rs` 208-210. -/
def sampleNumMfp (p : Particle T) : Particle T :=
  let (u, s) := Rng.sample (T := T) p.seed
  { p with numMeanFreePaths := (Flt.neg one) *. Flt.ln u, seed := s }

/-- The vector computed by `rotate_direction`, `mc_particle.rs` 241-268. -/
def rotate (d : Vec3 T) (sinTheta cosTheta sinPhi cosPhi : T) : Vec3 T :=
  let threshold : T := Flt.lit 1 (-6)
  let cosTheta0 := d.z
  let sinTheta0 := Flt.sqrt (one -. cosTheta0 *. cosTheta0)
  let cosPhi0 := if sinTheta0 <. threshold then one else d.x /. sinTheta0
  let sinPhi0 := if sinTheta0 <. threshold then zero else d.y /. sinTheta0
  { x := cosTheta0 *. cosPhi0 *. (sinTheta *. cosPhi) -. sinPhi0 *. (sinTheta *. sinPhi)
          +. sinTheta0 *. cosPhi0 *. cosTheta
    y := cosTheta0 *. sinPhi0 *. (sinTheta *. cosPhi) +. cosPhi0 *. (sinTheta *. sinPhi)
          +. sinTheta0 *. sinPhi0 *. cosTheta
    z := (Flt.neg sinTheta0) *. (sinTheta *. cosPhi) +. zero +. cosTheta0 *. cosTheta }

/-- `rotate_direction`, `mc_particle.rs` 241-268. -/
def rotateDirection (p : Particle T) (sinTheta cosTheta sinPhi cosPhi : T) : Particle T :=
  { p with direction := rotate p.direction sinTheta cosTheta sinPhi cosPhi }

/-- `update_trajectory`, `mc_particle.rs` 92-110. -/
def updateTrajectory (p : Particle T) (energy angle : T) : Particle T :=
  let cosTheta := angle
  let sinTheta := Flt.sqrt (one -. cosTheta *. cosTheta)
  let (u, s) := Rng.sample (T := T) p.seed
  let phi := two *. Flt.pi *. u
  let p := { p with seed := s, kineticEnergy := energy }
  let p := p.rotateDirection sinTheta cosTheta (Flt.sin phi) (Flt.cos phi)
  p.sampleNumMfp

/-- `get_speed`, `mc_particle.rs` 114-123. -/
def speedOf (e : T) : T :=
  let m : T := neutronMassEnergy
  lightSpeed *. Flt.sqrt (e *. (e +. two *. m) /. ((e +. m) *. (e +. m)))

/-- `get_speed`, `mc_particle.rs` 114-123. -/
def getSpeed (p : Particle T) : T := speedOf p.kineticEnergy

/-- `get_current_xs`, `mc_particle.rs` 126-128. -/
def getCurrentXs (p : Particle T) : T × Particle T :=
  let (u, s) := Rng.sample (T := T) p.seed
  (p.totalCrossSection *. u, { p with seed := s })

/-- The (energy, angle) pair of a fission neutron, `mc_particle.rs` 158-160, 170-172, 176-181. -/
def drawFission (s : BitVec 64) : (T × T) × BitVec 64 :=
  let (u1, s1) := Rng.sample (T := T) s
  let randF := (u1 +. one) /. two
  let energy := Flt.ofNat 20 *. randF *. randF
  let (u2, s2) := Rng.sample (T := T) s1
  ((energy, u2 *. two -. one), s2)

/-- `n` successive fission pairs, `mc_particle.rs` 174-182. -/
def drawFissions : Nat → BitVec 64 → List (T × T) × BitVec 64
  | 0, s => ([], s)
  | n + 1, s =>
    let (ea, s1) := drawFission (T := T) s
    let (l, s2) := drawFissions n s1
    (ea :: l, s2)

/-- `n` successive spawned seeds, `mc_particle.rs` 184-188, 284-290. -/
def spawnSeeds : Nat → BitVec 64 → List (BitVec 64) × BitVec 64
  | 0, s => ([], s)
  | n + 1, s =>
    let (child, s1) := Rng.spawn s
    let (l, s2) := spawnSeeds n s1
    (child :: l, s2)

/-- `sample_collision`, `mc_particle.rs` 134-205.
Returns the number of outgoing particles, the updated particle and the particles pushed on `extra`. -/
def sampleCollision (p : Particle T) (r : Reaction T) (materialMass : T) :
    Except Panic (Nat × Particle T × List (Particle T)) :=
  match r.rtype with
  | .scatter =>
    let (u1, s1) := Rng.sample (T := T) p.seed
    let energy := p.kineticEnergy *. (one -. u1 *. (one /. materialMass))
    let (u2, s2) := Rng.sample (T := T) s1
    let angle := u2 *. two -. one
    .ok (1, { p with seed := s2 }.updateTrajectory energy angle, [])
  | .absorption => .ok (0, p, [])
  | .fission => do
    let (u, s) := Rng.sample (T := T) p.seed
    let n ← unwrap (Flt.toUsize (r.nuBar +. u))
    let p := { p with seed := s }
    if n = 0 then return (0, p, [])
    else if n = 1 then
      let (ea, s1) := drawFission (T := T) p.seed
      return (1, { p with seed := s1 }.updateTrajectory ea.1 ea.2, [])
    else
      assertB (n < 5)
      let (ea, s1) := drawFission (T := T) p.seed
      let (out, s2) := drawFissions (T := T) (n - 1) s1
      let (seeds, s3) := spawnSeeds (n - 1) s2
      let p := { p with seed := s3 }
      let extra := (seeds.zip out).map fun (sd, (e, a)) =>
        ({ p with seed := sd, identifier := sd } : Particle T).updateTrajectory e a
      return (n, p.updateTrajectory ea.1 ea.2, extra)

/-- `sample_isotropic`, `mc_particle.rs` 213-227. -/
def sampleIsotropic (p : Particle T) : Particle T :=
  let (u1, s1) := Rng.sample (T := T) p.seed
  let z := one -. two *. u1
  let sineGamma := Flt.sqrt (one -. z *. z)
  let (u2, s2) := Rng.sample (T := T) s1
  let phi := Flt.pi *. (two *. u2 -. one)
  { p with direction := ⟨sineGamma *. Flt.cos phi, sineGamma *. Flt.sin phi, z⟩, seed := s2 }

/-- `under_populated_split`, `mc_particle.rs` 272-291: updated particle and its copies. -/
def underPopulatedSplit (p : Particle T) (factor : T) :
    Except Panic (Particle T × List (Particle T)) := do
  let fl := Flt.floor factor
  let (u, s) := Rng.sample (T := T) p.seed
  let fl := if u >. (factor -. fl) then fl -. one else fl
  let p := { p with seed := s, weight := p.weight /. factor }
  let n ← unwrap (Flt.toUsize fl)
  let (seeds, s') := spawnSeeds n p.seed
  return ({ p with seed := s' }, seeds.map fun sd => { p with seed := sd, identifier := sd })

/-- `over_populated_rr`, `mc_particle.rs` 296-305. -/
def overPopulatedRr (p : Particle T) (factor : T) : Particle T × Bool :=
  let (u, s) := Rng.sample (T := T) p.seed
  let p := { p with seed := s }
  if u >. factor then (p, false) else ({ p with weight := p.weight /. factor }, true)

/-- `low_weight_rr`, `mc_particle.rs` 310-325. -/
def lowWeightRr (p : Particle T) (relCutoff srcWeight : T) : Particle T × Bool :=
  let weightCutoff := relCutoff *. srcWeight
  if p.weight <=. weightCutoff then
    let (u, s) := Rng.sample (T := T) p.seed
    let p := { p with seed := s }
    if u <=. relCutoff then ({ p with weight := p.weight /. relCutoff }, true) else (p, false)
  else (p, true)

end Particle
