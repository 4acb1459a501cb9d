import Verif.Model.Domain
import Verif.Model.Exec
import Verif.Model.Input
/-!
# From the parameters to the start of the core loop

Models the rest of `fastiron/src/init.rs` and the first part of `run` in `fastiron/src/main.rs`
(48-103).  Messages, timers and capacities of vectors are not modelled: a capacity has no effect on
the results, only the panics of its computation are kept.
-/
open Flt

variable {T : Type} [Flt T]

/-- The polynomials by name, `init.rs` 132-144. -/
def polynomialMap (order : StrOrder) (p : Params T) : HMap String (Polynomial5 T) :=
  (p.crossSections.valuesIn order).foldl
    (fun m x => HMap.insert m x.name { aa := x.aa, bb := x.bb, cc := x.cc, dd := x.dd, ee := x.ee }) []

/-- The look-ups of `NuclearData::add_isotope`, `nuclear_data.rs` 191-200. -/
def isotopeSpec (polys : HMap String (Polynomial5 T)) (mp : MaterialParams T) :
    Except Panic (IsotopeSpec T) := do
  let f ← HMap.index polys mp.fissionCrossSection
  let s ← HMap.index polys mp.scatteringCrossSection
  let a ← HMap.index polys mp.absorptionCrossSection
  return { nReactions := mp.nReactions, totalCrossSection := mp.totalCrossSection,
           fissionRatio := mp.fissionCrossSectionRatio, scatteringRatio := mp.scatteringCrossSectionRatio,
           absorptionRatio := mp.absorptionCrossSectionRatio,
           fissionPoly := f, scatteringPoly := s, absorptionPoly := a }

/-- The isotopes of one material, `init.rs` 164-175. -/
def addIsotopes (p : Params T) (polys : HMap String (Polynomial5 T)) (mp : MaterialParams T) :
    Nat → NuclearData T → List (Isotope T) → Except Panic (NuclearData T × List (Isotope T))
  | 0, nd, iso => .ok (nd, iso)
  | n + 1, nd, iso => do
    let xs ← HMap.index p.crossSections mp.fissionCrossSection
    let sp ← isotopeSpec polys mp
    let (nd, gid) := nd.addIsotope sp xs.nuBar
    addIsotopes p polys mp n nd
      (iso ++ [{ gid := gid, atomFraction := one /. Flt.ofNat mp.nIsotopes }])

/-- Loop over the materials, `init.rs` 157-177. -/
def addMaterials (p : Params T) (polys : HMap String (Polynomial5 T)) :
    List (MaterialParams T) → NuclearData T → List (Material T) →
    Except Panic (NuclearData T × List (Material T))
  | [], nd, mats => .ok (nd, mats)
  | mp :: rest, nd, mats => do
    let (nd, iso) ← addIsotopes p polys mp mp.nIsotopes nd []
    addMaterials p polys rest nd (mats ++ [{ name := mp.name, mass := mp.mass, iso := iso }])

/-- `init_nuclear_data`, `init.rs` 125-178. -/
def initNuclearData (order : StrOrder) (p : Params T) :
    Except Panic (NuclearData T × List (Material T)) :=
  addMaterials p (polynomialMap order p) (p.materials.valuesIn order)
    (NuclearData.new p.simulation.nGroups p.simulation.eMin p.simulation.eMax) []

/-- `XSData`, `init.rs` 333-338. -/
structure XsData (T : Type) where
  abs : T
  fis : T
  sca : T
deriving DecidableEq, Repr

/-- Addition to the field of a reaction type, `init.rs` 386-396. -/
def XsData.add (x : XsData T) (rt : ReactionType) (v : T) : XsData T :=
  match rt with
  | .scatter => { x with sca := x.sca +. v }
  | .absorption => { x with abs := x.abs +. v }
  | .fission => { x with fis := x.fis +. v }

/-- One reaction of one isotope, `init.rs` 385-397; the rows are numbered by the energy groups. -/
def xsAddReaction (n : T) (rows : List (XsData T)) (r : Reaction T) : Except Panic (List (XsData T)) :=
  rows.zipIdx.mapM fun (row, g) => do
    let v ← idx r.crossSection g
    return row.add r.rtype (v /. n)

/-- The rows of one material, `init.rs` 373-401. -/
def xsMaterial (nd : NuclearData T) (nGroups : Nat) (m : Material T) : Except Panic (List (XsData T)) :=
  m.iso.foldlM (fun rows iso => do
    let rs ← idx nd.isotopes iso.gid
    rs.foldlM (xsAddReaction (Flt.ofNat m.iso.length)) rows)
    (List.replicate nGroups ⟨zero, zero, zero⟩)

/-- The middle of each energy group, `init.rs` 365-368. -/
def xsEnergies (nd : NuclearData T) (nGroups : Nat) : Except Panic (List T) :=
  (List.range nGroups).mapM fun i => do
    let a ← idx nd.energies i
    let b ← idx nd.energies (i + 1)
    return (a +. b) /. two

/-- Suppression of the very small values when the table is written, `init.rs` 425-433. -/
def XsData.cut (x : XsData T) : XsData T :=
  { abs := if x.abs <. Flt.tiny then zero else x.abs
    fis := if x.fis <. Flt.tiny then zero else x.fis
    sca := if x.sca <. Flt.tiny then zero else x.sca }

/-- `check_cross_sections`, `init.rs` 359-443: the energies and, by material, the values written for
each group.  The format of the numbers and the failures of the file system are not modelled. -/
def crossSectionTable (nd : NuclearData T) (mats : List (Material T)) (nGroups : Nat) :
    Except Panic (List T × HMap String (List (XsData T))) := do
  let es ← xsEnergies nd nGroups
  let rows ← mats.mapM fun m => do
    let r ← xsMaterial nd nGroups m
    return (m.name, r.map XsData.cut)
  return (es, rows.foldl (fun t e => HMap.insert t e.1 e.2) [])

/-- The largest number of neutrons of a fission, rounded up, `init.rs` 62-73. -/
def maxNuBar (order : StrOrder) (p : Params T) : Except Panic Nat := do
  let l ← (p.materials.valuesIn order).mapM fun mp => do
    let xs ← HMap.index p.crossSections mp.fissionCrossSection
    unwrap (Flt.toUsize (Flt.ceil xs.nuBar))
  unwrap l.max?

/-- `init_particle_containers`, `init.rs` 52-86: the containers are empty and there is one of them. -/
def initContainers (order : StrOrder) (p : Params T) (info : ExecInfo) : Except Panic (Container T) := do
  if info.nUnits = 0 then .error .divByZero
  else
    let _ ← maxNuBar order p
    match info.policy with
    | .sequential | .rayon => return { processing := [], processed := [], extra := [] }
    | .distributed | .hybrid => .error .unimplemented

/-- `init_mcunits`, `init.rs` 91-112: domains, tallies and cross-section cache. -/
def initUnits (order : IterOrder) (fuel : Nat) (p : Params T) (mats : List (Material T)) :
    Except Panic (List (UnitState T)) := do
  let doms ← initMesh order fuel p mats
  consistencyCheck doms
  return doms.map fun dom =>
    let size := dom.cells.length * p.simulation.nGroups
    { dom := dom, balance := {}, flux := List.replicate size zero, cache := List.replicate size zero,
      unitWeight := zero }

/-- What the core loop of `run` reads and changes, `main.rs` 63-103. -/
structure Started (T : Type) where
  data : Data T
  exec : ExecInfo
  opts : SyncOpts
  state : SimState T

/-- The settings read by `MCProcessorInfo::new`. -/
def Params.execSettings (p : Params T) : ExecSettings :=
  { nUnits := p.simulation.nUnits, nRayonThreads := p.simulation.nRayonThreads,
    chunkSize := p.simulation.chunkSize, bindThreads := p.simulation.bindThreads }

/-- The read-only data of the run, `MonteCarloData` as filled by `init_mcdata`, `init.rs` 30-47. -/
def Params.data (p : Params T) (nd : NuclearData T) (mats : List (Material T)) : Data T :=
  { dt := p.simulation.dt, eMin := p.simulation.eMin, eMax := p.simulation.eMax,
    nParticles := p.simulation.nParticles, nSteps := p.simulation.nSteps,
    lowWeightCutoff := p.simulation.lowWeightCutoff, loadBalance := p.simulation.loadBalance,
    nUnits := p.simulation.nUnits, nuclear := nd, materials := mats,
    sourceRates := p.materials.map fun e => (e.1, e.2.sourceRate) }

/-- The file of cross-sections, `init.rs` 39-41 and 402-408: its name and the table written in it, if a name is given. -/
def crossSectionOutput (p : Params T) (nd : NuclearData T) (mats : List (Material T)) :
    Except Panic (Option (String × List T × HMap String (List (XsData T)))) := do
  if p.simulation.crossSectionsOut ≠ "" then
    let t ← crossSectionTable nd mats p.simulation.nGroups
    return some (p.simulation.crossSectionsOut ++ ".dat", t)
  else return none

/-- `init_mcdata`, `init.rs` 30-47, after `MCProcessorInfo::new`. -/
def initData (order : StrOrder) (p : Params T) : Except Panic (Data T) := do
  let (nd, mats) ← initNuclearData order p
  let _ ← crossSectionOutput p nd mats
  return p.data nd mats

/-- The state in which the core loop starts, `main.rs` 66-69 and `init_results`, `init.rs` 115-121. -/
def startState (p : Params T) (u : UnitState T) (c : Container T) : SimState T :=
  { unit := u, container := c, srcWeight := zero, globalN := 0, cumulative := {}, fluence := [],
    spectrum := List.replicate (p.simulation.nGroups + 1) 0, reports := [] }

/-- Initialisation of `run`, `main.rs` 63-103. -/
def initRun (so : StrOrder) (io : IterOrder) (m : Machine) (fuel : Nat) (p : Params T) :
    Except Panic (Started T) := do
  let info ← ProcInfo.new p.execSettings
  let data ← initData so p
  let c ← initContainers so p info.info
  let units ← initUnits io fuel p data.materials
  let u ← idx units 0
  let exec := if info.info.policy = .rayon then { info.info with nRayonThreads := poolSize m info }
    else info.info
  return { data := data, exec := exec,
           opts := { bench := decide (p.simulation.coralBenchmark ≠ .standard)
                     spectrumOn := decide (p.simulation.energySpectrum ≠ "") }
           state := startState p u c }

/-- `run` up to the core loop, `main.rs` 48-103: `none` when there are fewer than ten particles per
cell.  The product of the sizes overflows above `2^64`; the division by it panics at zero. -/
def startRun (so : StrOrder) (io : IterOrder) (m : Machine) (fuel : Nat) (p : Params T) :
    Except Panic (Option (Started T)) :=
  let cells := p.simulation.nx * p.simulation.ny * p.simulation.nz
  if 2 ^ 64 ≤ cells then .error .overflow
  else if cells = 0 then .error .divByZero
  else if p.simulation.nParticles / cells < 10 then .ok none
  else do
    let s ← initRun so io m fuel p
    return some s
