import Verif.Model.Flt
/-!
# Nuclear data and materials

Models `fastiron/src/data/nuclear_data.rs` and `fastiron/src/data/material_database.rs`.
There is one particle species, so an isotope is its list of reactions (`isotopes[gid][0]`).
-/
open Flt

/-- `ReactionType`, `nuclear_data.rs` 12-20. -/
inductive ReactionType where
  | scatter
  | absorption
  | fission
deriving DecidableEq, Repr

/-- `Polynomial`, `nuclear_data.rs` 26-37. -/
structure Polynomial5 (T : Type) where
  aa : T
  bb : T
  cc : T
  dd : T
  ee : T
deriving DecidableEq, Repr

/-- `NuclearDataReaction`, `nuclear_data.rs` 51-64. -/
structure Reaction (T : Type) where
  crossSection : List T
  rtype : ReactionType
  nuBar : T
deriving DecidableEq, Repr

/-- `Isotope`, `material_database.rs`. -/
structure Isotope (T : Type) where
  gid : Nat
  atomFraction : T
deriving DecidableEq, Repr

/-- `Material`, `material_database.rs`. -/
structure Material (T : Type) where
  name : String
  mass : T
  iso : List (Isotope T)
deriving DecidableEq, Repr

/-- `NuclearData`, `nuclear_data.rs` 141-148. -/
structure NuclearData (T : Type) where
  numEnergyGroups : Nat
  isotopes : List (List (Reaction T))
  energies : List T
deriving DecidableEq, Repr

variable {T : Type} [Flt T]

/-- `Polynomial::val`, `nuclear_data.rs` 41-43 (Horner). -/
def Polynomial5.val (p : Polynomial5 T) (xx : T) : T :=
  p.ee +. xx *. (p.dd +. xx *. (p.cc +. xx *. (p.bb +. xx *. p.aa)))

/-- Loop body of `NuclearDataReaction::new`, `nuclear_data.rs` 82-91: for each pair of successive
levels the raw cross-section `10^(poly(log10 mid))`, threading `normal_value`.  Both are `f64` whatever `T` is. -/
def rawCrossSections (p : Polynomial5 T) : List T → Wide T → List (Wide T) × Wide T
  | e0 :: e1 :: rest, normal =>
    let energy := (e0 +. e1) /. two
    let xs := Flt.pow10 (p.val (Flt.log10 energy))
    let normal' := if (e1 >=. one) && Flt.wideIsZero normal then xs else normal
    let (l, n) := rawCrossSections p (e1 :: rest) normal'
    (xs :: l, n)
  | _, normal => ([], normal)

/-- `NuclearDataReaction::new`, `nuclear_data.rs` 68-105. -/
def Reaction.new (rtype : ReactionType) (nuBar : T) (energies : List T) (p : Polynomial5 T)
    (reactionCrossSection : T) : Reaction T :=
  let (raw, normal) := rawCrossSections p energies Flt.wideZero
  let scale := Flt.wideDiv reactionCrossSection normal
  { crossSection := raw.map (fun x => Flt.ofWide (Flt.wideMul x scale)), rtype := rtype, nuBar := nuBar }

/-- Energy levels of `NuclearData::new`, `nuclear_data.rs` 158-179. -/
def energyLevels (numGroups : Nat) (eLow eHigh : T) : List T :=
  let length : T := Flt.ofNat (numGroups + 1)
  let logLow := Flt.ln eLow
  let logHigh := Flt.ln eHigh
  let delta := (logHigh -. logLow) /. length
  (List.range (numGroups + 1)).map fun i =>
    -- `energies[num_groups] = energy_high` is written after `energies[0] = energy_low`
    if i = numGroups then eHigh
    else if i = 0 then eLow
    else Flt.exp (logLow +. delta *. Flt.ofNat i)

/-- `NuclearData::new`, `nuclear_data.rs` 158-179. -/
def NuclearData.new (numGroups : Nat) (eLow eHigh : T) : NuclearData T :=
  { numEnergyGroups := numGroups, isotopes := [], energies := energyLevels numGroups eLow eHigh }

/-- Material parameters used by `add_isotope` (part of `MaterialParameters`, `parameters.rs`). -/
structure IsotopeSpec (T : Type) where
  nReactions : Nat
  totalCrossSection : T
  fissionRatio : T
  scatteringRatio : T
  absorptionRatio : T
  fissionPoly : Polynomial5 T
  scatteringPoly : Polynomial5 T
  absorptionPoly : Polynomial5 T

/-- Number of reactions of each type, `nuclear_data.rs` 202-218: (fission, scatter, absorption). -/
def reactionCounts (n : Nat) : Nat × Nat × Nat :=
  match n % 3 with
  | 2 => (n / 3 + 1, n / 3 + 1, n / 3)
  | 1 => (n / 3, n / 3 + 1, n / 3)
  | _ => (n / 3, n / 3, n / 3)

/-- The reactions built by `NuclearData::add_isotope`, `nuclear_data.rs` 185-255. -/
def isotopeReactions (energies : List T) (sp : IsotopeSpec T) (nuBar : T) : List (Reaction T) :=
  let totalWeight := sp.fissionRatio +. sp.scatteringRatio +. sp.absorptionRatio
  let (nF, nS, nA) := reactionCounts sp.nReactions
  let fissionXs := (sp.totalCrossSection *. sp.fissionRatio) /. (Flt.ofNat nF *. totalWeight)
  let scatterXs := (sp.totalCrossSection *. sp.scatteringRatio) /. (Flt.ofNat nS *. totalWeight)
  let absorptionXs := (sp.totalCrossSection *. sp.absorptionRatio) /. (Flt.ofNat nA *. totalWeight)
  (List.range sp.nReactions).map fun ii =>
    match ii % 3 with
    | 0 => Reaction.new .scatter nuBar energies sp.scatteringPoly scatterXs
    | 1 => Reaction.new .fission nuBar energies sp.fissionPoly fissionXs
    | _ => Reaction.new .absorption nuBar energies sp.absorptionPoly absorptionXs

/-- `NuclearData::add_isotope`, `nuclear_data.rs` 185-255: new data and the index of the isotope. -/
def NuclearData.addIsotope (nd : NuclearData T) (sp : IsotopeSpec T) (nuBar : T) :
    NuclearData T × Nat :=
  let isos := nd.isotopes ++ [isotopeReactions nd.energies sp nuBar]
  ({ nd with isotopes := isos }, isos.length - 1)

/-- Dichotomy loop of `get_energy_groups`, `nuclear_data.rs` 271-283. -/
def bisect (energies : List T) (energy : T) : Nat → Nat → Nat → Except Panic Nat
  | 0, _, _ => .error .outOfFuel
  | fuel + 1, low, high =>
    if high = low + 1 then .ok low
    else do
      let mid := (high + low) / 2
      let e ← idx energies mid
      if energy <. e then bisect energies energy fuel low mid
      else bisect energies energy fuel mid high

/-- `get_energy_groups`, `nuclear_data.rs` 258-284. -/
def getEnergyGroups (energies : List T) (energy : T) : Except Panic Nat := do
  let n := energies.length
  let e0 ← idx energies 0
  if energy <=. e0 then return 0
  let eLast ← idx energies (n - 1)
  if energy >. eLast then return (n - 1)
  bisect energies energy n 0 (n - 1)

/-- Look-up of the cross-section of every reaction of an isotope in a group, with its index panic. -/
def groupCrossSections (rs : List (Reaction T)) (group : Nat) : Except Panic (List T) :=
  rs.mapM (fun r => idx r.crossSection group)

/-- `get_total_cross_section`, `nuclear_data.rs` 287-294. -/
def NuclearData.getTotalCrossSection (nd : NuclearData T) (isotopeIndex group : Nat) :
    Except Panic T := do
  let rs ← idx nd.isotopes isotopeIndex
  let l ← groupCrossSections rs group
  return Flt.sum l

/-- `MaterialDatabase::find_material`, `material_database.rs`: position of the first match. -/
def findMaterialIdx (mats : List (Material T)) (name : String) : Option Nat :=
  mats.findIdx? (fun m => m.name == name)
