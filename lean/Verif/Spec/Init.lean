import Verif.Model.Init
/-!
# What the initialisation builds from the parameters
-/
open Flt

variable {T : Type} [Flt T]

/-- Every value is stored under its own name, once. -/
structure Named {V : Type} (name : V → String) (m : HMap String V) : Prop where
  nodup : m.keys.Nodup
  own : ∀ k v, m.get? k = some v → name v = k

/-- Parameters whose maps are indexed by name, as the reader of the input file builds them. -/
structure NamedParams (p : Params T) : Prop where
  materials : Named MaterialParams.name p.materials
  crossSections : Named CrossSectionParams.name p.crossSections

/-- The polynomial of a named cross-section. -/
def CrossSectionParams.poly (x : CrossSectionParams T) : Polynomial5 T :=
  { aa := x.aa, bb := x.bb, cc := x.cc, dd := x.dd, ee := x.ee }

/-- The isotopes of a material are built from `f`, `s` and `a`, the cross-sections it names. -/
structure IsotopeFrom (p : Params T) (mp : MaterialParams T) (sp : IsotopeSpec T) (nuBar : T) : Prop where
  nReactions : sp.nReactions = mp.nReactions
  total : sp.totalCrossSection = mp.totalCrossSection
  ratios : sp.fissionRatio = mp.fissionCrossSectionRatio ∧ sp.scatteringRatio = mp.scatteringCrossSectionRatio ∧
    sp.absorptionRatio = mp.absorptionCrossSectionRatio
  fission : ∃ x, p.crossSections.get? mp.fissionCrossSection = some x ∧ sp.fissionPoly = x.poly ∧ nuBar = x.nuBar
  scattering : ∃ x, p.crossSections.get? mp.scatteringCrossSection = some x ∧ sp.scatteringPoly = x.poly
  absorption : ∃ x, p.crossSections.get? mp.absorptionCrossSection = some x ∧ sp.absorptionPoly = x.poly

/-- Material `m` is what its parameters `mp` describe; its isotopes are numbered from `first` on in the
list of isotopes `nd`. -/
structure MaterialFrom (p : Params T) (nd : NuclearData T) (first : Nat) (mp : MaterialParams T) (m : Material T) :
    Prop where
  name : m.name = mp.name
  mass : m.mass = mp.mass
  isotopes : m.iso = (List.range mp.nIsotopes).map fun i =>
    { gid := first + i, atomFraction := one /. Flt.ofNat mp.nIsotopes }
  tables : ∃ sp nuBar, IsotopeFrom p mp sp nuBar ∧
    ∀ i < mp.nIsotopes, nd.isotopes[first + i]? = some (isotopeReactions nd.energies sp nuBar)

/-- The materials, in the order of the list of their parameters. -/
inductive MaterialsFrom (p : Params T) (nd : NuclearData T) : Nat → List (MaterialParams T) → List (Material T) → Prop
  | nil {n} : n = nd.isotopes.length → MaterialsFrom p nd n [] []
  | cons {n mp mps m ms} : MaterialFrom p nd n mp m → MaterialsFrom p nd (n + mp.nIsotopes) mps ms →
      MaterialsFrom p nd n (mp :: mps) (m :: ms)
