import Verif.Spec.Config
/-!
# Specification: the problem of a run

What the user gave for the regions, materials and cross-sections, and the built-in problem.
-/
namespace Config
open Flt
variable {T : Type} [Flt T]

/-- The built-in region: a brick over the whole mesh. -/
structure BuiltinRegion (s : SimulationParams T) (g : GeometryParams T) : Prop where
  material : g.materialName = "source_material"
  shape : g.shape = .brick
  low : g.xMin = zero ∧ g.yMin = zero ∧ g.zMin = zero
  high : g.xMax = s.lx ∧ g.yMax = s.ly ∧ g.zMax = s.lz

/-- The built-in material: mass 1000, 1e10 particles per unit of volume and time, a total cross-section of one
shared by scattering, absorption and fission as 1 : 1 : 0.1, made of ten isotopes with nine reactions. -/
structure BuiltinMaterial (m : MaterialParams T) : Prop where
  name : m.name = "source_material"
  mass : m.mass = Flt.lit 1000 0
  rate : m.sourceRate = Flt.lit 1 10
  total : m.totalCrossSection = one
  isotopes : m.nIsotopes = 10
  reactions : m.nReactions = 9
  curves : m.scatteringCrossSection = "flat" ∧ m.absorptionCrossSection = "flat" ∧ m.fissionCrossSection = "flat"
  scatter : m.scatteringCrossSectionRatio = one
  absorb : m.absorptionCrossSectionRatio = one
  fission : m.fissionCrossSectionRatio = Flt.lit 1 (-1)

/-- The built-in curve: constant, with 2.4 neutrons per fission, rounded to `f32`. -/
structure BuiltinCurve (x : CrossSectionParams T) : Prop where
  name : x.name = "flat"
  slope : x.aa = zero ∧ x.bb = zero ∧ x.cc = zero ∧ x.dd = zero
  constant : x.ee = one
  nuBar : x.nuBar = Flt.ofNat 10066330 /. Flt.ofNat (2 ^ 22)

/-- The first definition of a name. -/
def firstMaterial (items : List (Item T)) (name : String) : Option (MaterialParams T) :=
  (items.filterMap Item.material?).find? fun m => m.name = name

/-- The first definition of a name. -/
def firstCurve (items : List (Item T)) (name : String) : Option (CrossSectionParams T) :=
  (items.filterMap Item.crossSection?).find? fun x => x.name = name

/-- The problem is the one that was given. -/
structure GivenProblem (items : List (Item T)) (p : Params T) : Prop where
  regions : p.geometries = (items.filterMap Item.geometry?).reverse
  materials : ∀ name, p.materials.get? name = firstMaterial items name
  curves : ∀ name, p.crossSections.get? name = firstCurve items name

/-- The problem is the built-in one, next to the materials and curves that were given. -/
structure BuiltinProblem (items : List (Item T)) (p : Params T) : Prop where
  regions : ∃ g, p.geometries = [g] ∧ BuiltinRegion p.simulation g
  material : ∃ m, p.materials.get? "source_material" = some m ∧ BuiltinMaterial m
  materials : ∀ name, name ≠ "source_material" → p.materials.get? name = firstMaterial items name
  curve : ∃ x, p.crossSections.get? "flat" = some x ∧ BuiltinCurve x
  curves : ∀ name, name ≠ "flat" → p.crossSections.get? name = firstCurve items name

end Config
