import Verif.Model.HMap
/-!
# Parameters of a problem

Models the data structures of `fastiron/src/parameters.rs`.
-/
open Flt

/-- `Shape`, `parameters.rs` 49-59. -/
inductive Shape where
  | undefined
  | brick
  | sphere
deriving DecidableEq, Repr

/-- `BenchType`, `parameters.rs` 37-46. -/
inductive BenchType where
  | standard
  | coral1
  | coral2
deriving DecidableEq, Repr

/-- `GeometryParameters`, `parameters.rs` 63-91. -/
structure GeometryParams (T : Type) where
  materialName : String
  shape : Shape
  radius : T
  xCenter : T
  yCenter : T
  zCenter : T
  xMin : T
  yMin : T
  zMin : T
  xMax : T
  yMax : T
  zMax : T
deriving DecidableEq, Repr

/-- `MaterialParameters`, `parameters.rs` 142-169. -/
structure MaterialParams (T : Type) where
  name : String
  mass : T
  totalCrossSection : T
  nIsotopes : Nat
  nReactions : Nat
  sourceRate : T
  scatteringCrossSection : String
  absorptionCrossSection : String
  fissionCrossSection : String
  scatteringCrossSectionRatio : T
  absorptionCrossSectionRatio : T
  fissionCrossSectionRatio : T
deriving DecidableEq, Repr

/-- `CrossSectionParameters`, `parameters.rs` 239-256. -/
structure CrossSectionParams (T : Type) where
  name : String
  aa : T
  bb : T
  cc : T
  dd : T
  ee : T
  nuBar : T
deriving DecidableEq, Repr

/-- `SimulationParameters`, `parameters.rs` 310-364. -/
structure SimulationParams (T : Type) where
  inputFile : String
  energySpectrum : String
  crossSectionsOut : String
  boundaryCondition : String
  loadBalance : Bool
  csv : Bool
  debugThreads : Bool
  nParticles : Nat
  chunkSize : Nat
  nRayonThreads : Nat
  bindThreads : Bool
  nUnits : Nat
  nSteps : Nat
  nx : Nat
  ny : Nat
  nz : Nat
  seed : Nat
  dt : T
  lx : T
  ly : T
  lz : T
  eMin : T
  eMax : T
  nGroups : Nat
  lowWeightCutoff : T
  coralBenchmark : BenchType
deriving DecidableEq, Repr

/-- `Parameters`, `parameters.rs` 462-472. -/
structure Params (T : Type) where
  simulation : SimulationParams T
  geometries : List (GeometryParams T)
  materials : HMap String (MaterialParams T)
  crossSections : HMap String (CrossSectionParams T)
deriving DecidableEq, Repr

variable {T : Type} [Flt T]

/-- `GeometryParameters::default()` (derived). -/
def GeometryParams.default : GeometryParams T :=
  ⟨"", .undefined, zero, zero, zero, zero, zero, zero, zero, zero, zero, zero⟩

/-- `MaterialParameters::default()`, `parameters.rs` 216-233. -/
def MaterialParams.default : MaterialParams T :=
  ⟨"", Flt.lit 1000 0, one, 10, 9, zero, "", "", "", one, one, one⟩

/-- `CrossSectionParameters::default()`, `parameters.rs` 294-306.  `from_f32(2.4)` is the number
of `f32` next to 2.4, whatever `T` is: it is written as the exact quotient 10066330 / 2^22. -/
def CrossSectionParams.default : CrossSectionParams T :=
  ⟨"", zero, zero, zero, zero, one, Flt.ofNat 10066330 /. Flt.ofNat (2 ^ 22)⟩

/-- `SimulationParameters::default()`, `parameters.rs` 428-458. -/
def SimulationParams.default : SimulationParams T where
  inputFile := ""
  energySpectrum := ""
  crossSectionsOut := ""
  boundaryCondition := "reflect"
  loadBalance := false
  csv := false
  debugThreads := false
  nParticles := 1000000
  chunkSize := 0
  nRayonThreads := 1
  bindThreads := false
  nUnits := 1
  nSteps := 10
  nx := 10
  ny := 10
  nz := 10
  seed := 1029384756
  dt := Flt.lit 1 (-8)
  lx := Flt.lit 100 0
  ly := Flt.lit 100 0
  lz := Flt.lit 100 0
  eMin := Flt.lit 1 (-9)
  eMax := Flt.lit 20 0
  nGroups := 230
  lowWeightCutoff := Flt.lit 1 (-3)
  coralBenchmark := .standard
