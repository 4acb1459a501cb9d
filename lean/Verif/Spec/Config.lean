import Verif.Model.Input
/-!
# What the input file and the options mean

Independent description of the result of reading a block, a file, a configuration.
-/
open Flt

namespace Config

/-- `r` is the value of a field: what the text of its key reads as, or `d` when the key is absent. -/
def Given {α : Type} (read : String → Option α) (text : Option String) (d r : α) : Prop :=
  match text with
  | some s => read s = some r
  | none => r = d

/-- The text of a key in a block. -/
def textOf (b : Block) (k : String) : Option String := b.lookup k

/-- Text of a shape. -/
def shapeOf (s : String) : Option Shape :=
  if s = "brick" then some .brick else if s = "sphere" then some .sphere else none

/-- Text of a flag: decided by its first character. -/
def flagOf (s : String) : Option Bool :=
  match s.toList.head? with
  | some c => if c = '0' then some false else if c = '1' then some true else none
  | none => none

/-- Text of a benchmark type: decided by its first character. -/
def benchOf (s : String) : Option BenchType :=
  match s.toList.head? with
  | some c => if c = '0' then some .standard else if c = '1' then some .coral1
      else if c = '2' then some .coral2 else none
  | none => none

def geometryKeys : List String :=
  ["material", "shape", "radius", "xCenter", "yCenter", "zCenter", "xMin", "yMin", "zMin", "xMax", "yMax", "zMax"]

def materialKeys : List String :=
  ["name", "mass", "totalCrossSection", "nIsotopes", "nReactions", "sourceRate", "scatteringCrossSection",
    "absorptionCrossSection", "fissionCrossSection", "scatteringCrossSectionRatio", "absorptionCrossSectionRatio",
    "fissionCrossSectionRatio"]

def crossSectionKeys : List String := ["name", "A", "B", "C", "D", "E", "nuBar"]

def simulationKeys : List String :=
  ["inputFile", "energySpectrum", "crossSectionsOut", "boundaryCondition", "loadBalance", "debugThreads",
    "coralBenchmark", "nParticles", "nSteps", "nx", "ny", "nz", "seed", "dt", "lx", "ly", "lz", "eMin", "eMax",
    "nGroups", "lowWeightCutoff",
    -- accepted and ignored
    "cycleTimers", "batchSize", "nBatches", "balanceTallyReplications", "bTally", "fluxTallyReplications",
    "fTally", "cellTallyReplications", "cTally", "xDom", "yDom", "zDom", "fMax", "mpiThreadMultiple"]

/-- The values of a geometry block without any key. -/
def absentGeometry {T : Type} [Flt T] : GeometryParams T :=
  { materialName := "", shape := .undefined, radius := zero, xCenter := zero, yCenter := zero, zCenter := zero
    xMin := zero, yMin := zero, zMin := zero, xMax := zero, yMax := zero, zMax := zero }

/-- The values of a material block without any key. -/
def absentMaterial {T : Type} [Flt T] : MaterialParams T :=
  { name := "", mass := Flt.lit 1000 0, totalCrossSection := one, nIsotopes := 10, nReactions := 9, sourceRate := zero
    scatteringCrossSection := "", absorptionCrossSection := "", fissionCrossSection := ""
    scatteringCrossSectionRatio := one, absorptionCrossSectionRatio := one, fissionCrossSectionRatio := one }

/-- The values of a cross-section block without any key.  The number of neutrons of a fission is the number of `f32` next
to 2.4, also in `f64`. -/
def absentCrossSection {T : Type} [Flt T] : CrossSectionParams T :=
  { name := "", aa := zero, bb := zero, cc := zero, dd := zero, ee := one, nuBar := Flt.ofNat 10066330 /. Flt.ofNat (2 ^ 22) }

variable {T : Type}

/-- `g` holds what the texts `val` say, and the values of `d` elsewhere. -/
structure GeometryRead (pf : String → Option T) (val : String → Option String) (d g : GeometryParams T) : Prop where
  materialName : Given some (val "material") d.materialName g.materialName
  shape : Given shapeOf (val "shape") d.shape g.shape
  radius : Given pf (val "radius") d.radius g.radius
  xCenter : Given pf (val "xCenter") d.xCenter g.xCenter
  yCenter : Given pf (val "yCenter") d.yCenter g.yCenter
  zCenter : Given pf (val "zCenter") d.zCenter g.zCenter
  xMin : Given pf (val "xMin") d.xMin g.xMin
  yMin : Given pf (val "yMin") d.yMin g.yMin
  zMin : Given pf (val "zMin") d.zMin g.zMin
  xMax : Given pf (val "xMax") d.xMax g.xMax
  yMax : Given pf (val "yMax") d.yMax g.yMax
  zMax : Given pf (val "zMax") d.zMax g.zMax

/-- The same for a material. -/
structure MaterialRead (pf : String → Option T) (val : String → Option String) (d m : MaterialParams T) : Prop where
  name : Given some (val "name") d.name m.name
  mass : Given pf (val "mass") d.mass m.mass
  totalCrossSection : Given pf (val "totalCrossSection") d.totalCrossSection m.totalCrossSection
  nIsotopes : Given parseU64 (val "nIsotopes") d.nIsotopes m.nIsotopes
  nReactions : Given parseU64 (val "nReactions") d.nReactions m.nReactions
  sourceRate : Given pf (val "sourceRate") d.sourceRate m.sourceRate
  scatteringCrossSection : Given some (val "scatteringCrossSection") d.scatteringCrossSection
    m.scatteringCrossSection
  absorptionCrossSection : Given some (val "absorptionCrossSection") d.absorptionCrossSection
    m.absorptionCrossSection
  fissionCrossSection : Given some (val "fissionCrossSection") d.fissionCrossSection m.fissionCrossSection
  scatteringCrossSectionRatio : Given pf (val "scatteringCrossSectionRatio") d.scatteringCrossSectionRatio
    m.scatteringCrossSectionRatio
  absorptionCrossSectionRatio : Given pf (val "absorptionCrossSectionRatio") d.absorptionCrossSectionRatio
    m.absorptionCrossSectionRatio
  fissionCrossSectionRatio : Given pf (val "fissionCrossSectionRatio") d.fissionCrossSectionRatio
    m.fissionCrossSectionRatio

/-- The same for a cross-section. -/
structure CrossSectionRead (pf : String → Option T) (val : String → Option String) (d x : CrossSectionParams T) :
    Prop where
  name : Given some (val "name") d.name x.name
  aa : Given pf (val "A") d.aa x.aa
  bb : Given pf (val "B") d.bb x.bb
  cc : Given pf (val "C") d.cc x.cc
  dd : Given pf (val "D") d.dd x.dd
  ee : Given pf (val "E") d.ee x.ee
  nuBar : Given pf (val "nuBar") d.nuBar x.nuBar

/-- The same for the simulation parameters.  The number of units, the chunk size, the number of threads, the
binding of threads and the csv output have no key. -/
structure SimulationRead (pf : String → Option T) (val : String → Option String) (d s : SimulationParams T) :
    Prop where
  inputFile : Given some (val "inputFile") d.inputFile s.inputFile
  energySpectrum : Given some (val "energySpectrum") d.energySpectrum s.energySpectrum
  crossSectionsOut : Given some (val "crossSectionsOut") d.crossSectionsOut s.crossSectionsOut
  boundaryCondition : Given some (val "boundaryCondition") d.boundaryCondition s.boundaryCondition
  loadBalance : Given flagOf (val "loadBalance") d.loadBalance s.loadBalance
  debugThreads : Given flagOf (val "debugThreads") d.debugThreads s.debugThreads
  coralBenchmark : Given benchOf (val "coralBenchmark") d.coralBenchmark s.coralBenchmark
  nParticles : Given parseU64 (val "nParticles") d.nParticles s.nParticles
  nSteps : Given parseU64 (val "nSteps") d.nSteps s.nSteps
  nx : Given parseU64 (val "nx") d.nx s.nx
  ny : Given parseU64 (val "ny") d.ny s.ny
  nz : Given parseU64 (val "nz") d.nz s.nz
  seed : Given parseU64 (val "seed") d.seed s.seed
  dt : Given pf (val "dt") d.dt s.dt
  lx : Given pf (val "lx") d.lx s.lx
  ly : Given pf (val "ly") d.ly s.ly
  lz : Given pf (val "lz") d.lz s.lz
  eMin : Given pf (val "eMin") d.eMin s.eMin
  eMax : Given pf (val "eMax") d.eMax s.eMax
  nGroups : Given parseU64 (val "nGroups") d.nGroups s.nGroups
  lowWeightCutoff : Given pf (val "lowWeightCutoff") d.lowWeightCutoff s.lowWeightCutoff
  csv : s.csv = d.csv
  chunkSize : s.chunkSize = d.chunkSize
  nRayonThreads : s.nRayonThreads = d.nRayonThreads
  bindThreads : s.bindThreads = d.bindThreads
  nUnits : s.nUnits = d.nUnits

/-! ## Files -/

/-- The text of a file made of these pieces, separated by blank lines. -/
def fileText : List (List Char) → List Char
  | [] => []
  | [b] => b
  | b :: bs => b ++ '\n' :: '\n' :: fileText bs

/-- The pieces are cut at every blank line: none contains one, and only the first can begin with a newline (of
several newlines in a row the last two are the blank line). -/
structure Separated (pieces : List (List Char)) : Prop where
  nonempty : pieces ≠ []
  inside : ∀ b ∈ pieces, ¬ ['\n', '\n'] <:+: b
  starts : ∀ b ∈ pieces.tail, b.head? ≠ some '\n'

/-- What a piece of the file says. -/
inductive Item (T : Type) where
  | nothing
  | simulation (b : Block)
  | geometry (g : GeometryParams T)
  | material (m : MaterialParams T)
  | crossSection (x : CrossSectionParams T)

def Item.geometry? : Item T → Option (GeometryParams T)
  | .geometry g => some g
  | _ => none

def Item.material? : Item T → Option (MaterialParams T)
  | .material m => some m
  | _ => none

def Item.crossSection? : Item T → Option (CrossSectionParams T)
  | .crossSection x => some x
  | _ => none

/-- Text of a key of a simulation block. -/
def Item.text? (k : String) : Item T → Option String
  | .simulation b => textOf b k
  | _ => none

/-- A header line and a body. -/
def withHeader (h : String) (body : List Char) : List Char := h.toList ++ '\n' :: body

variable [Flt T]

/-- A piece that is readable: its keys are known and their texts readable; a piece of one line says nothing. -/
inductive Reads (tr : TextReaders T) : List Char → Item T → Prop where
  | nothing {raw} : '\n' ∉ raw → Reads tr raw .nothing
  | simulation {body b} : tr.yaml body = some b → (∀ kv ∈ b, kv.1 ∈ simulationKeys) →
      (∀ d, ∃ s, SimulationRead tr.float (textOf b) d s) →
      Reads tr (withHeader "Simulation:" body) (.simulation b)
  | geometry {body b g} : tr.yaml body = some b → (∀ kv ∈ b, kv.1 ∈ geometryKeys) →
      GeometryRead tr.float (textOf b) absentGeometry g →
      Reads tr (withHeader "Geometry:" body) (.geometry g)
  | material {body b m} : tr.yaml body = some b → (∀ kv ∈ b, kv.1 ∈ materialKeys) →
      MaterialRead tr.float (textOf b) absentMaterial m →
      Reads tr (withHeader "Material:" body) (.material m)
  | crossSection {body b x} : tr.yaml body = some b → (∀ kv ∈ b, kv.1 ∈ crossSectionKeys) →
      CrossSectionRead tr.float (textOf b) absentCrossSection x →
      Reads tr (withHeader "CrossSection:" body) (.crossSection x)

/-- The error reported for a block that is not readable. -/
def errorOf (header : String) : InputError :=
  if header = "Simulation:" then .badSimulationBlock
  else if header = "Geometry:" then .badGeometryBlock
  else if header = "Material:" then .badMaterialBlock
  else if header = "CrossSection:" then .badCrossSectionBlock
  else .badBlockType

/-- A piece that is rejected with an error: it is YAML but not readable. -/
def Rejects (tr : TextReaders T) (raw : List Char) (e : InputError) : Prop :=
  (¬ ∃ i, Reads tr raw i) ∧
  ∃ header body b, raw = withHeader header body ∧ '\n' ∉ header.toList ∧ tr.yaml body = some b ∧ e = errorOf header

/-- A piece on which the program stops: not YAML, or a flag without a value. -/
def Breaks (tr : TextReaders T) (raw : List Char) (p : Panic) : Prop :=
  ∃ header body, raw = withHeader header body ∧ '\n' ∉ header.toList ∧
    ((tr.yaml body = none ∧ p = .unwrapNone) ∨
     ∃ b k, header = "Simulation:" ∧ tr.yaml body = some b ∧ (k, "") ∈ b ∧ p = .indexOutOfBounds ∧
       (k = "loadBalance" ∨ k = "debugThreads" ∨ k = "coralBenchmark"))

/-- What the readable pieces `items`, in the order of the file, make of the parameters `p`: of several texts for
one simulation key, materials or cross-sections of one name, the first of the file counts; the list of geometries
is in the opposite order of the file. -/
structure FileRead (tr : TextReaders T) (items : List (Item T)) (p p' : Params T) : Prop where
  simulation : SimulationRead tr.float (fun k => (items.filterMap (Item.text? k)).head?) p.simulation p'.simulation
  geometries : p'.geometries = p.geometries ++ (items.filterMap Item.geometry?).reverse
  materials : ∀ name, p'.materials.get? name =
    ((items.filterMap Item.material?).find? fun m => m.name = name).or (p.materials.get? name)
  crossSections : ∀ name, p'.crossSections.get? name =
    ((items.filterMap Item.crossSection?).find? fun x => x.name = name).or (p.crossSections.get? name)

/-! ## Validation -/

/-- Everything that can be wrong with the parameters. -/
inductive Violation (p : Params T) : ParameterError → Prop where
  | noGeometry : p.geometries = [] → Violation p .noGeometry
  | undefinedGeometry {g} : g ∈ p.geometries → g.shape = .undefined → Violation p .undefinedGeometry
  | missingMaterial {g} : g ∈ p.geometries → p.materials.get? g.materialName = none →
      Violation p (.missingMaterial g.materialName)
  | missingCrossSection {k m x} : p.materials.get? k = some m →
      (x = m.absorptionCrossSection ∨ x = m.scatteringCrossSection ∨ x = m.fissionCrossSection) →
      p.crossSections.get? x = none → Violation p (.missingCrossSection (m.name ++ ":" ++ x))

/-- Consistent parameters. -/
structure Consistent (p : Params T) : Prop where
  geometry : p.geometries ≠ []
  shapes : ∀ g ∈ p.geometries, g.shape ≠ .undefined
  materials : ∀ g ∈ p.geometries, ∃ m, p.materials.get? g.materialName = some m
  crossSections : ∀ k m, p.materials.get? k = some m →
    (∃ x, p.crossSections.get? m.absorptionCrossSection = some x) ∧
    (∃ x, p.crossSections.get? m.scatteringCrossSection = some x) ∧
    (∃ x, p.crossSections.get? m.fissionCrossSection = some x)

/-! ## Precedence -/

/-- The simulation parameters `s` that the options `cli` and the texts `txt` of the input file call for. -/
structure Precedence (pf : String → Option T) (cli : Cli T) (txt : String → Option String)
    (s : SimulationParams T) : Prop where
  -- file, then option, then default
  inputFile : Given some (txt "inputFile") (cli.inputFile.getD "") s.inputFile
  loadBalance : Given flagOf (txt "loadBalance") cli.loadBalance s.loadBalance
  debugThreads : Given flagOf (txt "debugThreads") cli.debugThreads s.debugThreads
  nParticles : Given parseU64 (txt "nParticles") (cli.nParticles.getD 1000000) s.nParticles
  nSteps : Given parseU64 (txt "nSteps") (cli.nSteps.getD 10) s.nSteps
  nx : Given parseU64 (txt "nx") (cli.nx.getD 10) s.nx
  ny : Given parseU64 (txt "ny") (cli.ny.getD 10) s.ny
  nz : Given parseU64 (txt "nz") (cli.nz.getD 10) s.nz
  seed : Given parseU64 (txt "seed") (cli.seed.getD 1029384756) s.seed
  dt : Given pf (txt "dt") (cli.dt.getD (Flt.lit 1 (-8))) s.dt
  lx : Given pf (txt "lx") (cli.lx.getD (Flt.lit 100 0)) s.lx
  ly : Given pf (txt "ly") (cli.ly.getD (Flt.lit 100 0)) s.ly
  lz : Given pf (txt "lz") (cli.lz.getD (Flt.lit 100 0)) s.lz
  -- file, then default: no option
  boundaryCondition : Given some (txt "boundaryCondition") "reflect" s.boundaryCondition
  eMin : Given pf (txt "eMin") (Flt.lit 1 (-9)) s.eMin
  eMax : Given pf (txt "eMax") (Flt.lit 20 0) s.eMax
  nGroups : Given parseU64 (txt "nGroups") 230 s.nGroups
  lowWeightCutoff : Given pf (txt "lowWeightCutoff") (Flt.lit 1 (-3)) s.lowWeightCutoff
  coralBenchmark : Given benchOf (txt "coralBenchmark") .standard s.coralBenchmark
  -- option, then file, then default
  energySpectrum : s.energySpectrum = cli.energySpectrum.getD ((txt "energySpectrum").getD "")
  crossSectionsOut : s.crossSectionsOut = cli.crossSectionsOut.getD ((txt "crossSectionsOut").getD "")
  -- options only
  csv : s.csv = cli.csv
  chunkSize : s.chunkSize = cli.chunkSize.getD 0
  nRayonThreads : s.nRayonThreads = cli.nRayonThreads.getD 1
  bindThreads : s.bindThreads = cli.bindThreads
  nUnits : s.nUnits = cli.nUnits.getD 1

end Config
