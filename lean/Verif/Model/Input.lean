import Verif.Model.Params
/-!
# Reading the parameters: command line, input file, defaults, validation

Models `fastiron/src/utils/input.rs` and the functions of `fastiron/src/parameters.rs`.

The readers of numbers and of YAML are external: `TextReaders` is an arbitrary pair of partial functions.  A YAML
mapping is a hash map in Rust; here it is the list of its entries in the order in which Rust iterates over it.
-/
open Flt

/-- `InputError`, `input.rs` 15-23. -/
inductive InputError where
  | badInputFile
  | badSimulationBlock
  | badGeometryBlock
  | badMaterialBlock
  | badCrossSectionBlock
  | badBlockType
deriving DecidableEq, Repr

/-- `ParameterError`, `parameters.rs` 22-34. -/
inductive ParameterError where
  | noGeometry
  | undefinedGeometry
  | missingMaterial (name : String)
  | missingCrossSection (name : String)
deriving DecidableEq, Repr

/-- `Block`, `parameters.rs` 18: the entries in iteration order. -/
abbrev Block := List (String × String)

/-- External readers: `str::parse` for the number type, and `serde_yaml::from_str::<Block>`. -/
structure TextReaders (T : Type) where
  float : String → Option T
  yaml : List Char → Option Block

/-- `str::parse::<u64>` and `str::parse::<usize>` (64-bit) of the Rust standard library: an optional plus sign,
then at least one decimal digit and nothing else, without overflow. -/
def parseU64 (s : String) : Option Nat :=
  let cs := match s.toList with
    | '+' :: r => r
    | l => l
  if cs.isEmpty || !(cs.all fun c => decide ('0' ≤ c) && decide (c ≤ '9')) then none
  else
    let n := cs.foldl (fun n c => 10 * n + (c.toNat - '0'.toNat)) 0
    if n < 2 ^ 64 then some n else none

/-- `Cli`, `input.rs` 27-133.  `single_precision` chooses the number type; the `f32` options are given already
converted to it (`T::from(val).unwrap()` cannot fail on the numbers the option parser accepts). -/
structure Cli (T : Type) where
  inputFile : Option String := none
  energySpectrum : Option String := none
  crossSectionsOut : Option String := none
  dt : Option T := none
  loadBalance : Bool := false
  csv : Bool := false
  debugThreads : Bool := false
  lx : Option T := none
  ly : Option T := none
  lz : Option T := none
  nParticles : Option Nat := none
  chunkSize : Option Nat := none
  nRayonThreads : Option Nat := none
  bindThreads : Bool := false
  nUnits : Option Nat := none
  nSteps : Option Nat := none
  nx : Option Nat := none
  ny : Option Nat := none
  nz : Option Nat := none
  seed : Option Nat := none

/-- What `File::open` followed by `read_to_string` gives. -/
inductive FileContent where
  | missing
  | notText
  | text (s : List Char)

/-- A function that can stop on a panic or return an `InputError`. -/
inductive Stop where
  | panic (p : Panic)
  | input (e : InputError)
deriving DecidableEq, Repr

variable {T : Type} [Flt T]

/-- `fetch_data!`: parse, or the error of the block. -/
def fetch {α : Type} (e : InputError) (r : Option α) : Except InputError α :=
  match r with
  | some v => .ok v
  | none => .error e

/-- Loop body of `GeometryParameters::from_block`, `parameters.rs` 113-135. -/
def GeometryParams.setKey (pf : String → Option T) (g : GeometryParams T) (key val : String) :
    Except InputError (GeometryParams T) :=
  match key with
  | "material" => .ok { g with materialName := val }
  | "shape" =>
    match val with
    | "brick" => .ok { g with shape := .brick }
    | "sphere" => .ok { g with shape := .sphere }
    | _ => .error .badGeometryBlock
  | "radius" => do return { g with radius := ← fetch .badGeometryBlock (pf val) }
  | "xCenter" => do return { g with xCenter := ← fetch .badGeometryBlock (pf val) }
  | "yCenter" => do return { g with yCenter := ← fetch .badGeometryBlock (pf val) }
  | "zCenter" => do return { g with zCenter := ← fetch .badGeometryBlock (pf val) }
  | "xMin" => do return { g with xMin := ← fetch .badGeometryBlock (pf val) }
  | "yMin" => do return { g with yMin := ← fetch .badGeometryBlock (pf val) }
  | "zMin" => do return { g with zMin := ← fetch .badGeometryBlock (pf val) }
  | "xMax" => do return { g with xMax := ← fetch .badGeometryBlock (pf val) }
  | "yMax" => do return { g with yMax := ← fetch .badGeometryBlock (pf val) }
  | "zMax" => do return { g with zMax := ← fetch .badGeometryBlock (pf val) }
  | _ => .error .badGeometryBlock

/-- `GeometryParameters::from_block`, `parameters.rs` 102-138. -/
def GeometryParams.fromBlock (pf : String → Option T) (b : Block) : Except InputError (GeometryParams T) :=
  b.foldlM (fun g kv => g.setKey pf kv.1 kv.2) GeometryParams.default

/-- Loop body of `MaterialParameters::from_block`, `parameters.rs` 191-207.  `parse` into a `String` never
fails. -/
def MaterialParams.setKey (pf : String → Option T) (m : MaterialParams T) (key val : String) :
    Except InputError (MaterialParams T) :=
  match key with
  | "name" => .ok { m with name := val }
  | "mass" => do return { m with mass := ← fetch .badMaterialBlock (pf val) }
  | "totalCrossSection" => do return { m with totalCrossSection := ← fetch .badMaterialBlock (pf val) }
  | "nIsotopes" => do return { m with nIsotopes := ← fetch .badMaterialBlock (parseU64 val) }
  | "nReactions" => do return { m with nReactions := ← fetch .badMaterialBlock (parseU64 val) }
  | "sourceRate" => do return { m with sourceRate := ← fetch .badMaterialBlock (pf val) }
  | "scatteringCrossSection" => .ok { m with scatteringCrossSection := val }
  | "absorptionCrossSection" => .ok { m with absorptionCrossSection := val }
  | "fissionCrossSection" => .ok { m with fissionCrossSection := val }
  | "scatteringCrossSectionRatio" => do
    return { m with scatteringCrossSectionRatio := ← fetch .badMaterialBlock (pf val) }
  | "absorptionCrossSectionRatio" => do
    return { m with absorptionCrossSectionRatio := ← fetch .badMaterialBlock (pf val) }
  | "fissionCrossSectionRatio" => do
    return { m with fissionCrossSectionRatio := ← fetch .badMaterialBlock (pf val) }
  | _ => .error .badMaterialBlock

/-- `MaterialParameters::from_block`, `parameters.rs` 180-211. -/
def MaterialParams.fromBlock (pf : String → Option T) (b : Block) : Except InputError (MaterialParams T) :=
  b.foldlM (fun m kv => m.setKey pf kv.1 kv.2) MaterialParams.default

/-- Loop body of `CrossSectionParameters::from_block`, `parameters.rs` 276-287. -/
def CrossSectionParams.setKey (pf : String → Option T) (x : CrossSectionParams T) (key val : String) :
    Except InputError (CrossSectionParams T) :=
  match key with
  | "name" => .ok { x with name := val }
  | "A" => do return { x with aa := ← fetch .badCrossSectionBlock (pf val) }
  | "B" => do return { x with bb := ← fetch .badCrossSectionBlock (pf val) }
  | "C" => do return { x with cc := ← fetch .badCrossSectionBlock (pf val) }
  | "D" => do return { x with dd := ← fetch .badCrossSectionBlock (pf val) }
  | "E" => do return { x with ee := ← fetch .badCrossSectionBlock (pf val) }
  | "nuBar" => do return { x with nuBar := ← fetch .badCrossSectionBlock (pf val) }
  | _ => .error .badCrossSectionBlock

/-- `CrossSectionParameters::from_block`, `parameters.rs` 264-290. -/
def CrossSectionParams.fromBlock (pf : String → Option T) (b : Block) :
    Except InputError (CrossSectionParams T) :=
  b.foldlM (fun x kv => x.setKey pf kv.1 kv.2) CrossSectionParams.default

/-- `chars[0]`, with its index panic on an empty value. -/
def firstChar (s : String) : Except Stop Char :=
  match s.toList with
  | [] => .error (.panic .indexOutOfBounds)
  | c :: _ => .ok c

/-- `fetch_data!` of `update_simulation_parameters`. -/
def fetchSim {α : Type} (r : Option α) : Except Stop α :=
  match r with
  | some v => .ok v
  | none => .error (.input .badSimulationBlock)

/-- `fetch_bool!`, `parameters.rs` 619-627. -/
def fetchBool (val : String) : Except Stop Bool := do
  match ← firstChar val with
  | '0' => return false
  | '1' => return true
  | _ => .error (.input .badSimulationBlock)

/-- The value of `coralBenchmark`, `parameters.rs` 643-651. -/
def fetchBench (val : String) : Except Stop BenchType := do
  match ← firstChar val with
  | '0' => return .standard
  | '1' => return .coral1
  | '2' => return .coral2
  | _ => .error (.input .badSimulationBlock)

/-- Loop body of `update_simulation_parameters`, `parameters.rs` 629-680. -/
def SimulationParams.setKey (pf : String → Option T) (s : SimulationParams T) (key val : String) :
    Except Stop (SimulationParams T) :=
  match key with
  | "inputFile" => .ok { s with inputFile := val }
  | "energySpectrum" => .ok { s with energySpectrum := val }
  | "crossSectionsOut" => .ok { s with crossSectionsOut := val }
  | "boundaryCondition" => .ok { s with boundaryCondition := val }
  | "loadBalance" => do return { s with loadBalance := ← fetchBool val }
  | "debugThreads" => do return { s with debugThreads := ← fetchBool val }
  | "coralBenchmark" => do return { s with coralBenchmark := ← fetchBench val }
  | "nParticles" => do return { s with nParticles := ← fetchSim (parseU64 val) }
  | "nSteps" => do return { s with nSteps := ← fetchSim (parseU64 val) }
  | "nx" => do return { s with nx := ← fetchSim (parseU64 val) }
  | "ny" => do return { s with ny := ← fetchSim (parseU64 val) }
  | "nz" => do return { s with nz := ← fetchSim (parseU64 val) }
  | "seed" => do return { s with seed := ← fetchSim (parseU64 val) }
  | "dt" => do return { s with dt := ← fetchSim (pf val) }
  | "lx" => do return { s with lx := ← fetchSim (pf val) }
  | "ly" => do return { s with ly := ← fetchSim (pf val) }
  | "lz" => do return { s with lz := ← fetchSim (pf val) }
  | "eMin" => do return { s with eMin := ← fetchSim (pf val) }
  | "eMax" => do return { s with eMax := ← fetchSim (pf val) }
  | "nGroups" => do return { s with nGroups := ← fetchSim (parseU64 val) }
  | "lowWeightCutoff" => do return { s with lowWeightCutoff := ← fetchSim (pf val) }
  | "cycleTimers" => .ok s
  | "batchSize" => .ok s
  | "nBatches" => .ok s
  | "balanceTallyReplications" => .ok s
  | "bTally" => .ok s
  | "fluxTallyReplications" => .ok s
  | "fTally" => .ok s
  | "cellTallyReplications" => .ok s
  | "cTally" => .ok s
  | "xDom" => .ok s
  | "yDom" => .ok s
  | "zDom" => .ok s
  | "fMax" => .ok s
  | "mpiThreadMultiple" => .ok s
  | _ => .error (.input .badSimulationBlock)

/-- `Parameters::update_simulation_parameters`, `parameters.rs` 610-683.  Simplification: on an error Rust leaves
the fields read so far; they are never used, as its caller then drops the parameters. -/
def SimulationParams.update (pf : String → Option T) (s : SimulationParams T) (b : Block) :
    Except Stop (SimulationParams T) :=
  b.foldlM (fun s kv => s.setKey pf kv.1 kv.2) s

/-- Leftmost non-overlapping split at `"\n\n"`. -/
def splitBlank : List Char → List (List Char)
  | [] => [[]]
  | [c] => [[c]]
  | c :: d :: r =>
    if c = '\n' ∧ d = '\n' then [] :: splitBlank r
    else match splitBlank (d :: r) with
      | [] => [[c]]
      | h :: t => (c :: h) :: t

/-- `content.rsplit("\n\n")`, `input.rs` 157: the pieces between the separators found from the right end, last
piece first.  The separator is its own mirror image, so this is the split of the mirrored text. -/
def rsplitBlank (s : List Char) : List (List Char) := (splitBlank s.reverse).map List.reverse

/-- `raw_block.find('\n')` and the two slices, `input.rs` 160-164: header and body, or nothing. -/
def splitHeader : List Char → Option (List Char × List Char)
  | [] => none
  | c :: r => if c = '\n' then some ([], r) else (splitHeader r).map fun (h, b) => (c :: h, b)

/-- Closure of `parse_input_file`, `input.rs` 158-187: the new parameters, or the error of the block. -/
def applyBlock (tr : TextReaders T) (params : Params T) (raw : List Char) :
    Except Panic (Except InputError (Params T)) :=
  match splitHeader raw with
  | none => .ok (.ok params)
  | some (header, body) => do
    let b ← unwrap (tr.yaml body)
    match String.ofList header with
    | "Simulation:" =>
      match params.simulation.update tr.float b with
      | .ok s => return .ok { params with simulation := s }
      | .error (.input e) => return .error e
      | .error (.panic p) => .error p
    | "Geometry:" =>
      return (GeometryParams.fromBlock tr.float b).map fun g =>
        { params with geometries := params.geometries ++ [g] }
    | "Material:" =>
      return (MaterialParams.fromBlock tr.float b).map fun m =>
        { params with materials := params.materials.insert m.name m }
    | "CrossSection:" =>
      return (CrossSectionParams.fromBlock tr.float b).map fun x =>
        { params with crossSections := params.crossSections.insert x.name x }
    | _ => return .error .badBlockType

/-- The iterator of `parse_input_file`, `input.rs` 156-190: all blocks are processed, errors are collected. -/
def applyBlocks (tr : TextReaders T) : Params T → List (List Char) → Except Panic (Params T × List InputError)
  | params, [] => .ok (params, [])
  | params, raw :: rest => do
    match ← applyBlock tr params raw with
    | .ok params' => applyBlocks tr params' rest
    | .error e =>
      let (p, es) ← applyBlocks tr params rest
      return (p, e :: es)

/-- `parse_input_file`, `input.rs` 139-199, with the file given by its content. -/
def parseInputFile (tr : TextReaders T) (content : FileContent) (params : Params T) :
    Except Panic (Except (List InputError) (Params T)) :=
  match content with
  | .missing => .ok (.error [.badInputFile])
  | .notText => .error .unwrapNone
  | .text s => do
    let (p, es) ← applyBlocks tr params (rsplitBlank s)
    return if es.isEmpty then .ok p else .error es

/-- `SimulationParameters::from_cli`, `parameters.rs` 382-425. -/
def SimulationParams.fromCli (cli : Cli T) : SimulationParams T :=
  let d : SimulationParams T := SimulationParams.default
  { d with
    inputFile := cli.inputFile.getD d.inputFile
    energySpectrum := cli.energySpectrum.getD d.energySpectrum
    crossSectionsOut := cli.crossSectionsOut.getD d.crossSectionsOut
    dt := cli.dt.getD d.dt
    loadBalance := cli.loadBalance
    csv := cli.csv
    debugThreads := cli.debugThreads
    lx := cli.lx.getD d.lx
    ly := cli.ly.getD d.ly
    lz := cli.lz.getD d.lz
    nParticles := cli.nParticles.getD d.nParticles
    chunkSize := cli.chunkSize.getD d.chunkSize
    nRayonThreads := cli.nRayonThreads.getD d.nRayonThreads
    bindThreads := cli.bindThreads
    nUnits := cli.nUnits.getD d.nUnits
    nSteps := cli.nSteps.getD d.nSteps
    nx := cli.nx.getD d.nx
    ny := cli.ny.getD d.ny
    nz := cli.nz.getD d.nz
    seed := cli.seed.getD d.seed }

/-- `Parameters::supply_defaults`, `parameters.rs` 509-547. -/
def Params.supplyDefaults (p : Params T) : Params T :=
  if p.geometries.isEmpty then
    let flat : CrossSectionParams T := { CrossSectionParams.default with name := "flat" }
    let mat : MaterialParams T := { MaterialParams.default with
      name := "source_material"
      mass := Flt.lit 1000 0
      sourceRate := Flt.lit 1 10
      scatteringCrossSection := "flat"
      absorptionCrossSection := "flat"
      fissionCrossSection := "flat"
      fissionCrossSectionRatio := Flt.lit 1 (-1) }
    let geo : GeometryParams T := { GeometryParams.default with
      materialName := "source_material"
      shape := .brick
      xMax := p.simulation.lx
      yMax := p.simulation.ly
      zMax := p.simulation.lz }
    { p with
      crossSections := p.crossSections.insert flat.name flat
      materials := p.materials.insert mat.name mat
      geometries := p.geometries ++ [geo] }
  else p

/-- Errors of one geometry, `parameters.rs` 562-572. -/
def Params.geometryErrors (p : Params T) (g : GeometryParams T) : List ParameterError :=
  (if g.shape = .undefined then [.undefinedGeometry] else []) ++
  (if p.materials.hasKey g.materialName then [] else [.missingMaterial g.materialName])

/-- Errors of one material, `parameters.rs` 574-599. -/
def Params.materialErrors (p : Params T) (m : MaterialParams T) : List ParameterError :=
  (if p.crossSections.hasKey m.absorptionCrossSection then []
   else [.missingCrossSection (m.name ++ ":" ++ m.absorptionCrossSection)]) ++
  (if p.crossSections.hasKey m.scatteringCrossSection then []
   else [.missingCrossSection (m.name ++ ":" ++ m.scatteringCrossSection)]) ++
  (if p.crossSections.hasKey m.fissionCrossSection then []
   else [.missingCrossSection (m.name ++ ":" ++ m.fissionCrossSection)])

/-- Iteration order of the hash maps with string keys. -/
abbrev StrOrder := List String → List String

/-- The values of a map with string keys, in iteration order. -/
def HMap.valuesIn {V : Type} (order : StrOrder) (m : HMap String V) : List V :=
  (order m.keys).filterMap fun k => m.get? k

/-- `Parameters::check_parameters_integrity`, `parameters.rs` 555-604. -/
def Params.checkIntegrity (order : StrOrder) (p : Params T) : Except (List ParameterError) Unit :=
  let errors : List ParameterError :=
    (if p.geometries.isEmpty then [.noGeometry] else []) ++
    p.geometries.flatMap p.geometryErrors ++
    (p.materials.valuesIn order).flatMap p.materialErrors
  if errors.isEmpty then .ok () else .error errors

/-- Last part of `Parameters::get_parameters`, `parameters.rs` 491-505: the options that win over the file,
defaults and validation. -/
def finishParameters (order : StrOrder) (cli : Cli T) (p : Params T) : Except (List InputError) (Params T) :=
  let sim := { p.simulation with
    energySpectrum := cli.energySpectrum.getD p.simulation.energySpectrum
    crossSectionsOut := cli.crossSectionsOut.getD p.simulation.crossSectionsOut }
  let p := Params.supplyDefaults { p with simulation := sim }
  match p.checkIntegrity order with
  | .error _ => .error [.badInputFile]
  | .ok _ => .ok p

/-- Parameters from the options, then from the file if there is one, `parameters.rs` 480-490. -/
def readParameters (tr : TextReaders T) (files : String → FileContent) (cli : Cli T) :
    Except Panic (Except (List InputError) (Params T)) :=
  let params : Params T :=
    { simulation := SimulationParams.fromCli cli, geometries := [], materials := [], crossSections := [] }
  match cli.inputFile with
  | some f => parseInputFile tr (files f) params
  | none => .ok (.ok params)

/-- `Parameters::get_parameters`, `parameters.rs` 479-505. -/
def getParameters (order : StrOrder) (tr : TextReaders T) (files : String → FileContent) (cli : Cli T) :
    Except Panic (Except (List InputError) (Params T)) := do
  match ← readParameters tr files cli with
  | .error es => return .error es
  | .ok p => return finishParameters order cli p
