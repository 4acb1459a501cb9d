import Verif.Spec.Config
import Verif.Spec.Init
/-!
# Decimal numbers, and the input file that describes given parameters
-/

namespace Config

/-- The value of a decimal digit. -/
def digitValue (c : Char) : Nat := c.toNat - '0'.toNat

/-- The number written by decimal digits, the first of them the most significant. -/
def decimalValue : List Char → Nat
  | [] => 0
  | c :: r => digitValue c * 10 ^ r.length + decimalValue r

/-- The text `s` is a decimal notation of `n`: digits, with or without a plus sign before them. -/
def DecimalNotation (s : String) (n : Nat) : Prop :=
  ∃ ds : List Char, (s.toList = ds ∨ s.toList = '+' :: ds) ∧ ds ≠ [] ∧ (∀ c ∈ ds, '0' ≤ c ∧ c ≤ '9') ∧
    decimalValue ds = n

/-- Characters of plain texts. -/
def plainChar (c : Char) : Bool := c.isAlphanum || c = '_' || c = '.' || c = '-' || c = '+'

/-- A plain text: it starts with a letter or a digit, perhaps after a sign, and has only letters, digits, `_`, `.`
and signs. -/
def Plain (s : String) : Prop :=
  (∀ c ∈ s.toList, plainChar c = true) ∧
  match s.toList with
  | [] => False
  | c :: r => c.isAlphanum = true ∨ ((c = '-' ∨ c = '+') ∧ ∃ d r', r = d :: r' ∧ d.isAlphanum = true)

/-- Writers of numbers and of blocks. -/
structure TextWriters (T : Type) where
  float : T → String
  yaml : Block → List Char

/-- What the readers give back: every number, and every block of plain texts with distinct keys, up to the order of
its keys.  The text of such a block does not begin with a newline and has no blank line. -/
structure ReadBack {T : Type} (tr : TextReaders T) (w : TextWriters T) : Prop where
  plain : ∀ x, Plain (w.float x)
  float : ∀ x, tr.float (w.float x) = some x
  yaml : ∀ b : Block, b ≠ [] → (b.map (·.1)).Nodup → (∀ kv ∈ b, Plain kv.1 ∧ Plain kv.2) →
    (∃ b', tr.yaml (w.yaml b) = some b' ∧ b'.Perm b) ∧
    ¬ ['\n', '\n'] <:+: w.yaml b ∧ (w.yaml b).head? ≠ some '\n'

/-- A name is written if it is not empty. -/
def nameText (s : String) : Option String := if s = "" then none else some s

def shapeText : Shape → Option String
  | .undefined => none
  | .brick => some "brick"
  | .sphere => some "sphere"

def flagText : Bool → Option String
  | false => some "0"
  | true => some "1"

def benchText : BenchType → Option String
  | .standard => some "0"
  | .coral1 => some "1"
  | .coral2 => some "2"

/-- The block of the keys that have a text. -/
def blockOf (entries : List (String × Option String)) : Block :=
  entries.filterMap fun e => e.2.map fun t => (e.1, t)

variable {T : Type}

def geometryEntries (w : TextWriters T) (g : GeometryParams T) : List (String × Option String) :=
  [("material", nameText g.materialName), ("shape", shapeText g.shape), ("radius", some (w.float g.radius)),
   ("xCenter", some (w.float g.xCenter)), ("yCenter", some (w.float g.yCenter)), ("zCenter", some (w.float g.zCenter)),
   ("xMin", some (w.float g.xMin)), ("yMin", some (w.float g.yMin)), ("zMin", some (w.float g.zMin)),
   ("xMax", some (w.float g.xMax)), ("yMax", some (w.float g.yMax)), ("zMax", some (w.float g.zMax))]

def materialEntries (w : TextWriters T) (m : MaterialParams T) : List (String × Option String) :=
  [("name", nameText m.name), ("mass", some (w.float m.mass)),
   ("totalCrossSection", some (w.float m.totalCrossSection)), ("nIsotopes", some (toString m.nIsotopes)),
   ("nReactions", some (toString m.nReactions)), ("sourceRate", some (w.float m.sourceRate)),
   ("scatteringCrossSection", nameText m.scatteringCrossSection),
   ("absorptionCrossSection", nameText m.absorptionCrossSection),
   ("fissionCrossSection", nameText m.fissionCrossSection),
   ("scatteringCrossSectionRatio", some (w.float m.scatteringCrossSectionRatio)),
   ("absorptionCrossSectionRatio", some (w.float m.absorptionCrossSectionRatio)),
   ("fissionCrossSectionRatio", some (w.float m.fissionCrossSectionRatio))]

def crossSectionEntries (w : TextWriters T) (x : CrossSectionParams T) : List (String × Option String) :=
  [("name", nameText x.name), ("A", some (w.float x.aa)), ("B", some (w.float x.bb)), ("C", some (w.float x.cc)),
   ("D", some (w.float x.dd)), ("E", some (w.float x.ee)), ("nuBar", some (w.float x.nuBar))]

def simulationEntries (w : TextWriters T) (s : SimulationParams T) : List (String × Option String) :=
  [("inputFile", nameText s.inputFile), ("energySpectrum", nameText s.energySpectrum),
   ("crossSectionsOut", nameText s.crossSectionsOut), ("boundaryCondition", nameText s.boundaryCondition),
   ("loadBalance", flagText s.loadBalance), ("debugThreads", flagText s.debugThreads),
   ("coralBenchmark", benchText s.coralBenchmark), ("nParticles", some (toString s.nParticles)),
   ("nSteps", some (toString s.nSteps)), ("nx", some (toString s.nx)), ("ny", some (toString s.ny)),
   ("nz", some (toString s.nz)), ("seed", some (toString s.seed)), ("dt", some (w.float s.dt)),
   ("lx", some (w.float s.lx)), ("ly", some (w.float s.ly)), ("lz", some (w.float s.lz)),
   ("eMin", some (w.float s.eMin)), ("eMax", some (w.float s.eMax)), ("nGroups", some (toString s.nGroups)),
   ("lowWeightCutoff", some (w.float s.lowWeightCutoff))]

/-- The pieces of the file that describes `p`: the simulation, the geometries from the last to the first, the
materials and the cross-sections. -/
def paramsPieces (w : TextWriters T) (p : Params T) : List (List Char) :=
  withHeader "Simulation:" (w.yaml (blockOf (simulationEntries w p.simulation))) ::
    (p.geometries.reverse.map fun g => withHeader "Geometry:" (w.yaml (blockOf (geometryEntries w g)))) ++
    (p.materials.map fun m => withHeader "Material:" (w.yaml (blockOf (materialEntries w m.2)))) ++
    (p.crossSections.map fun x => withHeader "CrossSection:" (w.yaml (blockOf (crossSectionEntries w x.2))))

/-- A name that can be written: it is plain or empty. -/
def NameOk (s : String) : Prop := s = "" ∨ Plain s

/-- Parameters that can be written in a file: names are plain or empty, and integers fit in 64 bits. -/
structure Writable (p : Params T) : Prop where
  files : NameOk p.simulation.inputFile ∧ NameOk p.simulation.energySpectrum ∧ NameOk p.simulation.crossSectionsOut ∧
    NameOk p.simulation.boundaryCondition
  counts : p.simulation.nParticles < 2 ^ 64 ∧ p.simulation.nSteps < 2 ^ 64 ∧ p.simulation.nx < 2 ^ 64 ∧
    p.simulation.ny < 2 ^ 64 ∧ p.simulation.nz < 2 ^ 64 ∧ p.simulation.seed < 2 ^ 64 ∧ p.simulation.nGroups < 2 ^ 64
  geometries : ∀ g ∈ p.geometries, NameOk g.materialName
  materials : ∀ e ∈ p.materials, NameOk e.2.name ∧ NameOk e.2.scatteringCrossSection ∧
    NameOk e.2.absorptionCrossSection ∧ NameOk e.2.fissionCrossSection ∧ e.2.nIsotopes < 2 ^ 64 ∧
    e.2.nReactions < 2 ^ 64
  crossSections : ∀ e ∈ p.crossSections, NameOk e.2.name

/-- The simulation parameters of `s`, except those that have no key, which are those of `d`. -/
def keyed (d s : SimulationParams T) : SimulationParams T :=
  { s with csv := d.csv, chunkSize := d.chunkSize, nRayonThreads := d.nRayonThreads, bindThreads := d.bindThreads,
           nUnits := d.nUnits }

end Config
