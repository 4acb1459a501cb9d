import Verif.Model.Init
import Verif.Model.Stats
/-!
# The file of cross-sections

Models the writing part of `check_cross_sections`, `fastiron/src/init.rs` 405-443.  A line is a list of characters;
the formats of the numbers are parameters.
-/
open Flt

variable {T : Type}

/-- The first line, `init.rs` 413-422. -/
def xsHeaderLine (names : List String) : List Char :=
  "group |           energy |  ".toList ++
    names.flatMap fun n => (n ++ "_absorb |  " ++ n ++ "_fission |  " ++ n ++ "_scatter").toList

/-- Formats of the numbers of a line: `{:>5}`, `{:>15.12}`, `{:>20.13}` and `{:>22.13}`. -/
structure XsFormat (T : Type) where
  group : Nat → List Char
  energy : T → List Char
  first : T → List Char
  other : T → List Char

/-- The line of a group, `init.rs` 425-441. -/
def xsDataLine (fmt : XsFormat T) (i : Nat) (energy : T) (rows : List (XsData T)) : List Char :=
  fmt.group i ++ " |  ".toList ++ fmt.energy energy ++ " |   ".toList ++
    rows.flatMap fun x => fmt.first x.abs ++ " |  ".toList ++ fmt.other x.fis ++ " |  ".toList ++ fmt.other x.sca

/-- The lines of the file, `init.rs` 409-443; the table is a hash map, read in the same order for each line. -/
def xsFileLines (fmt : XsFormat T) (order : StrOrder) (nGroups : Nat) (es : List T)
    (t : HMap String (List (XsData T))) : Except Panic (List (List Char)) := do
  let lines ← (List.range nGroups).mapM fun i => do
    let e ← idx es i
    let rows ← (order t.keys).mapM fun n => do
      let r ← HMap.index t n
      idx r i
    return xsDataLine fmt i e rows
  return xsHeaderLine (order t.keys) :: lines

variable [Flt T]

/-- The file written by `check_cross_sections` when the run is started: its name and its lines. -/
def crossSectionFile (fmt : XsFormat T) (order : StrOrder) (p : Params T) (nd : NuclearData T)
    (mats : List (Material T)) : Except Panic (Option (String × List (List Char))) := do
  match ← crossSectionOutput p nd mats with
  | none => return none
  | some (name, es, t) =>
    let lines ← xsFileLines fmt order p.simulation.nGroups es t
    return some (name, lines)
