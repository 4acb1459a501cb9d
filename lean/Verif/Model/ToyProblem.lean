import Verif.Model.ToyInst
import Verif.Model.Coral
/-!
# A small problem over the toy numbers

One cell with a small source, used by the non-vacuity examples only.
-/
open Flt

/-- Three reactions with tabulated values. -/
def toyReactions : List (Reaction Toy) :=
  [ { crossSection := [7], rtype := .fission, nuBar := 2048 },
    { crossSection := [9], rtype := .absorption, nuBar := 0 },
    { crossSection := [5], rtype := .scatter, nuBar := 0 } ]

/-- Toy read-only data. -/
def toyData : Data Toy :=
  { dt := 1, eMin := 1024, eMax := 20*1024, nParticles := 16, nSteps := 2, lowWeightCutoff := 200,
    loadBalance := false, nUnits := 1,
    nuclear := { numEnergyGroups := 1, isotopes := [toyReactions], energies := [0, 40960] },
    materials := [{ name := "m", mass := 12*1024, iso := [{ gid := 0, atomFraction := 1024 }] }],
    sourceRates := [("m", 4*1024*1024)] }

/-- A facet with an escape boundary. -/
def toyFacet : FacetAdj :=
  { subfacet := { event := .boundaryEscape }, point := (1, 2, 3) }

/-- One cell bounded by two planes. -/
def toyMesh : Mesh Toy :=
  { domainGid := 0,
    node := [⟨0,0,0⟩, ⟨80*1024,-100*1024,-100*1024⟩, ⟨80*1024,100*1024,-100*1024⟩,
             ⟨80*1024,0,100*1024⟩],
    cellConnectivity := [{ facet := List.replicate 24 toyFacet, point := List.replicate 14 0 }],
    cellGeometry := [[⟨1024, 0, 0, -80*1024⟩, ⟨-1024, 0, 0, -20*1024⟩]] }

/-- Toy domain. -/
def toyDomain : Domain Toy :=
  { globalDomain := 0,
    cells := [{ material := 0, volume := 1024, cellNumberDensity := 1024, id := 0, sourceTally := 0 }],
    mesh := toyMesh, numGroups := 1 }

/-- Toy unit at startup. -/
def toyUnit : UnitState Toy :=
  { dom := toyDomain, balance := {}, flux := [0], cache := [0], unitWeight := 0 }

/-- Toy state at startup. -/
def toySim : SimState Toy :=
  { unit := toyUnit, container := { processing := [], processed := [], extra := [] }, srcWeight := 0,
    globalN := 0, cumulative := {}, fluence := [], spectrum := [0, 0], reports := [] }

/-- One sequential cycle. -/
def toyCycle (n : Nat) (s : SimState Toy) : Except Panic (SimState Toy) := do
  let s ← cycleSync toyData ⟨false, true⟩ n s
  let (u, c) ← populationControl toyData s.globalN s.srcWeight s.unit s.container
  let (u, c) ← processLoopSeq toyData 20 8 u c
  return { s with unit := u, container := c }

/-- Two cycles and the last synchronisation. -/
def toyRun : Except Panic (SimState Toy) := do
  let s ← toyCycle 0 toySim
  let s ← toyCycle 1 s
  cycleSync toyData ⟨false, true⟩ 2 s
