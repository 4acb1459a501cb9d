import Verif.Lemmas.Ieee
import Verif.Lemmas.Indices
import Verif.Model.Params
/-!
# A problem that floating-point arithmetic can carry

What the theorems about rounded arithmetic ask of the tables of a run.  Besides the shape of the tables, the
conditions are on numbers that the program computes from its input, with the rounding it computes them with: they
can be evaluated.
-/
open Flt Ieee
variable {T : Type} [Flt T] [Ieee T]

/-- A finite number, not negative. -/
def Ieee.Usable (a : T) : Prop := ∃ x : ℝ, IsFin a x ∧ 0 ≤ x

/-- The reciprocal of a finite positive number does not underflow. -/
def Ieee.Reciprocal (T : Type) [Flt T] [Ieee T] : Prop :=
  ∀ (a : T) (x : ℝ), IsFin a x → 0 < x → (zero <. one /. a) = true

/-- What the tracking needs. -/
structure FloatTracking (data : Data T) (dom : Domain T) : Prop where
  dt : Usable data.dt
  /-- source energies: bounds in order, not negative, the upper one at least that of a fission neutron -/
  energies : ∃ lo hi : ℝ, IsFin data.eMin lo ∧ IsFin data.eMax hi ∧ 0 ≤ lo ∧ lo ≤ hi ∧ 20 ≤ hi
  /-- the largest energy that the source can give, as the program computes it, is not above the upper bound -/
  sourced : ((data.eMax -. data.eMin) +. data.eMin <=. data.eMax) = true
  mass : ∀ m ∈ data.materials, (one <=. m.mass) = true
  groups : 0 < dom.numGroups
  levels : data.nuclear.energies.length = dom.numGroups + 1
  last : data.nuclear.energies[dom.numGroups]? = some data.eMax
  mesh : SoundMesh dom
  material : ∀ cs ∈ dom.cells, cs.material < data.materials.length
  isotope : ∀ m ∈ data.materials, ∀ iso ∈ m.iso, iso.gid < data.nuclear.isotopes.length
  sizes : ∀ rs ∈ data.nuclear.isotopes, ∀ r ∈ rs, r.crossSection.length = dom.numGroups
  /-- a fission gives fewer than five neutrons, with the rounding of the sum -/
  nuBar : ∀ rs ∈ data.nuclear.isotopes, ∀ r ∈ rs, Usable r.nuBar ∧ (r.nuBar +. one <. Flt.ofNat 5) = true
  /-- the total cross-sections do not overflow -/
  xs : ∀ cell group v, directXs data dom cell group = .ok v → Usable v
  /-- nor do those of the single reactions -/
  reaction : ∀ cs ∈ dom.cells, ∀ m ∈ data.materials, ∀ iso ∈ m.iso, ∀ rs ∈ data.nuclear.isotopes, ∀ r ∈ rs,
    ∀ s ∈ r.crossSection, Usable (iso.atomFraction *. cs.cellNumberDensity *. s)

/-- What the steps between two trackings need. -/
structure FloatProblem (data : Data T) (dom : Domain T) : Prop where
  tracking : FloatTracking data dom
  rates : ∀ m ∈ data.materials, ∃ r, data.sourceRates.lookup m.name = some r ∧ Usable r
  volume : ∀ cell ∈ dom.cells, Usable cell.volume
  /-- the source strength does not overflow, and the weight of a sourced particle does not underflow: the number
  of particles of one cell can be counted -/
  weight : ∃ w : T, unitWeightOf data dom.cells = .ok w ∧ Usable w ∧
    (zero <. (w /. (Flt.lit 1 (-1) *. Flt.ofNat data.nParticles))) = true ∧
    (w /. (w /. (Flt.lit 1 (-1) *. Flt.ofNat data.nParticles)) <. Flt.ofNat (2 ^ 63)) = true
  atLeast : 16 ≤ data.nParticles
  atMost : data.nParticles ≤ 2 ^ 62
  units : 0 < data.nUnits

/-- Inputs whose numbers are finite and in order. -/
structure FloatInput (p : Params T) : Prop where
  dt : Usable p.simulation.dt
  energies : ∃ lo hi : ℝ, IsFin p.simulation.eMin lo ∧ IsFin p.simulation.eMax hi ∧ 0 ≤ lo ∧ lo ≤ hi ∧ 20 ≤ hi
  /-- the largest energy that the source can give, as the program computes it, is not above the upper bound -/
  sourced : ((p.simulation.eMax -. p.simulation.eMin) +. p.simulation.eMin <=. p.simulation.eMax) = true
  groups : 0 < p.simulation.nGroups
  particles : 16 ≤ p.simulation.nParticles ∧ p.simulation.nParticles ≤ 2 ^ 62
  materials : ∀ k mp, p.materials.get? k = some mp → (one <=. mp.mass) = true ∧ Usable mp.sourceRate
  /-- a fission gives fewer than five neutrons, with the rounding of the sum -/
  nuBar : ∀ k x, p.crossSections.get? k = some x → Usable x.nuBar ∧ (x.nuBar +. one <. Flt.ofNat 5) = true

/-- The tables built from the input did not overflow, and the weight of a sourced particle did not underflow. -/
structure FloatTables (data : Data T) (dom : Domain T) : Prop where
  xs : ∀ cell group v, directXs data dom cell group = .ok v → Usable v
  reaction : ∀ cs ∈ dom.cells, ∀ m ∈ data.materials, ∀ iso ∈ m.iso, ∀ rs ∈ data.nuclear.isotopes, ∀ r ∈ rs,
    ∀ s ∈ r.crossSection, Usable (iso.atomFraction *. cs.cellNumberDensity *. s)
  volume : ∀ cell ∈ dom.cells, Usable cell.volume
  weight : ∃ w : T, unitWeightOf data dom.cells = .ok w ∧ Usable w ∧
    (zero <. (w /. (Flt.lit 1 (-1) *. Flt.ofNat data.nParticles))) = true ∧
    (w /. (w /. (Flt.lit 1 (-1) *. Flt.ofNat data.nParticles)) <. Flt.ofNat (2 ^ 63)) = true
