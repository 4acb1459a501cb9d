import Verif.Spec.Problem
import Verif.Props.Config
import Verif.Props.Mesh
/-!
# C63: the problem of a run is the one that was given, or the built-in one

The built-in problem is supplied exactly when no region was given.
-/
open Flt Config

section
variable {T : Type} [Flt T] {tr : TextReaders T}

theorem supplyDefaults_given {p : Params T} (h : p.geometries ≠ []) : p.supplyDefaults = p := by
  unfold Params.supplyDefaults
  rw [if_neg (by simpa using h)]

theorem supplyDefaults_builtin {items : List (Item T)} {p : Params T} (h : p.geometries = [])
    (hm : ∀ name, p.materials.get? name = firstMaterial items name)
    (hx : ∀ name, p.crossSections.get? name = firstCurve items name) :
    BuiltinProblem items p.supplyDefaults := by
  unfold Params.supplyDefaults
  rw [if_pos (by simp [h])]
  dsimp only
  refine ⟨⟨_, by rw [h]; rfl, rfl, rfl, ⟨rfl, rfl, rfl⟩, rfl, rfl, rfl⟩, ⟨_, by rw [HMap.get?_insert, if_pos rfl], ?_⟩, ?_,
    ⟨_, by rw [HMap.get?_insert, if_pos rfl], ?_⟩, ?_⟩
  · exact ⟨rfl, rfl, rfl, rfl, rfl, rfl, ⟨rfl, rfl, rfl⟩, rfl, rfl, rfl⟩
  · intro name hn
    rw [HMap.get?_insert, if_neg (Ne.symm hn)]
    exact hm name
  · exact ⟨rfl, ⟨rfl, rfl, rfl, rfl⟩, rfl, rfl⟩
  · intro name hn
    rw [HMap.get?_insert, if_neg (Ne.symm hn)]
    exact hx name

/-- **C63**.  Without an input file the problem is the built-in one.  With one it is the problem of the file as soon
as the file has a region; otherwise the built-in problem is added to what the file defines. -/
theorem C63_problem (hy : Mappings tr) {order : StrOrder} {files : String → FileContent} {cli : Cli T}
    {p : Params T} (h : getParameters order tr files cli = .ok (.ok p)) :
    (cli.inputFile = none → BuiltinProblem [] p) ∧
    (∀ f, cli.inputFile = some f → ∃ pieces items, Separated pieces ∧ files f = .text (fileText pieces) ∧
      List.Forall₂ (Reads tr) pieces items ∧
      (items.filterMap Item.geometry? ≠ [] → GivenProblem items p) ∧
      (items.filterMap Item.geometry? = [] → BuiltinProblem items p)) := by
  unfold getParameters at h
  obtain ⟨read, h1, h2⟩ := bind_ok.1 h
  cases read with
  | error es => cases h2
  | ok q =>
    have hp : ∃ s, p = Params.supplyDefaults { q with simulation := s } := by
      have h2 : finishParameters order cli q = .ok p := Except.ok.inj h2
      unfold finishParameters at h2
      dsimp only at h2
      split at h2
      · cases h2
      · cases h2
        exact ⟨_, rfl⟩
    obtain ⟨s, rfl⟩ := hp
    constructor
    · intro hc
      unfold readParameters at h1
      rw [hc] at h1
      cases h1
      exact supplyDefaults_builtin rfl (fun _ => rfl) (fun _ => rfl)
    · intro f hf
      unfold readParameters at h1
      rw [hf] at h1
      dsimp only at h1
      cases hfile : files f with
      | missing => rw [hfile] at h1; cases h1
      | notText => rw [hfile] at h1; cases h1
      | text s =>
        obtain ⟨pieces, hs, rfl⟩ := separated_exists s
        rw [hfile] at h1
        obtain ⟨items, h3, h4⟩ := (C41_file hy hs _).1 _ h1
        have hm : ∀ name, q.materials.get? name = firstMaterial items name := fun name => by
          rw [h4.materials name]
          exact Option.or_none
        have hx : ∀ name, q.crossSections.get? name = firstCurve items name := fun name => by
          rw [h4.crossSections name]
          exact Option.or_none
        have hg : q.geometries = (items.filterMap Item.geometry?).reverse := h4.geometries
        refine ⟨pieces, items, hs, rfl, h3, fun hne => ?_, fun he => ?_⟩
        · rw [supplyDefaults_given (by simpa [hg] using hne)]
          exact ⟨hg, hm, hx⟩
        · exact supplyDefaults_builtin (by simp [hg, he]) hm hx

end

open FltReal GridSpec MeshSpec

/-- **C63** (no hole).  The built-in region holds the centre of every cell of the mesh, whatever its sizes. -/
theorem C63_covers {p : Params ℝ} {g : GeometryParams ℝ} (hg : BuiltinRegion p.simulation g)
    (hn : 0 < p.simulation.nx ∧ 0 < p.simulation.ny ∧ 0 < p.simulation.nz)
    (hl : 0 < p.simulation.lx ∧ 0 < p.simulation.ly ∧ 0 < p.simulation.lz) {c : Nat} (hc : c < cells p.grid) :
    InRegion g (boxCenter p.grid (p.grid.cellIdxToTuple c)) := by
  obtain ⟨b1, b2, b3⟩ := Grid.idx_inGrid hc
  set t := p.grid.cellIdxToTuple c with ht
  have key : ∀ (k n : Nat) (l : ℝ), 0 < n → 0 < l → k < n →
      0 ≤ k * (l / n) + l / n / 2 ∧ k * (l / n) + l / n / 2 ≤ l := by
    intro k n l h1 h2 h3
    rw [show k * (l / n) + l / n / 2 = (k + 1 / 2) * (l / n) by ring]
    have hn : (0 : ℝ) < n := by exact_mod_cast h1
    have hk : (k : ℝ) + 1 ≤ n := by exact_mod_cast h3
    refine ⟨by positivity, ?_⟩
    rw [mul_div_assoc', div_le_iff₀ hn, mul_comm l]
    exact mul_le_mul_of_nonneg_right (by linarith) h2.le
  have k1 := key t.1 _ _ hn.1 hl.1 b1
  have k2 := key t.2.1 _ _ hn.2.1 hl.2.1 b2
  have k3 := key t.2.2 _ _ hn.2.2 hl.2.2 b3
  unfold InRegion boxCenter
  rw [hg.shape, hg.low.1, hg.low.2.1, hg.low.2.2, hg.high.1, hg.high.2.1, hg.high.2.2]
  simp only [zero_eq]
  have e1 : p.grid.dx = p.simulation.lx / p.simulation.nx := by simp [Params.grid, Grid.new]
  have e2 : p.grid.dy = p.simulation.ly / p.simulation.ny := by simp [Params.grid, Grid.new]
  have e3 : p.grid.dz = p.simulation.lz / p.simulation.nz := by simp [Params.grid, Grid.new]
  rw [e1, e2, e3]
  exact ⟨⟨k1.1, k1.2⟩, ⟨k2.1, k2.2⟩, k3.1, k3.2⟩

/-! ## Concrete cases -/

/-- The regions, the material names that are known and the mass of the built-in material. -/
def problemOf (files : String → FileContent) (cli : Cli Toy) : Option (Nat × List String × List String) :=
  match getParameters id demoReaders files cli with
  | .ok (.ok p) => some (p.geometries.length, p.materials.keys, p.crossSections.keys)
  | _ => none

/-- Without a file: the built-in problem. -/
example : problemOf (fun _ => .missing) {} = some (1, ["source_material"], ["flat"]) := by decide +kernel

/-- A file that only defines a curve: the built-in problem next to it. -/
example : problemOf (fun _ => .text "CrossSection:\nname: steep\nA: 2".toList) { inputFile := some "f" } =
    some (1, ["source_material"], ["steep", "flat"]) := by decide +kernel

/-- A file with two regions: nothing is added. -/
example : problemOf (fun _ => .text ("Geometry:\nmaterial: steel\nshape: brick\nxMax: 3\n\nGeometry:\nmaterial: steel\n" ++
      "shape: sphere\nradius: 2\n\nMaterial:\nname: steel\nabsorptionCrossSection: steep\nscatteringCrossSection: steep\n" ++
      "fissionCrossSection: steep\n\nCrossSection:\nname: steep\nA: 2").toList) { inputFile := some "f" } =
    some (2, ["steel"], ["steep"]) := by decide +kernel
