import Verif.Lemmas.BuiltinMesh
import Verif.Lemmas.RangeFloat
/-!
# The built-in problem, with rounding
-/
open Flt Ieee GridSpec MeshSpec Config
attribute [local irreducible] Rng.lcg Rng.sample Rng.spawn
set_option linter.unusedSectionVars false

namespace Flooding
variable {T : Type} [Flt T] [Ieee T]

/-! ### The input -/

theorem eMin_bd : Bd (Flt.lit 1 (-9) : T) (2 ^ (-30 : ℤ)) (2 ^ (-29 : ℤ)) := by
  have := lit_bd (T := T) (m := 1) (e := -9) (n := 1) (k := -30) (n' := 1) (k' := -29) (by norm_num) (by norm_num) (by norm_num)
    (by norm_num) (by norm_num) (by norm_num)
  simpa using this

theorem eMax_is : IsI (Flt.lit 20 0 : T) 20 := isI_lit (m := 20) (by norm_num)

/-- The built-in problem with the default settings, a chosen number of threads and of cycles. -/
def builtinOf (threads steps : Nat) : Params T :=
  builtinParams { SimulationParams.default with nRayonThreads := threads, nSteps := steps }

variable {threads steps : Nat}

theorem builtinOf_materials : (builtinOf threads steps : Params T).materials = [("source_material",
    { MaterialParams.default with
      name := "source_material"
      mass := Flt.lit 1000 0
      sourceRate := Flt.lit 1 10
      scatteringCrossSection := "flat"
      absorptionCrossSection := "flat"
      fissionCrossSection := "flat"
      fissionCrossSectionRatio := Flt.lit 1 (-1) })] := rfl

theorem builtinOf_curves : (builtinOf threads steps : Params T).crossSections = [("flat",
    { CrossSectionParams.default with name := "flat" })] := rfl

theorem hundred_is : IsI (Flt.lit 100 0 : T) 100 := isI_lit (m := 100) (by norm_num)

theorem builtin_ten : TenGrid (builtinOf threads steps : Params T).gridOf := by
  have h : IsI ((Flt.lit 100 0 : T) /. Flt.ofNat 10) 10 :=
    hundred_is.div (isI_ofNat (n := 10) (by norm_num)) (by norm_num) (by norm_num) (by norm_num)
  exact ⟨⟨rfl, rfl, rfl⟩, h, h, h⟩

theorem builtin_cells : cells (builtinOf threads steps : Params T).gridOf = 1000 := by
  show 10 * 10 * 10 = 1000
  norm_num

theorem builtin_covered {c : Nat} {r : Vec3 T} (hc : c < cells (builtinOf threads steps : Params T).gridOf)
    (hr : (builtinOf threads steps : Params T).gridOf.meanPoint c = .ok r) :
    ∃ geom ∈ (builtinOf threads steps : Params T).geometries, isInside geom r = .ok true := by
  obtain ⟨r', h1, hx, hy, hz⟩ := builtin_ten.mean hc
  rw [hr] at h1
  cases h1
  obtain ⟨t1, t2, t3⟩ := builtin_ten.tuple hc
  refine ⟨_, List.mem_singleton.2 rfl, ?_⟩
  have key : ∀ {a : T} {k : ℕ}, k ≤ 9 → IsI a (10 * k + 5) → (a >=. zero) = true ∧ (a <=. Flt.lit 100 0) = true := by
    intro a k hk ha
    have hk' : (k : ℝ) ≤ 9 := by exact_mod_cast hk
    have hk0 : (0 : ℝ) ≤ k := Nat.cast_nonneg k
    refine ⟨(le_fin fin_zero ha).2 ?_, (le_fin ha hundred_is).2 ?_⟩ <;> push_cast <;> linarith
  obtain ⟨x1, x2⟩ := key t1 hx
  obtain ⟨y1, y2⟩ := key t2 hy
  obtain ⟨z1, z2⟩ := key t3 hz
  have : ((((r.x >=. zero) && (r.x <=. Flt.lit 100 0)) && ((r.y >=. zero) && (r.y <=. Flt.lit 100 0)) &&
      ((r.z >=. zero) && (r.z <=. (Flt.lit 100 0 : T))))) = true := by rw [x1, x2, y1, y2, z1, z2]; rfl
  exact congrArg Except.ok this

theorem lit_seed : (Rng.lcg (BitVec.ofNat 64 (1029384756 + 1))).toNat ≤ 15 * 2 ^ 60 ∧
    (Rng.lcg (Rng.lcg (BitVec.ofNat 64 (1029384756 + 1)))).toNat ≤ 15 * 2 ^ 60 ∧
    (Rng.lcg (Rng.lcg (Rng.lcg (BitVec.ofNat 64 (1029384756 + 1))))).toNat ≤ 15 * 2 ^ 60 := by decide +kernel

theorem builtin_floatMesh : FloatMesh (builtinOf threads steps : Params T) := by
  have hl : Bd (Flt.lit 100 0 : T) (2 ^ (-10 : ℤ)) (2 ^ (20 : ℤ)) := hundred_is.bd (by norm_num) (by norm_num)
  refine ⟨rfl, ?_, ⟨hl, hl, hl⟩, ?_, ?_, ?_, fun c r hc hr => builtin_covered hc hr⟩
  · show (0 < 10 ∧ 10 ≤ 2 ^ 10) ∧ (0 < 10 ∧ 10 ≤ 2 ^ 10) ∧ (0 < 10 ∧ 10 ≤ 2 ^ 10)
    norm_num
  · show 1029384756 + 1 < 2 ^ 64
    norm_num
  · intro f
    show (borderEvent "reflect" f).isSome
    rfl
  · intro c0 root h1 h2
    exact builtin_ten.root lit_seed.1 lit_seed.2.1 lit_seed.2.2 h1 h2

theorem dt_bd : Bd (Flt.lit 1 (-8) : T) (2 ^ (-27 : ℤ)) (2 ^ (-26 : ℤ)) := by
  have := lit_bd (T := T) (m := 1) (e := -8) (n := 1) (k := -27) (n' := 1) (k' := -26) (by norm_num) (by norm_num)
    (by norm_num) (by norm_num) (by norm_num) (by norm_num)
  simpa using this

theorem rate_bd : Bd (Flt.lit 1 10 : T) (2 ^ (33 : ℤ)) (2 ^ (34 : ℤ)) := by
  have := lit_bd (T := T) (m := 1) (e := 10) (n := 1) (k := 33) (n' := 1) (k' := 34) (by norm_num) (by norm_num)
    (by norm_num) (by norm_num) (by norm_num) (by norm_num)
  simpa using this

theorem builtin_floatInput (hs : (((Flt.lit 20 0 : T) -. Flt.lit 1 (-9)) +. Flt.lit 1 (-9) <=. Flt.lit 20 0) = true) :
    FloatInput (builtinOf threads steps : Params T) := by
  refine ⟨dt_bd.usable (by positivity), ?_, hs, ?_, ?_, ?_, ?_⟩
  · obtain ⟨x, hx, x0, x1⟩ := eMin_bd (T := T)
    exact ⟨x, _, hx, eMax_is, le_trans (by positivity) x0, x1.trans (by norm_num), by norm_num⟩
  · show 0 < 230
    norm_num
  · show 16 ≤ 1000000 ∧ 1000000 ≤ 2 ^ 62
    norm_num
  · intro k mp h
    rw [builtinOf_materials, HMap.get?_cons] at h
    split at h
    · cases h
      have h1 : IsFin (Flt.lit 1000 0 : T) ((1000 : ℤ) : ℝ) := isI_lit (m := 1000) (by norm_num)
      exact ⟨(le_fin fin_one h1).2 (by norm_num), rate_bd.usable (by positivity)⟩
    · cases h
  · intro k x h
    rw [builtinOf_curves, HMap.get?_cons] at h
    split at h
    · cases h
      have h1 : Bd (Flt.ofNat 10066330 /. Flt.ofNat (2 ^ 22) : T) 2 (5 / 2) := by
        have r2 : Rep T 2 := by have := rep_int (T := T) (n := 2) (by norm_num); push_cast at this; exact this
        have r5 : Rep T (5 / 2) := by
          have := rep_scaled (T := T) (n := 5) (k := -1) (by norm_num) (by norm_num) (by norm_num)
          norm_num at this
          exact this
        exact (IsFin.bd (fin_ofNat (n := 10066330) (by norm_num))).div (IsFin.bd (fin_ofNat (n := 2 ^ 22) (by norm_num))) r2 r5
          (by norm_num) (by norm_num) (by norm_num) (by norm_num) (by norm_num)
      have r3 : Rep T 3 := by have := rep_int (T := T) (n := 3) (by norm_num); push_cast at this; exact this
      have r4 : Rep T 4 := by have := rep_int (T := T) (n := 4) (by norm_num); push_cast at this; exact this
      refine ⟨h1.usable (by norm_num), ?_⟩
      obtain ⟨y, hy, y0, y1⟩ := h1.add (IsFin.bd fin_one) r3 r4 (by norm_num) (by norm_num)
      exact (lt_fin hy (fin_ofNat (n := 5) (by norm_num))).2 (by push_cast; linarith)
    · cases h

theorem builtin_eMin : Bd (Flt.lit 1 (-9) : T) (2 ^ (-30 : ℤ)) 1 := eMin_bd.mono le_rfl (by norm_num)

theorem builtin_eMax : Bd (Flt.lit 20 0 : T) 20 (2 ^ (5 : ℤ)) := eMax_is.bd (by norm_num) (by norm_num)

/-- The cells of the built-in problem have size ten. -/
theorem builtin_sides : (builtinOf threads steps : Params T).CellSides 10 10 10 := by
  have h : IsFin (Flt.lit 100 0 : T) 100 := by
    have := isI_lit (T := T) (m := 100) (by norm_num)
    unfold IsI at this
    exact_mod_cast this
  refine ⟨100, 100, 100, h, h, h, ?_, ?_, ?_⟩ <;> show (10 : ℝ) = 100 / ((10 : ℕ) : ℝ) <;> norm_num

/-- The numbers of the built-in problem are in the ranges. -/
theorem builtin_range : FloatRange (builtinOf threads steps : Params T) := by
  have h01 : Bd (one : T) (2 ^ (-1 : ℤ)) (2 ^ (7 : ℤ)) := (IsFin.bd fin_one).mono (by norm_num) (by norm_num)
  have h00 : Bd (one : T) 0 (2 ^ (7 : ℤ)) := h01.mono (by positivity) le_rfl
  refine ⟨builtin_eMin, builtin_eMax, ?_, dt_bd.mono (by norm_num) (by norm_num), ?_, by rw [builtin_cells]; norm_num, ?_, ?_, ?_⟩
  · show 0 < 230 ∧ 230 < 2 ^ 19
    norm_num
  · show 16 ≤ 1000000 ∧ 1000000 ≤ 2 ^ 44
    norm_num
  · exact ⟨10, 10, 10, builtin_sides, by norm_num, by norm_num⟩
  · intro k mp h
    rw [builtinOf_materials, HMap.get?_cons] at h
    split at h
    · cases h
      exact ⟨show 10 ≤ 2 ^ 7 by norm_num, show 9 ≤ 2 ^ 5 by norm_num, rate_bd.mono (by norm_num) le_rfl,
        h01.mono (by positivity) (by norm_num), tenth_bd.mono (by positivity) (by norm_num), h00, h00, .inr (.inl h01)⟩
    · cases h
  · intro k x h
    rw [builtinOf_curves, HMap.get?_cons] at h
    split at h
    · cases h
      exact line_tame (c := 1) rfl rfl rfl ((IsFin.bd fin_zero).mono (by norm_num) (by norm_num)) (by norm_num)
        ((IsFin.bd fin_one).mono (by norm_num) (by norm_num))
    · cases h

/-- The built-in problem starts, and its tables are usable. -/
theorem builtin_start (hs : (((Flt.lit 20 0 : T) -. Flt.lit 1 (-9)) +. Flt.lit 1 (-9) <=. Flt.lit 20 0) = true)
    {so : StrOrder} (hso : ∀ l, (so l).Perm l) {io : IterOrder} (hio : ∀ l, (io l).Perm l) (m : Machine) {fuel : Nat}
    (hfuel : 1000 ≤ fuel) : ∃ s, startRun so io m fuel (builtinOf threads steps : Params T) = .ok (some s) ∧
      FloatTables s.data s.state.unit.dom := by
  exact builtin_range.start builtin_floatMesh (builtin_named _) (builtin_consistent _) (builtin_floatInput hs)
    (by rw [builtin_cells]; show 10 * 1000 ≤ 1000000; norm_num) hso hio m (by rw [builtin_cells]; exact hfuel)

/-! ### Another curve -/

/-- The built-in problem with another curve in the place of the flat one. -/
def curvedOf (x : CrossSectionParams T) (threads steps : Nat) : Params T :=
  { builtinOf threads steps with crossSections := [("flat", x)] }

variable {x : CrossSectionParams T}

theorem curved_get {k : String} {y : CrossSectionParams T} (h : (curvedOf x threads steps).crossSections.get? k = some y) :
    y = x := by
  rw [show (curvedOf x threads steps).crossSections = [("flat", x)] from rfl, HMap.get?_cons] at h
  split at h
  · exact (Option.some.inj h).symm
  · cases h

theorem curved_named (hx : x.name = "flat") : NamedParams (curvedOf x threads steps) := by
  have h := Named.insert (Named.nil (name := CrossSectionParams.name (T := T))) x
  rw [hx] at h
  exact ⟨(builtin_named (T := T) _).materials, h⟩

theorem curved_consistent : Consistent (curvedOf x threads steps) := by
  have h := builtin_consistent (T := T) { SimulationParams.default with nRayonThreads := threads, nSteps := steps }
  refine ⟨h.1, h.2, h.3, ?_⟩
  intro k m hm
  have hm' : (builtinOf threads steps : Params T).materials.get? k = some m := hm
  rw [builtinOf_materials, HMap.get?_cons] at hm'
  split at hm'
  · cases hm'
    exact ⟨⟨x, rfl⟩, ⟨x, rfl⟩, ⟨x, rfl⟩⟩
  · cases hm'

theorem curved_floatMesh : FloatMesh (curvedOf x threads steps) := by
  have h := builtin_floatMesh (T := T) (threads := threads) (steps := steps)
  exact ⟨h.units, h.counts, h.sizes, h.seed, h.border, h.root, h.covered⟩

theorem curved_floatInput (hs : (((Flt.lit 20 0 : T) -. Flt.lit 1 (-9)) +. Flt.lit 1 (-9) <=. Flt.lit 20 0) = true)
    (hx : Usable x.nuBar ∧ (x.nuBar +. one <. Flt.ofNat 5) = true) : FloatInput (curvedOf x threads steps) := by
  have h := builtin_floatInput (T := T) (threads := threads) (steps := steps) hs
  exact ⟨h.dt, h.energies, h.sourced, h.groups, h.particles, h.materials, fun k y hy => curved_get hy ▸ hx⟩

theorem curved_range (hx : TameCurve x.poly) : FloatRange (curvedOf x threads steps) := by
  have h := builtin_range (T := T) (threads := threads) (steps := steps)
  exact ⟨h.eMin, h.eMax, h.groups, h.dt, h.particles, h.cells, h.volume, h.materials, fun k y hy => curved_get hy ▸ hx⟩

/-- The scattering curve of the second problem of the CORAL-2 benchmark: `10^97` at every energy. -/
def steepCurve : CrossSectionParams T :=
  { CrossSectionParams.default with name := "flat", ee := Flt.lit 97 0 }

theorem steep_tame : TameCurve (steepCurve : CrossSectionParams T).poly :=
  line_tame (c := 97) rfl rfl rfl ((IsFin.bd fin_zero).mono (by norm_num) (by norm_num)) (by norm_num)
    ((show IsI (Flt.lit 97 0 : T) 97 from isI_lit (m := 97) (by norm_num)).bd (by norm_num) (by norm_num))

/-- The absorption curve of the second problem of the CORAL-2 benchmark: `10^(2 - 0.2 log10 E)`. -/
def slopedCurve : CrossSectionParams T :=
  { CrossSectionParams.default with name := "flat", dd := Flt.neg (Flt.lit 2 (-1)), ee := Flt.lit 2 0 }

theorem sloped_tame : TameCurve (slopedCurve : CrossSectionParams T).poly := by
  have h : Bd (Flt.lit 2 (-1) : T) (2 ^ (-3 : ℤ)) (2 ^ (-2 : ℤ)) := by
    have := lit_bd (T := T) (m := 2) (e := -1) (n := 1) (k := -3) (n' := 1) (k' := -2) (by norm_num) (by norm_num)
      (by norm_num) (by norm_num) (by norm_num) (by norm_num)
    simpa using this
  obtain ⟨y, hy, y0, y1⟩ := h
  refine line_tame (c := 2) rfl rfl rfl ⟨-y, by
    show val (Flt.neg (Flt.lit 2 (-1)) : T) = _
    rw [val_neg, hy]
    rfl, ?_, ?_⟩ (by norm_num)
    ((show IsI (Flt.lit 2 0 : T) 2 from isI_lit (m := 2) (by norm_num)).bd (by norm_num) (by norm_num))
  · norm_num at y1 ⊢; linarith
  · norm_num at y0 ⊢; linarith

end Flooding
