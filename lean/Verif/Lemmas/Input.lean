import Verif.Spec.Config
import Verif.Lemmas.Except
/-!
# Lemmas on the reading of blocks
-/
open Flt Config
set_option linter.unusedSectionVars false

/-- The only key is `key`. -/
def single (key val : String) : String → Option String := fun k => if k = key then some val else none

namespace Config

theorem Given.trans {α : Type} {read : String → Option α} {v1 v2 : Option String} {a b c : α}
    (h1 : Given read v1 a b) (h2 : Given read v2 b c) : Given read (v2.or v1) a c := by
  cases v2 with
  | some s => exact h2
  | none => cases h2; exact h1

theorem Given.unique {α : Type} {read : String → Option α} {v : Option String} {a b c : α}
    (h1 : Given read v a b) (h2 : Given read v a c) : b = c := by
  cases v with
  | some s => exact Option.some.inj (h1.symm.trans h2)
  | none => exact Eq.trans h1 (Eq.symm h2)

end Config

theorem fetch_ok {α : Type} {e : InputError} {r : Option α} {v : α} : fetch e r = .ok v ↔ r = some v := by
  cases r <;> simp [fetch]

theorem fetchSim_ok {α : Type} {r : Option α} {v : α} : fetchSim r = .ok v ↔ r = some v := by
  cases r <;> simp [fetchSim]

theorem fetchBool_ok {s : String} {v : Bool} : fetchBool s = .ok v ↔ flagOf s = some v := by
  unfold fetchBool firstChar flagOf
  cases s.toList with
  | nil => simp [bind, Except.bind]
  | cons c r =>
    simp only [bind, Except.bind, List.head?_cons]
    split <;> simp_all [pure, Except.pure]

theorem fetchBench_ok {s : String} {v : BenchType} : fetchBench s = .ok v ↔ benchOf s = some v := by
  unfold fetchBench firstChar benchOf
  cases s.toList with
  | nil => simp [bind, Except.bind]
  | cons c r =>
    simp only [bind, Except.bind, List.head?_cons]
    split <;> simp_all [pure, Except.pure]

/-- The text of a key in a block: the last entry read counts. -/
def lastVal : Block → String → Option String
  | [], _ => none
  | (k, v) :: b, k' => (lastVal b k').or (single k v k')

theorem lastVal_mem {b : Block} {k v : String} (h : lastVal b k = some v) : (k, v) ∈ b := by
  induction b with
  | nil => cases h
  | cons kv b ih =>
    obtain ⟨k1, v1⟩ := kv
    unfold lastVal at h
    rcases Option.or_eq_some_iff.1 h with h | ⟨_, h⟩
    · exact List.mem_cons_of_mem _ (ih h)
    · unfold single at h
      split at h
      · cases h; subst k; exact List.mem_cons_self
      · cases h

theorem lastVal_of_mem {b : Block} (hn : (b.map (·.1)).Nodup) {k v : String} (h : (k, v) ∈ b) :
    lastVal b k = some v := by
  induction b with
  | nil => cases h
  | cons kv b ih =>
    obtain ⟨k1, v1⟩ := kv
    simp only [List.map_cons, List.nodup_cons, List.mem_map, not_exists, not_and] at hn
    unfold lastVal
    rcases List.mem_cons.1 h with h | h
    · cases h
      have : lastVal b k = none := by
        cases hl : lastVal b k with
        | none => rfl
        | some w => exact absurd rfl (hn.1 _ (lastVal_mem hl))
      simp [this, single]
    · simp [ih hn.2 h]

/-- In a block without repeated keys the text of a key does not depend on the order. -/
theorem lastVal_perm {b b' : Block} (hn : (b.map (·.1)).Nodup) (hp : b.Perm b') : lastVal b = lastVal b' := by
  have hn' : (b'.map (·.1)).Nodup := (hp.map _).nodup_iff.1 hn
  funext k
  cases h : lastVal b k with
  | some v => exact (lastVal_of_mem hn' (hp.mem_iff.1 (lastVal_mem h))).symm
  | none =>
    cases h' : lastVal b' k with
    | none => rfl
    | some v => rw [lastVal_of_mem hn (hp.mem_iff.2 (lastVal_mem h'))] at h; cases h

theorem lastVal_lookup {b : Block} (hn : (b.map (·.1)).Nodup) (k : String) : lastVal b k = b.lookup k := by
  cases h : b.lookup k with
  | some v => exact lastVal_of_mem hn (by
      have := List.lookup_eq_some_iff.1 h
      obtain ⟨l1, l2, rfl, _⟩ := this
      simp)
  | none =>
    cases h' : lastVal b k with
    | none => rfl
    | some v =>
      have := List.lookup_eq_none_iff.1 h _ (lastVal_mem h')
      simp at this

/-- Reading of a block, from the reading of one key. -/
theorem foldKeys_ok {S E : Type} {set : S → String → String → Except E S} {keys : List String}
    {R : (String → Option String) → S → S → Prop}
    (hrefl : ∀ a, R (fun _ => none) a a)
    (htrans : ∀ {v1 v2 a b c}, R v1 a b → R v2 b c → R (fun k => (v2 k).or (v1 k)) a c)
    (hstep : ∀ {a b k v}, set a k v = .ok b → k ∈ keys ∧ R (single k v) a b)
    {b : Block} {a r : S} (h : b.foldlM (fun s kv => set s kv.1 kv.2) a = .ok r) :
    (∀ kv ∈ b, kv.1 ∈ keys) ∧ R (lastVal b) a r := by
  induction b generalizing a with
  | nil => cases h; exact ⟨by simp, hrefl _⟩
  | cons kv b ih =>
    rw [List.foldlM_cons] at h
    obtain ⟨a', h1, h2⟩ := bind_ok.1 h
    obtain ⟨h3, h4⟩ := hstep h1
    obtain ⟨h5, h6⟩ := ih h2
    exact ⟨List.forall_mem_cons.2 ⟨h3, h5⟩, htrans h4 h6⟩

theorem foldKeys_iff {S E : Type} {set : S → String → String → Except E S} {keys : List String}
    {R : (String → Option String) → S → S → Prop}
    (hrefl : ∀ a, R (fun _ => none) a a)
    (htrans : ∀ {v1 v2 a b c}, R v1 a b → R v2 b c → R (fun k => (v2 k).or (v1 k)) a c)
    (hstep : ∀ {a b k v}, set a k v = .ok b → k ∈ keys ∧ R (single k v) a b)
    (huniq : ∀ {v a b c}, R v a b → R v a c → b = c)
    (hex : ∀ {vals a r k v}, R vals a r → k ∈ keys → vals k = some v → ∀ s, ∃ s', set s k v = .ok s')
    {b : Block} (hn : (b.map (·.1)).Nodup) {a r : S} :
    b.foldlM (fun s kv => set s kv.1 kv.2) a = .ok r ↔ (∀ kv ∈ b, kv.1 ∈ keys) ∧ R (lastVal b) a r := by
  constructor
  · exact foldKeys_ok hrefl htrans hstep
  · rintro ⟨h1, h2⟩
    have key : ∀ (b' : Block), (∀ kv ∈ b', kv ∈ b) → ∀ s, ∃ s',
        b'.foldlM (fun s kv => set s kv.1 kv.2) s = .ok s' := by
      intro b'
      induction b' with
      | nil => exact fun _ s => ⟨s, rfl⟩
      | cons kv b' ih =>
        intro hb s
        obtain ⟨k, v⟩ := kv
        have hm := hb (k, v) List.mem_cons_self
        obtain ⟨s1, hs1⟩ := hex h2 (h1 _ hm) (lastVal_of_mem hn hm) s
        obtain ⟨s2, hs2⟩ := ih (fun kv h => hb kv (List.mem_cons_of_mem _ h)) s1
        refine ⟨s2, ?_⟩
        rw [List.foldlM_cons]
        exact bind_ok.2 ⟨s1, hs1, hs2⟩
    obtain ⟨s', hs'⟩ := key b (fun _ h => h) a
    have := foldKeys_ok hrefl htrans hstep hs'
    rw [huniq h2 this.2]
    exact hs'

theorem foldKeys_error {S E : Type} {set : S → String → String → Except E S} {P : Block → E → Prop}
    (hcons : ∀ {kv b e}, P b e → P (kv :: b) e)
    (hstep : ∀ {a k v e} {b : Block}, set a k v = .error e → P ((k, v) :: b) e)
    {b : Block} {a : S} {e : E} (h : b.foldlM (fun s kv => set s kv.1 kv.2) a = .error e) : P b e := by
  induction b generalizing a with
  | nil => cases h
  | cons kv b ih =>
    rw [List.foldlM_cons] at h
    cases hs : set a kv.1 kv.2 with
    | error e' =>
      rw [hs] at h
      cases h
      exact hstep hs
    | ok a' =>
      rw [hs] at h
      exact hcons (ih h)

theorem fetch_error {α : Type} {e e' : InputError} {r : Option α} (h : fetch e r = .error e') : e' = e := by
  cases r <;> simp [fetch] at h
  exact h.symm

section
variable {T : Type} [Flt T] {pf : String → Option T}

/-- Reads off what one key of a block does. -/
macro "step_key" h:ident : tactic => `(tactic| (
  split at $h:ident
  all_goals
    simp only [bind_ok, pure_ok, Except.ok.injEq, fetch_ok, fetchSim_ok, fetchBool_ok, fetchBench_ok,
      reduceCtorEq] at $h:ident
  all_goals first
    | (obtain ⟨v, hv, hg⟩ := $h:ident; subst hg; refine ⟨by decide, ?_⟩; constructor <;>
        simp [Given, single, hv])
    | (subst $h:ident; refine ⟨by decide, ?_⟩; constructor <;> simp [Given, single])))

theorem GeometryParams.setKey_ok {g g' : GeometryParams T} {key val : String}
    (h : g.setKey pf key val = .ok g') : key ∈ geometryKeys ∧ GeometryRead pf (single key val) g g' := by
  unfold GeometryParams.setKey at h
  split at h
  case h_2 =>
    split at h
    all_goals first
      | (cases h; done)
      | (cases h; refine ⟨by decide, ?_⟩; constructor <;> simp [Given, single, shapeOf])
  all_goals
    simp only [bind_ok, pure_ok, Except.ok.injEq, fetch_ok, reduceCtorEq] at h
  all_goals first
    | (obtain ⟨v, hv, rfl⟩ := h; refine ⟨by decide, ?_⟩; constructor <;> simp [Given, single, hv])
    | (subst h; refine ⟨by decide, ?_⟩; constructor <;> simp [Given, single])

theorem GeometryParams.setKey_error {g : GeometryParams T} {key val : String} {e : InputError}
    (h : g.setKey pf key val = .error e) : e = .badGeometryBlock := by
  unfold GeometryParams.setKey at h
  split at h
  case h_2 => split at h <;> cases h; rfl
  all_goals first
    | (cases h; done)
    | (cases h; rfl)
    | (revert h; cases pf val <;> intro h <;> cases h; rfl)

theorem Config.GeometryRead.enabled {vals : String → Option String} {d r : GeometryParams T}
    (h : GeometryRead pf vals d r) {k v : String} (hk : k ∈ geometryKeys) (hv : vals k = some v)
    (g : GeometryParams T) : ∃ g', g.setKey pf k v = .ok g' := by
  simp only [geometryKeys, List.mem_cons, List.not_mem_nil, or_false] at hk
  obtain ⟨h1, h2, h3, h4, h5, h6, h7, h8, h9, h10, h11, h12⟩ := h
  rcases hk with rfl | rfl | rfl | rfl | rfl | rfl | rfl | rfl | rfl | rfl | rfl | rfl <;>
    simp only [hv, Given] at h1 h2 h3 h4 h5 h6 h7 h8 h9 h10 h11 h12 <;>
    simp [GeometryParams.setKey, *, fetch, bind, Except.bind, pure, Except.pure]
  unfold shapeOf at h2
  split at h2
  · subst v; exact ⟨_, rfl⟩
  · split at h2
    · subst v; exact ⟨_, rfl⟩
    · cases h2

theorem Config.GeometryRead.refl (a : GeometryParams T) : GeometryRead pf (fun _ => none) a a := by
  constructor <;> rfl

theorem Config.GeometryRead.trans {v1 v2 : String → Option String} {a b c : GeometryParams T}
    (h1 : GeometryRead pf v1 a b) (h2 : GeometryRead pf v2 b c) :
    GeometryRead pf (fun k => (v2 k).or (v1 k)) a c :=
  ⟨h1.1.trans h2.1, h1.2.trans h2.2, h1.3.trans h2.3, h1.4.trans h2.4, h1.5.trans h2.5, h1.6.trans h2.6,
    h1.7.trans h2.7, h1.8.trans h2.8, h1.9.trans h2.9, h1.10.trans h2.10, h1.11.trans h2.11, h1.12.trans h2.12⟩

theorem Config.GeometryRead.unique {v : String → Option String} {a b c : GeometryParams T}
    (h1 : GeometryRead pf v a b) (h2 : GeometryRead pf v a c) : b = c := by
  cases b; cases c
  simp only [GeometryParams.mk.injEq]
  exact ⟨h1.materialName.unique h2.materialName, h1.shape.unique h2.shape, h1.radius.unique h2.radius,
    h1.xCenter.unique h2.xCenter, h1.yCenter.unique h2.yCenter, h1.zCenter.unique h2.zCenter,
    h1.xMin.unique h2.xMin, h1.yMin.unique h2.yMin, h1.zMin.unique h2.zMin, h1.xMax.unique h2.xMax,
    h1.yMax.unique h2.yMax, h1.zMax.unique h2.zMax⟩

theorem MaterialParams.setKey_ok {a b : MaterialParams T} {key val : String}
    (h : a.setKey pf key val = .ok b) : key ∈ materialKeys ∧ MaterialRead pf (single key val) a b := by
  unfold MaterialParams.setKey at h
  step_key h

theorem Config.MaterialRead.enabled {vals : String → Option String} {d r : MaterialParams T}
    (h : MaterialRead pf vals d r) {k v : String} (hk : k ∈ materialKeys) (hv : vals k = some v)
    (g : MaterialParams T) : ∃ g', g.setKey pf k v = .ok g' := by
  simp only [materialKeys, List.mem_cons, List.not_mem_nil, or_false] at hk
  obtain ⟨h1, h2, h3, h4, h5, h6, h7, h8, h9, h10, h11, h12⟩ := h
  rcases hk with rfl | rfl | rfl | rfl | rfl | rfl | rfl | rfl | rfl | rfl | rfl | rfl <;>
    simp only [hv, Given] at h1 h2 h3 h4 h5 h6 h7 h8 h9 h10 h11 h12 <;>
    simp [MaterialParams.setKey, *, fetch, bind, Except.bind, pure, Except.pure]

theorem Config.MaterialRead.refl (a : MaterialParams T) : MaterialRead pf (fun _ => none) a a := by
  constructor <;> rfl

theorem Config.MaterialRead.trans {v1 v2 : String → Option String} {a b c : MaterialParams T}
    (h1 : MaterialRead pf v1 a b) (h2 : MaterialRead pf v2 b c) :
    MaterialRead pf (fun k => (v2 k).or (v1 k)) a c :=
  ⟨h1.1.trans h2.1, h1.2.trans h2.2, h1.3.trans h2.3, h1.4.trans h2.4, h1.5.trans h2.5, h1.6.trans h2.6,
    h1.7.trans h2.7, h1.8.trans h2.8, h1.9.trans h2.9, h1.10.trans h2.10, h1.11.trans h2.11, h1.12.trans h2.12⟩

theorem Config.MaterialRead.unique {v : String → Option String} {a b c : MaterialParams T}
    (h1 : MaterialRead pf v a b) (h2 : MaterialRead pf v a c) : b = c := by
  cases b; cases c
  simp only [MaterialParams.mk.injEq]
  exact ⟨h1.name.unique h2.name, h1.mass.unique h2.mass, h1.totalCrossSection.unique h2.totalCrossSection,
    h1.nIsotopes.unique h2.nIsotopes, h1.nReactions.unique h2.nReactions, h1.sourceRate.unique h2.sourceRate,
    h1.scatteringCrossSection.unique h2.scatteringCrossSection,
    h1.absorptionCrossSection.unique h2.absorptionCrossSection,
    h1.fissionCrossSection.unique h2.fissionCrossSection,
    h1.scatteringCrossSectionRatio.unique h2.scatteringCrossSectionRatio,
    h1.absorptionCrossSectionRatio.unique h2.absorptionCrossSectionRatio,
    h1.fissionCrossSectionRatio.unique h2.fissionCrossSectionRatio⟩

theorem CrossSectionParams.setKey_ok {a b : CrossSectionParams T} {key val : String}
    (h : a.setKey pf key val = .ok b) : key ∈ crossSectionKeys ∧ CrossSectionRead pf (single key val) a b := by
  unfold CrossSectionParams.setKey at h
  step_key h

theorem Config.CrossSectionRead.enabled {vals : String → Option String} {d r : CrossSectionParams T}
    (h : CrossSectionRead pf vals d r) {k v : String} (hk : k ∈ crossSectionKeys) (hv : vals k = some v)
    (g : CrossSectionParams T) : ∃ g', g.setKey pf k v = .ok g' := by
  simp only [crossSectionKeys, List.mem_cons, List.not_mem_nil, or_false] at hk
  obtain ⟨h1, h2, h3, h4, h5, h6, h7⟩ := h
  rcases hk with rfl | rfl | rfl | rfl | rfl | rfl | rfl <;>
    simp only [hv, Given] at h1 h2 h3 h4 h5 h6 h7 <;>
    simp [CrossSectionParams.setKey, *, fetch, bind, Except.bind, pure, Except.pure]

theorem Config.CrossSectionRead.refl (a : CrossSectionParams T) : CrossSectionRead pf (fun _ => none) a a := by
  constructor <;> rfl

theorem Config.CrossSectionRead.trans {v1 v2 : String → Option String} {a b c : CrossSectionParams T}
    (h1 : CrossSectionRead pf v1 a b) (h2 : CrossSectionRead pf v2 b c) :
    CrossSectionRead pf (fun k => (v2 k).or (v1 k)) a c :=
  ⟨h1.1.trans h2.1, h1.2.trans h2.2, h1.3.trans h2.3, h1.4.trans h2.4, h1.5.trans h2.5, h1.6.trans h2.6,
    h1.7.trans h2.7⟩

theorem Config.CrossSectionRead.unique {v : String → Option String} {a b c : CrossSectionParams T}
    (h1 : CrossSectionRead pf v a b) (h2 : CrossSectionRead pf v a c) : b = c := by
  cases b; cases c
  simp only [CrossSectionParams.mk.injEq]
  exact ⟨h1.name.unique h2.name, h1.aa.unique h2.aa, h1.bb.unique h2.bb, h1.cc.unique h2.cc, h1.dd.unique h2.dd,
    h1.ee.unique h2.ee, h1.nuBar.unique h2.nuBar⟩

theorem SimulationParams.setKey_ok {a b : SimulationParams T} {key val : String}
    (h : a.setKey pf key val = .ok b) : key ∈ simulationKeys ∧ SimulationRead pf (single key val) a b := by
  unfold SimulationParams.setKey at h
  step_key h

theorem Config.SimulationRead.enabled {vals : String → Option String} {d r : SimulationParams T}
    (h : SimulationRead pf vals d r) {k v : String} (hk : k ∈ simulationKeys) (hv : vals k = some v)
    (g : SimulationParams T) : ∃ g', g.setKey pf k v = .ok g' := by
  simp only [simulationKeys, List.mem_cons, List.not_mem_nil, or_false] at hk
  obtain ⟨h1, h2, h3, h4, h5, h6, h7, h8, h9, h10, h11, h12, h13, h14, h15, h16, h17, h18, h19, h20, h21, _, _, _, _, _⟩ := h
  rcases hk with rfl | rfl | rfl | rfl | rfl | rfl | rfl | rfl | rfl | rfl | rfl | rfl | rfl | rfl | rfl | rfl | rfl | rfl | rfl | rfl | rfl | rfl | rfl | rfl | rfl | rfl | rfl | rfl | rfl | rfl | rfl | rfl | rfl | rfl | rfl <;>
    simp only [hv, Given] at h1 h2 h3 h4 h5 h6 h7 h8 h9 h10 h11 h12 h13 h14 h15 h16 h17 h18 h19 h20 h21 <;>
    simp [SimulationParams.setKey, *, fetchSim, fetchBool_ok.2, fetchBench_ok.2, bind, Except.bind, pure, Except.pure]

theorem Config.SimulationRead.refl (a : SimulationParams T) : SimulationRead pf (fun _ => none) a a := by
  constructor <;> rfl

theorem Config.SimulationRead.trans {v1 v2 : String → Option String} {a b c : SimulationParams T}
    (h1 : SimulationRead pf v1 a b) (h2 : SimulationRead pf v2 b c) :
    SimulationRead pf (fun k => (v2 k).or (v1 k)) a c :=
  ⟨h1.1.trans h2.1, h1.2.trans h2.2, h1.3.trans h2.3, h1.4.trans h2.4, h1.5.trans h2.5, h1.6.trans h2.6,
    h1.7.trans h2.7, h1.8.trans h2.8, h1.9.trans h2.9, h1.10.trans h2.10, h1.11.trans h2.11,
    h1.12.trans h2.12, h1.13.trans h2.13, h1.14.trans h2.14, h1.15.trans h2.15, h1.16.trans h2.16,
    h1.17.trans h2.17, h1.18.trans h2.18, h1.19.trans h2.19, h1.20.trans h2.20, h1.21.trans h2.21,
    (h2.22.trans h1.22), (h2.23.trans h1.23), (h2.24.trans h1.24), (h2.25.trans h1.25), (h2.26.trans h1.26)⟩

theorem Config.SimulationRead.unique {v : String → Option String} {a b c : SimulationParams T}
    (h1 : SimulationRead pf v a b) (h2 : SimulationRead pf v a c) : b = c := by
  cases b; cases c
  simp only [SimulationParams.mk.injEq]
  exact ⟨h1.inputFile.unique h2.inputFile, h1.energySpectrum.unique h2.energySpectrum,
    h1.crossSectionsOut.unique h2.crossSectionsOut, h1.boundaryCondition.unique h2.boundaryCondition,
    h1.loadBalance.unique h2.loadBalance, h1.csv.trans h2.csv.symm, h1.debugThreads.unique h2.debugThreads,
    h1.nParticles.unique h2.nParticles, h1.chunkSize.trans h2.chunkSize.symm,
    h1.nRayonThreads.trans h2.nRayonThreads.symm, h1.bindThreads.trans h2.bindThreads.symm,
    h1.nUnits.trans h2.nUnits.symm, h1.nSteps.unique h2.nSteps, h1.nx.unique h2.nx, h1.ny.unique h2.ny,
    h1.nz.unique h2.nz, h1.seed.unique h2.seed, h1.dt.unique h2.dt, h1.lx.unique h2.lx, h1.ly.unique h2.ly,
    h1.lz.unique h2.lz, h1.eMin.unique h2.eMin, h1.eMax.unique h2.eMax, h1.nGroups.unique h2.nGroups,
    h1.lowWeightCutoff.unique h2.lowWeightCutoff, h1.coralBenchmark.unique h2.coralBenchmark⟩

theorem MaterialParams.setKey_error {a : MaterialParams T} {key val : String} {e : InputError}
    (h : a.setKey pf key val = .error e) : e = .badMaterialBlock := by
  unfold MaterialParams.setKey at h
  split at h
  all_goals first
    | (cases h; done)
    | (cases h; rfl)
    | (revert h; cases pf val <;> intro h <;> cases h; rfl)
    | (revert h; cases parseU64 val <;> intro h <;> cases h; rfl)

theorem CrossSectionParams.setKey_error {a : CrossSectionParams T} {key val : String} {e : InputError}
    (h : a.setKey pf key val = .error e) : e = .badCrossSectionBlock := by
  unfold CrossSectionParams.setKey at h
  split at h
  all_goals first
    | (cases h; done)
    | (cases h; rfl)
    | (revert h; cases pf val <;> intro h <;> cases h; rfl)
    | (revert h; cases parseU64 val <;> intro h <;> cases h; rfl)

theorem fetchBool_error {val : String} {e : Stop} (h : fetchBool val = .error e) :
    e = .input .badSimulationBlock ∨ (e = .panic .indexOutOfBounds ∧ val = "") := by
  unfold fetchBool firstChar at h
  cases hv : val.toList with
  | nil =>
    rw [hv] at h
    cases h
    exact .inr ⟨rfl, String.toList_eq_nil_iff.1 hv⟩
  | cons c r =>
    rw [hv] at h
    simp only [bind, Except.bind] at h
    split at h <;> cases h
    exact .inl rfl

theorem fetchBench_error {val : String} {e : Stop} (h : fetchBench val = .error e) :
    e = .input .badSimulationBlock ∨ (e = .panic .indexOutOfBounds ∧ val = "") := by
  unfold fetchBench firstChar at h
  cases hv : val.toList with
  | nil =>
    rw [hv] at h
    cases h
    exact .inr ⟨rfl, String.toList_eq_nil_iff.1 hv⟩
  | cons c r =>
    rw [hv] at h
    simp only [bind, Except.bind] at h
    split at h <;> cases h
    exact .inl rfl

/-- The keys whose value is indexed without a check. -/
def flagKeys : List String := ["loadBalance", "debugThreads", "coralBenchmark"]

theorem SimulationParams.setKey_error {a : SimulationParams T} {key val : String} {e : Stop}
    (h : a.setKey pf key val = .error e) :
    e = .input .badSimulationBlock ∨ (e = .panic .indexOutOfBounds ∧ key ∈ flagKeys ∧ val = "") := by
  unfold SimulationParams.setKey at h
  split at h
  all_goals first
    | (cases h; done)
    | (cases h; exact .inl rfl)
    | (revert h; cases pf val <;> intro h <;> cases h; exact .inl rfl)
    | (revert h; cases parseU64 val <;> intro h <;> cases h; exact .inl rfl)
    | (have h' : fetchBool val = .error e := by
         revert h; cases fetchBool val <;> intro h <;> cases h; rfl
       rcases fetchBool_error h' with h | h
       · exact .inl h
       · exact .inr ⟨h.1, by decide, h.2⟩)
    | (have h' : fetchBench val = .error e := by
         revert h; cases fetchBench val <;> intro h <;> cases h; rfl
       rcases fetchBench_error h' with h | h
       · exact .inl h
       · exact .inr ⟨h.1, by decide, h.2⟩)

end
