import Verif.Lemmas.RenumberStart
import Verif.Lemmas.StartFloat
import Verif.Props.Schedule
import Verif.Props.Atomic
import Verif.Model.Real
import Mathlib.Tactic.NormNum
/-!
# C67: runs are reproducible

Two inputs that describe the same problem (`Verif/Spec/SameProblem.lean`) start the same run, whatever the order in
which the hash maps give the materials and curves, and whatever the machine.  The runs then go through the same
states, apart from the numbers of the materials.  With `C09` the reported results agree for all settings of the
threads and all schedules as well.
-/
open Flt Config
set_option linter.unusedSectionVars false
attribute [local irreducible] Rng.lcg Rng.sample Rng.spawn

section
variable {T : Type} [Flt T]

/-! ## From the relations of the lemmas to the specification -/

theorem MatRel.named {d d' : Data T} {i j : Nat} (h : MatRel d d' i j) :
    ∃ m m', d.materials[i]? = some m ∧ d'.materials[j]? = some m' ∧ m'.name = m.name := by
  obtain ⟨a, b, h1, h2, h3, _⟩ := h.ex
  exact ⟨a, b, h1, h2, h3⟩

theorem SimRen.same {d d' : Data T} {s s' : SimState T} (h : SimRen d d' s s') : SameState d d' s s' := by
  constructor
  · have hc := h.unit.dom.cells
    generalize s.unit.dom.cells = l at hc ⊢
    generalize s'.unit.dom.cells = l' at hc ⊢
    induction hc with
    | nil => exact .nil
    | cons h1 _ ih => exact .cons ⟨h1.1, h1.2.named⟩ ih
  · obtain ⟨⟨⟨h1, h2, h3, _⟩, h4, h5, h6, h7⟩, h8, h9, h10, h11, h12, h13, h14⟩ := h
    obtain ⟨⟨⟨_, _, _, _⟩, _, _, _, _⟩, _, _, _, _, _, _, _⟩ := s
    obtain ⟨⟨⟨_, _, _, _⟩, _, _, _, _⟩, _, _, _, _, _, _, _⟩ := s'
    dsimp only at *
    subst_vars
    rfl

/-! ## The same problem gives the same run -/

variable {so so' : StrOrder} {io : IterOrder} {fuel : Nat} {p q : Params T}

/-- **C67**.  Inputs that describe the same problem are refused together, and start together: from the start and
through the whole run, for every setting of the threads and every schedule, the states are the same apart from the
numbers of the materials, and the run of the one can panic if and only if that of the other can. -/
theorem C67_same_run (hso : ∀ l, (so l).Perm l) (hso' : ∀ l, (so' l).Perm l) (hpq : SameProblem p q)
    (hp : NamedParams p) (hq : NamedParams q) (hc : Consistent p) (m m' : Machine) :
    (startRun so io m fuel p = .ok none ↔ startRun so' io m' fuel q = .ok none) ∧
    ∀ a, startRun so io m fuel p = .ok (some a) → ∃ b, startRun so' io m' fuel q = .ok (some b) ∧
      b.opts = a.opts ∧ SameState a.data b.data a.state b.state ∧
      ∀ ex fuel',
        (∀ s, RunCore a.data ex a.opts fuel' a.state s →
          ∃ t, RunCore b.data ex b.opts fuel' b.state t ∧ SameState a.data b.data s t) ∧
        (∀ t, RunCore b.data ex b.opts fuel' b.state t →
          ∃ s, RunCore a.data ex a.opts fuel' a.state s ∧ SameState a.data b.data s t) ∧
        ∀ e, RunFails a.data ex a.opts fuel' a.state e ↔ RunFails b.data ex b.opts fuel' b.state e := by
  constructor
  · have e : q.askedCells = p.askedCells := by unfold Params.askedCells; rw [hpq.simulation]
    have e2 : q.simulation.nParticles = p.simulation.nParticles := by rw [hpq.simulation]
    rw [C64_refused, C64_refused, e, e2]
  · intro a ha
    obtain ⟨b, hb, h1, h2, h3⟩ := startRun_rel hso hso' hpq hp hq hc (m' := m') ha
    refine ⟨b, hb, h2, h3.same, fun ex fuel' => ⟨fun s hs => ?_, fun t ht => ?_, fun e => ⟨fun he => ?_, fun he => ?_⟩⟩⟩
    · obtain ⟨t, g1, g2⟩ := runCore_ren h1 h3 hs
      exact ⟨t, h2.symm ▸ g1, g2.same⟩
    · rw [h2] at ht
      obtain ⟨s, g1, g2⟩ := runCore_ren h1.symm h3.symm ht
      exact ⟨s, g1, g2.symm.same⟩
    · rw [h2]; exact runFails_ren h1 h3 he
    · rw [h2] at he; exact runFails_ren h1.symm h3.symm he

/-! ## A started run meets the hypotheses of the theorems on schedules -/

theorem initMesh_density {mats : List (Material T)} {doms : List (Domain T)} (h : initMesh io fuel p mats = .ok doms) :
    ∀ dom ∈ doms, ∀ cs ∈ dom.cells, cs.cellNumberDensity = one := by
  unfold initMesh at h
  dsimp only at h
  obtain ⟨_, _, h⟩ := bind_ok.1 h
  split at h
  · obtain ⟨_, _, h⟩ := bind_ok.1 h
    obtain ⟨_, _, h⟩ := bind_ok.1 h
    obtain ⟨_, _, h⟩ := bind_ok.1 h
    intro dom hdom cs hcs
    obtain ⟨gid, _, hg⟩ := mapM_ok_mem h hdom
    obtain ⟨_, _, hg⟩ := bind_ok.1 hg
    unfold Domain.build at hg
    obtain ⟨_, _, hg⟩ := bind_ok.1 hg
    obtain ⟨_, _, hg⟩ := bind_ok.1 hg
    obtain ⟨_, hcells, hg⟩ := bind_ok.1 hg
    cases pure_ok.1 hg
    obtain ⟨c, _, hst⟩ := mapM_ok_mem hcells hcs
    unfold cellStateOf at hst
    obtain ⟨_, _, hst⟩ := bind_ok.1 hst
    obtain ⟨_, _, hst⟩ := bind_ok.1 hst
    obtain ⟨_, _, hst⟩ := bind_ok.1 hst
    obtain ⟨_, _, hst⟩ := bind_ok.1 hst
    obtain ⟨_, _, hst⟩ := bind_ok.1 hst
    obtain ⟨_, _, hst⟩ := bind_ok.1 hst
    cases pure_ok.1 hst
    rfl
  · cases h

/-- **C67**, tables.  The tables of a run that has started have the sizes on which the theorems on schedules rely. -/
theorem C67_started_tables (hso : ∀ l, (so l).Perm l) (hp : NamedParams p) (hc : Consistent p) (hm : FilledMaterials p)
    {m : Machine} {a : Started T} (h : startRun so io m fuel p = .ok (some a)) : StartTables a.data a.state.unit := by
  obtain ⟨_, hset, hf⟩ := C64_started h
  obtain ⟨nd, mats, dom, doms, h1, h2, h3, h4, h5, _⟩ := startRun_parts h
  obtain ⟨nd', mats', e1, e2, e3, e4⟩ := initNuclearData_ok hp hc hso
  rw [h1] at e1
  cases e1
  have hd : a.data.materials = mats := by rw [h2]; rfl
  have hnd : a.data.nuclear = nd := by rw [h2]; rfl
  refine ⟨by rw [hf.cache, List.length_replicate], by rw [hf.flux, List.length_replicate], ⟨?_⟩⟩
  intro cell hcell mat hmat
  rw [h5] at hcell
  rw [initMesh_density h3 dom (List.mem_of_getElem? h4) cell hcell]
  refine ⟨hm.notZero, ?_⟩
  rw [hd] at hmat
  obtain ⟨mp, g1, first, g2⟩ := e4.mem (List.mem_of_getElem? hmat)
  obtain ⟨k, hk⟩ := (mem_valuesIn hso).1 g1
  obtain ⟨m1, m2, m3⟩ := hm.materials k mp hk
  obtain ⟨sp, nu, s1, s2⟩ := g2.tables
  refine ⟨⟨first + 0, one /. Flt.ofNat mp.nIsotopes⟩, ?_, m3, ?_⟩
  · rw [g2.isotopes]
    exact List.mem_map.2 ⟨0, List.mem_range.2 m1, rfl⟩
  · intro rs hrs
    rw [hnd] at hrs
    dsimp only at hrs
    rw [s2 0 m1] at hrs
    cases hrs
    have hlen : (isotopeReactions nd.energies sp nu).length = sp.nReactions := by
      unfold isotopeReactions; simp
    have hpos : 0 < (isotopeReactions nd.energies sp nu).length := by rw [hlen, s1.nReactions]; exact m2
    refine ⟨_, List.getElem_mem hpos, ?_⟩
    rw [isotopeReactions_length (List.getElem_mem hpos), e3, energyLevels_length, hset.groups]
    rfl

/-! ## Reproducible results -/

theorem AgreeingResults.of_same {data data' : Data T} {s r t : SimState T} (h1 : SameResults s r)
    (h2 : SameState data data' r t) : AgreeingResults data data' s t := by
  have h3 := h2.rest
  refine ⟨?_, ?_, ?_, ?_, ?_, ?_, ?_, h1.cells ▸ h2.cells⟩
  · rw [h3]; exact h1.reports
  · rw [h3]; exact h1.cumulative
  · rw [h3]; exact h1.spectrum
  · rw [h3]; exact h1.srcWeight
  · rw [h3]; exact h1.globalN
  · rw [h3]; exact h1.waiting
  · rw [h3]; exact h1.done

/-- **C67**, results.  When the run of the problem finishes on its own particles one by one, two runs of the same
problem agree in their results, for all inputs that describe it, all settings of the threads, all schedules, all
orders of the hash maps and all machines; and each of them can finish. -/
theorem C67_reproducible (hso : ∀ l, (so l).Perm l) (hso' : ∀ l, (so' l).Perm l) (hpq : SameProblem p q)
    (hp : NamedParams p) (hq : NamedParams q) (hc : Consistent p) (hm : FilledMaterials p)
    (hz : (zero >. (zero : T)) = false) {m m' : Machine} {a : Started T}
    (ha : startRun so io m fuel p = .ok (some a)) {fuel' : Nat} {r : SimState T}
    (hr : DirectRun a.data a.opts fuel' a.state r) :
    ∃ b, startRun so' io m' fuel q = .ok (some b) ∧
      (∀ ex ex' s t, RunCore a.data ex a.opts fuel' a.state s → RunCore b.data ex' b.opts fuel' b.state t →
        AgreeingResults a.data b.data s t) ∧
      (∀ ex', ex'.chunkSize ≠ 0 ∨ ex'.nRayonThreads ≠ 0 → ∃ t, RunCore b.data ex' b.opts fuel' b.state t) := by
  obtain ⟨b, hb, _, _, hrun⟩ := (C67_same_run (fuel := fuel) (io := io) hso hso' hpq hp hq hc m m').2 a ha
  obtain ⟨_, _, hf⟩ := C64_started ha
  obtain ⟨h1, h2⟩ := C09_run_schedule_independent a.data a.opts fuel' a.state r hz (C67_started_tables hso hp hc hm ha)
    hf.particles.2.2 hf.counters.2.2.1 hr
  refine ⟨b, hb, fun ex ex' s t hs ht => ?_, fun ex' hex => ?_⟩
  · obtain ⟨t', g1, g2⟩ := (hrun ex' fuel').2.1 t ht
    have k1 := h1 ex s hs
    have k2 := h1 ex' t' g1
    refine .of_same (r := t') ⟨?_, ?_, ?_, ?_, ?_, ?_, ?_, ?_⟩ g2
    · rw [k1.reports, k2.reports]
    · rw [k1.cumulative, k2.cumulative]
    · rw [k1.spectrum, k2.spectrum]
    · rw [k1.srcWeight, k2.srcWeight]
    · rw [k1.globalN, k2.globalN]
    · exact k2.waiting.trans k1.waiting.symm
    · exact k2.done.trans k1.done.symm
    · rw [k1.cells, k2.cells]
  · obtain ⟨t', ht'⟩ := h2 ex' hex
    obtain ⟨t, g1, _⟩ := (hrun ex' fuel').1 t' ht'
    exact ⟨t, g1⟩

/-! ## Files -/

theorem find_perm {α : Type} (f : α → String) {l l' : List α} (h : l.Perm l') (hn : (l.map f).Nodup) (name : String) :
    l'.find? (fun x => f x = name) = l.find? (fun x => f x = name) := by
  induction h with
  | nil => rfl
  | cons x _ ih =>
    rw [List.find?_cons, List.find?_cons, ih (List.nodup_cons.1 hn).2]
  | swap x y l =>
    rw [List.find?_cons, List.find?_cons, List.find?_cons, List.find?_cons]
    have hxy : f y ≠ f x := by
      intro e
      have := (List.nodup_cons.1 hn).1
      simp [e] at this
    by_cases h1 : f x = name <;> by_cases h2 : f y = name <;> simp [h1, h2]
    exact absurd (h2.trans h1.symm) hxy
  | trans h1 _ ih1 ih2 =>
    rw [ih2 ((h1.map f).nodup_iff.1 hn), ih1 hn]

/-- **C67**, files.  Moving the blocks of materials and of cross-sections of a file to other places describes the
same problem, if no two of these blocks have the same name; the order of the other blocks must stay. -/
theorem C67_file_order {tr : TextReaders T} {items items' : List (Item T)} {d p q : Params T}
    (hp : FileRead tr items d p) (hq : FileRead tr items' d q) (hperm : items.Perm items')
    (hgeo : items'.filterMap Item.geometry? = items.filterMap Item.geometry?)
    (hsim : ∀ k, items'.filterMap (Item.text? k) = items.filterMap (Item.text? k))
    (hm : ((items.filterMap Item.material?).map (·.name)).Nodup)
    (hx : ((items.filterMap Item.crossSection?).map (·.name)).Nodup) : SameProblem p q := by
  have hs := hq.simulation
  simp only [hsim] at hs
  have e := hp.simulation.unique hs
  refine ⟨by rw [← e], by rw [hp.geometries, hq.geometries, hgeo], fun name => ?_, fun name => ?_⟩
  · rw [hp.materials, hq.materials, find_perm _ (hperm.filterMap _) hm]
  · rw [hp.crossSections, hq.crossSections, find_perm _ (hperm.filterMap _) hx]

end

/-! ## Real numbers -/

/-- In exact arithmetic, isotopes and reactions are all a material needs. -/
theorem filledMaterials_real {p : Params ℝ}
    (h : ∀ k mp, p.materials.get? k = some mp → 0 < mp.nIsotopes ∧ 0 < mp.nReactions) : FilledMaterials p := by
  refine ⟨by simp, fun k mp hk => ⟨(h k mp hk).1, (h k mp hk).2, ?_⟩⟩
  have : mp.nIsotopes ≠ 0 := Nat.pos_iff_ne_zero.1 (h k mp hk).1
  simp [this]

/-! ## Concrete inputs -/

namespace TwoMaterials

/-- A material of the toy input. -/
def material (name : String) (mass : Toy) : MaterialParams Toy :=
  { MaterialParams.default with
    name := name, mass := mass, sourceRate := 1000000, totalCrossSection := 3000, nIsotopes := 1, nReactions := 3,
    scatteringCrossSection := "flat", absorptionCrossSection := "flat", fissionCrossSection := "flat" }

/-- A region of the toy input. -/
def region (name : String) (a b : Toy) : GeometryParams Toy :=
  { GeometryParams.default with
    materialName := name, shape := .brick, xMin := a, xMax := b, yMin := 0, yMax := 2048, zMin := 0, zMax := 2048 }

/-- Two cells, one of each material; `threads` asked for. -/
def input (threads : Nat) (materials : List (String × MaterialParams Toy)) : Params Toy :=
  { simulation := { (SimulationParams.default : SimulationParams Toy) with
      nx := 2, ny := 1, nz := 1, lx := 1024, ly := 512, lz := 512, nParticles := 31, nGroups := 2, nSteps := 1,
      eMin := 10, eMax := 20480, dt := 10, lowWeightCutoff := 0, boundaryCondition := "escape",
      nRayonThreads := threads }
    geometries := [region "A" 0 512, region "B" 512 2048]
    materials := materials
    crossSections := [("flat", { CrossSectionParams.default with name := "flat" })] }

/-- The materials in one order, on one thread. -/
def first : Params Toy := input 1 [("A", material "A" 3000), ("B", material "B" 5000)]

/-- The materials in the other order, on four threads. -/
def second : Params Toy := input 4 [("B", material "B" 5000), ("A", material "A" 3000)]

theorem same : SameProblem first second := by
  refine ⟨rfl, rfl, fun name => ?_, fun _ => rfl⟩
  show HMap.get? [("B", _), ("A", _)] name = HMap.get? [("A", _), ("B", _)] name
  by_cases h1 : name = "A"
  · subst h1; rfl
  by_cases h2 : name = "B"
  · subst h2; rfl
  have e1 : ¬ "A" = name := fun h => h1 h.symm
  have e2 : ¬ "B" = name := fun h => h2 h.symm
  simp [HMap.get?, List.find?, e1, e2]

theorem named : NamedParams first ∧ NamedParams second := by
  have hx : Named CrossSectionParams.name
      ([("flat", { CrossSectionParams.default with name := "flat" })] : HMap String (CrossSectionParams Toy)) :=
    ⟨by decide +kernel, fun k v h => by
      simp only [HMap.get?, List.find?] at h
      split at h
      · cases h; rename_i hk; simpa using hk
      · cases h⟩
  have hm : ∀ a b : String × MaterialParams Toy, a.1 ≠ b.1 → a.2.name = a.1 → b.2.name = b.1 →
      Named MaterialParams.name ([a, b] : HMap String (MaterialParams Toy)) := by
    intro a b hab ha hb
    refine ⟨by simpa [HMap.keys] using hab, fun k v h => ?_⟩
    simp only [HMap.get?, List.find?] at h
    split at h
    · cases h; rename_i hk; rw [ha]; simpa using hk
    · split at h
      · cases h; rename_i hk; rw [hb]; simpa using hk
      · cases h
  exact ⟨⟨hm _ _ (by decide) rfl rfl, hx⟩, ⟨hm _ _ (by decide) rfl rfl, hx⟩⟩

theorem materials_of {k : String} {mp : MaterialParams Toy} (h : first.materials.get? k = some mp) :
    mp = material "A" 3000 ∨ mp = material "B" 5000 := by
  simp only [first, input, HMap.get?, List.find?] at h
  split at h
  · cases h; exact .inl rfl
  · split at h
    · cases h; exact .inr rfl
    · cases h

theorem consistent : Consistent first := by
  refine ⟨by simp [first, input], ?_, ?_, ?_⟩
  · intro g hg
    simp only [first, input, List.mem_cons, List.not_mem_nil, or_false] at hg
    rcases hg with rfl | rfl <;> simp [region]
  · intro g hg
    simp only [first, input, List.mem_cons, List.not_mem_nil, or_false] at hg
    rcases hg with rfl | rfl
    · exact ⟨_, rfl⟩
    · exact ⟨_, rfl⟩
  · intro k mp h
    rcases materials_of h with rfl | rfl <;> exact ⟨⟨_, rfl⟩, ⟨_, rfl⟩, ⟨_, rfl⟩⟩

theorem filled : FilledMaterials first := by
  refine ⟨by decide +kernel, fun k mp h => ?_⟩
  rcases materials_of h with rfl | rfl <;> exact ⟨by decide, by decide, by decide +kernel⟩

/-- The reference run, evaluated. -/
def direct (a : Started Toy) : Except Panic (SimState Toy) := do
  let s ← cycleSync a.data a.opts 0 a.state
  let (u, c) ← populationControl a.data s.globalN s.srcWeight s.unit s.container
  let (b, surv, cs) ← generationsFn a.data u.dom 60 10 c.processing
  cycleSync a.data a.opts 1 { s with
    unit := { u with balance := u.balance.add b, flux := addContribs u.flux cs }
    container := { processing := [], processed := c.processed ++ surv, extra := [] } }

/-- Test evaluated by the kernel: the cells of the first input have material 1 and 0, and the reports of the run. -/
def check : Bool :=
  match startRun id id ⟨1, true⟩ 50 first with
  | .ok (some a) =>
    decide (a.data.nSteps = 1 ∧ a.state.unit.dom.cells.map (·.material) = [1, 0]) &&
    match direct a with
    | .ok s => decide ((s.reports.map fun r => (r.1, r.2.1)) = [(0,
        { absorb := 14, census := 0, escape := 23, collision := 45, end_ := 0, fission := 10, produce := 27,
          scatter := 21, start := 0, source := 2, overRr := 0, weightRr := 0, split := 18, numSegments := 72 })])
    | .error _ => false
  | _ => false

theorem check_true : check = true := by decide +kernel

theorem directRun_sound {a : Started Toy} (hn : a.data.nSteps = 1) {s : SimState Toy} (h : direct a = .ok s) :
    DirectRun a.data a.opts 60 a.state s := by
  simp only [direct, bind_ok, Prod.exists] at h
  obtain ⟨s1, hs1, u, c, hpc, b, surv, cs, hg, hs⟩ := h
  refine ⟨_, ?_, by rw [hn]; exact hs⟩
  rw [hn]
  exact .succ .zero hs1 ⟨u, c, b, surv, cs, hpc, generationsFn_sound hg, rfl, rfl⟩

/-- Both inputs start, with the materials numbered differently; on one thread and on four threads, runs with 45
collisions, 10 fissions and 23 escapes finish, and all of them report the same. -/
example : ∃ a b, startRun id id ⟨1, true⟩ 50 first = .ok (some a) ∧
    startRun List.reverse id ⟨4, true⟩ 50 second = .ok (some b) ∧
    a.state.unit.dom.cells.map (·.material) = [1, 0] ∧
    (∃ s, RunCore a.data ⟨.sequential, 1, 1, 0⟩ a.opts 60 a.state s ∧ ∃ t,
      RunCore b.data ⟨.rayon, 1, 4, 1⟩ b.opts 60 b.state t) ∧
    ∀ ex ex' s t, RunCore a.data ex a.opts 60 a.state s → RunCore b.data ex' b.opts 60 b.state t →
      (t.reports.map fun r => (r.1, r.2.1)) = (s.reports.map fun r => (r.1, r.2.1)) := by
  have hk := check_true
  unfold check at hk
  split at hk
  · next a ha =>
    rw [Bool.and_eq_true, decide_eq_true_eq] at hk
    obtain ⟨⟨h1, h2⟩, hk⟩ := hk
    split at hk
    · next r hr =>
      have hd := directRun_sound h1 hr
      have hz : (zero >. (zero : Toy)) = false := by decide +kernel
      have hid : ∀ l : List String, (id l).Perm l := fun l => .refl l
      obtain ⟨b, hb, g1, g2⟩ := C67_reproducible (so := id) (so' := List.reverse) (m' := ⟨4, true⟩) hid
        (fun l => List.reverse_perm l) same named.1 named.2 consistent filled hz ha hd
      obtain ⟨_, e, _, k1⟩ := C67_reproducible (so := id) (so' := id) (m' := ⟨1, true⟩) hid hid
        (q := first) ⟨rfl, rfl, fun _ => rfl, fun _ => rfl⟩ named.1 named.1 consistent filled hz ha hd
      rw [ha] at e
      cases e
      obtain ⟨s, hs⟩ := k1 ⟨.sequential, 1, 1, 0⟩ (.inr (by decide))
      obtain ⟨t, ht⟩ := g2 ⟨.rayon, 1, 4, 1⟩ (.inl (by decide))
      exact ⟨a, b, ha, hb, h2, ⟨s, hs, t, ht⟩, fun ex ex' s t hs ht => (g1 ex ex' s t hs ht).reports⟩
    · cases hk
  · cases hk

/-- Two files with the same two materials in different orders. -/
example (tr : TextReaders Toy) :
    let a := material "A" 3000
    let b := material "B" 5000
    let items := [Item.material a, Item.material b]
    let items' := [Item.material b, Item.material a]
    FileRead tr items (input 1 []) (input 1 [("A", a), ("B", b)]) ∧
    FileRead tr items' (input 1 []) (input 1 [("B", b), ("A", a)]) ∧
    items.Perm items' ∧ ((items.filterMap Item.material?).map (·.name)).Nodup := by
  have hg : ∀ x y : MaterialParams Toy, ∀ name,
      HMap.get? [(x.name, x), (y.name, y)] name = ([x, y].find? fun m => m.name = name).or none := by
    intro x y name
    simp only [HMap.get?, List.find?]
    by_cases h1 : x.name = name <;> by_cases h2 : y.name = name <;> simp [h1, h2]
  refine ⟨⟨.refl _, rfl, hg (material "A" 3000) (material "B" 5000), fun _ => rfl⟩,
    ⟨.refl _, rfl, hg (material "B" 5000) (material "A" 3000), fun _ => rfl⟩, .swap _ _ _, by decide⟩

end TwoMaterials
