import Verif.Lemmas.Renumber
import Verif.Props.Start
/-!
The start of runs on problems that differ only in the order of their materials.
-/
set_option linter.unusedSectionVars false
attribute [local irreducible] Rng.lcg Rng.sample Rng.spawn
open Flt Config
variable {T : Type} [Flt T]

/-- Two computations that fail alike or have related results. -/
def ExRel {ε α β : Type} (R : α → β → Prop) (x : Except ε α) (y : Except ε β) : Prop :=
  (∃ e, x = .error e ∧ y = .error e) ∨ ∃ a b, x = .ok a ∧ y = .ok b ∧ R a b

theorem ExRel.ok {ε α β : Type} {R : α → β → Prop} {a : α} {b : β} (h : R a b) :
    ExRel R (.ok a : Except ε α) (.ok b) := .inr ⟨a, b, rfl, rfl, h⟩

theorem ExRel.refl {ε α : Type} {R : α → α → Prop} (h : ∀ a, R a a) (x : Except ε α) : ExRel R x x := by
  cases x with
  | error e => exact .inl ⟨e, rfl, rfl⟩
  | ok a => exact .ok (h a)

theorem ExRel.bind {ε α β α' β' : Type} {R : α → β → Prop} {S : α' → β' → Prop} {x : Except ε α} {y : Except ε β}
    {f : α → Except ε α'} {g : β → Except ε β'} (h : ExRel R x y) (hf : ∀ a b, R a b → ExRel S (f a) (g b)) :
    ExRel S (x >>= f) (y >>= g) := by
  rcases h with ⟨e, rfl, rfl⟩ | ⟨a, b, rfl, rfl, h⟩
  · exact .inl ⟨e, rfl, rfl⟩
  · exact hf a b h

/-- The same computation first on both sides. -/
theorem ExRel.bind_same {ε α α' β' : Type} {S : α' → β' → Prop} (x : Except ε α)
    {f : α → Except ε α'} {g : α → Except ε β'} (hf : ∀ a, ExRel S (f a) (g a)) : ExRel S (x >>= f) (x >>= g) :=
  ExRel.bind (R := Eq) (ExRel.refl (fun _ => rfl) x) (fun a _ h => h ▸ hf a)

theorem ExRel.mapM {ε α α' β' : Type} {S : α' → β' → Prop} {f : α → Except ε α'} {g : α → Except ε β'}
    (h : ∀ a, ExRel S (f a) (g a)) (l : List α) : ExRel (List.Forall₂ S) (l.mapM f) (l.mapM g) := by
  induction l with
  | nil => exact .ok .nil
  | cons a l ih =>
    rw [List.mapM_cons, List.mapM_cons]
    exact (h a).bind fun x y hxy => ih.bind fun xs ys hxs => .ok (.cons hxy hxs)

/-- Lists of materials that give related materials for every name. -/
def MatsRel (d d' : Data T) : Prop :=
  ∀ name, (findMaterialIdx d.materials name = none ∧ findMaterialIdx d'.materials name = none) ∨
    ∃ i j, findMaterialIdx d.materials name = some i ∧ findMaterialIdx d'.materials name = some j ∧ MatRel d d' i j

variable {d d' : Data T}

theorem cellStateOf_rel (h : MatsRel d d') (g : Grid T) (geoms : List (GeometryParams T)) (mesh : Mesh T) (cell : Nat) :
    ExRel (CellRel d d') (cellStateOf g geoms d.materials mesh cell) (cellStateOf g geoms d'.materials mesh cell) := by
  unfold cellStateOf
  refine ExRel.bind_same _ fun rr => ExRel.bind_same _ fun name => ExRel.bind_same _ fun center => ?_
  rcases h name with ⟨h1, h2⟩ | ⟨i, j, h1, h2, h3⟩
  · rw [h1, h2]
    exact .inl ⟨_, rfl, rfl⟩
  · rw [h1, h2]
    show ExRel _ (Except.bind (cellVolume mesh cell) _) (Except.bind (cellVolume mesh cell) _)
    exact ExRel.bind_same _ fun v => ExRel.bind_same _ fun gid => .ok ⟨rfl, h3⟩

theorem domainBuild_rel (h : MatsRel d d') (io : IterOrder) (pa : Partition) (g : Grid T) (ddc : Decomposition)
    {p q : Params T} (hs : q.simulation.boundaryCondition = p.simulation.boundaryCondition ∧
      q.simulation.nGroups = p.simulation.nGroups) (hg : q.geometries = p.geometries) :
    ExRel (DomRel d d') (Domain.build io pa g ddc p d.materials) (Domain.build io pa g ddc q d'.materials) := by
  unfold Domain.build
  rw [hs.1, hs.2, hg]
  refine ExRel.bind_same _ fun bc => ExRel.bind_same _ fun mesh => ?_
  exact (ExRel.mapM (cellStateOf_rel h g p.geometries mesh) _).bind fun l l' hl => .ok ⟨rfl, rfl, rfl, hl⟩

theorem initMesh_rel (h : MatsRel d d') (io : IterOrder) (fuel : Nat) {p q : Params T} (hpq : SameProblem p q) :
    ExRel (List.Forall₂ (DomRel d d')) (initMesh io fuel p d.materials) (initMesh io fuel q d'.materials) := by
  unfold initMesh
  have e : q.simulation = { p.simulation with
    nRayonThreads := q.simulation.nRayonThreads, chunkSize := q.simulation.chunkSize,
    bindThreads := q.simulation.bindThreads } := hpq.simulation
  have e1 : q.simulation.nUnits = p.simulation.nUnits := by rw [e]
  have e2 : q.simulation.seed = p.simulation.seed := by rw [e]
  have e3 : q.simulation.nx = p.simulation.nx := by rw [e]
  have e4 : q.simulation.ny = p.simulation.ny := by rw [e]
  have e5 : q.simulation.nz = p.simulation.nz := by rw [e]
  have e6 : q.simulation.lx = p.simulation.lx := by rw [e]
  have e7 : q.simulation.ly = p.simulation.ly := by rw [e]
  have e8 : q.simulation.lz = p.simulation.lz := by rw [e]
  have e9 : q.simulation.boundaryCondition = p.simulation.boundaryCondition := by rw [e]
  have e10 : q.simulation.nGroups = p.simulation.nGroups := by rw [e]
  dsimp only
  rw [e1, e2, e3, e4, e5, e6, e7, e8]
  refine ExRel.bind_same _ fun ddc => ?_
  split
  · refine ExRel.bind_same _ fun centers => ExRel.bind_same _ fun comm => ExRel.bind_same _ fun comm => ?_
    exact ExRel.mapM (fun gid => ExRel.bind_same _ fun pa => domainBuild_rel h io pa _ _ ⟨e9, e10⟩ hpq.geometries) _
  · exact .inl ⟨_, rfl, rfl⟩

/-- The check of the mesh reads the meshes only. -/
theorem checkFacet_rel {l l' : List (Domain T)} (h : List.Forall₂ (DomRel d d') l l') (i c f : Nat) (ff : FacetAdj) :
    checkFacet l' i c f ff = checkFacet l i c f ff := by
  unfold checkFacet
  split
  · rename_i dd _ _ _ _ _
    rcases forall₂_getElem? h dd with ⟨h1, h2⟩ | ⟨x, y, h1, h2, h3⟩
    · rw [idx_none h1, idx_none h2]
    · rw [idx_ok.2 h1, idx_ok.2 h2]
      dsimp only [bind, Except.bind]
      rw [h3.mesh]
  · rfl

theorem consistencyCheck_rel {l l' : List (Domain T)} (h : List.Forall₂ (DomRel d d') l l') :
    consistencyCheck l' = consistencyCheck l := by
  unfold consistencyCheck
  simp only [checkFacet_rel h]
  generalize (fun (di ci fi : Nat) (ff : FacetAdj) => checkFacet l di ci fi ff) = chk
  suffices hk : ∀ (chk : Nat → Nat → Nat → FacetAdj → Except Panic Unit) (n : Nat) (k k' : List (Domain T)),
      List.Forall₂ (DomRel d d') k k' →
      (k'.zipIdx n).forM (fun x => x.1.mesh.cellConnectivity.zipIdx.forM fun y =>
          y.1.facet.zipIdx.forM fun z => chk x.2 y.2 z.2 z.1) =
        (k.zipIdx n).forM (fun x => x.1.mesh.cellConnectivity.zipIdx.forM fun y =>
          y.1.facet.zipIdx.forM fun z => chk x.2 y.2 z.2 z.1) from hk (checkFacet l) 0 l l' h
  intro chk n k k' hk
  induction hk generalizing n with
  | nil => rfl
  | cons hd _ ih =>
    simp only [List.zipIdx_cons, List.forM_eq_forM, List.forM_cons] at ih ⊢
    rw [hd.mesh, ih]

theorem initUnits_rel (h : MatsRel d d') (io : IterOrder) (fuel : Nat) {p q : Params T} (hpq : SameProblem p q) :
    ExRel (List.Forall₂ (UnitRen d d')) (initUnits io fuel p d.materials) (initUnits io fuel q d'.materials) := by
  unfold initUnits
  refine (initMesh_rel h io fuel hpq).bind fun l l' hl => ?_
  rw [consistencyCheck_rel hl]
  refine ExRel.bind_same _ fun _ => .ok ?_
  have e10 : q.simulation.nGroups = p.simulation.nGroups := by rw [hpq.simulation]
  rw [e10]
  induction hl with
  | nil => exact .nil
  | @cons a b l l' hab _ ih =>
    refine .cons ⟨hab, rfl, ?_, ?_, rfl⟩ ih
    · show List.replicate (b.cells.length * _) zero = List.replicate (a.cells.length * _) zero
      rw [hab.cells.length_eq]
    · show List.replicate (b.cells.length * _) zero = List.replicate (a.cells.length * _) zero
      rw [hab.cells.length_eq]

/-! ### The nuclear data -/

theorem SameProblem.symm {p q : Params T} (h : SameProblem p q) : SameProblem q p :=
  ⟨by rw [h.simulation], h.geometries.symm, fun n => (h.materials n).symm, fun n => (h.crossSections n).symm⟩

theorem SameProblem.consistent {p q : Params T} (h : SameProblem p q) (hc : Consistent p) : Consistent q := by
  refine ⟨h.geometries ▸ hc.geometry, h.geometries ▸ hc.shapes, ?_, ?_⟩
  · rw [h.geometries]
    intro g hg
    rw [h.materials]
    exact hc.materials g hg
  · intro k m hm
    rw [h.materials] at hm
    simp only [h.crossSections]
    exact hc.crossSections k m hm

theorem SameProblem.isotope {p q : Params T} (h : SameProblem p q) {mp : MaterialParams T} {sp : IsotopeSpec T} {nu : T}
    (hi : IsotopeFrom q mp sp nu) : IsotopeFrom p mp sp nu := by
  obtain ⟨h1, h2, h3, h4, h5, h6⟩ := hi
  simp only [h.crossSections] at h4 h5 h6
  exact ⟨h1, h2, h3, h4, h5, h6⟩

theorem matRel_of_name {so so' : StrOrder} (hso : ∀ l, (so l).Perm l) (hso' : ∀ l, (so' l).Perm l) {p q : Params T}
    (hpq : SameProblem p q) (hp : NamedParams p) (hq : NamedParams q) (hc : Consistent p)
    {nd nd' : NuclearData T} {mats mats' : List (Material T)}
    (h1 : initNuclearData so p = .ok (nd, mats)) (h2 : initNuclearData so' q = .ok (nd', mats'))
    {i j : Nat} {m m' : Material T} (hi : mats[i]? = some m) (hj : mats'[j]? = some m') (hn : m'.name = m.name) :
    nd'.energies = nd.energies ∧ m'.mass = m.mass ∧ isotopeView nd' m' = isotopeView nd m := by
  obtain ⟨_, _, e1, _, a3, a4⟩ := initNuclearData_ok hp hc hso
  rw [h1] at e1; cases e1
  obtain ⟨_, _, e2, _, b3, b4⟩ := initNuclearData_ok hq (hpq.consistent hc) hso'
  rw [h2] at e2; cases e2
  have es : nd'.energies = nd.energies := by
    rw [a3, b3, hpq.simulation]
  refine ⟨es, ?_⟩
  obtain ⟨mp1, hmp1, f1, hf1⟩ := a4.mem (List.mem_of_getElem? hi)
  obtain ⟨mp2, hmp2, f2, hf2⟩ := b4.mem (List.mem_of_getElem? hj)
  obtain ⟨k1, hk1⟩ := (mem_valuesIn hso).1 hmp1
  obtain ⟨k2, hk2⟩ := (mem_valuesIn hso').1 hmp2
  have hk : k2 = k1 := by
    rw [← hp.materials.own _ _ hk1, ← hq.materials.own _ _ hk2, ← hf1.name, ← hf2.name, hn]
  subst hk
  rw [hpq.materials, hk1] at hk2; cases hk2
  refine ⟨hf2.mass.trans hf1.mass.symm, ?_⟩
  obtain ⟨sp1, nu1, s1, t1⟩ := hf1.tables
  obtain ⟨sp2, nu2, s2, t2⟩ := hf2.tables
  obtain ⟨rfl, rfl⟩ := s1.unique (hpq.isotope s2)
  unfold isotopeView
  rw [hf1.isotopes, hf2.isotopes, List.map_map, List.map_map]
  apply List.map_congr_left
  intro i hi
  have hi := List.mem_range.1 hi
  simp only [Function.comp]
  rw [t1 i hi, t2 i hi, es]

theorem data_rel {so so' : StrOrder} (hso : ∀ l, (so l).Perm l) (hso' : ∀ l, (so' l).Perm l) {p q : Params T}
    (hpq : SameProblem p q) (hp : NamedParams p) (hq : NamedParams q) (hc : Consistent p)
    (h1 : initData so p = .ok d) (h2 : initData so' q = .ok d') :
    DataRel d d' ∧ MatsRel d d' ∧ ∀ (i j : Nat) (m m' : Material T), d.materials[i]? = some m →
      d'.materials[j]? = some m' → m'.name = m.name → MatRel d d' i j := by
  have hc' := hpq.consistent hc
  obtain ⟨⟨x, hx, _, hrate⟩, _⟩ := C39_lookups hso hp ((C39_validation hso p).2 hc)
  rw [h1] at hx; cases hx
  obtain ⟨⟨x, hx, _, hrate'⟩, _⟩ := C39_lookups hso' hq ((C39_validation hso' q).2 hc')
  rw [h2] at hx; cases hx
  obtain ⟨nd, mats, e1, rfl⟩ := initData_ok h1
  obtain ⟨nd', mats', e2, rfl⟩ := initData_ok h2
  obtain ⟨_, _, f1, _, a3, a4⟩ := initNuclearData_ok hp hc hso
  rw [e1] at f1; cases f1
  obtain ⟨_, _, f2, _, b3, b4⟩ := initNuclearData_ok hq hc' hso'
  rw [e2] at f2; cases f2
  have hrel : ∀ (i j : Nat) (m m' : Material T), (p.data nd mats).materials[i]? = some m →
      (q.data nd' mats').materials[j]? = some m' → m'.name = m.name → MatRel (p.data nd mats) (q.data nd' mats') i j := by
    intro i j m m' hi hj hn
    obtain ⟨_, g1, g2⟩ := matRel_of_name hso hso' hpq hp hq hc e1 e2 hi hj hn
    exact ⟨m, m', hi, hj, hn, g1, g2⟩
  have names : ∀ {so : StrOrder} {p : Params T} {nd : NuclearData T} {mats : List (Material T)}, (∀ l, (so l).Perm l) →
      NamedParams p → MaterialsFrom p nd 0 (p.materials.valuesIn so) mats → ∀ name,
      (∃ m ∈ mats, m.name = name) ↔ ∃ mp, p.materials.get? name = some mp := by
    intro so p nd mats hso hp hm name
    constructor
    · rintro ⟨m, hmem, rfl⟩
      obtain ⟨mp, hmp, f, hf⟩ := hm.mem hmem
      obtain ⟨k, hk⟩ := (mem_valuesIn hso).1 hmp
      rw [hf.name, hp.materials.own _ _ hk]
      exact ⟨mp, hk⟩
    · rintro ⟨mp, hmp⟩
      obtain ⟨m, hmem, f, hf⟩ := hm.of_mem ((mem_valuesIn hso).2 ⟨name, hmp⟩)
      exact ⟨m, hmem, by rw [hf.name, hp.materials.own _ _ hmp]⟩
  refine ⟨?_, ?_, hrel⟩
  · have e := hpq.simulation
    refine ⟨?_, ?_, ?_, ?_, ?_, ?_, ?_, ?_, ?_, ?_, hrate, hrate'⟩
    · show q.simulation.dt = _; rw [e]; rfl
    · show q.simulation.eMin = _; rw [e]; rfl
    · show q.simulation.eMax = _; rw [e]; rfl
    · show q.simulation.nParticles = _; rw [e]; rfl
    · show q.simulation.nSteps = _; rw [e]; rfl
    · show q.simulation.lowWeightCutoff = _; rw [e]; rfl
    · show q.simulation.loadBalance = _; rw [e]; rfl
    · show q.simulation.nUnits = _; rw [e]; rfl
    · show nd'.energies = nd.energies
      rw [a3, b3, e]
    · intro n
      show (q.materials.map fun e => (e.1, e.2.sourceRate)).lookup n = (p.materials.map fun e => (e.1, e.2.sourceRate)).lookup n
      rw [lookup_map_get? (fun mp : MaterialParams T => mp.sourceRate) q.materials n,
        lookup_map_get? (fun mp : MaterialParams T => mp.sourceRate) p.materials n, hpq.materials]
  · intro name
    by_cases hx : ∃ mp, p.materials.get? name = some mp
    · obtain ⟨m, hm, hmn⟩ := (names hso hp a4 name).2 hx
      obtain ⟨m', hm', hmn'⟩ := (names hso' hq b4 name).2 (by rw [hpq.materials]; exact hx)
      have found : ∀ {l : List (Material T)} {m : Material T}, m ∈ l → m.name = name →
          ∃ i x, findMaterialIdx l name = some i ∧ l[i]? = some x ∧ x.name = name := by
        intro l m hm hn
        cases hf : findMaterialIdx l name with
        | none =>
          unfold findMaterialIdx at hf
          have := List.findIdx?_eq_none_iff.1 hf m hm
          simp [hn] at this
        | some i =>
          obtain ⟨hlt, h1, _⟩ := List.findIdx?_eq_some_iff_getElem.1 hf
          exact ⟨i, l[i], rfl, List.getElem?_eq_getElem hlt, by simpa using h1⟩
      obtain ⟨i, x, g1, g2, g3⟩ := found hm hmn
      obtain ⟨j, y, k1, k2, k3⟩ := found hm' hmn'
      exact .inr ⟨i, j, g1, k1, hrel i j x y g2 k2 (k3.trans g3.symm)⟩
    · have gone : ∀ {l : List (Material T)}, (¬ ∃ m ∈ l, m.name = name) → findMaterialIdx l name = none := by
        intro l hl
        unfold findMaterialIdx
        rw [List.findIdx?_eq_none_iff]
        intro m hm
        simp only [beq_eq_false_iff_ne]
        exact fun hn => hl ⟨m, hm, hn⟩
      refine .inl ⟨gone fun h => hx ((names hso hp a4 name).1 h), gone fun h => hx ?_⟩
      have := (names hso' hq b4 name).1 h
      rw [hpq.materials] at this
      exact this

/-- What two starts on the same problem have in common. -/
structure StartedRel (s s' : Started T) : Prop where
  data : DataRel s.data s'.data
  opts : s'.opts = s.opts
  state : SimRen s.data s'.data s.state s'.state

theorem initRun_rel {so so' : StrOrder} {io : IterOrder} {m m' : Machine} {fuel : Nat} (hso : ∀ l, (so l).Perm l)
    (hso' : ∀ l, (so' l).Perm l) {p q : Params T} (hpq : SameProblem p q) (hp : NamedParams p) (hq : NamedParams q)
    (hc : Consistent p) {s : Started T} (h : initRun so io m fuel p = .ok s) :
    ∃ s', initRun so' io m' fuel q = .ok s' ∧ StartedRel s s' := by
  have hc' := hpq.consistent hc
  unfold initRun at h
  obtain ⟨info, h1, h⟩ := bind_ok.1 h
  obtain ⟨data, h2, h⟩ := bind_ok.1 h
  obtain ⟨c, h3, h⟩ := bind_ok.1 h
  obtain ⟨units, h4, h⟩ := bind_ok.1 h
  obtain ⟨u, h5, h⟩ := bind_ok.1 h
  cases pure_ok.1 h
  obtain ⟨i1, i2, _, i3, i4, rfl⟩ := procInfo_single h1 h3
  obtain ⟨_, hnu⟩ := C39_lookups hso hp ((C39_validation hso p).2 hc)
  obtain ⟨⟨data', k2, _⟩, hnu'⟩ := C39_lookups hso' hq ((C39_validation hso' q).2 hc')
  have hn : ∃ n, maxNuBar so p = .ok n := by
    unfold initContainers at h3
    split at h3
    · cases h3
    · obtain ⟨n, hn, _⟩ := bind_ok.1 h3
      exact ⟨n, hn⟩
  obtain ⟨n', hn'⟩ := hnu'.2 (by
    have := hnu.1 hn
    simpa only [hpq.materials, hpq.crossSections] using this)
  obtain ⟨hdr, hmr, _⟩ := data_rel hso hso' hpq hp hq hc h2 k2
  have e1 : q.simulation.nUnits = 1 := by rw [hpq.simulation]; exact i1
  obtain ⟨info', k1, l2, l3, l4, l5, _⟩ := (C42_policy q.execSettings).2 (by
    show q.simulation.nUnits ≠ 0
    rw [e1]; decide)
  have hpol : info'.info.policy = (if q.simulation.nRayonThreads = 1 then .sequential else .rayon) := by
    rw [l2]
    show expectedPolicy q.simulation.nUnits q.simulation.nRayonThreads = _
    rw [e1]
    unfold expectedPolicy
    split <;> simp_all
  have k3 : initContainers so' q info'.info = .ok (⟨[], [], []⟩ : Container T) := by
    unfold initContainers
    rw [if_neg (by rw [l3]; show q.simulation.nUnits ≠ 0; rw [e1]; decide), hn', hpol]
    by_cases ht : q.simulation.nRayonThreads = 1
    · rw [if_pos ht]; rfl
    · rw [if_neg ht]; rfl
  rcases initUnits_rel hmr io fuel hpq with ⟨e, he, _⟩ | ⟨us, us', g1, g2, g3⟩
  · rw [he] at h4; cases h4
  rw [g1] at h4; cases h4
  rcases forall₂_getElem? g3 0 with ⟨x1, _⟩ | ⟨x, y, x1, x2, x3⟩
  · rw [idx_none x1] at h5; cases h5
  have hux := idx_ok.1 h5
  rw [x1] at hux; cases hux
  have main : ∃ s', initRun so' io m' fuel q = .ok s' ∧ s'.data = data' ∧
      s'.opts = { bench := decide (q.simulation.coralBenchmark ≠ .standard)
                  spectrumOn := decide (q.simulation.energySpectrum ≠ "") } ∧
      s'.state = startState q y ⟨[], [], []⟩ := by
    unfold initRun
    rw [k1]
    show ∃ s', (Except.bind (initData so' q) _) = _ ∧ _
    rw [k2]
    show ∃ s', (Except.bind (initContainers so' q info'.info) _) = _ ∧ _
    rw [k3]
    show ∃ s', (Except.bind (initUnits io fuel q data'.materials) _) = _ ∧ _
    rw [g2]
    show ∃ s', (Except.bind (idx us' 0) _) = _ ∧ _
    rw [idx_ok.2 x2]
    exact ⟨_, rfl, rfl, rfl, rfl⟩
  obtain ⟨s', m1, rfl, m3, m4⟩ := main
  refine ⟨s', m1, hdr, ?_, ?_⟩
  · rw [m3, hpq.simulation]
  · rw [m4]
    refine ⟨x3, rfl, rfl, rfl, rfl, rfl, ?_, rfl⟩
    show List.replicate (q.simulation.nGroups + 1) 0 = List.replicate (p.simulation.nGroups + 1) 0
    rw [hpq.simulation]

theorem startRun_rel {so so' : StrOrder} {io : IterOrder} {m m' : Machine} {fuel : Nat} (hso : ∀ l, (so l).Perm l)
    (hso' : ∀ l, (so' l).Perm l) {p q : Params T} (hpq : SameProblem p q) (hp : NamedParams p) (hq : NamedParams q)
    (hc : Consistent p) {s : Started T} (h : startRun so io m fuel p = .ok (some s)) :
    ∃ s', startRun so' io m' fuel q = .ok (some s') ∧ StartedRel s s' := by
  obtain ⟨h1, h2, h3, h4⟩ := startRun_some h
  obtain ⟨s', h5, h6⟩ := initRun_rel hso hso' hpq hp hq hc (m' := m') h4
  refine ⟨s', ?_, h6⟩
  have e3 : q.simulation.nx = p.simulation.nx := by rw [hpq.simulation]
  have e4 : q.simulation.ny = p.simulation.ny := by rw [hpq.simulation]
  have e5 : q.simulation.nz = p.simulation.nz := by rw [hpq.simulation]
  have e6 : q.simulation.nParticles = p.simulation.nParticles := by rw [hpq.simulation]
  unfold startRun
  dsimp only
  rw [e3, e4, e5, e6, h5]
  change (if 2 ^ 64 ≤ p.askedCells then _ else if p.askedCells = 0 then _ else
    if p.simulation.nParticles / p.askedCells < 10 then _ else _) = _
  rw [if_neg (by omega), if_neg (by omega), if_neg (by rw [Nat.not_lt, Nat.le_div_iff_mul_le h1]; exact h3)]
  rfl
