import Verif.Lemmas.WideReal
import Verif.Lemmas.SafeRun
import Verif.Spec.Valid
import Verif.Props.Possible
import Verif.Props.NuclearData
import Verif.Props.CrossSections
import Verif.Props.Exec
/-!
# A run on a valid input starts, and from a sound problem
-/
open Flt FltReal GridSpec MeshSpec Flooding Config
attribute [local irreducible] Rng.lcg Rng.sample Rng.spawn

theorem lookup_map_get? {V W : Type} (f : V → W) (m : HMap String V) (k : String) :
    (m.map fun e => (e.1, f e.2)).lookup k = (m.get? k).map f := by
  induction m with
  | nil => rfl
  | cons e m ih =>
    rw [List.map_cons, List.lookup_cons, HMap.get?_cons]
    by_cases h : e.1 = k
    · simp [h]
    · have : (k == e.1) = false := by simp; exact fun h' => h h'.symm
      rw [this, if_neg h, ih]

/-- Each isotope belongs to a material. -/
theorem MaterialsFrom.isotope {T : Type} [Flt T] {p : Params T} {nd : NuclearData T} {n : Nat}
    {mps : List (MaterialParams T)} {ms : List (Material T)} (h : MaterialsFrom p nd n mps ms) {i : Nat}
    {rs : List (Reaction T)} (hn : n ≤ i) (hi : nd.isotopes[i]? = some rs) :
    ∃ mp ∈ mps, ∃ sp nu, IsotopeFrom p mp sp nu ∧ rs = isotopeReactions nd.energies sp nu := by
  induction h with
  | nil h =>
    have := (List.getElem?_eq_some_iff.1 hi).1
    omega
  | @cons n mp mps m ms h _ ih =>
    by_cases hlt : i < n + mp.nIsotopes
    · obtain ⟨sp, nu, h1, h2⟩ := h.tables
      have := h2 (i - n) (by omega)
      rw [show n + (i - n) = i by omega, hi] at this
      exact ⟨mp, by simp, sp, nu, h1, Option.some.inj this⟩
    · obtain ⟨mp, h1, h2⟩ := ih (by omega)
      exact ⟨mp, by simp [h1], h2⟩

theorem raw_nonneg (q : Polynomial5 ℝ) (l : List ℝ) (n : ℝ) (hn : 0 ≤ n) :
    (∀ x ∈ (realRaw q l n).1, 0 ≤ x) ∧ 0 ≤ (realRaw q l n).2 := by
  induction l generalizing n with
  | nil => simpa [realRaw] using hn
  | cons e0 l ih =>
    cases l with
    | nil => simpa [realRaw] using hn
    | cons e1 rest =>
      unfold realRaw
      dsimp only
      have hp : 0 ≤ ((10 : ℝ) ^ (q.val (Flt.log10 ((e0 +. e1) /. two))) : ℝ) := by
        positivity
      generalize ((10 : ℝ) ^ (q.val (Flt.log10 ((e0 +. e1) /. two))) : ℝ) = v at hp
      have hm : 0 ≤ (if ((e1 >=. one) && (n ==. zero)) = true then v else n) := by split <;> assumption
      obtain ⟨h1, h2⟩ := ih _ hm
      refine ⟨?_, h2⟩
      intro x hx
      rcases List.mem_cons.1 hx with rfl | hx
      · exact hp
      · exact h1 x hx

theorem isotopeReactions_nonneg {energies : List ℝ} {sp : IsotopeSpec ℝ} {nu : ℝ}
    (ht : 0 ≤ sp.totalCrossSection) (hf : 0 ≤ sp.fissionRatio) (hs : 0 ≤ sp.scatteringRatio)
    (ha : 0 ≤ sp.absorptionRatio) {r : Reaction ℝ} (h : r ∈ isotopeReactions energies sp nu) :
    (∀ x ∈ r.crossSection, 0 ≤ x) ∧ r.nuBar = nu := by
  have key : ∀ (ty : ReactionType) (q : Polynomial5 ℝ) (x : ℝ), 0 ≤ x →
      (∀ y ∈ (Reaction.new ty nu energies q x).crossSection, 0 ≤ y) ∧
      (Reaction.new ty nu energies q x).nuBar = nu := by
    intro ty q x hx
    refine ⟨fun y hy => ?_, rfl⟩
    obtain ⟨h1, h2⟩ := raw_nonneg q energies 0 le_rfl
    rw [Reaction.new_real] at hy
    dsimp only at hy
    obtain ⟨z, hz, rfl⟩ := List.mem_map.1 hy
    rw [mul_eq, div_eq]
    rw [zero_eq] at hz ⊢
    exact mul_nonneg (h1 z hz) (div_nonneg hx h2)
  unfold isotopeReactions at h
  dsimp only at h
  obtain ⟨i, _, rfl⟩ := List.mem_map.1 h
  split
  all_goals
    refine key _ _ _ ?_
    simp only [div_eq, mul_eq, add_eq, ofNat_eq]
    positivity

variable {p : Params ℝ}

theorem ValidInput.single {mats : List (Material ℝ)} (h : ValidInput p)
    (hm : ∀ geom ∈ p.geometries, ∃ m ∈ mats, m.name = geom.materialName) : SingleUnit p mats :=
  ⟨h.units, h.counts, h.sizes, h.seed, h.border, h.consistent.shapes, hm, h.covered⟩

theorem ValidInput.procInfo (h : ValidInput p) (m : Machine) : ∃ info, ProcInfo.new p.execSettings = .ok info ∧
    (info.info.policy = .sequential ∨ info.info.policy = .rayon) ∧ info.info.nUnits = 1 ∧
    (1 ≤ m.defaultThreads → (info.info.policy = .rayon → 0 < poolSize m info) ∧
      (info.info.policy ≠ .rayon → info.info.nRayonThreads = 1)) := by
  have hu : p.execSettings.nUnits = 1 := h.units
  generalize p.execSettings = s at hu
  obtain ⟨u, t, c, b⟩ := s
  dsimp only at hu
  subst hu
  by_cases ht : t = 1
  · simp [ProcInfo.new, ProcInfo.default, assertB, ht, bind, Except.bind, pure, Except.pure]
  · refine ⟨⟨⟨.rayon, 1, t, c⟩, b⟩, ?_, .inr rfl, rfl, fun hd => ⟨fun _ => ?_, fun h => absurd rfl h⟩⟩
    · simp [ProcInfo.new, ProcInfo.default, assertB, ht, bind, Except.bind, pure, Except.pure]
    · unfold poolSize
      split
      · rename_i h; exact Nat.pos_of_ne_zero h.1
      · omega

/-- The data of a valid input are built, and make a sound problem with the mesh of the input. -/
theorem ValidInput.safe (h : ValidInput p) {so : StrOrder} (hso : ∀ l, (so l).Perm l) {io : IterOrder}
    (hio : ∀ l, (io l).Perm l) (fuel : Nat) (hfuel : cells p.grid + 1 ≤ fuel) :
    ∃ nd mats dom, initData so p = .ok (p.data nd mats) ∧ initMesh io fuel p mats = .ok [dom] ∧
      consistencyCheck [dom] = .ok () ∧ dom.numGroups = p.simulation.nGroups ∧ SingleUnit p mats ∧
      SafeProblem (p.data nd mats) dom := by
  obtain ⟨nd, mats, e1, e2, e3, e4⟩ := initNuclearData_ok h.named h.consistent hso
  obtain ⟨⟨data, d1, d2, rates, d3⟩, _⟩ := C39_lookups hso h.named ((C39_validation hso p).2 h.consistent)
  have hdata : data = p.data nd mats := by
    unfold initData at d1
    obtain ⟨⟨nd', mats'⟩, f1, f2⟩ := bind_ok.1 d1
    rw [e1] at f1
    cases f1
    dsimp only at f2
    obtain ⟨_, _, f3⟩ := bind_ok.1 f2
    exact (pure_ok.1 f3).symm
  subst hdata
  have hmat : ∀ m ∈ mats, ∃ mp first, p.materials.get? mp.name = some mp ∧ MaterialFrom p nd first mp m := by
    intro m hm
    obtain ⟨mp, h1, first, h2⟩ := e4.mem hm
    obtain ⟨k, hk⟩ := (mem_valuesIn hso).1 h1
    have := h.named.materials.own _ _ hk
    subst this
    exact ⟨mp, first, hk, h2⟩
  have hsingle : SingleUnit p mats := h.single fun geom hg => by
    obtain ⟨i, m, _, h2, h3⟩ := d2 geom hg
    exact ⟨m, List.mem_of_getElem? h2, h3⟩
  obtain ⟨dom, bc, cs, nodeOf, m1, m2, m3, m4, m5, m6, m7⟩ := initMesh_spec hio hsingle h.root fuel hfuel
  obtain ⟨dom', _, _, c1, _, _, _, _, c6⟩ := C16_mesh hio hsingle h.root fuel hfuel
  rw [m1] at c1
  cases c1
  have hcs : ∀ i, i < dom.cells.length → ∃ c, cs[i]? = some c := by
    intro i hi
    have : i < cs.length := by rw [m3.perm.length_eq, List.length_range, ← m6]; exact hi
    exact ⟨_, List.getElem?_eq_getElem this⟩
  have hcell : ∀ (i c : Nat), cs[i]? = some c → ∃ (k : Nat) (m : Material ℝ) (geom : GeometryParams ℝ), mats[k]? = some m ∧ RegionOf p c geom ∧
      m.name = geom.materialName ∧ dom.cells[i]? = some
        ({ material := k, volume := p.grid.dx * p.grid.dy * p.grid.dz,
           cellNumberDensity := 1, id := c * 2 ^ 32, sourceTally := 0 } : CellState ℝ) := by
    intro i c hc
    obtain ⟨k, m, h1, ⟨pre, geom, post, h2, h3, h4, h5⟩, h6⟩ := cellState_spec hsingle m3 hc
    obtain ⟨st, h7, h8⟩ := m7 i c hc
    rw [h6] at h8
    cases h8
    exact ⟨k, m, geom, h1, ⟨pre, post, h2, h4, h5⟩, h3, h7⟩
  have hall : ∀ st ∈ dom.cells, ∃ (k : Nat) (m : Material ℝ), mats[k]? = some m ∧ st.material = k ∧
      st.volume = p.grid.dx * p.grid.dy * p.grid.dz ∧ st.cellNumberDensity = 1 := by
    intro st hst
    obtain ⟨i, hi⟩ := List.getElem?_of_mem hst
    obtain ⟨c, hc⟩ := hcs i (List.getElem?_eq_some_iff.1 hi).1
    obtain ⟨k, m, geom, h1, _, _, h2⟩ := hcell i c hc
    rw [hi] at h2
    cases h2
    exact ⟨k, m, h1, rfl, rfl, rfl⟩
  have hbox := grid_box hsingle
  have hvol : 0 < p.grid.dx * p.grid.dy * p.grid.dz :=
    mul_pos (mul_pos hbox.dx_pos hbox.dy_pos) hbox.dz_pos
  have hiso : ∀ rs ∈ nd.isotopes, ∃ k mp, p.materials.get? k = some mp ∧ ∃ sp nu, IsotopeFrom p mp sp nu ∧
      rs = isotopeReactions nd.energies sp nu := by
    intro rs hrs
    obtain ⟨i, hi⟩ := List.getElem?_of_mem hrs
    obtain ⟨mp, h1, h2⟩ := e4.isotope (Nat.zero_le i) hi
    obtain ⟨k, hk⟩ := (mem_valuesIn hso).1 h1
    exact ⟨k, mp, hk, h2⟩
  obtain ⟨l1, l2, l3, _⟩ := C26_levels h.groups h.energies.1 h.energies.2.1
  have hlookup : ∀ k, (p.data nd mats).sourceRates.lookup k = (p.materials.get? k).map (·.sourceRate) :=
    fun k => lookup_map_get? (fun mp : MaterialParams ℝ => mp.sourceRate) p.materials k
  have hreact : ∀ rs ∈ nd.isotopes, ∀ r ∈ rs, (∀ x ∈ r.crossSection, 0 ≤ x) ∧ 0 ≤ r.nuBar ∧ r.nuBar < 4 := by
    intro rs hrs r hr
    obtain ⟨k, mp, hk, sp, nu, hfrom, rfl⟩ := hiso rs hrs
    obtain ⟨r1, r2, r3⟩ := (h.materials k mp hk).ratios
    obtain ⟨q1, q2, q3⟩ := hfrom.ratios
    obtain ⟨x, hx, _, hnu⟩ := hfrom.fission
    obtain ⟨n1, n2⟩ := isotopeReactions_nonneg (by rw [hfrom.total]; exact (h.materials k mp hk).total)
      (by rw [q1]; exact r3) (by rw [q2]; exact r1) (by rw [q3]; exact r2) hr
    refine ⟨n1, ?_⟩
    rw [n2, hnu]
    exact h.nuBar _ _ hx
  have hmass : ∀ m ∈ mats, 1 < m.mass := by
    intro m hm
    obtain ⟨mp, first, hk, hf⟩ := hmat m hm
    rw [hf.mass]
    exact (h.materials _ _ hk).mass
  refine ⟨nd, mats, dom, d1, m1, c6, m5, hsingle, ?_⟩
  refine ⟨⟨⟨h.dt, h.energies.1, h.energies.2.1.le, hmass, ?_, ?_, ?_⟩,
    ⟨h.energies.1.le, h.energies.2.1.le, h.energies.2.2, fun m hm => (hmass m hm).le, ?_, ?_, ?_⟩,
    C50_sound_mesh hio hsingle h.root fuel hfuel m1, ?_, ?_, ?_, ?_⟩, ?_, ⟨?_, ?_, h.dt.le⟩, ?_, ?_, ?_, ?_⟩
  · intro st hst
    obtain ⟨_, _, _, _, _, hd⟩ := hall st hst
    rw [hd]; exact zero_le_one
  · intro m hm iso hi
    obtain ⟨mp, first, _, hf⟩ := hmat m hm
    obtain ⟨_, _, _, hr⟩ := hf.reactions
    rw [(hr iso hi).1, div_eq, one_eq, ofNat_eq]
    positivity
  · intro rs hrs r hr
    exact (hreact rs hrs r hr).1
  · rw [m5]; exact h.groups
  · show nd.energies.length = _
    rw [e3, l1, m5]
  · show nd.energies[dom.numGroups]? = some p.simulation.eMax
    rw [e3, m5, l3]
  · intro st hst
    obtain ⟨k, m, hk, hm, _⟩ := hall st hst
    rw [hm]
    exact (List.getElem?_eq_some_iff.1 hk).1
  · intro m hm iso hi
    obtain ⟨mp, first, _, hf⟩ := hmat m hm
    obtain ⟨_, _, _, hr⟩ := hf.reactions
    exact (List.getElem?_eq_some_iff.1 (hr iso hi).2).1
  · intro rs hrs r hr
    obtain ⟨k, mp, hk, sp, nu, hfrom, rfl⟩ := hiso rs hrs
    rw [isotopeReactions_length hr, e3, l1, m5]
    rfl
  · intro rs hrs r hr
    exact (hreact rs hrs r hr).2
  · intro m hm
    obtain ⟨mp, first, hk, hf⟩ := hmat m hm
    rw [hlookup, hf.name, hk]
    exact ⟨_, rfl⟩
  · intro st hst
    obtain ⟨_, _, _, _, hv, _⟩ := hall st hst
    rw [hv]; exact hvol.le
  · intro k r hr
    rw [hlookup] at hr
    obtain ⟨mp, hmp, rfl⟩ := Option.map_eq_some_iff.1 hr
    exact (h.materials k mp hmp).rate
  · obtain ⟨c, hc, geom, mp, hreg, hmp, hpos⟩ := h.emits
    obtain ⟨i, hi⟩ := List.getElem?_of_mem (m3.perm.mem_iff.2 (List.mem_range.2 hc))
    obtain ⟨k, m, geom', h1, h2, h3, h4⟩ := hcell i c hi
    have hgeom : geom' = geom := by
      obtain ⟨pre, post, a1, a2, a3⟩ := hreg
      obtain ⟨pre', post', b1, b2, b3⟩ := h2
      rw [a1] at b1
      rcases List.append_eq_append_iff.1 b1 with ⟨t, u1, u2⟩ | ⟨t, u1, u2⟩
      · cases t with
        | nil => simp at u2; exact u2.1.symm
        | cons x t =>
          simp at u2
          exact absurd a2 (b3 geom (by rw [u1, u2.1]; simp))
      · cases t with
        | nil => simp at u2; exact u2.1
        | cons x t =>
          simp at u2
          exact absurd b2 (a3 geom' (by rw [u1, u2.1]; simp))
    subst hgeom
    refine ⟨_, List.mem_of_getElem? h4, m, mp.sourceRate, h1, ?_, hvol, hpos⟩
    rw [hlookup, h3, hmp]
    rfl
  · have h1 := h.particles.1
    have : 0 < cells p.grid := by
      obtain ⟨c, hc, _⟩ := h.emits; omega
    show 10 ≤ p.simulation.nParticles
    omega
  · exact h.particles.2
  · show 0 < p.simulation.nUnits
    rw [h.units]; exact one_pos

/-- The start of a run on a valid input. -/
theorem ValidInput.start (h : ValidInput p) {so : StrOrder} (hso : ∀ l, (so l).Perm l) {io : IterOrder}
    (hio : ∀ l, (io l).Perm l) (m : Machine) (hm : 1 ≤ m.defaultThreads) (fuel : Nat)
    (hfuel : cells p.grid + 1 ≤ fuel) :
    ∃ s, startRun so io m fuel p = .ok (some s) ∧ SafeProblem s.data s.state.unit.dom ∧ InitialState s.state ∧
      StartSizes s.state ∧ ¬ (s.exec.chunkSize = 0 ∧ s.exec.nRayonThreads = 0) ∧
      s.data.nSteps = p.simulation.nSteps ∧
      ∃ mats, SingleUnit p mats ∧ initMesh io fuel p mats = .ok [s.state.unit.dom] := by
  obtain ⟨nd, mats, dom, a1, a2, a3, a4, a6, a5⟩ := h.safe hso hio fuel hfuel
  obtain ⟨info, b1, b2, b3, b4⟩ := h.procInfo m
  obtain ⟨b4, b5⟩ := b4 hm
  have hnu : ∃ n, maxNuBar so p = .ok n := by
    refine (C39_lookups hso h.named ((C39_validation hso p).2 h.consistent)).2.2 fun k mp x _ hx => ?_
    obtain ⟨n1, n2⟩ := h.nuBar _ _ hx
    rw [ceil_eq, toUsize_eq, if_pos]
    · exact ⟨_, rfl⟩
    · have : (⌈x.nuBar⌉ : ℝ) < x.nuBar + 1 := Int.ceil_lt_add_one _
      have : x.nuBar ≤ ⌈x.nuBar⌉ := Int.le_ceil _
      constructor <;> linarith
  obtain ⟨n, hnu⟩ := hnu
  have hc : initContainers so p info.info = .ok { processing := [], processed := [], extra := [] } := by
    unfold initContainers
    rw [if_neg (by omega), hnu]
    rcases b2 with b2 | b2 <;> rw [b2] <;> rfl
  have hcells : p.simulation.nx * p.simulation.ny * p.simulation.nz = cells p.grid := rfl
  have hpos : 0 < cells p.grid := by
    obtain ⟨c, hc, _⟩ := h.emits; omega
  obtain ⟨q1, q2⟩ := h.particles
  have hstart : ∃ s, startRun so io m fuel p = .ok (some s) ∧ s.data = p.data nd mats ∧
      s.exec = (if info.info.policy = .rayon then { info.info with nRayonThreads := poolSize m info }
        else info.info) ∧
      s.state = startState p ⟨dom, {}, List.replicate (dom.cells.length * p.simulation.nGroups) zero,
        List.replicate (dom.cells.length * p.simulation.nGroups) zero, zero⟩ ⟨[], [], []⟩ := by
    have hu : initUnits io fuel p mats = .ok [⟨dom, {},
        List.replicate (dom.cells.length * p.simulation.nGroups) zero,
        List.replicate (dom.cells.length * p.simulation.nGroups) zero, zero⟩] := by
      unfold initUnits
      rw [a2]
      dsimp only [bind, Except.bind]
      rw [a3]
      rfl
    unfold startRun
    dsimp only
    rw [hcells, if_neg (by omega), if_neg (by omega), if_neg (by
      rw [Nat.not_lt, Nat.le_div_iff_mul_le hpos]; exact q1)]
    unfold initRun
    rw [b1, a1]
    dsimp only [bind, Except.bind]
    rw [hc]
    dsimp only
    rw [show (p.data nd mats).materials = mats from rfl, hu]
    exact ⟨_, rfl, rfl, rfl, rfl⟩
  obtain ⟨s, e1, e2, e3, e4⟩ := hstart
  refine ⟨s, e1, ?_, ?_, ?_, ?_, by rw [e2]; rfl, mats, a6, by rw [e4]; exact a2⟩
  · rw [e2, e4]; exact a5
  · rw [e4]; exact ⟨rfl, rfl, rfl, rfl, rfl, rfl⟩
  · rw [e4]
    refine ⟨?_, ?_, ?_⟩
    · simp [startState, tableSize, a4]
    · simp [startState, tableSize, a4]
    · simp [startState, a4]
  · rw [e3]
    rintro ⟨_, h0⟩
    split at h0
    · rename_i hr
      have := b4 hr
      dsimp only at h0
      omega
    · rename_i hr
      have := b5 hr
      omega
