import Verif.Lemmas.StartShape
import Verif.Lemmas.FloatCycle
import Verif.Props.Start
/-!
# A run that has started, in rounded arithmetic, has sound tables
-/
open Flt Ieee GridSpec MeshSpec Flooding Config
attribute [local irreducible] Rng.lcg Rng.sample Rng.spawn
set_option linter.unusedSectionVars false

section
variable {T : Type} [Flt T]

theorem energyLevels_last (n : Nat) (a b : T) : (energyLevels n a b)[n]? = some b := by
  unfold energyLevels
  dsimp only
  rw [List.getElem?_map, List.getElem?_range (Nat.lt_succ_self n), Option.map_some, if_pos rfl]

theorem isotopeReactions_nuBar {energies : List T} {sp : IsotopeSpec T} {nu : T} {r : Reaction T}
    (h : r ∈ isotopeReactions energies sp nu) : r.nuBar = nu := by
  unfold isotopeReactions at h
  dsimp only at h
  obtain ⟨i, _, rfl⟩ := List.mem_map.1 h
  split <;> rfl

theorem find_lt {mats : List (Material T)} {name : String} {k : Nat} (h : findMaterialIdx mats name = some k) :
    k < mats.length := by
  unfold findMaterialIdx at h
  rw [List.findIdx?_eq_some_iff_getElem] at h
  exact h.1

/-- The parts of a successful start. -/
theorem startRun_parts {so : StrOrder} {io : IterOrder} {m : Machine} {fuel : Nat} {p : Params T} {s : Started T}
    (h : startRun so io m fuel p = .ok (some s)) :
    ∃ nd mats dom doms, initNuclearData so p = .ok (nd, mats) ∧ s.data = p.data nd mats ∧
      initMesh io fuel p mats = .ok doms ∧ doms[0]? = some dom ∧ s.state.unit.dom = dom ∧
      p.simulation.nUnits = 1 ∧ (1 ≤ m.defaultThreads → s.exec.nRayonThreads ≠ 0) := by
  obtain ⟨_, _, _, h⟩ := startRun_some h
  unfold initRun at h
  obtain ⟨info, hi, h⟩ := bind_ok.1 h
  obtain ⟨data, hd, h⟩ := bind_ok.1 h
  obtain ⟨c, hc, h⟩ := bind_ok.1 h
  obtain ⟨units, hun, h⟩ := bind_ok.1 h
  obtain ⟨u, hu, h⟩ := bind_ok.1 h
  cases pure_ok.1 h
  obtain ⟨nd, mats, h1, rfl⟩ := initData_ok hd
  obtain ⟨i1, i2, i5, i3, i4, rfl⟩ := procInfo_single hi hc
  unfold initUnits at hun
  obtain ⟨doms, hm, hun⟩ := bind_ok.1 hun
  obtain ⟨_, _, hun⟩ := bind_ok.1 hun
  cases pure_ok.1 hun
  have hu' := idx_ok.1 hu
  rw [List.getElem?_map] at hu'
  obtain ⟨dom, hdom, rfl⟩ := Option.map_eq_some_iff.1 hu'
  refine ⟨nd, mats, dom, doms, h1, rfl, hm, hdom, rfl, i1, fun hd => ?_⟩
  dsimp only
  split
  · dsimp only
    unfold poolSize
    split
    · rename_i h; exact h.1
    · omega
  · rename_i hr
    rw [i5]
    intro h0
    rw [h0] at i3
    exact hr i3

/-- The mesh of a run that has started is sound, and its cells have a material. -/
theorem startRun_mesh {so : StrOrder} {io : IterOrder} (hio : ∀ l, (io l).Perm l) {m : Machine} {fuel : Nat}
    {p : Params T} {s : Started T} (hroot : RootInGrid p) (h : startRun so io m fuel p = .ok (some s)) :
    SoundMesh s.state.unit.dom ∧ (∀ cs ∈ s.state.unit.dom.cells, cs.material < s.data.materials.length) ∧
      s.state.unit.dom.cells.length = p.askedCells := by
  obtain ⟨nd, mats, dom, doms, h1, h2, h3, h4, h5, h6, _⟩ := startRun_parts h
  obtain ⟨hc0, _⟩ := startRun_some h
  have hpos : 0 < p.simulation.nx ∧ 0 < p.simulation.ny ∧ 0 < p.simulation.nz := by
    unfold Params.askedCells at hc0
    refine ⟨Nat.pos_of_ne_zero ?_, Nat.pos_of_ne_zero ?_, Nat.pos_of_ne_zero ?_⟩ <;> intro h0 <;> simp [h0] at hc0
  obtain ⟨g, dom', bc, cs, nodeOf, e1, rfl, e3, e4, e5, e6, e7, e8⟩ := initMesh_shape hio h6 hpos hroot h3
  have : dom' = dom := by simpa using h4
  subst this
  rw [h5]
  have hcs : ∀ i, i < dom'.cells.length → ∃ c, cs[i]? = some c := by
    intro i hi
    have : i < cs.length := by rw [e4.perm.length_eq, List.length_range, ← e7]; exact hi
    exact ⟨_, List.getElem?_eq_getElem this⟩
  refine ⟨built_sound e4 e5 e7 fun i c hi => ?_, ?_, ?_⟩
  · obtain ⟨st, _, h⟩ := e8 i c hi
    unfold cellStateOf at h
    obtain ⟨r, hr, _⟩ := bind_ok.1 h
    exact ⟨r, hr⟩
  · intro st hst
    obtain ⟨i, hi⟩ := List.getElem?_of_mem hst
    obtain ⟨c, hc⟩ := hcs i (List.getElem?_eq_some_iff.1 hi).1
    obtain ⟨st', g1, g2⟩ := e8 i c hc
    rw [hi] at g1
    cases g1
    unfold cellStateOf at g2
    obtain ⟨_, _, g2⟩ := bind_ok.1 g2
    obtain ⟨_, _, g2⟩ := bind_ok.1 g2
    obtain ⟨_, _, g2⟩ := bind_ok.1 g2
    obtain ⟨k, hk, g2⟩ := bind_ok.1 g2
    obtain ⟨_, _, g2⟩ := bind_ok.1 g2
    obtain ⟨_, _, g2⟩ := bind_ok.1 g2
    cases pure_ok.1 g2
    rw [h2]
    exact find_lt (unwrap_ok.1 hk)
  · rw [e7, e1]
    rfl

theorem Fresh.initial {s : SimState T} (h : Fresh s) : InitialState s :=
  ⟨h.particles.1, h.particles.2.1, h.particles.2.2, h.counters.1, h.counters.2.1, h.counters.2.2.1⟩

theorem Fresh.sizes {s : SimState T} (h : Fresh s) : StartSizes s := by
  refine ⟨?_, ?_, ?_⟩
  · rw [h.cache, List.length_replicate]; rfl
  · rw [h.flux, List.length_replicate]; rfl
  · rw [h.spectrum, List.length_replicate]

end

variable {T : Type} [Flt T] [Ieee T]

/-- A run that has started on an input with finite numbers, with tables that did not overflow. -/
theorem startRun_float {so : StrOrder} (hso : ∀ l, (so l).Perm l) {io : IterOrder} (hio : ∀ l, (io l).Perm l)
    {m : Machine} {fuel : Nat} {p : Params T} {s : Started T} (hn : NamedParams p) (hc : Consistent p)
    (hroot : RootInGrid p) (hi : FloatInput p) (h : startRun so io m fuel p = .ok (some s))
    (ht : FloatTables s.data s.state.unit.dom) : FloatProblem s.data s.state.unit.dom := by
  obtain ⟨_, hset, _⟩ := C64_started h
  obtain ⟨hm1, hm2, _⟩ := startRun_mesh hio hroot h
  obtain ⟨nd, mats, dom, doms, h1, h2, _, _, h5, _⟩ := startRun_parts h
  obtain ⟨nd', mats', e1, e2, e3, e4⟩ := initNuclearData_ok hn hc hso
  rw [h1] at e1
  cases e1
  have hgr := hset.groups
  have hmat : ∀ m ∈ mats, ∃ mp first, p.materials.get? mp.name = some mp ∧ MaterialFrom p nd first mp m := by
    intro m hm
    obtain ⟨mp, h1, first, h2⟩ := e4.mem hm
    obtain ⟨k, hk⟩ := (mem_valuesIn hso).1 h1
    have := hn.materials.own _ _ hk
    subst this
    exact ⟨mp, first, hk, h2⟩
  have hiso : ∀ rs ∈ nd.isotopes, ∃ k mp, p.materials.get? k = some mp ∧ ∃ sp nu, IsotopeFrom p mp sp nu ∧
      rs = isotopeReactions nd.energies sp nu := by
    intro rs hrs
    obtain ⟨i, hi⟩ := List.getElem?_of_mem hrs
    obtain ⟨mp, h1, h2⟩ := e4.isotope (Nat.zero_le i) hi
    obtain ⟨k, hk⟩ := (mem_valuesIn hso).1 h1
    exact ⟨k, mp, hk, h2⟩
  have hd : s.data.materials = mats := by rw [h2]; rfl
  have hnd : s.data.nuclear = nd := by rw [h2]; rfl
  refine ⟨⟨?_, ?_, ?_, ?_, ?_, ?_, ?_, hm1, hm2, ?_, ?_, ?_, ht.xs, ht.reaction⟩, ?_, ht.volume, ht.weight, ?_, ?_, ?_⟩
  · rw [hset.dt]; exact hi.dt
  · rw [hset.eMin, hset.eMax]; exact hi.energies
  · rw [hset.eMin, hset.eMax]; exact hi.sourced
  · rw [hd]
    intro m hm
    obtain ⟨mp, first, hk, hf⟩ := hmat m hm
    rw [hf.mass]
    exact (hi.materials _ _ hk).1
  · rw [hgr]; exact hi.groups
  · rw [hnd, e3, energyLevels_length, hgr]
  · rw [hnd, e3, hgr, energyLevels_last, hset.eMax]
  · rw [hd, hnd]
    intro m hm iso hi
    obtain ⟨mp, first, _, hf⟩ := hmat m hm
    obtain ⟨_, _, _, hr⟩ := hf.reactions
    exact (List.getElem?_eq_some_iff.1 (hr iso hi).2).1
  · rw [hnd, hgr]
    intro rs hrs r hr
    obtain ⟨k, mp, hk, sp, nu, hfrom, rfl⟩ := hiso rs hrs
    rw [isotopeReactions_length hr, e3, energyLevels_length]
    rfl
  · rw [hnd]
    intro rs hrs r hr
    obtain ⟨k, mp, hk, sp, nu, hfrom, rfl⟩ := hiso rs hrs
    obtain ⟨x, hx, _, hnu⟩ := hfrom.fission
    rw [isotopeReactions_nuBar hr, hnu]
    exact hi.nuBar _ _ hx
  · rw [hd]
    intro m hm
    obtain ⟨mp, first, hk, hf⟩ := hmat m hm
    rw [hset.rates, hf.name, hk]
    exact ⟨_, rfl, (hi.materials _ _ hk).2⟩
  · rw [hset.nParticles]; exact hi.particles.1
  · rw [hset.nParticles]; exact hi.particles.2
  · rw [hset.units.2.1]; exact one_pos
