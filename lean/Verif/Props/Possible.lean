import Verif.Lemmas.Tame
import Verif.Props.Cells
/-!
# C50: the impossible branches are impossible, and indices stay in range

`Impossible e`: `e` is the panic of `unreachable!`, of `unimplemented!` or of an undefined facet adjacency.
`RunFails` (`Verif/Spec/Fails.lean`) lists every way a run can stop on a panic, under every schedule.
The first two theorems hold for every number type, rounding floating point included, and every sound mesh; the
third shows that the mesh of every single-unit run is sound (over the reals).
-/
open Flt FltReal GridSpec MeshSpec Flooding
attribute [local irreducible] Rng.lcg Rng.sample Rng.spawn

section
variable {T : Type} [Flt T]

/-- **C50**, indices: every particle that can exist in a simulation, during any cycle, has a cell of its unit, one of
the 24 facets and the domain of the unit; and so has the particle between a segment and its event. -/
theorem C50_indices {data : Data T} {dom : Domain T} {fuel : Nat} (hm : SoundMesh dom) {p : Particle T}
    (h : Reachable data dom fuel p) :
    (p.domain = dom.globalDomain ∧ p.cell < dom.cells.length ∧ p.facet < 24) ∧
    ∀ (d : Domain T) (tr : List (Ev T)) (o : SegOutcome) (q : Particle T), d.skeleton = dom.skeleton →
      (outcome data d p).May tr (o, q) →
      q.domain = dom.globalDomain ∧ q.cell < dom.cells.length ∧ q.facet < 24 := by
  have h1 := reachable_index hm h
  refine ⟨⟨h1.1, h1.2, h1.3⟩, fun d tr o q hd ho => ?_⟩
  have h2 := (outcome_index (hm.skeleton hd) (h1.skeleton hd) ho).skeleton hd.symm
  exact ⟨h2.1, h2.2, h2.3⟩

/-- **C50**, panics: on a sound mesh no run, sequential or parallel, under any schedule, ever stops on an impossible
panic. -/
theorem C50_impossible {data : Data T} {ex : ExecInfo} {o : SyncOpts} {fuel : Nat} {s0 : SimState T}
    (h0 : InitialState s0) (hm : SoundMesh s0.unit.dom) {e : Panic} (h : RunFails data ex o fuel s0 e) :
    ¬ Impossible e := by
  cases h with
  | sync _ _ h => exact cycleSync_tame _ _ _ _ _ h
  | population _ _ _ h => exact populationControl_tame _ _ _ _ _ _ h
  | @tracking n s s1 u c _ _ hcyc hsync hpop hl =>
    obtain ⟨hd, hk⟩ := cycles_reachable h0 hcyc
    have hd2 : s1.unit.dom.skeleton = s0.unit.dom.skeleton := by rw [cycleSync_dom hsync, hd]
    have hk2 := fun p hp => hk p (cycleSync_all hsync p hp)
    have hk3 := populationControl_reach hd2 hk2 hpop
    have hd3 := (populationControl_skeleton hpop).trans hd2
    rcases loopFails_inv hd3 hk3 (fun _ _ _ _ => trivial) (fun _ _ _ => trivial) hl with rfl | ⟨rfl, _⟩ | ⟨p, hp, hf⟩
    · rintro (h | h | h) <;> cases h
    · rintro (h | h | h) <;> cases h
    · have hm' := hm.skeleton hd3
      have hi := (reachable_index hm hp).skeleton hd3
      cases hf with
      | prepare h => exact gutsPrepare_tame _ _ _ h
      | segment h => exact outcome_tame h
      | flux => rintro (h | h | h) <;> cases h
      | @event tr o q b ex _ ho _ h =>
        have hq := outcome_index hm' hi ho
        cases o with
        | census => cases h
        | collision => exact collisionBranch_tame _ _ _ _ _ h
        | facetCrossing =>
          let q' : Particle T := { q with numSegments := q.numSegments +. one }
          obtain ⟨r, hr⟩ := facetBranch_ok hm' (st := TrackState.mk q' b ex) ⟨hq.1, hq.2, hq.3⟩
          have h' : facetBranch u.dom _ = .error e := h
          rw [hr] at h'
          cases h'

end

theorem initMesh_globalDomain {order : IterOrder} {fuel : Nat} {params : Params ℝ} {mats : List (Material ℝ)}
    {doms : List (Domain ℝ)} (h : initMesh order fuel params mats = .ok doms) {dom : Domain ℝ}
    (hd : dom ∈ doms) : dom.globalDomain = dom.mesh.domainGid ∧
      dom.numGroups = params.simulation.nGroups := by
  unfold initMesh at h
  simp only [bind_ok] at h
  obtain ⟨ddc, _, h⟩ := h
  split at h
  · simp only [bind_ok] at h
    obtain ⟨cs, _, comm, _, comm', _, h⟩ := h
    obtain ⟨gid, _, hb⟩ := mapM_ok_mem h hd
    simp only [bind_ok, Domain.build, pure_ok] at hb
    obtain ⟨p, _, bc, _, mesh, _, cells, _, rfl⟩ := hb
    exact ⟨rfl, rfl⟩
  · cases h

/-- The mesh of a single-unit run is sound. -/
theorem C50_sound_mesh {order : IterOrder} (ho : ∀ l, (order l).Perm l) {params : Params ℝ}
    {mats : List (Material ℝ)} (h : SingleUnit params mats) (hroot : params.rootCell < cells params.grid)
    (fuel : Nat) (hfuel : cells params.grid + 1 ≤ fuel) {dom : Domain ℝ}
    (hdom : initMesh order fuel params mats = .ok [dom]) : SoundMesh dom := by
  obtain ⟨bc, cs, nodeOf, hb, hlen, hat, hst⟩ := unit_mesh ho h hroot fuel hfuel hdom
  obtain ⟨dom', cellAt, ev, h1, h2, hcov, h4, h5, _⟩ := C16_mesh ho h hroot fuel hfuel
  rw [hdom] at h1
  cases h1
  have hglob : dom.globalDomain = 0 := by
    rw [(initMesh_globalDomain hdom (by simp)).1, hb.domain]
  have hcs : cs.length = dom.cells.length := by rw [hb.perm.length_eq, List.length_range, hlen]
  have hget : ∀ c, c < dom.cells.length → ∃ k, cs[c]? = some k := fun c hc =>
    ⟨_, List.getElem?_eq_getElem (by rw [hcs]; exact hc)⟩
  have hcell : ∀ {j k : Nat}, cellAt[j]? = some k → j < dom.cells.length := fun hj => by
    have := (List.getElem?_eq_some_iff.1 hj).1
    rw [hcov.perm.length_eq, List.length_range] at this
    omega
  constructor
  · intro c hc
    obtain ⟨k, hk⟩ := hget c hc
    have hconn := hb.conn_get hk
    refine ⟨_, hconn, hcov.facets _ (List.mem_of_getElem? hconn), fun fa hfa => ?_⟩
    obtain ⟨n, hn⟩ := List.getElem?_of_mem hfa
    have hn24 : n < 24 := by
      rw [← hcov.facets _ (List.mem_of_getElem? hconn)]
      exact (List.getElem?_eq_some_iff.1 hn).1
    obtain ⟨f, j, hj, rfl⟩ := face_of_facet hn24
    have hat' := (h5 c k).2 ((hat c k).1 hk)
    by_cases hbord : OnBorder params.grid (params.grid.cellIdxToTuple k) f
    · right
      obtain ⟨he, _⟩ := hcov.border c k _ f j fa hat' hconn hj hn hbord
      rw [he]
      have hev := h2 f
      revert hev
      generalize ev f = x
      unfold borderEvent
      split <;> intro hx <;> simp only [Option.some.injEq, reduceCtorEq] at hx <;> simp [← hx]
    · left
      obtain ⟨he, j', k', h6, h7, h8⟩ := hcov.interior c k _ f j fa hat' hconn hj hn hbord
      refine ⟨he, j', _, by rw [hglob]; exact h8, hcell h6, ?_⟩
      have : f.opposite.num < 6 := by cases f <;> decide
      omega
  · intro c hc
    obtain ⟨k, hk⟩ := hget c hc
    exact ⟨_, by rw [hb.geom, List.getElem?_map, hk, Option.map_some], by simp⟩
  · intro c hc f hf
    obtain ⟨k, hk⟩ := hget c hc
    exact ⟨_, hb.facetCoords hk hf⟩
  · intro c hc
    obtain ⟨k, hk⟩ := hget c hc
    exact ⟨_, hb.position hk⟩

/-- **C50** for every single-unit problem. -/
theorem C50_single_unit {order : IterOrder} (ho : ∀ l, (order l).Perm l) {params : Params ℝ}
    {mats : List (Material ℝ)} (h : SingleUnit params mats) (hroot : params.rootCell < cells params.grid)
    (fuel : Nat) (hfuel : cells params.grid + 1 ≤ fuel) {data : Data ℝ} {ex : ExecInfo} {o : SyncOpts}
    {tfuel : Nat} {s0 : SimState ℝ} (h0 : InitialState s0)
    (hdom : initMesh order fuel params mats = .ok [s0.unit.dom]) :
    (∀ e, RunFails data ex o tfuel s0 e →
      e ≠ .unreachable ∧ e ≠ .unimplemented ∧ e ≠ .adjacencyUndefined) ∧
    ∀ p, Reachable data s0.unit.dom tfuel p →
      p.domain = 0 ∧ p.cell < params.simulation.nx * params.simulation.ny * params.simulation.nz ∧
      p.facet < 24 := by
  have hs := C50_sound_mesh ho h hroot fuel hfuel hdom
  constructor
  · intro e he
    have := C50_impossible h0 hs he
    unfold Impossible at this
    tauto
  · intro p hp
    obtain ⟨h1, h2, h3⟩ := (C50_indices hs hp).1
    obtain ⟨bc, cs, nodeOf, hb, hlen, _⟩ := unit_mesh ho h hroot fuel hfuel hdom
    rw [(initMesh_globalDomain hdom (by simp)).1, hb.domain] at h1
    exact ⟨h1, by rw [hlen] at h2; exact h2, h3⟩

/-- The hypotheses hold for the default problem. -/
example : ∃ s0 : SimState ℝ, InitialState s0 ∧ initMesh id 1001 (defaultProblem 1029384756) defaultMats =
    .ok [s0.unit.dom] ∧ SoundMesh s0.unit.dom ∧ s0.unit.dom.cells.length = 1000 := by
  obtain ⟨dom, cellAt, _, h1, _, h3, h4, _⟩ := C16_mesh (order := id) (fun _ => List.Perm.refl _)
    (default_single (by norm_num)) default_root 1001 (by rw [default_cells])
  refine ⟨⟨⟨dom, {}, [], [], 0⟩, ⟨[], [], []⟩, 0, 0, {}, [], [], []⟩, ?_, h1, ?_, ?_⟩
  · constructor <;> rfl
  · exact C50_sound_mesh (fun _ => List.Perm.refl _) (default_single (by norm_num)) default_root 1001
      (by rw [default_cells]) h1
  · rw [← default_cells 1029384756]; exact h4
