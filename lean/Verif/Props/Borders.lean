import Verif.Lemmas.Borders
import Verif.Props.Report
import Verif.Props.EndingCase
/-!
# C87: particles leave through the borders that let them, and only through these

The first three theorems hold for every `Flt T`: nothing is assumed about arithmetic, and they apply to every input on
which the program starts, to every execution policy and to every interleaving of the workers.
-/
open Flt GridSpec MeshSpec Config Flooding
set_option linter.unusedSectionVars false
attribute [local irreducible] Rng.lcg Rng.sample Rng.spawn

section
variable {T : Type} [Flt T] {so : StrOrder} {io : IterOrder} {m : Machine} {fuel : Nat} {p : Params T} {s : Started T}

/-- **C87** (no way out).  With reflecting borders no particle escapes, in any cycle of any finished run, whatever the
rounding, the policy and the schedule: all the particles that enter a cycle and are not in its end are accounted for by
absorptions, fissions and the two roulettes. -/
theorem C87_reflect (h : startRun so io m fuel p = .ok (some s)) (hb : p.simulation.boundaryCondition = "reflect")
    {ex : ExecInfo} {f : Nat} {t : SimState T} (hr : RunCore s.data ex s.opts f s.state t) :
    (∀ r ∈ t.reports, r.2.1.escape = 0 ∧ r.2.1.start + r.2.1.source + r.2.1.produce + r.2.1.split =
      r.2.1.end_ + r.2.1.absorb + r.2.1.fission + (r.2.1.overRr + r.2.1.weightRr)) ∧
    t.cumulative.escape = 0 := by
  obtain ⟨bc, hbc, hfb⟩ := started_fromBorder h
  have h0 := started_start h
  have hw : NoWayOut s.state.unit.dom.mesh := by
    intro conn hc fa hfa he
    obtain ⟨n, hn⟩ := List.getElem?_of_mem hfa
    rcases hfb conn hc n fa hn with h1 | h1 | h1
    · obtain ⟨fc, _, h2⟩ := boundary_event hbc h1
      rw [hb, he] at h2
      cases h2
    · rw [he] at h1; cases h1
    · rw [he] at h1; cases h1
  have hall := runCore_escape h0 hw hr
  have ha := runCore_after h0.initial hr
  refine ⟨fun r hr => ⟨hall r hr, ?_⟩, ?_⟩
  · have e1 := (ha.reports r hr).balance
    have e2 := (ha.reports r hr).survivors
    have e3 := hall r hr
    omega
  · rw [ha.cumulative]
    unfold sumReports Balance.sum
    rw [foldl_escape]
    intro b hb
    obtain ⟨r, hr, rfl⟩ := List.mem_map.1 hb
    exact hall r hr

/-- **C87** (the way out).  A particle that leaves the problem at a facet does so through a face for which the boundary
condition is to let particles escape; it is counted. -/
theorem C87_leaves (h : startRun so io m fuel p = .ok (some s)) {d : Domain T}
    (hd : d.skeleton = s.state.unit.dom.skeleton) {f : Nat} {st st' : TrackState T}
    (he : segmentEvent s.data d f .facetCrossing st = .ok (false, st')) :
    (∃ face : Face, st.particle.facet / 4 = face.num ∧
      borderEvent p.simulation.boundaryCondition face = some .boundaryEscape) ∧
    st'.balance = { st.balance with escape := st.balance.escape + 1 } ∧ st'.particle.species = .unknown := by
  obtain ⟨bc, hbc, hfb⟩ := started_fromBorder h
  rw [← skeleton_mesh hd] at hfb
  simp only [segmentEvent, facetBranch, bind_ok] at he
  obtain ⟨conn, hc, fa, hfa, q, hq, he⟩ := he
  split at he
  · cases pure_ok.1 he
  · simp only [bind_ok, pure_ok, Prod.mk.injEq] at he
    obtain ⟨_, _, _, _, hk, _⟩ := he
    cases hk
  · cases he
  · next hl =>
    have hev := facetCrossingEvent_escape hq hl
    cases pure_ok.1 he
    refine ⟨?_, rfl, rfl⟩
    rcases hfb conn (List.mem_of_getElem? (idx_ok.1 hc)) _ fa (idx_ok.1 hfa) with h1 | h1 | h1
    · obtain ⟨face, e1, e2⟩ := boundary_event hbc h1
      exact ⟨face, e1.symm, by rw [e2, hev]⟩
    · rw [hev] at h1; cases h1
    · rw [hev] at h1; cases h1
  · cases he

/-- **C87** (mirrors).  A particle whose direction changes at a facet stays in its cell, where it is, and the boundary
condition of the face is to reflect particles.  With escaping borders no direction changes at a facet. -/
theorem C87_turns (h : startRun so io m fuel p = .ok (some s)) {d : Domain T}
    (hd : d.skeleton = s.state.unit.dom.skeleton) {f : Nat} {st st' : TrackState T} {keep : Bool}
    (he : segmentEvent s.data d f .facetCrossing st = .ok (keep, st'))
    (ht : st'.particle.direction ≠ st.particle.direction) :
    (∃ face : Face, st.particle.facet / 4 = face.num ∧
      borderEvent p.simulation.boundaryCondition face = some .boundaryReflection) ∧
    keep = true ∧ st'.particle.cell = st.particle.cell ∧ st'.particle.coordinate = st.particle.coordinate ∧
    st'.balance = st.balance := by
  obtain ⟨bc, hbc, hfb⟩ := started_fromBorder h
  rw [← skeleton_mesh hd] at hfb
  simp only [segmentEvent, facetBranch, bind_ok] at he
  obtain ⟨conn, hc, fa, hfa, q, hq, he⟩ := he
  have hev := hfb conn (List.mem_of_getElem? (idx_ok.1 hc)) _ fa (idx_ok.1 hfa)
  unfold facetCrossingEvent at hq
  split at hq
  · simp only [bind_ok, pure_ok] at hq
    obtain ⟨_, _, _, _, _, _, rfl⟩ := hq
    dsimp only at he
    cases pure_ok.1 he
    exact absurd rfl ht
  · cases hq
    dsimp only at he
    cases pure_ok.1 he
    exact absurd rfl ht
  · next e =>
    cases hq
    simp only [bind_ok, pure_ok, Prod.mk.injEq] at he
    obtain ⟨_, _, _, _, rfl, rfl⟩ := he
    refine ⟨?_, rfl, rfl, rfl, rfl⟩
    rw [e] at hev
    rcases hev with h1 | h1 | h1
    · obtain ⟨face, e1, e2⟩ := boundary_event hbc h1
      exact ⟨face, e1.symm, e2⟩
    · cases h1
    · cases h1
  · simp only [bind_ok, pure_ok] at hq
    obtain ⟨_, _, _, _, _, _, rfl⟩ := hq
    cases he
  · cases hq
end

/-- **C87** (crossing).  On a valid input, a particle at facet `4 face + k` of the cell at `c` leaves exactly when the face
is on the border of the problem and the boundary condition there is to escape; it is reflected exactly when the face is on
the border and the condition is to reflect; otherwise it goes on, with its direction, in the cell on the other side. -/
theorem C87_crossing {p : Params ℝ} (h : ValidInput p) {so : StrOrder} (hso : ∀ l, (so l).Perm l) {io : IterOrder}
    (hio : ∀ l, (io l).Perm l) (m : Machine) (hm : 1 ≤ m.defaultThreads) {fuel : Nat}
    (hfuel : cells p.grid + 1 ≤ fuel) {s : Started ℝ} (hs : startRun so io m fuel p = .ok (some s)) {d : Domain ℝ}
    (hd : d.skeleton = s.state.unit.dom.skeleton) {f : Nat} {st st' : TrackState ℝ} {keep : Bool} {c k : Nat} {face : Face}
    (hc : CellAt s.state.unit.dom st.particle.cell c) (hk : k < 4) (hf : st.particle.facet = 4 * face.num + k)
    (he : segmentEvent s.data d f .facetCrossing st = .ok (keep, st')) :
    (keep = false ↔ OnBorder p.grid (p.grid.cellIdxToTuple c) face ∧
      borderEvent p.simulation.boundaryCondition face = some .boundaryEscape) ∧
    (st'.particle.lastEvent = .facetCrossingReflection ↔ OnBorder p.grid (p.grid.cellIdxToTuple c) face ∧
      borderEvent p.simulation.boundaryCondition face = some .boundaryReflection) ∧
    (¬ OnBorder p.grid (p.grid.cellIdxToTuple c) face →
      CellAt s.state.unit.dom st'.particle.cell (p.grid.cellTupleToIdx (across (p.grid.cellIdxToTuple c) face)) ∧
      st'.particle.direction = st.particle.direction ∧ st'.particle.coordinate = st.particle.coordinate) := by
  obtain ⟨s', h1, _, _, _, _, _, mats, hsu, hmesh⟩ := h.start hso hio m hm fuel hfuel
  rw [hs] at h1
  cases h1
  obtain ⟨dom, cellAt, ev, e1, e2, e3, _, e5, _⟩ := C16_mesh hio hsu h.root fuel hfuel
  rw [hmesh] at e1
  cases e1
  have hca := (e5 _ _).2 hc
  simp only [segmentEvent, facetBranch, bind_ok] at he
  obtain ⟨conn, hconn, fa, hfa, q, hq, he⟩ := he
  rw [skeleton_mesh hd] at hconn
  have hconn := idx_ok.1 hconn
  have hfa := idx_ok.1 hfa
  rw [hf] at hfa
  by_cases hb : OnBorder p.grid (p.grid.cellIdxToTuple c) face
  · have hev := (e3.border _ _ _ _ _ _ hca hconn hk hfa hb).1
    have hev2 := e2 face
    rw [← hev] at hev2
    unfold facetCrossingEvent at hq
    split at hq <;> rename_i e
    · exfalso
      rw [e] at hev2
      revert hev2
      unfold borderEvent
      split <;> simp
    · cases hq
      dsimp only at he
      cases pure_ok.1 he
      rw [e] at hev2
      simp [hb, hev2]
    · cases hq
      simp only [bind_ok, pure_ok, Prod.mk.injEq] at he
      obtain ⟨_, _, _, _, rfl, rfl⟩ := he
      rw [e] at hev2
      simp [hb, hev2, reflectParticle]
    · simp only [bind_ok, pure_ok] at hq
      obtain ⟨_, _, _, _, _, _, rfl⟩ := hq
      cases he
    · cases hq
  · obtain ⟨hev, j, k', hj, _, hadj⟩ := e3.interior _ _ _ _ _ _ hca hconn hk hfa hb
    unfold facetCrossingEvent at hq
    rw [hev] at hq
    simp only [bind_ok, pure_ok, unwrap_ok, hadj] at hq
    obtain ⟨_, h1, _, h2, _, h3, rfl⟩ := hq
    cases h1; cases h2; cases h3
    dsimp only at he
    cases pure_ok.1 he
    simp only [hb, false_and, iff_false, not_false_eq_true, forall_const]
    exact ⟨by simp, by simp, (e5 _ _).1 hj, trivial, trivial⟩

/-- C87, example: a run of the built-in problem, reflecting, with particles, on four threads. -/
example : ∃ dt : ℝ, 0 < dt ∧ (smallProblem dt).simulation.boundaryCondition = "reflect" ∧ ∃ s fuel' t,
    startRun List.reverse id ⟨4, true⟩ 2 (smallProblem dt) = .ok (some s) ∧
    (∃ d q, RunVisits s.data s.opts fuel' s.state d q) ∧
    RunCore s.data ⟨.rayon, 1, 4, 0⟩ s.opts fuel' s.state t ∧ ∀ r ∈ t.reports, r.2.1.escape = 0 := by
  obtain ⟨dt, hdt, s, fuel', hs, _, hv, _, hr⟩ := small_run
  obtain ⟨t, ht⟩ := (hr 4 (by decide)).2
  exact ⟨dt, hdt, rfl, s, fuel', t, hs, hv, ht, fun r h => ((C87_reflect hs rfl ht).1 r h).1⟩

/-- C87, example: the one cell of the built-in problem with `octant` borders.  At each of its facets a particle has its
event; it leaves at three faces and is reflected at the other three. -/
example (q : Particle ℝ) : ∃ (p : Params ℝ) (s : Started ℝ), ValidInput p ∧ p.simulation.boundaryCondition = "octant" ∧
    startRun id id ⟨1, true⟩ 2 p = .ok (some s) ∧ ∀ (face : Face) (k : Nat), k < 4 →
      ∃ keep st', segmentEvent s.data s.state.unit.dom 9 .facetCrossing
          { particle := { q with domain := s.state.unit.dom.globalDomain, cell := 0, facet := 4 * face.num + k },
            balance := {}, extra := [] } =
            .ok (keep, st') ∧
        (keep = false ↔ face = .xp ∨ face = .yp ∨ face = .zp) ∧
        (st'.particle.lastEvent = .facetCrossingReflection ↔ face = .xm ∨ face = .ym ∨ face = .zm) := by
  have h := small_valid (dt := 1) one_pos
  set p : Params ℝ := { smallProblem 1 with
    simulation := { (smallProblem 1).simulation with boundaryCondition := "octant" } } with hp
  have hv : ValidInput p :=
    ⟨⟨h.named.1, h.named.2⟩, ⟨h.consistent.1, h.consistent.2, h.consistent.3, h.consistent.4⟩, h.units, h.counts, h.sizes,
      h.seed, fun f => by cases f <;> rfl, h.covered, h.root, h.particles, h.dt, h.energies, h.groups, h.materials, h.nuBar,
      h.emits⟩
  have hg : p.grid = Grid.new 1 1 1 100 100 100 := small_grid 1
  have hc1 : cells p.grid = 1 := small_cells 1
  have hid : ∀ l : List Nat, (id l).Perm l := fun _ => .refl _
  have hids : ∀ l : List String, (id l).Perm l := fun _ => .refl _
  obtain ⟨s, hs, h2, _, _, _, _, mats, hsu, hmesh⟩ := hv.start hids hid ⟨1, true⟩ (Nat.le_refl 1) 2 (by rw [hc1])
  refine ⟨p, s, hv, rfl, hs, fun face k hk => ?_⟩
  obtain ⟨dom, cellAt, ev, e1, e2, e3, e4, e5, _⟩ := C16_mesh hid hsu hv.root 2 (by rw [hc1])
  rw [hmesh] at e1
  cases e1
  have hca : cellAt = [0] := by
    have := e3.perm
    rw [hc1] at this
    exact List.perm_singleton.1 this
  have hat : CellAt s.state.unit.dom 0 0 := (e5 0 0).1 (by rw [hca]; rfl)
  have hn : face.num < 6 := by cases face <;> decide
  obtain ⟨⟨keep, st'⟩, hr⟩ := facetBranch_ok h2.tracking.mesh
    (st := { particle := { q with domain := s.state.unit.dom.globalDomain, cell := 0, facet := 4 * face.num + k },
             balance := {}, extra := [] })
    ⟨rfl, by dsimp only; rw [e4, hc1]; exact one_pos, by dsimp only; omega⟩
  refine ⟨keep, st', hr, ?_⟩
  obtain ⟨r1, r2, _⟩ := C87_crossing hv hids hid ⟨1, true⟩ (Nat.le_refl 1) (by rw [hc1]) hs rfl hat hk rfl (f := 9) hr
  have hb : OnBorder p.grid (p.grid.cellIdxToTuple 0) face := by
    rw [hg]
    cases face <;> simp [OnBorder, Grid.new, Grid.cellIdxToTuple]
  have ho : p.simulation.boundaryCondition = "octant" := rfl
  rw [r1, r2, ho]
  constructor <;> cases face <;> simp [hb, borderEvent]
