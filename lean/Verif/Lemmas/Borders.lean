import Verif.Lemmas.CycleCount
import Verif.Lemmas.Sourced
import Verif.Lemmas.RunEquiv
import Verif.Lemmas.StartFloat
import Verif.Lemmas.CycleAt
import Verif.Spec.MeshSpec
/-! The events of the facets of a mesh, and the particles that leave through them. -/
set_option linter.unusedSectionVars false
attribute [local irreducible] Rng.lcg Rng.sample Rng.spawn
open Flt GridSpec MeshSpec
variable {T : Type} [Flt T]

/-! ### The facets of a mesh -/

theorem faceInfos_event {nd : HMap Nat (Option Nat)} {p : Partition} {g : Grid T} {bc : List AdjEvent} {cell : Nat}
    {ci : CellInfo} {l : List FaceInfo} (h : faceInfos nd p g bc cell ci = .ok l) {n : Nat} {fi : FaceInfo}
    (hf : l[n]? = some fi) : bc[n]? = some fi.event ∨ fi.event = .transitOnProcessor ∨ fi.event = .transitOffProcessor := by
  unfold faceInfos at h
  have hn : n < (g.getFaceNbrGids cell).zipIdx.length := by
    rw [← mapM_ok_length h]; exact (List.getElem?_eq_some_iff.1 hf).1
  obtain ⟨b, hb, hfb⟩ := mapM_ok_getElem h n _ (List.getElem?_eq_getElem hn)
  rw [hf] at hb
  cases hb
  simp only [List.getElem_zipIdx, Nat.zero_add, bind_ok] at hfb
  obtain ⟨fci, _, d, _, ni, _, hev⟩ := hfb
  split at hev
  · obtain ⟨ev, he, h⟩ := bind_ok.1 hev
    cases pure_ok.1 h
    exact .inl (idx_ok.1 he)
  split at hev
  · obtain ⟨ev, he, h⟩ := bind_ok.1 hev
    cases pure_ok.1 h
    exact .inr (.inl (pure_ok.1 he).symm)
  · obtain ⟨ev, he, h⟩ := bind_ok.1 hev
    cases pure_ok.1 h
    exact .inr (.inr (pure_ok.1 he).symm)

/-- The event of a facet is the one of the border for its face, or the passage to another cell. -/
def FromBorder (bc : List AdjEvent) (mesh : Mesh T) : Prop :=
  ∀ conn ∈ mesh.cellConnectivity, ∀ n fa, conn.facet[n]? = some fa →
    bc[n / 4]? = some fa.subfacet.event ∨ fa.subfacet.event = .transitOnProcessor ∨
      fa.subfacet.event = .transitOffProcessor

theorem meshBuild_fromBorder {order : IterOrder} {p : Partition} {g : Grid T} {ddc : Decomposition}
    {bc : List AdjEvent} {mesh : Mesh T} (h : Mesh.build order p g ddc bc = .ok mesh) : FromBorder bc mesh := by
  simp only [Mesh.build, bind_ok, pure_ok] at h
  obtain ⟨_, _, nodeIdx, _, conn, hconn, _, _, _, _, rfl⟩ := h
  intro c hc n fa hfa
  unfold buildCells at hconn
  obtain ⟨e, _, he⟩ := mapM_ok_mem hconn hc
  simp only [buildCell, bind_ok, pure_ok] at he
  obtain ⟨points, _, faces, hfaces, facets, hfacets, rfl⟩ := he
  have hn : n < (List.range 24).length := by
    rw [← mapM_ok_length hfacets]; exact (List.getElem?_eq_some_iff.1 hfa).1
  obtain ⟨b, hb, hfb⟩ := mapM_ok_getElem hfacets n _ (List.getElem?_eq_getElem hn)
  dsimp only at hfa
  rw [hfa] at hb
  cases hb
  simp only [List.getElem_range, makeFacet, bind_ok, pure_ok] at hfb
  obtain ⟨_, _, _, _, _, _, _, _, face, hface, _, _, rfl⟩ := hfb
  exact faceInfos_event hfaces (idx_ok.1 hface)

theorem started_fromBorder {so : StrOrder} {io : IterOrder} {m : Machine} {fuel : Nat} {p : Params T} {s : Started T}
    (h : startRun so io m fuel p = .ok (some s)) :
    ∃ bc, getBoundaryConditions p.simulation.boundaryCondition = .ok bc ∧ FromBorder bc s.state.unit.dom.mesh := by
  obtain ⟨nd, mats, dom, doms, _, _, hm, hd, hdom, _⟩ := startRun_parts h
  rw [hdom]
  unfold initMesh at hm
  obtain ⟨ddc, _, hm⟩ := bind_ok.1 hm
  dsimp only at hm
  split at hm
  swap
  · cases hm
  obtain ⟨_, _, hm⟩ := bind_ok.1 hm
  obtain ⟨_, _, hm⟩ := bind_ok.1 hm
  obtain ⟨comm, _, hm⟩ := bind_ok.1 hm
  obtain ⟨gid, _, hg⟩ := mapM_ok_mem hm (List.mem_of_getElem? hd)
  obtain ⟨q, _, hg⟩ := bind_ok.1 hg
  simp only [Domain.build, bind_ok, pure_ok] at hg
  obtain ⟨bc, hbc, mesh, hmesh, cells, _, rfl⟩ := hg
  exact ⟨bc, hbc, meshBuild_fromBorder hmesh⟩

/-- The list of the events of the borders is the one of the specification. -/
theorem boundary_event {s : String} {bc : List AdjEvent} (h : getBoundaryConditions s = .ok bc) {n : Nat} {e : AdjEvent}
    (he : bc[n]? = some e) : ∃ f : Face, f.num = n ∧ borderEvent s f = some e := by
  have key : ∀ {l : List AdjEvent}, l.length = 6 → l[n]? = some e → (∀ f : Face, l[f.num]? = borderEvent s f) →
      ∃ f : Face, f.num = n ∧ borderEvent s f = some e := by
    intro l hl hle hb
    have hn : n < 6 := by rw [← hl]; exact (List.getElem?_eq_some_iff.1 hle).1
    have : ∃ f : Face, f.num = n := by
      interval_cases n
      exacts [⟨.xp, rfl⟩, ⟨.xm, rfl⟩, ⟨.yp, rfl⟩, ⟨.ym, rfl⟩, ⟨.zp, rfl⟩, ⟨.zm, rfl⟩]
    obtain ⟨f, rfl⟩ := this
    exact ⟨f, rfl, by rw [← hb f, hle]⟩
  unfold getBoundaryConditions at h
  split at h
  · next h1 => subst h1; cases h; exact key rfl he fun f => by cases f <;> rfl
  split at h
  · next h1 => subst h1; cases h; exact key rfl he fun f => by cases f <;> rfl
  split at h
  · next h1 => subst h1; cases h; exact key rfl he fun f => by cases f <;> rfl
  · cases h

/-! ### Meshes without a way out -/

/-- No facet lets particles escape. -/
def NoWayOut (mesh : Mesh T) : Prop :=
  ∀ conn ∈ mesh.cellConnectivity, ∀ fa ∈ conn.facet, fa.subfacet.event ≠ .boundaryEscape

theorem facetCrossingEvent_escape {p p' : Particle T} {a : SubfacetAdj} (h : facetCrossingEvent p a = .ok p')
    (hl : p'.lastEvent = .facetCrossingEscape) : a.event = .boundaryEscape := by
  unfold facetCrossingEvent at h
  split at h
  · simp only [bind_ok, pure_ok] at h
    obtain ⟨_, _, _, _, _, _, rfl⟩ := h
    cases hl
  · assumption
  · cases h; cases hl
  · simp only [bind_ok, pure_ok] at h
    obtain ⟨_, _, _, _, _, _, rfl⟩ := h
    cases hl
  · cases h

theorem facetBranch_escape {dom : Domain T} (hw : NoWayOut dom.mesh) {st st' : TrackState T} {keep : Bool}
    (h : facetBranch dom st = .ok (keep, st')) : st'.balance = st.balance := by
  simp only [facetBranch, bind_ok] at h
  obtain ⟨conn, hc, fa, hfa, p, hp, h⟩ := h
  split at h
  · cases pure_ok.1 h; rfl
  · simp only [bind_ok, pure_ok, Prod.mk.injEq] at h
    obtain ⟨_, _, _, _, rfl, rfl⟩ := h
    rfl
  · cases h
  · next hl =>
    exact absurd (facetCrossingEvent_escape hp hl)
      (hw conn (List.mem_of_getElem? (idx_ok.1 hc)) fa (List.mem_of_getElem? (idx_ok.1 hfa)))
  · cases h

theorem segmentEvent_escape {data : Data T} {dom : Domain T} (hw : NoWayOut dom.mesh) {fuel : Nat} {o : SegOutcome}
    {st st' : TrackState T} {keep : Bool} (h : segmentEvent data dom fuel o st = .ok (keep, st')) :
    st'.balance.escape = st.balance.escape := by
  cases o with
  | census =>
    simp only [segmentEvent, Except.ok.injEq, Prod.mk.injEq] at h
    obtain ⟨_, rfl⟩ := h
    rfl
  | facetCrossing => rw [facetBranch_escape hw h]
  | collision =>
    simp only [segmentEvent, collisionBranch, collisionEvent, bind_ok, pure_ok, Prod.mk.injEq, Prod.exists] at h
    obtain ⟨cs, _, k, st1, ⟨mat, _, ro, _, h1⟩, g, _, rfl, rfl⟩ := h
    cases ro with
    | none => simp at h1
    | some r =>
      simp only [bind_ok, pure_ok, Prod.mk.injEq, Prod.exists] at h1
      obtain ⟨n, p', ex, _, rfl, rfl⟩ := h1
      dsimp only
      rw [tallyCollision_eq_add]
      cases r.rtype <;> simp [tallyCollision, Balance.add]

theorem trackLoop_escape {data : Data T} {dom : Domain T} (hw : NoWayOut dom.mesh) {cfuel fuel : Nat}
    {st st' : TrackState T} {tr : List (Ev T)} (h : (trackLoop data dom cfuel fuel st).May tr st') :
    st'.balance.escape = st.balance.escape := by
  induction fuel generalizing st tr with
  | zero => exact (Prog.May.fail_inv h).elim
  | succ n ih =>
    unfold trackLoop at h
    obtain ⟨t1, t2, ⟨keep, st2⟩, rfl, h1, h2⟩ := h.bind_inv
    obtain ⟨tr1, o, p, st1, ho, hst1, _, hev⟩ := trackStep_inv h1
    have e := segmentEvent_escape hw hev
    rw [hst1] at e
    cases keep with
    | true => exact (ih (by simpa using h2)).trans e
    | false =>
      have := (Prog.May.ret_inv (by simpa using h2)).2
      subst this
      exact e

theorem trackAll_escape {data : Data T} {dom : Domain T} (hw : NoWayOut dom.mesh) {fuel : Nat} {ps : List (Particle T)}
    {b : Balance} {ex : List (Particle T)} {tr : List (Ev T)} {r : List (Particle T) × Balance × List (Particle T)}
    (h : (trackAll data dom fuel ps b ex).May tr r) : r.2.1.escape = b.escape := by
  induction ps generalizing b ex tr r with
  | nil => rw [(Prog.May.ret_inv h).2]
  | cons p ps ih =>
    unfold trackAll at h
    obtain ⟨t1, t2, st, rfl, h1, h2⟩ := h.bind_inv
    obtain ⟨t3, t4, ⟨l, b2, ex2⟩, rfl, h3, h4⟩ := h2.bind_inv
    have := (Prog.May.ret_inv h4).2
    subst this
    unfold trackGuts at h1
    obtain ⟨t5, t6, q, rfl, h5, h6⟩ := h1.bind_inv
    exact (ih h3).trans (trackLoop_escape hw h6)

theorem chunkProg_escape {data : Data T} {dom : Domain T} (hw : NoWayOut dom.mesh) {fuel : Nat} {ps : List (Particle T)}
    {tr : List (Ev T)} {r : List (Particle T) × Balance} (h : (chunkProg data dom fuel ps).May tr r) :
    r.2.escape = 0 := by
  unfold chunkProg at h
  obtain ⟨t1, t2, ⟨l, b, ex⟩, rfl, h1, h2⟩ := h.bind_inv
  dsimp only at h2
  cases h2 with
  | pushExtra h2 =>
    have := (Prog.May.ret_inv h2).2
    subst this
    exact trackAll_escape hw h1

theorem foldl_escape {l : List Balance} {b : Balance} (h : ∀ x ∈ l, x.escape = 0) :
    (l.foldl Balance.add b).escape = b.escape := by
  induction l generalizing b with
  | nil => rfl
  | cons x l ih =>
    rw [List.foldl_cons, ih fun y hy => h y (by simp [hy])]
    simp [Balance.add, h x (by simp)]

theorem processParticles_escape {data : Data T} {ex : ExecInfo} {fuel : Nat} {u u' : UnitState T} {c c' : Container T}
    (hw : NoWayOut u.dom.mesh) (h : ProcessParticles data ex fuel u c u' c') :
    u'.balance.escape = u.balance.escape := by
  cases h with
  | seq _ h =>
    simp only [processSeq, bind_ok, pure_ok, Prod.exists] at h
    obtain ⟨ps, b, m, hrun, hfin⟩ := h
    obtain ⟨tr, hmay, _⟩ := Prog.run_may hrun
    simp only [finishProcess, Prod.mk.injEq] at hfin
    obtain ⟨rfl, rfl⟩ := hfin
    have e : b.escape = 0 := chunkProg_escape hw hmay
    simp [Balance.add, e]
  | @par k pool' m' results _ hks hsteps hpool _ _ _ =>
    subst hpool
    obtain ⟨hlen, g, _, _, hmay⟩ := Prog.pool_trace hsteps
    have hz : ∀ x ∈ results.map Prod.snd, x.escape = 0 := by
      intro x hx
      obtain ⟨r, hr, rfl⟩ := List.mem_map.1 hx
      obtain ⟨j, hj⟩ := List.getElem?_of_mem hr
      have hjl : j < ((chunks k c.processing).map (chunkProg data u.dom fuel)).length := by
        rw [hlen]; exact (List.getElem?_eq_some_iff.1 hj).1
      have e := List.getElem?_eq_getElem hjl
      have := hmay j _ r e hj
      rw [List.getElem_map] at this
      exact chunkProg_escape hw this
    simp [finishProcess, Balance.add, Balance.sum, foldl_escape hz]

theorem processLoop_escape {data : Data T} {ex : ExecInfo} {fuel : Nat} {u u' : UnitState T} {c c' : Container T}
    (hw : NoWayOut u.dom.mesh) (h : ProcessLoop data ex fuel u c u' c') : u'.balance.escape = u.balance.escape := by
  induction h with
  | done => rfl
  | iter _ hp _ ih => rw [ih (by rw [processParticles_dom hp]; exact hw), processParticles_escape hw hp]

theorem populationControl_escape {data : Data T} {n : Nat} {w : T} {u u1 : UnitState T}
    {c c1 : Container T} (h : populationControl data n w u c = .ok (u1, c1)) :
    u1.balance.escape = u.balance.escape := by
  simp only [populationControl, sourceNow, bind_ok, pure_ok, Prod.exists, Prod.mk.injEq] at h
  obtain ⟨u3, c3, ⟨_, _, _, _, _, rfl, rfl⟩, f, _, h⟩ := h
  unfold regulateOrSplit at h
  split at h
  · simp only [Container.regulate, Except.ok.injEq, Prod.mk.injEq] at h
    obtain ⟨rfl, rfl⟩ := h
    rfl
  · split at h
    · simp only [Container.split, bind_ok, pure_ok, Prod.exists, Prod.mk.injEq] at h
      obtain ⟨_, _, ⟨_, _, _, rfl, rfl⟩, rfl, rfl⟩ := h
      rfl
    · simp only [Except.ok.injEq, Prod.mk.injEq] at h
      obtain ⟨rfl, rfl⟩ := h
      rfl

theorem skeleton_mesh {d d' : Domain T} (h : d.skeleton = d'.skeleton) : d.mesh = d'.mesh :=
  show d.skeleton.mesh = d'.skeleton.mesh by rw [h]

theorem runCore_escape {data : Data T} {ex : ExecInfo} {o : SyncOpts} {fuel : Nat} {s0 t : SimState T}
    (h0 : StartOfRun s0) (hw : NoWayOut s0.unit.dom.mesh) (h : RunCore data ex o fuel s0 t) :
    ∀ r ∈ t.reports, r.2.1.escape = 0 := by
  intro r hr
  obtain ⟨n, hn⟩ := List.getElem?_of_mem hr
  have hlen : t.reports.length = data.nSteps := by
    simpa using congrArg List.length (runCore_after h0.initial h).steps
  have hns : n < data.nSteps := by rw [← hlen]; exact (List.getElem?_eq_some_iff.1 hn).1
  obtain ⟨t1, t2, u, c, t3, g1, g2, ⟨u1, c1, hpc, hl⟩, g4, g5⟩ := runCore_at hns h0 h
  rw [hn] at g5
  cases g5
  have hd := (cycles_reachable h0.initial g1).1
  have hm : u1.dom.mesh = s0.unit.dom.mesh := by
    rw [skeleton_mesh (populationControl_skeleton hpc), cycleSync_dom g2, skeleton_mesh hd]
  have e := processLoop_escape (by rw [hm]; exact hw) hl
  rw [populationControl_escape hpc,
    (cycleSync_after (by omega) h0.initial (cycles_between (by omega) h0.initial g1) g2).balance] at e
  exact e
