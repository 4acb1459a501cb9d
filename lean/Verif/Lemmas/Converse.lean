import Verif.Lemmas.TrackedBy
import Verif.Lemmas.EndingRun
import Verif.Spec.Together
/-!
# From a finished run to the reference

When every particle that a run can meet has an energy group of the tables, a finished run, under any schedule, tells
that tracking every particle on its own (`Verif/Spec/Direct.lean`) finishes as well.
-/
set_option linter.unusedSectionVars false
attribute [local irreducible] Rng.lcg Rng.sample Rng.spawn
open Flt
variable {T : Type} [Flt T] {data : Data T} {dom0 dom : Domain T} {fuel : Nat}

/-! ### One particle -/

theorem cachedXs_direct (hz : (zero >. (zero : T)) = false) (hgc : GroupsChecked data dom) {cell group : Nat}
    (hg : group < dom.numGroups) {tr : List (Ev T)} {xs : T} (h : (cachedXs data dom cell group).May tr xs)
    (hl : Ev.LoadsIn (CacheAnswer data dom) tr) : directXs data dom cell group = .ok xs := by
  rcases cachedXs_inv h with ⟨v, rfl, hv, rfl⟩ | ⟨v, _, _, hx⟩
  · rcases hl (cell * dom.numGroups + group) xs (by simp) with rfl | ⟨c', g', hi, hx⟩
    · rw [hz] at hv; cases hv
    · obtain ⟨rfl, rfl⟩ := index_inj hg (hgc _ _ _ hx) hi
      exact hx
  · exact hx

theorem outcome_direct (hz : (zero >. (zero : T)) = false) (hgc : GroupsChecked data dom) {p : Particle T}
    (hg : p.energyGroup < dom.numGroups) {tr : List (Ev T)} {x : SegOutcome × Particle T}
    (h : (outcome data dom p).May tr x) (hl : Ev.LoadsIn (CacheAnswer data dom) tr) :
    directOutcome data dom p = .ok x := by
  unfold outcome at h
  unfold directOutcome
  have hgr : (prepareForced p).2.energyGroup = p.energyGroup := by
    unfold prepareForced
    dsimp only
    split <;> rfl
  dsimp only at h ⊢
  generalize prepareForced p = fp at h hgr ⊢
  obtain ⟨force, p'⟩ := fp
  dsimp only at h hgr ⊢
  obtain ⟨t1, t2, xs, rfl, h1, h2⟩ := h.bind_inv
  obtain ⟨_, h3⟩ := h2.ofExcept_inv
  rw [bind_ok]
  exact ⟨xs, cachedXs_direct hz hgc (by rw [hgr]; exact hg) h1 hl.left, h3⟩

theorem collisionEvent_before {mat : Nat} {d : T} {st st2 : TrackState T} {keep : Bool} {b : Balance}
    {ex : List (Particle T)} (h : collisionEvent data fuel mat d (st.after b ex) = .ok (keep, st2)) :
    ∃ st', collisionEvent data fuel mat d st = .ok (keep, st') := by
  unfold collisionEvent at h ⊢
  simp only [TrackState.after] at h
  generalize st.particle.getCurrentXs = xp at h
  obtain ⟨xs, p⟩ := xp
  dsimp only at h ⊢
  rw [bind_ok] at h
  obtain ⟨m, hm, h⟩ := h
  rw [hm]
  simp only [bind_ok] at h
  obtain ⟨r, hr, h⟩ := h
  simp only [bind, Except.bind, hr]
  cases r with
  | none => simp at h
  | some r =>
    simp only [bind_ok, Prod.exists] at h
    obtain ⟨n, p', e, hs, h⟩ := h
    simp only [hs]
    simp only [pure_ok, Prod.mk.injEq] at h
    obtain ⟨rfl, rfl⟩ := h
    exact ⟨_, rfl⟩

theorem segmentEvent_before {o : SegOutcome} {st st2 : TrackState T} {keep : Bool} {b : Balance}
    {ex : List (Particle T)} (h : segmentEvent data dom fuel o (st.after b ex) = .ok (keep, st2)) :
    ∃ st', segmentEvent data dom fuel o st = .ok (keep, st') ∧ st2 = st'.after b ex := by
  have key : ∃ st', segmentEvent data dom fuel o st = .ok (keep, st') := by
    cases o with
    | census =>
      simp only [segmentEvent, Except.ok.injEq, Prod.mk.injEq] at h ⊢
      exact ⟨_, h.1, rfl⟩
    | collision =>
      simp only [segmentEvent, collisionBranch, bind_ok, pure_ok, Prod.exists, Prod.mk.injEq] at h ⊢
      obtain ⟨cs, hcs, k, st1, hce, g, hg, rfl, rfl⟩ := h
      obtain ⟨st', hst⟩ := collisionEvent_before hce
      have e := collisionEvent_after b ex hst
      have e2 : st1 = st'.after b ex := by
        have := hce.symm.trans e
        simpa using this
      subst e2
      exact ⟨_, cs, hcs, k, st', hst, g, hg, rfl, rfl⟩
    | facetCrossing =>
      simp only [segmentEvent, facetBranch, bind_ok] at h ⊢
      obtain ⟨conn, hconn, fa, hfa, p, hp, h⟩ := h
      simp only [TrackState.after] at hconn hfa hp h
      split at h
      · next e =>
        simp only [pure_ok, Prod.mk.injEq] at h
        exact ⟨_, conn, hconn, fa, hfa, p, hp, by rw [e, pure_ok, Prod.mk.injEq]; exact ⟨h.1, rfl⟩⟩
      · next e =>
        simp only [bind_ok, pure_ok, Prod.mk.injEq] at h
        obtain ⟨pls, hpls, pl, hpl, h1, h2⟩ := h
        refine ⟨{ st with particle := reflectParticle p pl }, conn, hconn, fa, hfa, p, hp, ?_⟩
        rw [e]
        simp only [bind_ok, pure_ok, Prod.mk.injEq]
        exact ⟨pls, hpls, pl, hpl, h1, rfl⟩
      · cases h
      · next e =>
        simp only [pure_ok, Prod.mk.injEq] at h
        exact ⟨_, conn, hconn, fa, hfa, p, hp, by rw [e, pure_ok, Prod.mk.injEq]; exact ⟨h.1, rfl⟩⟩
      · cases h
  obtain ⟨st', hst⟩ := key
  refine ⟨st', hst, ?_⟩
  have := h.symm.trans (segmentEvent_after b ex hst)
  simpa using this

theorem trackLoop_direct (hz : (zero >. (zero : T)) = false) (hgc : GroupsChecked data dom)
    (hm : ∀ p, ReachableBy (CacheAnswer data) data dom0 fuel p → p.energyGroup < dom.numGroups)
    (hd : dom.skeleton = dom0.skeleton) {n : Nat} {st st' : TrackState T} {tr : List (Ev T)}
    (h : (trackLoop data dom fuel n st).May tr st') (hl : Ev.LoadsIn (CacheAnswer data dom) tr)
    (hs : ReachableBy (CacheAnswer data) data dom0 fuel st.particle) :
    ∃ x, directLoop data dom fuel n st.particle = .ok x := by
  induction n generalizing st tr with
  | zero => exact (Prog.May.fail_inv h).elim
  | succ n ih =>
    unfold trackLoop at h
    obtain ⟨t1, t2, ⟨keep, st2⟩, rfl, h1, h2⟩ := h.bind_inv
    obtain ⟨tr1, o, p, st1, ho, hst1, rfl, hev⟩ := trackStep_inv h1
    obtain ⟨new, hnew⟩ := segmentEvent_extra hev
    have hl1 := hl.left.left
    have hdo := outcome_direct hz hgc (hm _ hs) ho hl1
    have e1 : st1 = TrackState.after st.balance st.extra
        { particle := { p with numSegments := p.numSegments +. one }, balance := { numSegments := 1 }, extra := [] } := by
      rw [hst1]
      simp only [TrackState.after, List.append_nil, Balance.add, TrackState.mk.injEq, and_true, true_and]
      rfl
    rw [e1] at hev
    obtain ⟨st3, hst3, e3⟩ := segmentEvent_before hev
    unfold directLoop
    simp only [bind_ok, Prod.exists]
    cases keep with
    | true =>
      subst e3
      obtain ⟨x, hx⟩ := ih (st := st3.after st.balance st.extra) (by simpa using h2) hl.right
        (.event hd hs ho hl1 hst3 (List.nil_append _).symm (List.mem_cons_self ..))
      exact ⟨_, o, p, hdo, true, st3, hst3, by rw [if_pos rfl, bind_ok]; exact ⟨x, hx, rfl⟩⟩
    | false =>
      exact ⟨_, o, p, hdo, false, st3, hst3, by rw [if_neg (by simp)]; rfl⟩

theorem trackAll_direct (hz : (zero >. (zero : T)) = false) (hgc : GroupsChecked data dom)
    (hm : ∀ p, ReachableBy (CacheAnswer data) data dom0 fuel p → p.energyGroup < dom.numGroups)
    (hd : dom.skeleton = dom0.skeleton) {ps : List (Particle T)} {b : Balance} {ex : List (Particle T)}
    {tr : List (Ev T)} {r : List (Particle T) × Balance × List (Particle T)}
    (hk : ∀ p ∈ ps, ReachableBy (CacheAnswer data) data dom0 fuel p)
    (h : (trackAll data dom fuel ps b ex).May tr r) (hl : Ev.LoadsIn (CacheAnswer data dom) tr) :
    ∀ p ∈ ps, ∃ x, directHist data dom fuel p = .ok x := by
  induction ps generalizing b ex tr r with
  | nil => simp
  | cons p ps ih =>
    unfold trackAll at h
    obtain ⟨t1, t2, st, rfl, h1, h2⟩ := h.bind_inv
    obtain ⟨t3, t4, ⟨l, b2, ex2⟩, rfl, h3, h4⟩ := h2.bind_inv
    unfold trackGuts at h1
    obtain ⟨t5, t6, q, rfl, h5, h6⟩ := h1.bind_inv
    obtain ⟨_, hq⟩ := h5.ofExcept_inv
    obtain ⟨x, hx⟩ := trackLoop_direct hz hgc hm hd h6 hl.left.right (.prepared (hk p (by simp)) hq)
    have := ih (fun r hr => hk r (by simp [hr])) h3 hl.right.left
    intro r hr
    rcases List.mem_cons.1 hr with rfl | hr
    · exact ⟨x, by unfold directHist; rw [bind_ok]; exact ⟨q, hq, hx⟩⟩
    · exact this r hr

theorem chunkProg_direct (hz : (zero >. (zero : T)) = false) (hgc : GroupsChecked data dom)
    (hm : ∀ p, ReachableBy (CacheAnswer data) data dom0 fuel p → p.energyGroup < dom.numGroups)
    (hd : dom.skeleton = dom0.skeleton) {ps : List (Particle T)}
    {tr : List (Ev T)} {r : List (Particle T) × Balance}
    (hk : ∀ p ∈ ps, ReachableBy (CacheAnswer data) data dom0 fuel p)
    (h : (chunkProg data dom fuel ps).May tr r) (hl : Ev.LoadsIn (CacheAnswer data dom) tr) :
    ∀ p ∈ ps, ∃ x, directHist data dom fuel p = .ok x := by
  unfold chunkProg at h
  obtain ⟨t1, t2, ⟨l, b, ex⟩, rfl, h1, h2⟩ := h.bind_inv
  exact trackAll_direct hz hgc hm hd hk h1 hl.left

theorem mapM_exists {ε α β : Type} {f : α → Except ε β} {l : List α} (h : ∀ x ∈ l, ∃ y, f x = .ok y) :
    ∃ ys, l.mapM f = .ok ys := by
  induction l with
  | nil => exact ⟨[], rfl⟩
  | cons x l ih =>
    obtain ⟨y, hy⟩ := h x (by simp)
    obtain ⟨ys, hys⟩ := ih fun z hz => h z (by simp [hz])
    exact ⟨y :: ys, by rw [List.mapM_cons, hy, hys]; rfl⟩

/-! ### A list of particles, generations -/

theorem processParticles_hist (hz : (zero >. (zero : T)) = false) {ex : ExecInfo} {u u' : UnitState T}
    {c c' : Container T} (hgc : GroupsChecked data u.dom)
    (hm : ∀ p, ReachableBy (CacheAnswer data) data dom0 fuel p → p.energyGroup < u.dom.numGroups)
    (hd : u.dom.skeleton = dom0.skeleton)
    (hk : ∀ p ∈ c.processing, ReachableBy (CacheAnswer data) data dom0 fuel p)
    (hcache : CacheIn (CacheAnswer data u.dom) u.cache)
    (h : ProcessParticles data ex fuel u c u' c') :
    ∃ hs, c.processing.mapM (directHist data u.dom fuel) = .ok hs := by
  have hG := cacheAnswer_stores data u.dom
  apply mapM_exists
  cases h with
  | seq _ h =>
    simp only [processSeq, bind_ok, pure_ok, Prod.exists] at h
    obtain ⟨ps, b, m, hrun, hfin⟩ := h
    obtain ⟨tr, hmay, heff⟩ := Prog.run_may hrun
    obtain ⟨hl, _⟩ := heff.loads hcache ((chunkProg_stores hG _).may hmay)
    exact chunkProg_direct hz hgc hm hd hk hmay hl
  | @par k pool' m' results _ hks hsteps hpool _ _ _ =>
    subst hpool
    obtain ⟨hlen, g, heff, hlt, hmay⟩ := Prog.pool_trace hsteps
    rw [List.length_map] at hlen hlt
    have hkpos := chunkSizeFor_pos hks
    have hflat := chunks_flatten k c.processing hkpos
    have hst : ∀ i v, Ev.store i v ∈ g.map Prod.snd → CacheAnswer data u.dom i v := by
      intro i v hv
      obtain ⟨⟨j, e⟩, he, rfl⟩ := List.mem_map.1 hv
      have hj := hlt _ he
      refine (chunkProg_stores (fuel := fuel) hG _).may (hmay j _ (results[j]'(hlen ▸ hj))
        (by rw [List.getElem?_map, List.getElem?_eq_getElem hj]; rfl) (List.getElem?_eq_getElem _)) i v ?_
      exact List.mem_map.2 ⟨_, List.mem_filter.2 ⟨he, by simp⟩, rfl⟩
    obtain ⟨hl, _⟩ := heff.loads hcache hst
    intro p hp
    rw [← hflat] at hp
    obtain ⟨ch, hch, hp⟩ := List.mem_flatten.1 hp
    obtain ⟨j, hj, rfl⟩ := List.mem_iff_getElem.1 hch
    have hj' : j < results.length := by rw [← hlen]; exact hj
    refine chunkProg_direct hz hgc hm hd (fun q hq => hk q ?_)
      (hmay j _ results[j] (by rw [List.getElem?_map, List.getElem?_eq_getElem hj]; rfl) (List.getElem?_eq_getElem hj'))
      (fun i v hv => hl i v ?_) p hp
    · rw [← hflat]
      exact List.mem_flatten.2 ⟨_, List.getElem_mem hj, hq⟩
    · obtain ⟨x, hx, he⟩ := List.mem_map.1 hv
      exact List.mem_map.2 ⟨x, (List.mem_filter.1 hx).1, he⟩

theorem processLoop_generations (hz : (zero >. (zero : T)) = false) {ex : ExecInfo} {u u' : UnitState T}
    {c c' : Container T} (hgc : GroupsChecked data u.dom)
    (hm : ∀ p, ReachableBy (CacheAnswer data) data dom0 fuel p → p.energyGroup < u.dom.numGroups)
    (hd : u.dom.skeleton = dom0.skeleton)
    (hk : ∀ p ∈ c.all, ReachableBy (CacheAnswer data) data dom0 fuel p)
    (hcache : CacheIn (CacheAnswer data u.dom) u.cache) (hmem : MemOk data u.dom (sharedOf u c))
    (hx : c.extra = []) (h : ProcessLoop data ex fuel u c u' c') :
    ∃ b surv cs, Generations data u.dom fuel c.processing b surv cs := by
  induction h with
  | @done u c h =>
    simp only [Container.isDone, Bool.and_eq_true, List.isEmpty_iff] at h
    rw [h.2]
    exact ⟨_, _, _, .done⟩
  | @iter u c u1 c1 u2 c2 hnd hp _ ih =>
    have hs : ∀ p ∈ c.sort.all, ReachableBy (CacheAnswer data) data dom0 fuel p := by
      intro p hp
      simp only [Container.all, Container.sort, List.mem_append, (stableSort_perm _ _).mem_iff] at hp
      exact hk p (by simp only [Container.all, List.mem_append]; exact hp)
    obtain ⟨this, hc⟩ := processParticles_reachBy hd hs (cacheAnswer_stores _ _) hcache hp
    obtain ⟨hists, hh⟩ := processParticles_hist hz hgc hm hd (fun p hp => hs p (by simp [Container.all, hp]))
      hcache hp
    have hb := processParticles_direct hgc (c := c.sort) hmem hh hp
    obtain ⟨ex1, hex1, hext⟩ := hb.extra
    have hsx : c.sort.extra = [] := hx
    rw [hsx, List.nil_append] at hext
    have hcl : c1.cleanExtra.processing = ex1 := by
      rw [Container.cleanExtra, hb.processing, hext]; rfl
    have hdom := hb.dom
    obtain ⟨b, surv, cs, hg⟩ := ih (hdom.symm ▸ hgc) (hdom.symm ▸ hm) (hdom.symm ▸ hd) (fun p hp => by
      refine this p ?_
      simp only [Container.all, Container.cleanExtra, List.mem_append] at hp ⊢
      rcases hp with ((h | h) | h) | h
      · exact .inl (.inl h)
      · exact .inr h
      · exact .inl (.inr h)
      · simp at h) (hdom.symm ▸ hc) ⟨hdom.symm ▸ hb.mem.cacheLen, hdom.symm ▸ hb.mem.fluxLen, hdom.symm ▸ hb.mem.cache⟩ rfl
    rw [hcl, hdom] at hg
    obtain ⟨surv1, cs1, _, _, hg1⟩ := hg.perm hex1
    have hne : c.sort.processing ≠ [] := by
      intro he
      have he2 : c.processing = [] := by
        have := (stableSort_perm _ _).length_eq.symm.trans (congrArg List.length he)
        exact List.length_eq_zero_iff.1 this
      rw [(isDone_iff c).2 ⟨hx, he2⟩] at hnd
      cases hnd
    obtain ⟨surv2, cs2, _, _, hg2⟩ := (Generations.next hne hh hg1).perm (stableSort_perm _ _)
    exact ⟨_, surv2, cs2, hg2⟩

/-! ### Cycles and runs -/

theorem cycles_direct (hz : (zero >. (zero : T)) = false) {ex : ExecInfo} {o : SyncOpts} {n : Nat} {s0 s' : SimState T}
    (hn : n ≤ data.nSteps) (h0 : InitialState s0) (hs0 : Sized data s0.unit) (hr0 : s0.reports = [])
    (hm : GroupsMet data s0.unit.dom) (h : Cycles data ex o fuel n s0 s') :
    ∃ s, DirectCycles data o fuel n s0 s := by
  induction h with
  | zero => exact ⟨_, .zero⟩
  | @succ n s00 s1 s2 u c hc hsync hproc ih =>
    obtain ⟨r1, hr1⟩ := ih (by omega) h0 hs0 hr0 hm
    obtain ⟨hrel, hsz⟩ := (cycles_rel (ex := ex) hz (by omega) hs0 h0.extra hr0 hr1).1 _ hc
    obtain ⟨r2, hrsync, hrel2⟩ := cycleSync_rel hrel.symm hsync
    obtain ⟨hsz2, hc0⟩ := cycleSync_sized (by omega) hsz hsync
    obtain ⟨hd, hk⟩ := cycles_reachableBy h0 (by omega) hc
    have hd2 : s2.unit.dom.skeleton = s00.unit.dom.skeleton := by rw [cycleSync_dom hsync, hd]
    have hk2 := fun p hp => hk p (cycleSync_all hsync p hp)
    obtain ⟨u1, c1, hpc, hl⟩ := hproc
    have hk3 := populationControl_reach hd2 hk2 hpc
    have hsk := populationControl_skeleton hpc
    have hd3 := hsk.trans hd2
    obtain ⟨v1, k1, hpc', hu1, hk1, _⟩ := populationControl_rel hrel2.unit hrel2.cont hpc
    obtain ⟨t1, t2, _⟩ := populationControl_tables hpc
    have hmem : MemOk data u1.dom (sharedOf u1 c1) := by
      refine ⟨?_, ?_, ?_⟩
      · rw [tableSize_skeleton hsk, sharedOf, t1]; exact hsz2.cacheLen
      · rw [tableSize_skeleton hsk, sharedOf, t2]; exact hsz2.fluxLen
      · intro i v hv
        left
        rw [sharedOf, t1] at hv
        rw [hc0 i v hv]
        exact hz
    obtain ⟨b, surv, cs, hg⟩ := processLoop_generations hz (groupsChecked_skeleton hsk hsz2.groups)
      (fun p hp => by rw [numGroups_skeleton hd3]; exact hm _ p hp) hd3 hk3
      (populationControl_answers (by omega) hsync hpc) hmem hk1.extra hl
    obtain ⟨surv', cs', _, _, hg'⟩ := hg.perm hk1.processing
    rw [← hu1.dom] at hg'
    refine ⟨_, .succ hr1 hrsync ⟨v1, k1, b, surv', cs', ?_, hg', rfl, rfl⟩⟩
    rw [hrel2.globalN, hrel2.srcWeight]
    exact hpc'

/-- A finished run tells that the reference finishes. -/
theorem runCore_direct (hz : (zero >. (zero : T)) = false) {ex : ExecInfo} {o : SyncOpts} {s0 s' : SimState T}
    (h0 : InitialState s0) (hs0 : Sized data s0.unit) (hr0 : s0.reports = [])
    (hm : GroupsMet data s0.unit.dom) (h : RunCore data ex o fuel s0 s') :
    ∃ s, DirectRun data o fuel s0 s := by
  obtain ⟨s1, hc, hsync⟩ := h
  obtain ⟨r1, hr1⟩ := cycles_direct hz (Nat.le_refl _) h0 hs0 hr0 hm hc
  obtain ⟨hrel, _⟩ := (cycles_rel (ex := ex) hz (Nat.le_refl _) hs0 h0.extra hr0 hr1).1 _ hc
  obtain ⟨r2, hrsync, _⟩ := cycleSync_rel hrel.symm hsync
  exact ⟨r2, r1, hr1, hrsync⟩

/-- Fewer answers of the memory, fewer particles. -/
theorem ReachableBy.weaken {G G' : Domain T → Nat → T → Prop} (hG : ∀ d i v, G d i v → G' d i v) {p : Particle T}
    (h : ReachableBy G data dom fuel p) : ReachableBy G' data dom fuel p := by
  induction h with
  | sourced h1 h2 h3 => exact .sourced h1 h2 h3
  | overRr _ ih => exact .overRr ih
  | lowRr _ ih => exact .lowRr ih
  | split _ h1 h2 ih => exact .split ih h1 h2
  | prepared _ h1 ih => exact .prepared ih h1
  | event h1 _ h2 h3 h4 h5 h6 ih => exact .event h1 ih h2 (fun i v hv => hG _ _ _ (h3 i v hv)) h4 h5 h6
