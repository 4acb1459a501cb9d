import Verif.Lemmas.ReachCache
import Verif.Lemmas.Tracked
/-!
# The last segment of a particle

A particle that is left by a cycle ended its last segment by census, and this segment read from the cache only values
that a run can read.
-/
set_option linter.unusedSectionVars false
attribute [local irreducible] Rng.lcg Rng.sample Rng.spawn
open Flt
variable {T : Type} [Flt T] {data : Data T} {dom0 dom : Domain T} {fuel : Nat}
  {G : Domain T → Nat → T → Prop}

/-- The particle is dead, or what a segment that ended by census left. -/
def EndsBy (G : Domain T → Nat → T → Prop) (data : Data T) (dom0 : Domain T) (fuel : Nat) (q : Particle T) : Prop :=
  q.species ≠ .unknown → ∃ d p tr q0, d.skeleton = dom0.skeleton ∧ ReachableBy G data dom0 fuel p ∧
    (outcome data d p).May tr (.census, q0) ∧ Ev.LoadsIn (G d) tr ∧
    q = { q0 with numSegments := q0.numSegments +. one }

theorem trackLoop_ends (hd : dom.skeleton = dom0.skeleton) {n : Nat} {st st' : TrackState T} {tr : List (Ev T)}
    (h : (trackLoop data dom fuel n st).May tr st') (hl : Ev.LoadsIn (G dom) tr)
    (hs : ReachableBy G data dom0 fuel st.particle) : EndsBy G data dom0 fuel st'.particle := by
  induction n generalizing st tr with
  | zero => exact (Prog.May.fail_inv h).elim
  | succ n ih =>
    unfold trackLoop at h
    obtain ⟨t1, t2, ⟨keep, st2⟩, rfl, h1, h2⟩ := h.bind_inv
    obtain ⟨tr1, o, p, st1, ho, hst1, rfl, hev⟩ := trackStep_inv h1
    obtain ⟨new, hnew⟩ := segmentEvent_extra hev
    have hl1 := hl.left.left
    cases keep with
    | true =>
      subst hst1
      exact ih (by simpa using h2) hl.right (.event hd hs ho hl1 hev hnew (by simp))
    | false =>
      have := (Prog.May.ret_inv (by simpa using h2)).2
      subst this
      intro hsp
      have hc := (TrackRun.last ho hst1 hev).census hsp
      simp only [List.getLast?_singleton, Option.some.injEq] at hc
      subst hc
      refine ⟨dom, st.particle, tr1, p, hd, hs, ho, hl1, ?_⟩
      simp only [segmentEvent, Except.ok.injEq, Prod.mk.injEq] at hev
      rw [← hev.2, hst1]

theorem trackAll_ends (hd : dom.skeleton = dom0.skeleton) {ps : List (Particle T)}
    {b : Balance} {ex : List (Particle T)} {tr : List (Ev T)} {ps' : List (Particle T)}
    {b' : Balance} {ex' : List (Particle T)} (hk : ∀ p ∈ ps, ReachableBy G data dom0 fuel p)
    (h : (trackAll data dom fuel ps b ex).May tr (ps', b', ex')) (hl : Ev.LoadsIn (G dom) tr) :
    ∀ p ∈ ps', EndsBy G data dom0 fuel p := by
  induction ps generalizing b ex tr ps' b' ex' with
  | nil =>
    have := (Prog.May.ret_inv h).2
    simp only [Prod.mk.injEq] at this
    obtain ⟨rfl, rfl, rfl⟩ := this
    simp
  | cons p ps ih =>
    unfold trackAll at h
    obtain ⟨t1, t2, st, rfl, h1, h2⟩ := h.bind_inv
    obtain ⟨t3, t4, ⟨l, b2, ex2⟩, rfl, h3, h4⟩ := h2.bind_inv
    have := (Prog.May.ret_inv h4).2
    simp only [Prod.mk.injEq] at this
    obtain ⟨rfl, rfl, rfl⟩ := this
    unfold trackGuts at h1
    obtain ⟨t5, t6, q, rfl, h5, h6⟩ := h1.bind_inv
    obtain ⟨_, hq⟩ := h5.ofExcept_inv
    have r1 := trackLoop_ends hd h6 hl.left.right (.prepared (hk p (by simp)) hq)
    have := ih (fun r hr => hk r (by simp [hr])) h3 hl.right.left
    intro r hr
    rcases List.mem_cons.1 hr with rfl | hr
    · exact r1
    · exact this r hr

theorem chunkProg_ends (hd : dom.skeleton = dom0.skeleton) {ps : List (Particle T)}
    {tr : List (Ev T)} {ps' : List (Particle T)} {b' : Balance}
    (hk : ∀ p ∈ ps, ReachableBy G data dom0 fuel p)
    (h : (chunkProg data dom fuel ps).May tr (ps', b')) (hl : Ev.LoadsIn (G dom) tr) :
    ∀ p ∈ ps', EndsBy G data dom0 fuel p := by
  unfold chunkProg at h
  obtain ⟨t1, t2, ⟨l, b, ex⟩, rfl, h1, h2⟩ := h.bind_inv
  dsimp only at h2
  cases h2 with
  | pushExtra h2 =>
    obtain ⟨rfl, h3⟩ := Prog.May.ret_inv h2
    simp only [Prod.mk.injEq] at h3
    obtain ⟨rfl, rfl⟩ := h3
    exact trackAll_ends hd hk h1 hl.left

theorem processParticles_ends {ex : ExecInfo} {u u' : UnitState T} {c c' : Container T}
    (hd : u.dom.skeleton = dom0.skeleton) (hk : ∀ p ∈ c.processing, ReachableBy G data dom0 fuel p)
    (hG : StoresIn data u.dom (G u.dom)) (hcache : CacheIn (G u.dom) u.cache)
    (h : ProcessParticles data ex fuel u c u' c') :
    ∀ p ∈ c'.processed, p ∈ c.processed ∨ (EndsBy G data dom0 fuel p ∧ p.species ≠ .unknown) := by
  cases h with
  | seq _ h =>
    simp only [processSeq, bind_ok, pure_ok, Prod.exists] at h
    obtain ⟨ps, b, m, hrun, hfin⟩ := h
    obtain ⟨tr, hmay, heff⟩ := Prog.run_may hrun
    obtain ⟨hl, _⟩ := heff.loads hcache ((chunkProg_stores hG _).may hmay)
    have hc := chunkProg_ends hd hk hmay hl
    simp only [finishProcess, Prod.mk.injEq] at hfin
    obtain ⟨rfl, rfl⟩ := hfin
    intro p hp
    simp only [List.mem_append, List.mem_filter, decide_eq_true_eq] at hp
    rcases hp with h | h
    · exact .inl h
    · exact .inr ⟨hc p h.1, h.2⟩
  | @par k pool' m' results _ hks hsteps hpool _ _ _ =>
    subst hpool
    obtain ⟨hlen, g, heff, hlt, hmay⟩ := Prog.pool_trace hsteps
    rw [List.length_map] at hlen hlt
    have hkpos := chunkSizeFor_pos hks
    have hflat := chunks_flatten k c.processing hkpos
    have hst : ∀ i v, Ev.store i v ∈ g.map Prod.snd → G u.dom i v := by
      intro i v hv
      obtain ⟨⟨j, e⟩, he, rfl⟩ := List.mem_map.1 hv
      have hj := hlt _ he
      refine (chunkProg_stores (fuel := fuel) hG _).may (hmay j _ (results[j]'(hlen ▸ hj))
        (by rw [List.getElem?_map, List.getElem?_eq_getElem hj]; rfl) (List.getElem?_eq_getElem _)) i v ?_
      exact List.mem_map.2 ⟨_, List.mem_filter.2 ⟨he, by simp⟩, rfl⟩
    obtain ⟨hl, _⟩ := heff.loads hcache hst
    intro p hp
    simp only [finishProcess, List.mem_append, List.mem_filter, decide_eq_true_eq] at hp
    rcases hp with h | h
    · exact .inl h
    · obtain ⟨l, hl', hp⟩ := List.mem_flatten.1 h.1
      obtain ⟨r, hr, rfl⟩ := List.mem_map.1 hl'
      obtain ⟨j, hj', rfl⟩ := List.mem_iff_getElem.1 hr
      have hj : j < (chunks k c.processing).length := by rw [hlen]; exact hj'
      have hch := List.getElem?_eq_getElem hj
      refine .inr ⟨chunkProg_ends (b' := results[j].2) hd (fun p hp => hk p ?_)
        (hmay j _ results[j] (by rw [List.getElem?_map, hch]; rfl) (List.getElem?_eq_getElem hj'))
        (fun i v hv => hl i v ?_) p hp, h.2⟩
      · rw [← hflat]
        exact List.mem_flatten.2 ⟨_, List.getElem_mem hj, hp⟩
      · obtain ⟨x, hx, he⟩ := List.mem_map.1 hv
        exact List.mem_map.2 ⟨x, (List.mem_filter.1 hx).1, he⟩

theorem processLoop_ends {ex : ExecInfo} {u u' : UnitState T} {c c' : Container T}
    (hd : u.dom.skeleton = dom0.skeleton) (hk : ∀ p ∈ c.all, ReachableBy G data dom0 fuel p)
    (hG : StoresIn data u.dom (G u.dom)) (hcache : CacheIn (G u.dom) u.cache)
    (h : ProcessLoop data ex fuel u c u' c') :
    c'.processing = [] ∧ c'.extra = [] ∧
    ∀ p ∈ c'.processed, p ∈ c.processed ∨ (EndsBy G data dom0 fuel p ∧ p.species ≠ .unknown) := by
  induction h with
  | @done u c h =>
    simp only [Container.isDone, Bool.and_eq_true, List.isEmpty_iff] at h
    exact ⟨h.2, h.1, fun q hq => .inl hq⟩
  | @iter u c u1 c1 u2 c2 _ hp _ ih =>
    have hs : ∀ p ∈ c.sort.all, ReachableBy G data dom0 fuel p := by
      intro p hp
      simp only [Container.all, Container.sort, List.mem_append, (stableSort_perm _ _).mem_iff] at hp
      exact hk p (by simp only [Container.all, List.mem_append]; exact hp)
    obtain ⟨this, hc⟩ := processParticles_reachBy hd hs hG hcache hp
    have hdom := processParticles_dom hp
    obtain ⟨e1, e2, e3⟩ := ih (hdom ▸ hd) (fun p hp => by
      refine this p ?_
      simp only [Container.all, Container.cleanExtra, List.mem_append] at hp ⊢
      rcases hp with ((h | h) | h) | h
      · exact .inl (.inl h)
      · exact .inr h
      · exact .inl (.inr h)
      · simp at h) (hdom.symm ▸ hG) (hdom.symm ▸ hc)
    refine ⟨e1, e2, fun q hq => ?_⟩
    rcases e3 q hq with h | h
    · exact processParticles_ends hd (fun p hp => hs p (by simp [Container.all, hp])) hG hcache hp q h
    · exact .inr h

/-- After a cycle, every particle is what a segment that ended by census left. -/
theorem cycles_ends {ex : ExecInfo} {o : SyncOpts} {n : Nat} {s0 s : SimState T}
    (h0 : InitialState s0) (hn : n ≤ data.nSteps) (h : Cycles data ex o fuel n s0 s) :
    ∀ q ∈ s.container.all, ∃ d p tr q0, d.skeleton = s0.unit.dom.skeleton ∧
      ReachableBy (CacheAnswer data) data s0.unit.dom fuel p ∧
      (outcome data d p).May tr (.census, q0) ∧ Ev.LoadsIn (CacheAnswer data d) tr ∧
      q = { q0 with numSegments := q0.numSegments +. one } := by
  cases h with
  | zero => simp [Container.all, h0.processing, h0.processed, h0.extra]
  | @succ n _ s1 s2 u c hc hsync hproc =>
    obtain ⟨hd, hk⟩ := cycles_reachableBy h0 (by omega) hc
    have hd2 : s2.unit.dom.skeleton = s0.unit.dom.skeleton := by rw [cycleSync_dom hsync, hd]
    have hk2 := fun p hp => hk p (cycleSync_all hsync p hp)
    obtain ⟨u1, c1, hpc, hl⟩ := hproc
    have hk3 := populationControl_reach hd2 hk2 hpc
    have hd3 := (populationControl_skeleton hpc).trans hd2
    obtain ⟨e1, e2, e3⟩ := processLoop_ends hd3 hk3 (cacheAnswer_stores _ _)
      (populationControl_answers (by omega) hsync hpc) hl
    intro q hq
    simp only [Container.all, e1, e2, List.nil_append, List.append_nil] at hq
    rcases e3 q hq with h | ⟨h, h'⟩
    · rw [populationControl_processed hpc, cycleSync_processed (by omega) hsync] at h
      simp at h
    · exact h h'
