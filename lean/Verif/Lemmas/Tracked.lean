import Verif.Lemmas.Reach
/-! The particles left by a cycle are those whose tracking ended by census. -/
set_option linter.unusedSectionVars false
attribute [local irreducible] Rng.lcg Rng.sample Rng.spawn
open Flt
variable {T : Type} [Flt T]

theorem TrackRun.visited {data : Data T} {dom : Domain T} {fuel : Nat} {os : List SegOutcome}
    {st st' : TrackState T} (h : TrackRun data dom fuel os st st') : Visited data dom fuel st st' := by
  have trans : ∀ {a b c : TrackState T}, Visited data dom fuel a b → Visited data dom fuel b c →
      Visited data dom fuel a c := by
    intro a b c h1 h2
    induction h2 with
    | start => exact h1
    | step _ ho hst1 hev ih => exact .step ih ho hst1 hev
  induction h with
  | last ho hst1 hev => exact .step .start ho hst1 hev
  | more ho hst1 hev _ ih => exact trans (.step .start ho hst1 hev) ih

/-- Processing a particle prepares it, then follows it until an event stops it. -/
theorem Processed.run {data : Data T} {dom : Domain T} {fuel : Nat} {p q : Particle T}
    (h : Processed data dom fuel p q) : ∃ p0 os b ex st', gutsPrepare data p = .ok p0 ∧
      TrackRun data dom fuel os { particle := p0, balance := b, extra := ex } st' ∧ st'.particle = q := by
  obtain ⟨st, st', tr, rfl, h, rfl⟩ := h
  unfold trackGuts at h
  obtain ⟨t1, t2, p0, rfl, h1, h2⟩ := h.bind_inv
  obtain ⟨_, hp⟩ := h1.ofExcept_inv
  obtain ⟨os, ho⟩ := trackLoop_run h2
  exact ⟨p0, os, _, _, st', hp, ho, rfl⟩

theorem trackAll_tracked {data : Data T} {dom : Domain T} {fuel : Nat} {ps : List (Particle T)}
    {b : Balance} {ex : List (Particle T)} {tr : List (Ev T)} {ps' : List (Particle T)}
    {b' : Balance} {ex' : List (Particle T)} (h : (trackAll data dom fuel ps b ex).May tr (ps', b', ex')) :
    ∀ q ∈ ps', ∃ p ∈ ps, Processed data dom fuel p q := by
  induction ps generalizing b ex tr ps' b' ex' with
  | nil =>
    have := (Prog.May.ret_inv h).2
    simp only [Prod.mk.injEq] at this
    obtain ⟨rfl, rfl, rfl⟩ := this
    simp
  | cons p ps ih =>
    unfold trackAll at h
    obtain ⟨t1, t2, st, rfl, h1, h2⟩ := h.bind_inv
    obtain ⟨t3, t4, ⟨l, b2, ex2⟩, rfl, h3, h4⟩ := h2.bind_inv
    have := (Prog.May.ret_inv h4).2
    simp only [Prod.mk.injEq] at this
    obtain ⟨rfl, rfl, rfl⟩ := this
    intro q hq
    rcases List.mem_cons.1 hq with rfl | hq
    · exact ⟨p, by simp, ⟨_, st, t1, rfl, h1, rfl⟩⟩
    · obtain ⟨r, hr, h⟩ := ih h3 q hq
      exact ⟨r, by simp [hr], h⟩

theorem chunkProg_tracked {data : Data T} {dom : Domain T} {fuel : Nat} {ps : List (Particle T)}
    {tr : List (Ev T)} {ps' : List (Particle T)} {b' : Balance}
    (h : (chunkProg data dom fuel ps).May tr (ps', b')) :
    ∀ q ∈ ps', ∃ p ∈ ps, Processed data dom fuel p q := by
  unfold chunkProg at h
  obtain ⟨t1, t2, ⟨l, b, ex⟩, rfl, h1, h2⟩ := h.bind_inv
  dsimp only at h2
  cases h2 with
  | pushExtra h2 =>
    obtain ⟨rfl, h3⟩ := Prog.May.ret_inv h2
    simp only [Prod.mk.injEq] at h3
    obtain ⟨rfl, rfl⟩ := h3
    exact trackAll_tracked h1

theorem processParticles_tracked {data : Data T} {fuel : Nat} {ex : ExecInfo} {u u' : UnitState T}
    {c c' : Container T} (h : ProcessParticles data ex fuel u c u' c') :
    ∀ q ∈ c'.processed, q ∈ c.processed ∨
      ∃ p ∈ c.processing, Processed data u.dom fuel p q ∧ q.species ≠ .unknown := by
  cases h with
  | seq _ h =>
    simp only [processSeq, bind_ok, pure_ok, Prod.exists] at h
    obtain ⟨ps, b, m, hrun, hfin⟩ := h
    obtain ⟨tr, hmay, heff⟩ := Prog.run_may hrun
    have hc := chunkProg_tracked hmay
    simp only [finishProcess, Prod.mk.injEq] at hfin
    obtain ⟨rfl, rfl⟩ := hfin
    intro q hq
    simp only [List.mem_append, List.mem_filter, decide_eq_true_eq] at hq
    rcases hq with h | h
    · exact .inl h
    · obtain ⟨p, hp, hpq⟩ := hc q h.1
      exact .inr ⟨p, hp, hpq, h.2⟩
  | @par k pool' m' results _ hks hsteps hpool _ _ _ =>
    subst hpool
    obtain ⟨hlen, g, heff, hlt, hmay⟩ := Prog.pool_trace hsteps
    rw [List.length_map] at hlen hlt
    have hkpos := chunkSizeFor_pos hks
    have hflat := chunks_flatten k c.processing hkpos
    intro q hq
    simp only [finishProcess, List.mem_append, List.mem_filter, decide_eq_true_eq] at hq
    rcases hq with h | h
    · exact .inl h
    · obtain ⟨l, hl, hql⟩ := List.mem_flatten.1 h.1
      obtain ⟨r, hr, rfl⟩ := List.mem_map.1 hl
      obtain ⟨j, hj', rfl⟩ := List.mem_iff_getElem.1 hr
      have hj : j < (chunks k c.processing).length := by rw [hlen]; exact hj'
      have hch := List.getElem?_eq_getElem hj
      obtain ⟨p, hp, hpq⟩ := chunkProg_tracked (b' := results[j].2)
        (hmay j _ results[j] (by rw [List.getElem?_map, hch]; rfl) (List.getElem?_eq_getElem hj')) q hql
      refine .inr ⟨p, ?_, hpq, h.2⟩
      rw [← hflat]
      exact List.mem_flatten.2 ⟨_, List.getElem_mem hj, hp⟩

theorem processLoop_tracked {data : Data T} {dom0 : Domain T} {fuel : Nat} {ex : ExecInfo} {u u' : UnitState T}
    {c c' : Container T} (hd : u.dom.skeleton = dom0.skeleton)
    (hk : ∀ p ∈ c.all, Reachable data dom0 fuel p) (h : ProcessLoop data ex fuel u c u' c') :
    c'.processing = [] ∧ c'.extra = [] ∧
    ∀ q ∈ c'.processed, q ∈ c.processed ∨ ∃ d p, d.skeleton = dom0.skeleton ∧ Reachable data dom0 fuel p ∧
      Processed data d fuel p q ∧ q.species ≠ .unknown := by
  induction h with
  | @done u c h =>
    simp only [Container.isDone, Bool.and_eq_true, List.isEmpty_iff] at h
    exact ⟨h.2, h.1, fun q hq => .inl hq⟩
  | @iter u c u1 c1 u2 c2 _ hp _ ih =>
    have hs : ∀ p ∈ c.sort.all, Reachable data dom0 fuel p := by
      intro p hp
      simp only [Container.all, Container.sort, List.mem_append, (stableSort_perm _ _).mem_iff] at hp
      exact hk p (by simp only [Container.all, List.mem_append]; exact hp)
    have hr := processParticles_reach hd hs hp
    obtain ⟨e1, e2, e3⟩ := ih ((congrArg _ (processParticles_dom hp)).trans hd) (by
      intro p hp
      refine hr p ?_
      simp only [Container.all, Container.cleanExtra, List.mem_append] at hp ⊢
      rcases hp with ((h | h) | h) | h
      · exact .inl (.inl h)
      · exact .inr h
      · exact .inl (.inr h)
      · simp at h)
    refine ⟨e1, e2, fun q hq => ?_⟩
    rcases e3 q hq with h | h
    · rcases processParticles_tracked hp q h with h | ⟨p, hp, h⟩
      · exact .inl h
      · exact .inr ⟨u.dom, p, hd, hs p (by simp [Container.all, hp]), h⟩
    · exact .inr h

theorem populationControl_processed {data : Data T} {n : Nat} {w : T} {u u1 : UnitState T} {c c1 : Container T}
    (h : populationControl data n w u c = .ok (u1, c1)) : c1.processed = c.processed := by
  simp only [populationControl, sourceNow, bind_ok, pure_ok, Prod.exists, Prod.mk.injEq] at h
  obtain ⟨u2, c2, ⟨rates, hrates, cells, ps, hcells, rfl, rfl⟩, f, hf, h⟩ := h
  unfold regulateOrSplit at h
  split at h
  · simp only [Container.regulate, Except.ok.injEq, Prod.mk.injEq] at h
    obtain ⟨_, rfl⟩ := h
    rfl
  · split at h
    · simp only [Container.split, Container.cleanExtra, bind_ok, pure_ok, Prod.exists,
        Prod.mk.injEq] at h
      obtain ⟨c3, b1, ⟨ps, cs, hs, rfl, rfl⟩, _, rfl⟩ := h
      rfl
    · simp only [Except.ok.injEq, Prod.mk.injEq] at h
      obtain ⟨_, rfl⟩ := h
      rfl

theorem cycleSync_processed {data : Data T} {o : SyncOpts} {n : Nat} {s s' : SimState T} (hn : n ≤ data.nSteps)
    (h : cycleSync data o n s = .ok s') : s'.container.processed = [] := by
  have hprep : ∀ {s s' : SimState T}, syncPrepare data s = .ok s' → s'.container.processed = [] := by
    intro s s' h
    simp only [syncPrepare, bind_ok, pure_ok] at h
    obtain ⟨_, _, _, _, rfl⟩ := h
    rfl
  unfold cycleSync at h
  split at h
  · rw [bind_ok] at h
    obtain ⟨s1, h1, h⟩ := h
    rw [if_neg (by omega)] at h
    exact hprep h
  · exact hprep h

/-- After a cycle, the container holds particles that went through the cycle alive, and nothing else. -/
theorem cycles_tracked {data : Data T} {ex : ExecInfo} {o : SyncOpts} {fuel n : Nat} {s0 s : SimState T}
    (h0 : InitialState s0) (hn : n ≤ data.nSteps) (h : Cycles data ex o fuel n s0 s) :
    ∀ q ∈ s.container.all, ∃ d p, d.skeleton = s0.unit.dom.skeleton ∧ Reachable data s0.unit.dom fuel p ∧
      Processed data d fuel p q ∧ q.species ≠ .unknown := by
  cases h with
  | zero => simp [Container.all, h0.processing, h0.processed, h0.extra]
  | @succ n _ s1 s2 u c hc hsync hproc =>
    obtain ⟨hd, hk⟩ := cycles_reachable h0 hc
    have hd2 : s2.unit.dom.skeleton = s0.unit.dom.skeleton := by rw [cycleSync_dom hsync, hd]
    have hk2 := fun p hp => hk p (cycleSync_all hsync p hp)
    obtain ⟨u1, c1, hpc, hl⟩ := hproc
    have hk3 := populationControl_reach hd2 hk2 hpc
    have hd3 := (populationControl_skeleton hpc).trans hd2
    obtain ⟨e1, e2, e3⟩ := processLoop_tracked hd3 hk3 hl
    intro q hq
    simp only [Container.all, e1, e2, List.nil_append, List.append_nil] at hq
    rcases e3 q hq with h | h
    · rw [populationControl_processed hpc, cycleSync_processed (by omega) hsync] at h
      simp at h
    · exact h

/-- The tracking of a particle that is still valid ended by census. -/
theorem TrackRun.census {data : Data T} {dom : Domain T} {cfuel : Nat} {os : List SegOutcome} {st st' : TrackState T}
    (h : TrackRun data dom cfuel os st st') (hs : st'.particle.species ≠ .unknown) : os.getLast? = some .census := by
  induction h with
  | @last o st st1 st' tr p _ _ hev =>
    cases o with
    | census => rfl
    | collision =>
      exfalso
      simp only [segmentEvent, collisionBranch, bind_ok, pure_ok, Prod.exists, Prod.mk.injEq] at hev
      obtain ⟨cs, _, keep, st2, _, g, _, hk, rfl⟩ := hev
      subst hk
      exact hs rfl
    | facetCrossing =>
      exfalso
      simp only [segmentEvent, facetBranch, bind_ok] at hev
      obtain ⟨conn, _, fa, _, q, _, hev⟩ := hev
      split at hev
      · simp [pure, Except.pure] at hev
      · obtain ⟨_, _, hev⟩ := bind_ok.1 hev
        obtain ⟨_, _, hev⟩ := bind_ok.1 hev
        simp [pure, Except.pure] at hev
      · cases hev
      · simp only [pure, Except.pure, Except.ok.injEq, Prod.mk.injEq] at hev
        obtain ⟨_, rfl⟩ := hev
        exact hs rfl
      · cases hev
  | @more o os st st1 st2 st' tr p _ _ _ hrest ih =>
    have hne : os ≠ [] := by cases hrest <;> simp
    rw [List.getLast?_cons_of_ne_nil hne]
    exact ih hs
