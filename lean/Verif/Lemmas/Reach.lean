import Verif.Lemmas.RunEquiv
/-! Every particle of every run is `Reachable`. -/
set_option linter.unusedSectionVars false
attribute [local irreducible] Rng.lcg Rng.sample Rng.spawn
open Flt
variable {T : Type} [Flt T]

theorem segmentEvent_extra {data : Data T} {dom : Domain T} {fuel : Nat} {o : SegOutcome}
    {st st' : TrackState T} {keep : Bool} (h : segmentEvent data dom fuel o st = .ok (keep, st')) :
    ∃ new, st'.extra = st.extra ++ new := by
  cases o with
  | census =>
    simp only [segmentEvent, Except.ok.injEq, Prod.mk.injEq] at h
    obtain ⟨_, rfl⟩ := h
    exact ⟨[], by simp⟩
  | facetCrossing =>
    simp only [segmentEvent, facetBranch, bind_ok] at h
    obtain ⟨conn, _, fa, _, p, hp, h⟩ := h
    split at h
    all_goals first
      | (simp only [pure_ok, Prod.mk.injEq] at h; obtain ⟨_, rfl⟩ := h; exact ⟨[], by simp⟩)
      | (simp only [bind_ok, pure_ok, Prod.mk.injEq] at h
         obtain ⟨_, _, _, _, _, rfl⟩ := h; exact ⟨[], by simp⟩)
      | simp at h
  | collision =>
    simp only [segmentEvent, collisionBranch, collisionEvent, bind_ok, pure_ok, Prod.mk.injEq,
      Prod.exists] at h
    obtain ⟨cs, _, k, st1, ⟨mat, _, ro, _, h1⟩, g, _, rfl, rfl⟩ := h
    cases ro with
    | none => simp at h1
    | some r =>
      simp only [bind_ok, pure_ok, Prod.mk.injEq, Prod.exists] at h1
      obtain ⟨n, p', ex, _, _, rfl⟩ := h1
      exact ⟨ex, rfl⟩

section
variable {data : Data T} {dom0 dom : Domain T} {fuel : Nat}

theorem Ev.LoadsIn.left {G : Nat → T → Prop} {a b : List (Ev T)} (h : Ev.LoadsIn G (a ++ b)) : Ev.LoadsIn G a :=
  fun i v hv => h i v (List.mem_append_left _ hv)

theorem Ev.LoadsIn.right {G : Nat → T → Prop} {a b : List (Ev T)} (h : Ev.LoadsIn G (a ++ b)) : Ev.LoadsIn G b :=
  fun i v hv => h i v (List.mem_append_right _ hv)

variable {G : Domain T → Nat → T → Prop}

theorem trackLoop_reach (hd : dom.skeleton = dom0.skeleton) {n : Nat} {st st' : TrackState T} {tr : List (Ev T)}
    (h : (trackLoop data dom fuel n st).May tr st') (hl : Ev.LoadsIn (G dom) tr)
    (hs : ReachableBy G data dom0 fuel st.particle) :
    ReachableBy G data dom0 fuel st'.particle ∧
      ∃ new, st'.extra = st.extra ++ new ∧ ∀ r ∈ new, ReachableBy G data dom0 fuel r := by
  induction n generalizing st tr with
  | zero => exact (Prog.May.fail_inv h).elim
  | succ n ih =>
    unfold trackLoop at h
    obtain ⟨t1, t2, ⟨keep, st2⟩, rfl, h1, h2⟩ := h.bind_inv
    obtain ⟨tr1, o, p, st1, ho, hst1, rfl, hev⟩ := trackStep_inv h1
    obtain ⟨new, hnew⟩ := segmentEvent_extra hev
    subst hst1
    have hl1 := hl.left.left
    cases keep with
    | true =>
      obtain ⟨i1, new', i2, i3⟩ := ih (by simpa using h2) hl.right (.event hd hs ho hl1 hev hnew (by simp))
      refine ⟨i1, new ++ new', by rw [i2, hnew, List.append_assoc], fun r hr => ?_⟩
      rcases List.mem_append.1 hr with h | h
      · exact .event hd hs ho hl1 hev hnew (by simp [h])
      · exact i3 r h
    | false =>
      have := (Prog.May.ret_inv (by simpa using h2)).2
      subst this
      exact ⟨.event hd hs ho hl1 hev hnew (by simp), new, hnew, fun r hr =>
        .event hd hs ho hl1 hev hnew (by simp [hr])⟩

theorem trackAll_reach (hd : dom.skeleton = dom0.skeleton) {ps : List (Particle T)}
    {b : Balance} {ex : List (Particle T)} {tr : List (Ev T)} {ps' : List (Particle T)}
    {b' : Balance} {ex' : List (Particle T)} (hk : ∀ p ∈ ps ++ ex, ReachableBy G data dom0 fuel p)
    (h : (trackAll data dom fuel ps b ex).May tr (ps', b', ex')) (hl : Ev.LoadsIn (G dom) tr) :
    ∀ p ∈ ps' ++ ex', ReachableBy G data dom0 fuel p := by
  induction ps generalizing b ex tr ps' b' ex' with
  | nil =>
    have := (Prog.May.ret_inv h).2
    simp only [Prod.mk.injEq] at this
    obtain ⟨rfl, rfl, rfl⟩ := this
    exact hk
  | cons p ps ih =>
    unfold trackAll at h
    obtain ⟨t1, t2, st, rfl, h1, h2⟩ := h.bind_inv
    obtain ⟨t3, t4, ⟨l, b2, ex2⟩, rfl, h3, h4⟩ := h2.bind_inv
    have := (Prog.May.ret_inv h4).2
    simp only [Prod.mk.injEq] at this
    obtain ⟨rfl, rfl, rfl⟩ := this
    unfold trackGuts at h1
    obtain ⟨t5, t6, q, rfl, h5, h6⟩ := h1.bind_inv
    obtain ⟨_, hq⟩ := h5.ofExcept_inv
    obtain ⟨r1, new, hnew, r2⟩ := trackLoop_reach hd h6 hl.left.right (.prepared (hk p (by simp)) hq)
    have := ih (ex := st.extra) (by
      intro r hr
      rw [hnew] at hr
      simp only [List.mem_append] at hr
      rcases hr with h | h | h
      · exact hk r (by simp [h])
      · exact hk r (by simp [h])
      · exact r2 r h) h3 hl.right.left
    intro r hr
    simp only [List.cons_append, List.mem_cons] at hr
    rcases hr with rfl | hr
    · exact r1
    · exact this r hr

theorem chunkProg_reach (hd : dom.skeleton = dom0.skeleton) {ps : List (Particle T)}
    {tr : List (Ev T)} {ps' : List (Particle T)} {b' : Balance}
    (hk : ∀ p ∈ ps, ReachableBy G data dom0 fuel p)
    (h : (chunkProg data dom fuel ps).May tr (ps', b')) (hl : Ev.LoadsIn (G dom) tr) :
    ∀ p ∈ ps' ++ Ev.pushes tr, ReachableBy G data dom0 fuel p := by
  unfold chunkProg at h
  obtain ⟨t1, t2, ⟨l, b, ex⟩, rfl, h1, h2⟩ := h.bind_inv
  dsimp only at h2
  cases h2 with
  | pushExtra h2 =>
    obtain ⟨rfl, h3⟩ := Prog.May.ret_inv h2
    simp only [Prod.mk.injEq] at h3
    obtain ⟨rfl, rfl⟩ := h3
    have := trackAll_reach hd (by simpa using hk) h1 hl.left
    rw [Ev.pushes_append, trackAll_pushes h1]
    simpa [Ev.pushes] using this

/-! ### What the programs store -/

/-- What is computed for a cache entry is allowed in this entry. -/
def StoresIn (data : Data T) (dom : Domain T) (G : Nat → T → Prop) : Prop :=
  ∀ cell group v, directXs data dom cell group = .ok v → G (cell * dom.numGroups + group) v

theorem cachedXs_stores {G : Nat → T → Prop} (hG : StoresIn data dom G) (c g : Nat) :
    (cachedXs data dom c g).Stores G := by
  intro v
  dsimp only
  split
  · trivial
  · split
    · trivial
    · next h => exact ⟨hG _ _ _ h, trivial⟩

theorem trackStep_stores {G : Nat → T → Prop} (hG : StoresIn data dom G) (st : TrackState T) :
    (trackStep data dom fuel st).Stores G := by
  unfold trackStep outcome
  refine Prog.Stores.bind ?_ fun a => ?_
  · exact Prog.Stores.bind (cachedXs_stores hG _ _) fun a => Prog.Stores.ofExcept _
  · exact Prog.Stores.ofExcept _

theorem trackLoop_stores {G : Nat → T → Prop} (hG : StoresIn data dom G) (n : Nat) (st : TrackState T) :
    (trackLoop data dom fuel n st).Stores G := by
  induction n generalizing st with
  | zero => trivial
  | succ n ih =>
    unfold trackLoop
    refine Prog.Stores.bind (trackStep_stores hG st) fun a => ?_
    obtain ⟨keep, st2⟩ := a
    cases keep with
    | true => exact ih st2
    | false => trivial

theorem chunkProg_stores {G : Nat → T → Prop} (hG : StoresIn data dom G) (ps : List (Particle T)) :
    (chunkProg data dom fuel ps).Stores G := by
  have hall : ∀ (ps : List (Particle T)) (b : Balance) (ex : List (Particle T)),
      (trackAll data dom fuel ps b ex).Stores G := by
    intro ps
    induction ps with
    | nil => exact fun b ex => trivial
    | cons p ps ih =>
      intro b ex
      unfold trackAll trackGuts
      refine Prog.Stores.bind (Prog.Stores.bind (Prog.Stores.ofExcept _) fun a => trackLoop_stores hG _ _)
        fun a => ?_
      exact Prog.Stores.bind (ih _ _) fun a => trivial
  unfold chunkProg
  exact Prog.Stores.bind (hall _ _ _) fun a => trivial

/-- All the particles of a container. -/
def Container.all (c : Container T) : List (Particle T) := c.processing ++ c.processed ++ c.extra

theorem processParticles_reachBy {ex : ExecInfo} {u u' : UnitState T} {c c' : Container T}
    (hd : u.dom.skeleton = dom0.skeleton) (hk : ∀ p ∈ c.all, ReachableBy G data dom0 fuel p)
    (hG : StoresIn data u.dom (G u.dom)) (hcache : CacheIn (G u.dom) u.cache)
    (h : ProcessParticles data ex fuel u c u' c') :
    (∀ p ∈ c'.all, ReachableBy G data dom0 fuel p) ∧ CacheIn (G u.dom) u'.cache := by
  have hk1 : ∀ p ∈ c.processing, ReachableBy G data dom0 fuel p := fun p hp => hk p (by simp [Container.all, hp])
  have hk2 : ∀ p ∈ c.processed, ReachableBy G data dom0 fuel p := fun p hp => hk p (by simp [Container.all, hp])
  have hk3 : ∀ p ∈ c.extra, ReachableBy G data dom0 fuel p := fun p hp => hk p (by simp [Container.all, hp])
  cases h with
  | seq _ h =>
    simp only [processSeq, bind_ok, pure_ok, Prod.exists] at h
    obtain ⟨ps, b, m, hrun, hfin⟩ := h
    obtain ⟨tr, hmay, heff⟩ := Prog.run_may hrun
    obtain ⟨hl, hcache'⟩ := heff.loads hcache ((chunkProg_stores hG _).may hmay)
    have hc := chunkProg_reach hd hk1 hmay hl
    simp only [finishProcess, Prod.mk.injEq] at hfin
    obtain ⟨rfl, rfl⟩ := hfin
    refine ⟨fun p hp => ?_, hcache'⟩
    simp only [Container.all, heff.extra, sharedOf, List.mem_append, List.nil_append,
      List.mem_filter] at hp
    rcases hp with (h | h) | h | h
    · exact hk2 p h
    · exact hc p (List.mem_append_left _ h.1)
    · exact hk3 p h
    · exact hc p (List.mem_append_right _ h)
  | @par k pool' m' results _ hks hsteps hpool _ _ _ =>
    subst hpool
    obtain ⟨hlen, g, heff, hlt, hmay⟩ := Prog.pool_trace hsteps
    rw [List.length_map] at hlen hlt
    have hkpos := chunkSizeFor_pos hks
    have hflat := chunks_flatten k c.processing hkpos
    have hst : ∀ i v, Ev.store i v ∈ g.map Prod.snd → G u.dom i v := by
      intro i v hv
      obtain ⟨⟨j, e⟩, he, rfl⟩ := List.mem_map.1 hv
      have hj := hlt _ he
      refine (chunkProg_stores (fuel := fuel) hG _).may (hmay j _ (results[j]'(hlen ▸ hj))
        (by rw [List.getElem?_map, List.getElem?_eq_getElem hj]; rfl) (List.getElem?_eq_getElem _)) i v ?_
      exact List.mem_map.2 ⟨_, List.mem_filter.2 ⟨he, by simp⟩, rfl⟩
    obtain ⟨hl, hcache'⟩ := heff.loads hcache hst
    have hw : ∀ j r, results[j]? = some r →
        ∀ p ∈ r.1 ++ Ev.pushes (Ev.proj g j), ReachableBy G data dom0 fuel p := by
      intro j r hr
      have hj : j < (chunks k c.processing).length := by
        rw [hlen]; exact (List.getElem?_eq_some_iff.1 hr).1
      have hch := List.getElem?_eq_getElem hj
      refine chunkProg_reach (b' := r.2) hd (fun p hp => hk1 p ?_)
        (hmay j _ r (by rw [List.getElem?_map, hch]; rfl) hr) (fun i v hv => hl i v ?_)
      · rw [← hflat]
        exact List.mem_flatten.2 ⟨_, List.getElem_mem hj, hp⟩
      · obtain ⟨x, hx, he⟩ := List.mem_map.1 hv
        exact List.mem_map.2 ⟨x, (List.mem_filter.1 hx).1, he⟩
    refine ⟨fun p hp => ?_, hcache'⟩
    simp only [Container.all, finishProcess, heff.extra, sharedOf, List.mem_append, List.nil_append,
      List.mem_filter] at hp
    rcases hp with (h | h) | h | h
    · exact hk2 p h
    · obtain ⟨l, hl, hp⟩ := List.mem_flatten.1 h.1
      obtain ⟨r, hr, rfl⟩ := List.mem_map.1 hl
      obtain ⟨j, hj, rfl⟩ := List.mem_iff_getElem.1 hr
      exact hw j _ (List.getElem?_eq_getElem hj) p (List.mem_append_left _ hp)
    · exact hk3 p h
    · rw [Ev.pushes_eq] at h
      have h' := ((Ev.perm_proj g _ hlt).flatMap_right Ev.pushed).mem_iff.1 h
      rw [List.flatMap_assoc] at h'
      obtain ⟨j, hj, hp⟩ := List.mem_flatMap.1 h'
      rw [List.mem_range, hlen] at hj
      exact hw j _ (List.getElem?_eq_getElem hj) p (List.mem_append_right _ (by rw [Ev.pushes_eq]; exact hp))

theorem processLoop_reachBy {ex : ExecInfo} {u u' : UnitState T} {c c' : Container T}
    (hd : u.dom.skeleton = dom0.skeleton) (hk : ∀ p ∈ c.all, ReachableBy G data dom0 fuel p)
    (hG : StoresIn data u.dom (G u.dom)) (hcache : CacheIn (G u.dom) u.cache)
    (h : ProcessLoop data ex fuel u c u' c') :
    (∀ p ∈ c'.all, ReachableBy G data dom0 fuel p) ∧ CacheIn (G u.dom) u'.cache := by
  induction h with
  | done => exact ⟨hk, hcache⟩
  | @iter u c u1 c1 u2 c2 _ hp _ ih =>
    have hs : ∀ p ∈ c.sort.all, ReachableBy G data dom0 fuel p := by
      intro p hp
      simp only [Container.all, Container.sort, List.mem_append, (stableSort_perm _ _).mem_iff] at hp
      exact hk p (by simp only [Container.all, List.mem_append]; exact hp)
    obtain ⟨this, hc⟩ := processParticles_reachBy hd hs hG hcache hp
    have hdom := processParticles_dom hp
    rw [← hdom]
    refine ih (hdom ▸ hd) (fun p hp => this p ?_) (hdom.symm ▸ hG) (hdom.symm ▸ hc)
    simp only [Container.all, Container.cleanExtra, List.mem_append] at hp ⊢
    rcases hp with ((h | h) | h) | h
    · exact .inl (.inl h)
    · exact .inr h
    · exact .inl (.inr h)
    · simp at h

theorem processParticles_reach {ex : ExecInfo} {u u' : UnitState T} {c c' : Container T}
    (hd : u.dom.skeleton = dom0.skeleton) (hk : ∀ p ∈ c.all, Reachable data dom0 fuel p)
    (h : ProcessParticles data ex fuel u c u' c') : ∀ p ∈ c'.all, Reachable data dom0 fuel p :=
  (processParticles_reachBy hd hk (fun _ _ _ _ => trivial) (fun _ _ _ => trivial) h).1

theorem processLoop_reach {ex : ExecInfo} {u u' : UnitState T} {c c' : Container T}
    (hd : u.dom.skeleton = dom0.skeleton) (hk : ∀ p ∈ c.all, Reachable data dom0 fuel p)
    (h : ProcessLoop data ex fuel u c u' c') : ∀ p ∈ c'.all, Reachable data dom0 fuel p :=
  (processLoop_reachBy hd hk (fun _ _ _ _ => trivial) (fun _ _ _ => trivial) h).1

theorem sourceCells_reach (hd : dom.skeleton = dom0.skeleton) {rates : List T} {w : T}
    {pre cells cells' : List (CellState T)} {ps : List (Particle T)}
    (hpre : dom.cells = pre ++ cells)
    (h : sourceCells data dom rates w cells pre.length = .ok (cells', ps)) :
    ∀ p ∈ ps, ReachableBy G data dom0 fuel p := by
  induction cells generalizing pre cells' ps with
  | nil =>
    simp only [sourceCells, Except.ok.injEq, Prod.mk.injEq] at h
    obtain ⟨_, rfl⟩ := h
    simp
  | cons cell cells ih =>
    simp only [sourceCells, bind_ok, pure_ok, Prod.exists, Prod.mk.injEq] at h
    obtain ⟨n, _, ps1, hps1, cs, ps2, hcs, _, rfl⟩ := h
    intro p hp
    rcases List.mem_append.1 hp with h | h
    · obtain ⟨s, _, hs⟩ := mapM_ok_mem hps1 h
      exact .sourced hd (by rw [hpre]; simp) hs
    · exact ih (pre := pre ++ [cell]) (by simp [hpre]) (by simpa using hcs) p h

theorem regulateOne_reach {f c w : T} {p : Particle T} (h : ReachableBy G data dom0 fuel p) :
    ReachableBy G data dom0 fuel (regulateOne f c w p).1 := by
  unfold regulateOne
  exact .lowRr (.overRr h)

theorem splitAll_reach {f : T} {l ps cs : List (Particle T)} (h : splitAll f l = .ok (ps, cs))
    (hk : ∀ p ∈ l, ReachableBy G data dom0 fuel p) : ∀ p ∈ ps ++ cs, ReachableBy G data dom0 fuel p := by
  induction l generalizing ps cs with
  | nil =>
    simp only [splitAll, Except.ok.injEq, Prod.mk.injEq] at h
    obtain ⟨rfl, rfl⟩ := h
    simp
  | cons q l ih =>
    simp only [splitAll, bind_ok, pure_ok, Prod.exists, Prod.mk.injEq] at h
    obtain ⟨q', c1, hq, ps1, cs1, h1, rfl, rfl⟩ := h
    have hi := ih h1 (fun p hp => hk p (by simp [hp]))
    have hqr := fun r hr => ReachableBy.split (q := r) (hk q (by simp)) hq hr
    intro p hp
    simp only [List.mem_append, List.mem_cons] at hp hi hqr
    rcases hp with (h | h) | h | h
    · exact hqr p (.inl h)
    · exact hi p (.inl h)
    · exact hqr p (.inr h)
    · exact hi p (.inr h)

theorem populationControl_reach {n : Nat} {w : T} {u u1 : UnitState T} {c c1 : Container T}
    (hd : u.dom.skeleton = dom0.skeleton) (hk : ∀ p ∈ c.all, ReachableBy G data dom0 fuel p)
    (h : populationControl data n w u c = .ok (u1, c1)) :
    ∀ p ∈ c1.all, ReachableBy G data dom0 fuel p := by
  simp only [populationControl, sourceNow, bind_ok, pure_ok, Prod.exists, Prod.mk.injEq] at h
  obtain ⟨u2, c2, ⟨rates, hrates, cells, ps, hcells, rfl, rfl⟩, f, hf, h⟩ := h
  have hps := sourceCells_reach (G := G) (fuel := fuel) (pre := []) hd rfl hcells
  have hk2 : ∀ p ∈ ({ c with processing := c.processing ++ ps } : Container T).all,
      ReachableBy G data dom0 fuel p := by
    intro p hp
    simp only [Container.all, List.mem_append] at hp
    rcases hp with ((h | h) | h) | h
    · exact hk p (by simp [Container.all, h])
    · exact hps p h
    · exact hk p (by simp [Container.all, h])
    · exact hk p (by simp [Container.all, h])
  generalize ({ c with processing := c.processing ++ ps } : Container T) = c2 at h hk2
  unfold regulateOrSplit at h
  split at h
  · simp only [Container.regulate, Except.ok.injEq, Prod.mk.injEq] at h
    obtain ⟨_, rfl⟩ := h
    intro p hp
    simp only [Container.all, List.mem_append] at hp
    rcases hp with (h | h) | h
    · obtain ⟨a, ha, rfl, _⟩ := retainMut_mem h
      exact regulateOne_reach (hk2 a (by simp [Container.all, ha]))
    · exact hk2 p (by simp [Container.all, h])
    · exact hk2 p (by simp [Container.all, h])
  · split at h
    · simp only [Container.split, Container.cleanExtra, bind_ok, pure_ok, Prod.exists,
        Prod.mk.injEq] at h
      obtain ⟨c3, b1, ⟨ps, cs, hs, rfl, rfl⟩, _, rfl⟩ := h
      have hsr := splitAll_reach hs (fun p hp => hk2 p (by simp [Container.all, hp]))
      intro p hp
      simp only [Container.all, List.mem_append] at hp
      rcases hp with (h | h) | h
      · obtain ⟨a, ha, rfl, _⟩ := retainMut_mem h
        refine .lowRr ?_
        simp only [List.mem_append] at ha
        rcases ha with h | h | h
        · exact hsr a (by simp [h])
        · exact hk2 a (by simp [Container.all, h])
        · exact hsr a (by simp [h])
      · exact hk2 p (by simp [Container.all, h])
      · simp at h
    · simp only [Except.ok.injEq, Prod.mk.injEq] at h
      obtain ⟨_, rfl⟩ := h
      exact hk2
end

theorem cycleSync_all {data : Data T} {o : SyncOpts} {n : Nat} {s s' : SimState T}
    (h : cycleSync data o n s = .ok s') : ∀ p ∈ s'.container.all, p ∈ s.container.all := by
  have hswap : ∀ (c : Container T), ∀ p ∈ c.swap.all, p ∈ c.all := by
    intro c p hp
    simp only [Container.all, Container.swap, List.mem_append] at hp ⊢
    tauto
  unfold cycleSync at h
  split at h
  · rw [bind_ok] at h
    obtain ⟨s1, h1, h⟩ := h
    have hf := (syncFinalize_fields h1).1
    split at h
    · rw [pure_ok] at h; subst h; rw [hf]; exact fun p hp => hp
    · rw [(syncPrepare_fields h).1, hf]; exact hswap _
  · rw [(syncPrepare_fields h).1]; exact hswap _

/-- **Every particle of every run is reachable**: between two cycles, whatever the schedule. -/
theorem cycles_reachable {data : Data T} {ex : ExecInfo} {o : SyncOpts} {fuel n : Nat}
    {s0 s : SimState T} (h0 : InitialState s0) (h : Cycles data ex o fuel n s0 s) :
    s.unit.dom.skeleton = s0.unit.dom.skeleton ∧
    ∀ p ∈ s.container.all, Reachable data s0.unit.dom fuel p := by
  induction h with
  | zero =>
    refine ⟨rfl, ?_⟩
    simp [Container.all, h0.processing, h0.processed, h0.extra]
  | @succ n s0 s1 s2 u c _ hsync hproc ih =>
    obtain ⟨hd, hk⟩ := ih h0
    have hd2 : s2.unit.dom.skeleton = s0.unit.dom.skeleton := by rw [cycleSync_dom hsync, hd]
    have hk2 := fun p hp => hk p (cycleSync_all hsync p hp)
    obtain ⟨u1, c1, hpc, hl⟩ := hproc
    have hk3 := populationControl_reach hd2 hk2 hpc
    have hd3 := (populationControl_skeleton hpc).trans hd2
    exact ⟨(congrArg _ (processLoop_dom hl)).trans hd3, processLoop_reach hd3 hk3 hl⟩

/-- The same at the end of a run. -/
theorem runCore_reachable {data : Data T} {ex : ExecInfo} {o : SyncOpts} {fuel : Nat}
    {s0 s : SimState T} (h0 : InitialState s0) (h : RunCore data ex o fuel s0 s) :
    ∀ p ∈ s.container.all, Reachable data s0.unit.dom fuel p := by
  obtain ⟨s1, hc, hs⟩ := h
  exact fun p hp => (cycles_reachable h0 hc).2 p (cycleSync_all hs p hp)
