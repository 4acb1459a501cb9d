import Verif.Lemmas.RunEquiv
import Verif.Spec.Fails
/-!
# A run whose reference succeeds does not fail

If tracking every particle on its own succeeds, no execution of the threaded code stops on a failure.
-/
set_option linter.unusedSectionVars false
attribute [local irreducible] Rng.lcg Rng.sample Rng.spawn
open Flt
variable {T : Type} [Flt T] {data : Data T} {ex : ExecInfo} {fuel : Nat}

theorem processFails_none (hex : ExecUsable ex) {u : UnitState T} {c : Container T} (hgc : GroupsChecked data u.dom)
    (hm : MemOk data u.dom (sharedOf u c)) {hs : List (Hist T)}
    (hd : c.processing.mapM (directHist data u.dom fuel) = .ok hs) {e : Panic} : ¬ ProcessFails data ex fuel u c e := by
  intro h
  cases h with
  | seq _ h =>
    obtain ⟨m', h1, _⟩ := (chunkProg_conforms hgc hd).run hm
    rw [processSeq, h1] at h
    cases h
  | chunkSize _ h =>
    obtain ⟨k, hk⟩ := chunkSizeFor_ok hex c.processing.length
    rw [hk] at h
    cases h
  | @worker k pool' m' j _ _ hk hst hj =>
    obtain ⟨hss, hfl, hpc⟩ := chunkPool_conforms hgc (chunkSizeFor_pos hk) hd
    obtain ⟨_, jobs', _, _, ⟨hlen, hc⟩, _⟩ := hpc.steps hm hst
    have hlt := (List.getElem?_eq_some_iff.1 hj).1
    have := hc j _ _ hj (List.getElem?_eq_getElem (by omega))
    generalize (jobs'[j]'(by omega)).contribs = cs at this
    generalize (jobs'[j]'(by omega)).pushes = ps at this
    generalize (jobs'[j]'(by omega)).result = r at this
    generalize (jobs'[j]'(by omega)).steps = n at this
    cases this
  | @tally k m' results _ hk hst hne =>
    obtain ⟨hss, hfl, hpc⟩ := chunkPool_conforms hgc (chunkSizeFor_pos hk) hd
    obtain ⟨_, jobs', _, _, hpc', hres, _⟩ := hpc.steps hm hst
    obtain ⟨hr, _, _⟩ := hpc'.finished
    rw [hres, List.map_map] at hr
    have e2 : Balance.sum (results.map Prod.snd) = Balance.sum (hs.map (·.balance)) := by
      rw [hr, List.map_map, ← hfl, List.map_flatten, Balance.sum_flatten, List.map_map]
      congr 1
    rw [e2] at hne
    exact hne (directHists_counters hd)

theorem loopFails_none (hex : ExecUsable ex) {dom : Domain T} (hgc : GroupsChecked data dom) {ps b surv cs}
    (hg : Generations data dom fuel ps b surv cs) : ∀ {u : UnitState T} {c : Container T} {e : Panic},
    u.dom = dom → MemOk data dom (sharedOf u c) → c.extra = [] → ps.Perm c.processing →
    ¬ LoopFails data ex fuel u c e := by
  induction hg with
  | done =>
    intro u c e hdom hm hx hp h
    rw [List.nil_perm] at hp
    have := (isDone_iff c).2 ⟨hx, hp⟩
    cases h with
    | now h => rw [this] at h; cases h
    | later h => rw [this] at h; cases h
  | @next ps hs b surv cs hne hd hgen ih =>
    intro u c e hdom hm hx hp h
    subst hdom
    have hsort : ps.Perm c.sort.processing := hp.trans (stableSort_perm _ _).symm
    obtain ⟨hs', hd', hph⟩ := mapM_perm_ok hsort hd
    cases h with
    | now _ h => exact processFails_none hex (c := c.sort) hgc hm hd' h
    | @later _ _ u1 c1 _ _ hpp hl =>
      have hb := processParticles_direct hgc (c := c.sort) hm hd' hpp
      obtain ⟨ex1, hex1, hext⟩ := hb.extra
      have hsx : c.sort.extra = [] := hx
      rw [hsx, List.nil_append] at hext
      have hcl : c1.cleanExtra.processing = ex1 := by
        rw [Container.cleanExtra, hb.processing, hext]; rfl
      exact ih (u := u1) (c := c1.cleanExtra) hb.dom ⟨hb.mem.cacheLen, hb.mem.fluxLen, hb.mem.cache⟩ rfl
        (by rw [hcl]; exact (hph.flatMap_right (fun h : Hist T => h.extra)).trans hex1.symm) hl

/-- What precedes the end of a series of cycles. -/
theorem DirectCycles.before {o : SyncOpts} {n : Nat} {s0 s : SimState T} (h : DirectCycles data o fuel n s0 s) :
    ∀ m < n, ∃ s1 s2 u c, DirectCycles data o fuel m s0 s1 ∧ cycleSync data o m s1 = .ok s2 ∧
      DirectCycle data fuel s2.globalN s2.srcWeight s2.unit s2.container u c := by
  induction h with
  | zero => intro m hm; omega
  | @succ n s s1 s2 u c h hsync hc ih =>
    intro m hm
    rcases Nat.lt_succ_iff_lt_or_eq.1 hm with hm | rfl
    · exact ih m hm
    · exact ⟨s1, s2, u, c, h, hsync, hc⟩

/-- The memory at the beginning of the tracking of a cycle. -/
theorem memOk_start (hz : (zero >. (zero : T)) = false) {n : Nat} {w : T} {u u1 : UnitState T} {c c1 : Container T}
    (hs : Sized data u) (hcache : ∀ (i : Nat) v, u.cache[i]? = some v → v = zero)
    (hpc : populationControl data n w u c = .ok (u1, c1)) (hc1 : u1.cache = u.cache) :
    GroupsChecked data u1.dom ∧ MemOk data u1.dom (sharedOf u1 c1) := by
  have hsk := populationControl_skeleton hpc
  refine ⟨groupsChecked_skeleton hsk hs.groups, ?_, ?_, ?_⟩
  · rw [tableSize_skeleton hsk, sharedOf, hc1]; exact hs.cacheLen
  · rw [tableSize_skeleton hsk, sharedOf, show u1.flux = u.flux from ?_]
    · exact hs.fluxLen
    · simp only [populationControl, sourceNow, bind_ok, pure_ok, Prod.exists, Prod.mk.injEq] at hpc
      obtain ⟨u3, c3, ⟨_, _, _, _, _, rfl, rfl⟩, f, _, h⟩ := hpc
      unfold regulateOrSplit at h
      split at h
      · simp only [Except.ok.injEq, Prod.mk.injEq] at h; rw [← h.1]
      · split at h
        · simp only [bind_ok, pure_ok, Prod.exists, Prod.mk.injEq] at h
          obtain ⟨_, _, _, rfl, _⟩ := h
          rfl
        · simp only [Except.ok.injEq, Prod.mk.injEq] at h; rw [← h.1]
  · intro i v hv
    left
    rw [sharedOf, hc1] at hv
    rw [hcache i v hv]
    exact hz

theorem runFails_none {o : SyncOpts} (hz : (zero >. (zero : T)) = false) {s0 s : SimState T} (hs0 : Sized data s0.unit)
    (hx0 : s0.container.extra = []) (hr0 : s0.reports = []) (hd : DirectRun data o fuel s0 s) (hex : ExecUsable ex)
    {e : Panic} : ¬ RunFails data ex o fuel s0 e := by
  obtain ⟨s1, hcs, hlast⟩ := hd
  have sync : ∀ {m s'}, m ≤ data.nSteps → Cycles data ex o fuel m s0 s' → ∃ s2', cycleSync data o m s' = .ok s2' := by
    intro m s' hm hc
    rcases Nat.lt_or_eq_of_le hm with hm' | rfl
    · obtain ⟨s1, s2, _, _, h1, h2, _⟩ := hcs.before m hm'
      obtain ⟨hr, _⟩ := (cycles_rel (ex := ex) hz hm hs0 hx0 hr0 h1).1 s' hc
      obtain ⟨s2', e1, _⟩ := cycleSync_rel hr h2
      exact ⟨s2', e1⟩
    · obtain ⟨hr, _⟩ := (cycles_rel (ex := ex) hz hm hs0 hx0 hr0 hcs).1 s' hc
      obtain ⟨s2', e1, _⟩ := cycleSync_rel hr hlast
      exact ⟨s2', e1⟩
  have pop : ∀ {m s' s2'}, m < data.nSteps → Cycles data ex o fuel m s0 s' → cycleSync data o m s' = .ok s2' →
      ∃ u c b surv cs u' c', Generations data u.dom fuel c.processing b surv cs ∧
        populationControl data s2'.globalN s2'.srcWeight s2'.unit s2'.container = .ok (u', c') ∧
        UnitRel u u' ∧ ContRel c c' ∧ GroupsChecked data u'.dom ∧ MemOk data u'.dom (sharedOf u' c') := by
    intro m s' s2' hm hc hsync
    obtain ⟨s1, s2, u, c, h1, h2, u1, c1, b, surv, cs, hpc, hgen, _, _⟩ := hcs.before m hm
    obtain ⟨hr, hsz⟩ := (cycles_rel (ex := ex) hz hm.le hs0 hx0 hr0 h1).1 s' hc
    obtain ⟨s3, e1, hr2⟩ := cycleSync_rel hr h2
    rw [hsync] at e1
    cases e1
    obtain ⟨hsz2, hc0⟩ := cycleSync_sized (by omega) hsz hsync
    obtain ⟨u', c', hpc', hu, hcr, hca⟩ := populationControl_rel hr2.unit hr2.cont hpc
    obtain ⟨g1, g2⟩ := memOk_start hz hsz2 hc0 hpc' hca
    rw [← hr2.globalN, ← hr2.srcWeight] at hpc'
    exact ⟨u1, c1, b, surv, cs, u', c', hgen, hpc', hu, hcr, g1, g2⟩
  intro h
  cases h with
  | sync hn hc he =>
    obtain ⟨_, h⟩ := sync hn hc
    rw [h] at he
    cases he
  | population hn hc hsync he =>
    obtain ⟨_, _, _, _, _, _, _, _, h, _⟩ := pop hn hc hsync
    rw [h] at he
    cases he
  | tracking hn hc hsync hpc he =>
    obtain ⟨u, c, b, surv, cs, u', c', hgen, h, hu, hcr, g1, g2⟩ := pop hn hc hsync
    rw [h] at hpc
    cases hpc
    rw [← hu.dom] at hgen
    exact loopFails_none hex g1 hgen rfl g2 hcr.extra' hcr.processing he

/-! ### The relation between states is symmetric -/

theorem FluxRel.symm {f f' : List T} (h : FluxRel f f') : FluxRel f' f := by
  obtain ⟨base, a, a', hp, rfl, rfl⟩ := h
  exact ⟨base, a', a, hp.symm, rfl, rfl⟩

theorem SimRel.symm {s s' : SimState T} (h : SimRel s s') : SimRel s' s := by
  refine ⟨⟨h.unit.dom.symm, h.unit.balance.symm, h.unit.weight.symm, h.unit.flux.symm⟩,
    ⟨h.cont.processing.symm, h.cont.processed.symm, h.cont.extra', h.cont.extra⟩, h.srcWeight.symm, h.globalN.symm,
    h.cumulative.symm, h.spectrum.symm, ?_⟩
  have hr := h.reports
  generalize s.reports = a at hr ⊢
  generalize s'.reports = b at hr ⊢
  induction hr with
  | nil => exact .nil
  | cons h1 _ ih =>
    obtain ⟨a1, a2, f, f', a3, a4, a5⟩ := h1
    exact .cons ⟨a1.symm, a2.symm, f', f, a3.symm, a5, a4⟩ ih
