import Verif.Lemmas.Conform
import Verif.Lemmas.CycleCount
import Verif.Lemmas.Sourced
/-!
The threaded tracking phase compared with the specification of `Verif/Spec/Direct.lean`.
-/
set_option linter.unusedSectionVars false
set_option linter.unnecessarySeqFocus false
attribute [local irreducible] Rng.lcg Rng.sample Rng.spawn
open Flt
variable {T : Type} [Flt T]

/-! ### Lists -/

theorem mapM_append_ok {ε α β : Type} {f : α → Except ε β} {a b : List α} {l : List β}
    (h : (a ++ b).mapM f = .ok l) : ∃ x y, a.mapM f = .ok x ∧ b.mapM f = .ok y ∧ l = x ++ y := by
  induction a generalizing l with
  | nil => exact ⟨[], l, rfl, h, rfl⟩
  | cons c a ih =>
    rw [List.cons_append, List.mapM_cons, bind_ok] at h
    obtain ⟨v, hv, h⟩ := h
    rw [bind_ok] at h
    obtain ⟨vs, hvs, h⟩ := h
    rw [pure_ok] at h
    obtain ⟨x, y, hx, hy, rfl⟩ := ih hvs
    refine ⟨v :: x, y, ?_, hy, h.symm⟩
    rw [List.mapM_cons, hv, hx]; rfl

theorem mapM_flatten_ok {ε α β : Type} {f : α → Except ε β} {ls : List (List α)} {l : List β}
    (h : ls.flatten.mapM f = .ok l) : ∃ xs : List (List β), ls.length = xs.length ∧ xs.flatten = l ∧
      ∀ (j : Nat) c x, ls[j]? = some c → xs[j]? = some x → c.mapM f = .ok x := by
  induction ls generalizing l with
  | nil =>
    simp only [List.flatten_nil, List.mapM_nil, pure_ok] at h
    subst h
    exact ⟨[], rfl, rfl, by simp⟩
  | cons c ls ih =>
    rw [List.flatten_cons] at h
    obtain ⟨x, y, hx, hy, rfl⟩ := mapM_append_ok h
    obtain ⟨xs, h1, rfl, h3⟩ := ih hy
    refine ⟨x :: xs, by simp [h1], rfl, ?_⟩
    intro j d z hd hz
    cases j with
    | zero => simp at hd hz; subst hd hz; exact hx
    | succ j => exact h3 j d z (by simpa using hd) (by simpa using hz)

theorem mapM_perm_ok {ε α β : Type} {f : α → Except ε β} {a b : List α} (hp : a.Perm b) {l : List β}
    (h : a.mapM f = .ok l) : ∃ l', b.mapM f = .ok l' ∧ l.Perm l' := by
  induction hp generalizing l with
  | nil => exact ⟨l, h, .refl _⟩
  | cons x _ ih =>
    rw [List.mapM_cons, bind_ok] at h
    obtain ⟨v, hv, h⟩ := h
    rw [bind_ok] at h
    obtain ⟨vs, hvs, h⟩ := h
    rw [pure_ok] at h
    subst h
    obtain ⟨l', h1, h2⟩ := ih hvs
    exact ⟨v :: l', by rw [List.mapM_cons, hv, h1]; rfl, h2.cons v⟩
  | swap x y l0 =>
    simp only [List.mapM_cons, bind_ok, pure_ok] at h
    obtain ⟨v, hv, vs, ⟨w, hw, ws, hws, rfl⟩, rfl⟩ := h
    exact ⟨w :: v :: ws, by simp only [List.mapM_cons, hv, hw, hws]; rfl, .swap _ _ _⟩
  | trans _ _ ih1 ih2 =>
    obtain ⟨l1, h1, p1⟩ := ih1 h
    obtain ⟨l2, h2, p2⟩ := ih2 h1
    exact ⟨l2, h2, p1.trans p2⟩

theorem Balance.sum_perm {a b : List Balance} (h : a.Perm b) : Balance.sum a = Balance.sum b := by
  induction h with
  | nil => rfl
  | cons x _ ih => rw [Balance.sum_cons, Balance.sum_cons, ih]
  | swap x y l =>
    simp only [Balance.sum_cons]
    simp only [Balance.add]; ext <;> simp only [] <;> omega
  | trans _ _ h1 h2 => rw [h1, h2]

theorem Balance.sum_append2 (a b : List Balance) :
    Balance.sum (a ++ b) = (Balance.sum a).add (Balance.sum b) := by
  induction a with
  | nil => rw [List.nil_append]; exact (Balance.zero_add _).symm
  | cons x a ih => rw [List.cons_append, Balance.sum_cons, ih, Balance.sum_cons, Balance.add_assoc]

theorem Balance.sum_flatten (ls : List (List Balance)) :
    Balance.sum ls.flatten = Balance.sum (ls.map Balance.sum) := by
  induction ls with
  | nil => rfl
  | cons l ls ih => rw [List.flatten_cons, Balance.sum_append2, ih, List.map_cons, Balance.sum_cons]

/-! ### `process_particles` -/

/-- What the tracking of a batch with histories `hs` does to a unit and container. -/
structure BatchDone (data : Data T) (hs : List (Hist T)) (u : UnitState T) (c : Container T)
    (u' : UnitState T) (c' : Container T) : Prop where
  dom : u'.dom = u.dom
  weight : u'.unitWeight = u.unitWeight
  balance : u'.balance = u.balance.add (Balance.sum (hs.map (·.balance)))
  mem : MemOk data u.dom (sharedOf u' c')
  flux : ∃ cs, cs.Perm (hs.flatMap (·.contribs)) ∧ u'.flux = addContribs u.flux cs
  processing : c'.processing = []
  processed : c'.processed = c.processed ++ (hs.map (·.particle)).filter (fun p => p.species ≠ .unknown)
  extra : ∃ ex, ex.Perm (hs.flatMap (·.extra)) ∧ c'.extra = c.extra ++ ex

/-- The pool of chunk programs conforms to the histories. -/
theorem chunkPool_conforms {data : Data T} {dom : Domain T} (hgc : GroupsChecked data dom)
    {fuel k : Nat} (hk : 0 < k) {ps : List (Particle T)} {hs : List (Hist T)}
    (hd : ps.mapM (directHist data dom fuel) = .ok hs) :
    ∃ hss : List (List (Hist T)), hss.flatten = hs ∧
      PoolConforms data dom ((chunks k ps).map (chunkProg data dom fuel))
        (hss.map fun hs => (⟨3 * fuel * ps.length + 1, hs.flatMap (·.contribs), hs.flatMap (·.extra),
          (hs.map (·.particle), Balance.sum (hs.map (·.balance)))⟩ : Job T _)) := by
  have hflat := chunks_flatten k ps hk
  have hd' := hd
  rw [← hflat] at hd'
  obtain ⟨hss, hlen, hfl, hget⟩ := mapM_flatten_ok hd'
  refine ⟨hss, hfl, by simpa using hlen, ?_⟩
  intro j p w hp hw
  rw [List.getElem?_map, Option.map_eq_some_iff] at hp hw
  obtain ⟨ch, hch, rfl⟩ := hp
  obtain ⟨h, hh, rfl⟩ := hw
  refine (chunkProg_conforms hgc (hget j ch h hch hh)).mono ?_
  have hle : ch.length ≤ ps.length := by
    have hs1 : ch.Sublist (chunks k ps).flatten := List.sublist_flatten_of_mem (List.mem_of_getElem? hch)
    rw [hflat] at hs1
    exact hs1.length_le
  have := Nat.mul_le_mul_left (3 * fuel) hle
  dsimp only
  omega

theorem finish_batch {data : Data T} {u : UnitState T} {c : Container T} {m : Shared T}
    {hs : List (Hist T)} (hm : MemOk data u.dom m)
    (hf : ∃ cs, cs.Perm (hs.flatMap (·.contribs)) ∧ m.flux = addContribs u.flux cs)
    (he : ∃ ex, ex.Perm (hs.flatMap (·.extra)) ∧ m.extra = c.extra ++ ex) :
    BatchDone data hs u c
      (finishProcess u c m (hs.map (·.particle)) (Balance.sum (hs.map (·.balance)))).1
      (finishProcess u c m (hs.map (·.particle)) (Balance.sum (hs.map (·.balance)))).2 :=
  ⟨rfl, rfl, rfl, ⟨hm.cacheLen, hm.fluxLen, hm.cache⟩, hf, rfl, rfl, he⟩

theorem processParticles_direct {data : Data T} {ex : ExecInfo} {fuel : Nat} {u u' : UnitState T}
    {c c' : Container T} (hgc : GroupsChecked data u.dom) (hm : MemOk data u.dom (sharedOf u c))
    {hs : List (Hist T)} (hd : c.processing.mapM (directHist data u.dom fuel) = .ok hs)
    (h : ProcessParticles data ex fuel u c u' c') : BatchDone data hs u c u' c' := by
  cases h with
  | seq _ h =>
    simp only [processSeq, bind_ok, pure_ok, Prod.exists] at h
    obtain ⟨ps, b, m, hrun, hfin⟩ := h
    obtain ⟨m', h1, h2, h3, h4⟩ := (chunkProg_conforms hgc hd).run hm
    rw [h1] at hrun
    simp only [Except.ok.injEq, Prod.mk.injEq] at hrun
    obtain ⟨⟨rfl, rfl⟩, rfl⟩ := hrun
    have := finish_batch (u := u) (c := c) h2 ⟨_, .refl _, h3⟩ ⟨_, .refl _, h4⟩
    rw [hfin] at this
    exact this
  | @par k pool' m' results _ hks hsteps hpool _ _ _ =>
    subst hpool
    obtain ⟨hss, hfl, hpc⟩ := chunkPool_conforms hgc (chunkSizeFor_pos hks) hd
    obtain ⟨hm', jobs', dcs, dps, hpc', hres, hcs, hps, hflux, hextra⟩ := hpc.steps hm hsteps
    obtain ⟨hr, hc0, hp0⟩ := hpc'.finished
    rw [hc0, List.append_nil] at hcs
    rw [hp0, List.append_nil] at hps
    rw [hres, List.map_map] at hr
    have e1 : (results.map Prod.fst).flatten = hs.map (·.particle) := by
      rw [hr, List.map_map, ← hfl, List.map_flatten]
      congr 1
    have e2 : Balance.sum (results.map Prod.snd) = Balance.sum (hs.map (·.balance)) := by
      rw [hr, List.map_map, ← hfl, List.map_flatten, Balance.sum_flatten, List.map_map]
      congr 1
    rw [e1, e2]
    refine finish_batch hm' ⟨dcs, ?_, hflux⟩ ⟨dps, ?_, hextra⟩
    · rw [← hfl]
      refine hcs.symm.trans ?_
      rw [List.flatMap_map, List.flatMap_def, List.flatMap_def, List.map_flatten, List.flatten_flatten,
        List.map_map]
      exact .refl _
    · rw [← hfl]
      refine hps.symm.trans ?_
      rw [List.flatMap_map, List.flatMap_def, List.flatMap_def, List.map_flatten, List.flatten_flatten,
        List.map_map]
      exact .refl _

/-! ### Existence of a result under every policy -/

/-- The settings of an execution are usable: threads or an explicit chunk size, and a policy. -/
def ExecUsable (ex : ExecInfo) : Prop := ex.chunkSize ≠ 0 ∨ ex.nRayonThreads ≠ 0

theorem chunkSizeFor_ok {ex : ExecInfo} (h : ExecUsable ex) (n : Nat) : ∃ k, chunkSizeFor ex n = .ok k := by
  unfold chunkSizeFor
  split
  · next h0 =>
    rcases h with h | h
    · exact (h h0).elim
    · rw [if_neg h]; exact ⟨_, rfl⟩
  · exact ⟨_, rfl⟩

/-- Tracking never touches the counters `start`, `end`, `source`. -/
theorem directLoop_counters {data : Data T} {dom : Domain T} {cfuel fuel : Nat} {p : Particle T}
    {h : Hist T} (hd : directLoop data dom cfuel fuel p = .ok h) :
    h.balance.start = 0 ∧ h.balance.end_ = 0 ∧ h.balance.source = 0 := by
  have hev : ∀ {o : SegOutcome} {st st' : TrackState T} {keep : Bool},
      segmentEvent data dom cfuel o st = .ok (keep, st') →
      st'.balance.start = st.balance.start ∧ st'.balance.end_ = st.balance.end_ ∧
        st'.balance.source = st.balance.source := by
    intro o st st' keep h
    cases o with
    | census =>
      simp only [segmentEvent, Except.ok.injEq, Prod.mk.injEq] at h
      obtain ⟨_, rfl⟩ := h
      exact ⟨rfl, rfl, rfl⟩
    | collision =>
      simp only [segmentEvent, collisionBranch, bind_ok, pure_ok, Prod.exists, Prod.mk.injEq] at h
      obtain ⟨cs, hcs, k, st1, hce, g, hg, rfl, rfl⟩ := h
      unfold collisionEvent at hce
      generalize st.particle.getCurrentXs = xp at hce
      obtain ⟨xs, p⟩ := xp
      dsimp only at hce
      rw [bind_ok] at hce
      obtain ⟨m, hm, hce⟩ := hce
      simp only [bind_ok] at hce
      obtain ⟨r, hr, hce⟩ := hce
      cases r with
      | none => simp at hce
      | some r =>
        simp only [bind_ok, Prod.exists, pure_ok, Prod.mk.injEq] at hce
        obtain ⟨n, p', e, hs, rfl, rfl⟩ := hce
        dsimp only
        unfold tallyCollision
        cases r.rtype <;> exact ⟨rfl, rfl, rfl⟩
    | facetCrossing =>
      simp only [segmentEvent, facetBranch, bind_ok] at h
      obtain ⟨conn, hconn, fa, hfa, p, hp, h⟩ := h
      split at h
      · simp only [pure_ok, Prod.mk.injEq] at h
        obtain ⟨_, rfl⟩ := h
        exact ⟨rfl, rfl, rfl⟩
      · simp only [bind_ok, pure_ok, Prod.mk.injEq] at h
        obtain ⟨pls, hpls, pl, hpl, rfl, rfl⟩ := h
        exact ⟨rfl, rfl, rfl⟩
      · cases h
      · simp only [pure_ok, Prod.mk.injEq] at h
        obtain ⟨_, rfl⟩ := h
        exact ⟨rfl, rfl, rfl⟩
      · cases h
  induction fuel generalizing p h with
  | zero => simp [directLoop] at hd
  | succ n ih =>
    unfold directLoop at hd
    rw [bind_ok] at hd
    obtain ⟨⟨o, q⟩, ho, hd⟩ := hd
    dsimp only at hd
    rw [bind_ok] at hd
    obtain ⟨⟨keep, st⟩, he, hd⟩ := hd
    dsimp only at hd
    obtain ⟨e1, e2, e3⟩ := hev he
    cases keep with
    | false =>
      simp only [Bool.false_eq_true, if_false, pure_ok] at hd
      subst hd
      exact ⟨e1, e2, e3⟩
    | true =>
      simp only [if_true, bind_ok, pure_ok] at hd
      obtain ⟨h2, hd2, rfl⟩ := hd
      obtain ⟨f1, f2, f3⟩ := ih hd2
      simp only [Balance.add, e1, e2, e3, f1, f2, f3]
      exact ⟨trivial, trivial, trivial⟩

theorem directHists_counters {data : Data T} {dom : Domain T} {fuel : Nat} {ps : List (Particle T)}
    {hs : List (Hist T)} (hd : ps.mapM (directHist data dom fuel) = .ok hs) :
    (Balance.sum (hs.map (·.balance))).start = 0 ∧ (Balance.sum (hs.map (·.balance))).end_ = 0 ∧
      (Balance.sum (hs.map (·.balance))).source = 0 := by
  induction ps generalizing hs with
  | nil =>
    simp only [List.mapM_nil, pure_ok] at hd
    subst hd
    exact ⟨rfl, rfl, rfl⟩
  | cons p ps ih =>
    simp only [List.mapM_cons, bind_ok, pure_ok] at hd
    obtain ⟨h, hp, hs', hps, rfl⟩ := hd
    obtain ⟨e1, e2, e3⟩ := ih hps
    unfold directHist at hp
    rw [bind_ok] at hp
    obtain ⟨q, _, hp⟩ := hp
    obtain ⟨f1, f2, f3⟩ := directLoop_counters hp
    rw [List.map_cons, Balance.sum_cons]
    simp only [Balance.add, e1, e2, e3, f1, f2, f3]
    exact ⟨trivial, trivial, trivial⟩

theorem processParticles_exists {data : Data T} {ex : ExecInfo} {fuel : Nat} {u : UnitState T}
    {c : Container T} (hex : ExecUsable ex) (hgc : GroupsChecked data u.dom)
    (hm : MemOk data u.dom (sharedOf u c))
    {hs : List (Hist T)} (hd : c.processing.mapM (directHist data u.dom fuel) = .ok hs) :
    ∃ u' c', ProcessParticles data ex fuel u c u' c' := by
  have hseq : ∃ u' c', processSeq data fuel u c = .ok (u', c') := by
    obtain ⟨m', h1, _⟩ := (chunkProg_conforms hgc hd).run hm
    refine ⟨(finishProcess u c m' (hs.map (·.particle)) (Balance.sum (hs.map (·.balance)))).1,
      (finishProcess u c m' (hs.map (·.particle)) (Balance.sum (hs.map (·.balance)))).2, ?_⟩
    rw [processSeq, h1]
    rfl
  have hpar : ex.policy = .rayon ∨ ex.policy = .hybrid → ∃ u' c', ProcessParticles data ex fuel u c u' c' := by
    intro hpol
    obtain ⟨k, hks⟩ := chunkSizeFor_ok hex c.processing.length
    obtain ⟨hss, hfl, hpc⟩ := chunkPool_conforms hgc (chunkSizeFor_pos hks) hd
    obtain ⟨results, m', hsteps⟩ := hpc.complete hm
    obtain ⟨hm', jobs', dcs, dps, hpc', hres, hcs, hps, hflux, hextra⟩ := hpc.steps hm hsteps
    obtain ⟨hr, hc0, hp0⟩ := hpc'.finished
    rw [hres, List.map_map] at hr
    have e2 : Balance.sum (results.map Prod.snd) = Balance.sum (hs.map (·.balance)) := by
      rw [hr, List.map_map, ← hfl, List.map_flatten, Balance.sum_flatten, List.map_map]
      congr 1
    obtain ⟨g1, g2, g3⟩ := directHists_counters hd
    exact ⟨_, _, .par hpol hks hsteps rfl (by rw [e2]; exact g1) (by rw [e2]; exact g2)
      (by rw [e2]; exact g3)⟩
  obtain ⟨u', c', hs'⟩ := hseq
  cases hp : ex.policy with
  | sequential => exact ⟨u', c', .seq (.inl hp) hs'⟩
  | distributed => exact ⟨u', c', .seq (.inr hp) hs'⟩
  | rayon => exact hpar (.inl hp)
  | hybrid => exact hpar (.inr hp)

/-! ### The tracking loop -/

theorem Generations.perm {data : Data T} {dom : Domain T} {fuel : Nat} {ps b surv cs}
    (h : Generations data dom fuel ps b surv cs) : ∀ {ps'}, ps.Perm ps' →
    ∃ surv' cs', surv.Perm surv' ∧ cs.Perm cs' ∧ Generations data dom fuel ps' b surv' cs' := by
  induction h with
  | done =>
    intro ps' hp
    rw [List.nil_perm] at hp
    subst hp
    exact ⟨[], [], .refl _, .refl _, .done⟩
  | @next ps hs b surv cs hne hd _ ih =>
    intro ps' hp
    obtain ⟨hs', hd', hph⟩ := mapM_perm_ok hp hd
    obtain ⟨surv', cs', h1, h2, h3⟩ := ih (hph.flatMap_right (fun h : Hist T => h.extra))
    have := Generations.next (fun h => hne (by subst h; exact List.perm_nil.1 hp)) hd' h3
    rw [← Balance.sum_perm (hph.map (·.balance))] at this
    exact ⟨_, _, ((hph.map _).filter _).append h1, (hph.flatMap_right _).append h2, this⟩

/-- What a tracking phase does. -/
structure PhaseDone (data : Data T) (b : Balance) (surv : List (Particle T)) (cs : List (Nat × T))
    (u : UnitState T) (c : Container T) (u' : UnitState T) (c' : Container T) : Prop where
  dom : u'.dom = u.dom
  weight : u'.unitWeight = u.unitWeight
  balance : u'.balance = u.balance.add b
  mem : MemOk data u.dom (sharedOf u' c')
  flux : ∃ cs', cs'.Perm cs ∧ u'.flux = addContribs u.flux cs'
  processing : c'.processing = []
  processed : c'.processed.Perm (c.processed ++ surv)
  extra : c'.extra = []

theorem isDone_iff (c : Container T) : c.isDone = true ↔ c.extra = [] ∧ c.processing = [] := by
  simp [Container.isDone]

theorem processLoop_direct {data : Data T} {ex : ExecInfo} {fuel : Nat} {dom : Domain T}
    (hgc : GroupsChecked data dom) {ps b surv cs} (hg : Generations data dom fuel ps b surv cs) :
    ∀ {u u' : UnitState T} {c c' : Container T}, u.dom = dom → MemOk data dom (sharedOf u c) →
      c.extra = [] → ps.Perm c.processing → ProcessLoop data ex fuel u c u' c' →
      PhaseDone data b surv cs u c u' c' := by
  induction hg with
  | done =>
    intro u u' c c' hdom hm hex hp hl
    rw [List.nil_perm] at hp
    cases hl with
    | done _ =>
      refine ⟨rfl, rfl, (Balance.add_zero _).symm, hdom ▸ hm, ⟨[], .refl _, rfl⟩, hp, ?_, hex⟩
      simp
    | iter hnd =>
      rw [(isDone_iff c).2 ⟨hex, hp⟩] at hnd
      cases hnd
  | @next ps hs b surv cs hne hd hgen ih =>
    intro u u' c c' hdom hm hex hp hl
    subst hdom
    cases hl with
    | done h =>
      have := ((isDone_iff c).1 h).2
      rw [this] at hp
      exact (hne (List.perm_nil.1 hp)).elim
    | @iter _ _ u1 c1 _ _ hnd hpp hrest =>
      have hsort : ps.Perm c.sort.processing := hp.trans (stableSort_perm _ _).symm
      obtain ⟨hs', hd', hph⟩ := mapM_perm_ok hsort hd
      have hb := processParticles_direct hgc (c := c.sort) hm hd' hpp
      obtain ⟨cs1, hcs1, hfl1⟩ := hb.flux
      obtain ⟨ex1, hex1, hext⟩ := hb.extra
      have hsx : c.sort.extra = [] := hex
      rw [hsx, List.nil_append] at hext
      have hcl : c1.cleanExtra.processing = ex1 := by
        rw [Container.cleanExtra, hb.processing, hext]; rfl
      have hr := ih (u := u1) (c := c1.cleanExtra) hb.dom
        ⟨hb.mem.cacheLen, hb.mem.fluxLen, hb.mem.cache⟩ rfl
        (by rw [hcl]; exact (hph.flatMap_right (fun h : Hist T => h.extra)).trans hex1.symm) hrest
      obtain ⟨cs2, hcs2, hfl2⟩ := hr.flux
      refine ⟨hr.dom.trans hb.dom, hr.weight.trans hb.weight, ?_, hb.dom ▸ hr.mem,
        ⟨cs1 ++ cs2, ?_, ?_⟩, hr.processing, ?_, hr.extra⟩
      · rw [hr.balance, hb.balance, Balance.add_assoc, Balance.sum_perm (hph.map (·.balance))]
      · exact (hcs1.trans (hph.flatMap_right _).symm).append hcs2
      · rw [hfl2, hfl1, addContribs_append]
      · refine hr.processed.trans ?_
        change (c1.processed ++ surv).Perm _
        rw [hb.processed, List.append_assoc]
        exact (((hph.map _).filter _).symm.append_right surv).append_left _

theorem processLoop_exists {data : Data T} {ex : ExecInfo} (hexu : ExecUsable ex) {fuel : Nat}
    {dom : Domain T} (hgc : GroupsChecked data dom) {ps b surv cs}
    (hg : Generations data dom fuel ps b surv cs) :
    ∀ {u : UnitState T} {c : Container T}, u.dom = dom → MemOk data dom (sharedOf u c) →
      c.extra = [] → ps.Perm c.processing → ∃ u' c', ProcessLoop data ex fuel u c u' c' := by
  induction hg with
  | done =>
    intro u c hdom hm hex hp
    rw [List.nil_perm] at hp
    exact ⟨u, c, .done ((isDone_iff c).2 ⟨hex, hp⟩)⟩
  | @next ps hs b surv cs hne hd hgen ih =>
    intro u c hdom hm hex hp
    subst hdom
    have hsort : ps.Perm c.sort.processing := hp.trans (stableSort_perm _ _).symm
    obtain ⟨hs', hd', hph⟩ := mapM_perm_ok hsort hd
    obtain ⟨u1, c1, hpp⟩ := processParticles_exists hexu (u := u) (c := c.sort) hgc hm hd'
    have hb := processParticles_direct hgc (c := c.sort) hm hd' hpp
    obtain ⟨ex1, hex1, hext⟩ := hb.extra
    have hsx : c.sort.extra = [] := hex
    rw [hsx, List.nil_append] at hext
    have hcl : c1.cleanExtra.processing = ex1 := by
      rw [Container.cleanExtra, hb.processing, hext]; rfl
    obtain ⟨u2, c2, hl⟩ := ih (u := u1) (c := c1.cleanExtra) hb.dom
      ⟨hb.mem.cacheLen, hb.mem.fluxLen, hb.mem.cache⟩ rfl
      (by rw [hcl]; exact (hph.flatMap_right (fun h : Hist T => h.extra)).trans hex1.symm)
    refine ⟨u2, c2, .iter ?_ hpp hl⟩
    cases hdone : c.isDone with
    | false => rfl
    | true =>
      have := ((isDone_iff c).1 hdone).2
      rw [this] at hp
      exact (hne (List.perm_nil.1 hp)).elim
