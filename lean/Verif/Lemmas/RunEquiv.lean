import Verif.Spec.Reach
import Verif.Lemmas.Schedule
/-!
Runs of the threaded code compared with runs of the specification: all the parts of the state that
do not depend on the order of floating-point additions are the same.
-/
set_option linter.unusedSectionVars false
set_option linter.unnecessarySeqFocus false
attribute [local irreducible] Rng.lcg Rng.sample Rng.spawn
open Flt
variable {T : Type} [Flt T]

theorem FluxRel.refl (f : List T) : FluxRel f f := ⟨f, [], [], .refl _, rfl, rfl⟩

theorem FluxRel.length {f f' : List T} (h : FluxRel f f') : f'.length = f.length := by
  obtain ⟨base, cs, cs', _, rfl, rfl⟩ := h
  rw [addContribs_length, addContribs_length]

theorem FluxRel.add {f f' : List T} (h : FluxRel f f') {cs cs' : List (Nat × T)} (hp : cs.Perm cs') :
    FluxRel (addContribs f cs) (addContribs f' cs') := by
  obtain ⟨base, a, a', hpa, rfl, rfl⟩ := h
  exact ⟨base, a ++ cs, a' ++ cs', hpa.append hp, (addContribs_append _ _ _).symm,
    (addContribs_append _ _ _).symm⟩

/-- Reports of a cycle: same step, same counters, total flux of related tables. -/
def ReportRel (r r' : Nat × Balance × T) : Prop :=
  r.1 = r'.1 ∧ r.2.1 = r'.2.1 ∧
    ∃ f f' : List T, FluxRel f f' ∧ r.2.2 = scalarFluxSum f ∧ r'.2.2 = scalarFluxSum f'

/-- Containers equal up to the order of the particles. -/
structure ContRel (c c' : Container T) : Prop where
  processing : c.processing.Perm c'.processing
  processed : c.processed.Perm c'.processed
  extra : c.extra = []
  extra' : c'.extra = []

structure UnitRel (u u' : UnitState T) : Prop where
  dom : u'.dom = u.dom
  balance : u'.balance = u.balance
  weight : u'.unitWeight = u.unitWeight
  flux : FluxRel u.flux u'.flux

/-- States equal up to the order of particles and of additions. -/
structure SimRel (s s' : SimState T) : Prop where
  unit : UnitRel s.unit s'.unit
  cont : ContRel s.container s'.container
  srcWeight : s'.srcWeight = s.srcWeight
  globalN : s'.globalN = s.globalN
  cumulative : s'.cumulative = s.cumulative
  spectrum : s'.spectrum = s.spectrum
  reports : List.Forall₂ ReportRel s.reports s'.reports

/-! ### Spectrum -/

theorem countSpectrum_append {a b : List (Particle T)} {s : List Nat} :
    countSpectrum (a ++ b) s = (countSpectrum a s >>= countSpectrum b) := by
  induction a generalizing s with
  | nil => rfl
  | cons p a ih =>
    simp only [List.cons_append, countSpectrum]
    cases idx s p.energyGroup with
    | error e => rfl
    | ok v => exact ih

theorem countSpectrum_perm {a b : List (Particle T)} (hp : a.Perm b) {s t : List Nat}
    (h : countSpectrum a s = .ok t) : countSpectrum b s = .ok t := by
  induction hp generalizing s with
  | nil => exact h
  | cons p _ ih =>
    simp only [countSpectrum, bind_ok] at h ⊢
    obtain ⟨v, hv, h⟩ := h
    exact ⟨v, hv, ih h⟩
  | swap p q l =>
    simp only [countSpectrum, bind_ok, idx_ok] at h ⊢
    obtain ⟨v, hv, w, hw, h⟩ := h
    by_cases he : q.energyGroup = p.energyGroup
    · rw [he] at hv hw h
      rw [he]
      exact ⟨v, hv, w, hw, h⟩
    · rw [List.getElem?_set_ne he] at hw
      refine ⟨w, hw, v, ?_, ?_⟩
      · rw [List.getElem?_set_ne (Ne.symm he)]; exact hv
      · rw [List.set_comm _ _ (Ne.symm he)]; exact h
  | trans _ _ h1 h2 => exact h2 (h1 h)

/-! ### Synchronisation -/

theorem swap_rel {c c' : Container T} (h : ContRel c c') : ContRel c.swap c'.swap :=
  ⟨h.processing.append h.processed, .refl _, h.extra, h.extra'⟩

theorem syncPrepare_rel {data : Data T} {s s' s1 : SimState T} (hr : SimRel s s')
    (h : syncPrepare data s = .ok s1) : ∃ s1', syncPrepare data s' = .ok s1' ∧ SimRel s1 s1' := by
  simp only [syncPrepare, bind_ok, pure_ok] at h
  obtain ⟨w, hw, k, hk, rfl⟩ := h
  have hsw := swap_rel hr.cont
  have hlen := hsw.processing.length_eq
  refine ⟨{ s' with
    unit := { s'.unit with
      unitWeight := w
      cache := s'.unit.cache.map fun _ => zero
      balance := { s'.unit.balance with start := s'.container.swap.processing.length } }
    container := s'.container.swap
    srcWeight := (zero +. w) /. (Flt.lit 1 (-1) *. Flt.ofNat data.nParticles)
    globalN := s'.container.swap.processing.length + k }, ?_, ?_⟩
  · simp only [syncPrepare, bind_ok, pure_ok]
    refine ⟨w, ?_, k, hk, rfl⟩
    rw [hr.unit.dom]; exact hw
  · refine ⟨⟨hr.unit.dom, ?_, rfl, hr.unit.flux⟩, hsw, rfl, ?_, hr.cumulative, hr.spectrum, hr.reports⟩
    · dsimp only
      rw [hr.unit.balance, hlen]
    · dsimp only
      rw [hlen]

theorem syncFinalize_rel {o : SyncOpts} {n : Nat} {s s' s1 : SimState T} (hr : SimRel s s')
    (h : syncFinalize o n s = .ok s1) : ∃ s1', syncFinalize o n s' = .ok s1' ∧ SimRel s1 s1' := by
  simp only [syncFinalize, bind_ok, pure_ok] at h
  obtain ⟨sp, hsp, rfl⟩ := h
  have hlen := hr.cont.processed.length_eq
  have hbal : ({ s'.unit.balance with end_ := s'.container.processed.length } : Balance) =
      { s.unit.balance with end_ := s.container.processed.length } := by
    rw [hr.unit.balance, hlen]
  have hsp' : updateSpectrum o.spectrumOn s'.container s'.spectrum = .ok sp := by
    rw [hr.spectrum]
    unfold updateSpectrum at hsp ⊢
    split at hsp
    · next hon =>
      rw [if_pos hon]
      rw [bind_ok] at hsp ⊢
      obtain ⟨t, h1, h2⟩ := hsp
      exact ⟨t, countSpectrum_perm hr.cont.processing h1, countSpectrum_perm hr.cont.processed h2⟩
    · next hon => rw [if_neg hon]; exact hsp
  have hok : ∃ s1', syncFinalize o n s' = .ok s1' := by
    simp only [syncFinalize, hsp']; exact ⟨_, rfl⟩
  obtain ⟨s1', h'⟩ := hok
  refine ⟨s1', h', ?_⟩
  simp only [syncFinalize, bind_ok, pure_ok] at h'
  obtain ⟨sp2, hsp2, rfl⟩ := h'
  rw [hsp'] at hsp2
  cases hsp2
  · refine ⟨⟨hr.unit.dom, ?_, hr.unit.weight, ?_⟩, hr.cont, hr.srcWeight, hr.globalN, ?_, rfl, ?_⟩
    · simp only [cycleFinalize]; rw [hlen]
    · have : (s'.unit.flux.map fun _ => (zero : T)) = s.unit.flux.map fun _ => zero := by
        rw [List.map_const', List.map_const', hr.unit.flux.length]
      simp only [cycleFinalize]
      rw [this]
      exact .refl _
    · dsimp only
      rw [hbal, hr.cumulative]
    · dsimp only
      refine List.rel_append hr.reports (.cons ⟨rfl, hbal.symm, _, _, hr.unit.flux, rfl, rfl⟩ .nil)

theorem cycleSync_rel {data : Data T} {o : SyncOpts} {n : Nat} {s s' s1 : SimState T} (hr : SimRel s s')
    (h : cycleSync data o n s = .ok s1) : ∃ s1', cycleSync data o n s' = .ok s1' ∧ SimRel s1 s1' := by
  unfold cycleSync at h ⊢
  split at h
  · next hn =>
    rw [if_pos hn]
    rw [bind_ok] at h
    obtain ⟨s2, h2, h⟩ := h
    obtain ⟨s2', h2', hr2⟩ := syncFinalize_rel hr h2
    rw [h2']
    simp only [bind, Except.bind]
    split at h
    · next he =>
      rw [if_pos he]
      rw [pure_ok] at h
      subst h
      exact ⟨s2', rfl, hr2⟩
    · next he => rw [if_neg he]; exact syncPrepare_rel hr2 h
  · next hn => rw [if_neg hn]; exact syncPrepare_rel hr h

/-! ### Population control -/

theorem splitAll_perm {f : T} {a b : List (Particle T)} (hp : a.Perm b) :
    ∀ {ps cs : List (Particle T)}, splitAll f a = .ok (ps, cs) →
    ∃ ps' cs', splitAll f b = .ok (ps', cs') ∧ ps.Perm ps' ∧ cs.Perm cs' := by
  induction hp with
  | nil => intro ps cs h; exact ⟨ps, cs, h, .refl _, .refl _⟩
  | cons p _ ih =>
    intro ps cs h
    simp only [splitAll, bind_ok, pure_ok, Prod.exists, Prod.mk.injEq] at h
    obtain ⟨q, c1, hq, ps1, cs1, h1, rfl, rfl⟩ := h
    obtain ⟨ps', cs', h', hp1, hp2⟩ := ih h1
    refine ⟨q :: ps', c1 ++ cs', ?_, hp1.cons q, hp2.append_left _⟩
    simp only [splitAll, hq, h']; rfl
  | swap p q l =>
    intro ps cs h
    simp only [splitAll, bind_ok, pure_ok, Prod.exists, Prod.mk.injEq] at h
    obtain ⟨q', c1, hq, ps1, cs1, ⟨p', c2, hp, ps2, cs2, h2, rfl, rfl⟩, rfl, rfl⟩ := h
    refine ⟨p' :: q' :: ps2, c2 ++ (c1 ++ cs2), ?_, .swap _ _ _, ?_⟩
    · simp only [splitAll, hq, hp, h2]; rfl
    · rw [← List.append_assoc, ← List.append_assoc]
      exact List.perm_append_comm.append_right _
  | trans _ _ h1 h2 =>
    intro ps cs h
    obtain ⟨ps1, cs1, e1, p1, p2⟩ := h1 h
    obtain ⟨ps2, cs2, e2, p3, p4⟩ := h2 e1
    exact ⟨ps2, cs2, e2, p1.trans p3, p2.trans p4⟩

theorem retainMut_perm {α : Type} (f : α → α × Bool) {a b : List α} (h : a.Perm b) :
    (retainMut f a).Perm (retainMut f b) := h.filterMap _

theorem regulateOrSplit_rel {data : Data T} {f w : T} {u u' u1 : UnitState T} {c c' c1 : Container T}
    (hu : UnitRel u u') (hc : ContRel c c') (h : regulateOrSplit data f w u c = .ok (u1, c1)) :
    ∃ u1' c1', regulateOrSplit data f w u' c' = .ok (u1', c1') ∧ UnitRel u1 u1' ∧ ContRel c1 c1' ∧
      u1'.cache = u'.cache := by
  unfold regulateOrSplit at h ⊢
  have hl := hc.processing.length_eq
  split at h
  · next h1 =>
    rw [if_pos h1]
    simp only [Container.regulate, Except.ok.injEq, Prod.mk.injEq] at h ⊢
    obtain ⟨rfl, rfl⟩ := h
    have hp := retainMut_perm (regulateOne f data.lowWeightCutoff w) hc.processing
    refine ⟨_, _, ⟨rfl, rfl⟩, ⟨hu.dom, ?_, hu.weight, hu.flux⟩, ⟨hp, hc.processed, hc.extra, hc.extra'⟩,
      rfl⟩
    dsimp only
    rw [hu.balance, hl, hp.length_eq]
  · next h1 =>
    rw [if_neg h1]
    split at h
    · next h2 =>
      rw [if_pos h2]
      simp only [Container.split, Container.cleanExtra, bind_ok, pure_ok, Prod.exists,
        Prod.mk.injEq] at h ⊢
      obtain ⟨c2, b2, ⟨ps, cs, hs, rfl, rfl⟩, rfl, rfl⟩ := h
      obtain ⟨ps', cs', hs', hp1, hp2⟩ := splitAll_perm hc.processing hs
      have hall : (ps ++ (c.extra ++ cs)).Perm (ps' ++ (c'.extra ++ cs')) := by
        rw [hc.extra, hc.extra']
        exact hp1.append (hp2.append_left _)
      have hp := retainMut_perm (fun p : Particle T => p.lowWeightRr data.lowWeightCutoff w) hall
      refine ⟨_, _, ⟨_, _, ⟨ps', cs', hs', rfl, rfl⟩, rfl, rfl⟩, ⟨hu.dom, ?_, hu.weight, hu.flux⟩,
        ⟨hp, hc.processed, rfl, rfl⟩, rfl⟩
      dsimp only
      rw [hu.balance, hl, hp.length_eq, hall.length_eq]
    · next h2 =>
      rw [if_neg h2]
      simp only [Except.ok.injEq, Prod.mk.injEq] at h ⊢
      obtain ⟨rfl, rfl⟩ := h
      exact ⟨_, _, ⟨rfl, rfl⟩, hu, hc, rfl⟩

theorem populationControl_rel {data : Data T} {n : Nat} {w : T} {u u' u1 : UnitState T}
    {c c' c1 : Container T} (hu : UnitRel u u') (hc : ContRel c c')
    (h : populationControl data n w u c = .ok (u1, c1)) :
    ∃ u1' c1', populationControl data n w u' c' = .ok (u1', c1') ∧ UnitRel u1 u1' ∧ ContRel c1 c1' ∧
      u1'.cache = u'.cache := by
  simp only [populationControl, sourceNow, bind_ok, pure_ok, Prod.exists, Prod.mk.injEq] at h
  obtain ⟨u2, c2, ⟨rates, hrates, cells, ps, hcells, rfl, rfl⟩, f, hf, h⟩ := h
  have hu2 : UnitRel
      ⟨{ u.dom with cells := cells }, { u.balance with source := u.balance.source + ps.length },
        u.flux, u.cache, u.unitWeight⟩
      ⟨{ u'.dom with cells := cells }, { u'.balance with source := u'.balance.source + ps.length },
        u'.flux, u'.cache, u'.unitWeight⟩ := by
    refine ⟨?_, ?_, hu.weight, hu.flux⟩
    · dsimp only; rw [hu.dom]
    · dsimp only; rw [hu.balance]
  have hc2 : ContRel { c with processing := c.processing ++ ps } { c' with processing := c'.processing ++ ps } :=
    ⟨hc.processing.append_right _, hc.processed, hc.extra, hc.extra'⟩
  obtain ⟨u1', c1', h1, h2, h3, h4⟩ := regulateOrSplit_rel hu2 hc2 h
  refine ⟨u1', c1', ?_, h2, h3, h4⟩
  simp only [populationControl, sourceNow, bind_ok, pure_ok, Prod.exists, Prod.mk.injEq]
  refine ⟨_, _, ⟨rates, hrates, cells, ps, ?_, rfl, rfl⟩, f, ?_, h1⟩
  · rw [hu.dom]; exact hcells
  · have := hc2.processing.length_eq
    dsimp only at this hf ⊢
    rw [← this]; exact hf

/-! ### Cross-sections do not depend on the source tallies -/

theorem directXs_skeleton (data : Data T) (dom : Domain T) (cell group : Nat) :
    directXs data dom.skeleton cell group = directXs data dom cell group := by
  unfold directXs Domain.skeleton idx
  dsimp only
  rw [List.getElem?_map]
  cases dom.cells[cell]? with
  | none => rfl
  | some c => rfl

theorem groupsChecked_skeleton {data : Data T} {dom dom' : Domain T}
    (h : dom'.skeleton = dom.skeleton) (hg : GroupsChecked data dom) : GroupsChecked data dom' := by
  intro cell group v hv
  rw [← directXs_skeleton, h, directXs_skeleton] at hv
  have hn : dom'.skeleton.numGroups = dom.skeleton.numGroups := by rw [h]
  change dom'.numGroups = dom.numGroups at hn
  rw [hn]
  exact hg _ _ _ hv

theorem tableSize_skeleton {dom dom' : Domain T} (h : dom'.skeleton = dom.skeleton) :
    tableSize dom' = tableSize dom := by
  have hn : dom'.skeleton.numGroups = dom.skeleton.numGroups := by rw [h]
  change dom'.numGroups = dom.numGroups at hn
  have hc := congrArg (fun d => d.cells.length) h
  simp only [Domain.skeleton, List.length_map] at hc
  rw [tableSize, tableSize, hn, hc]

theorem sourceCells_skeleton {data : Data T} {dom : Domain T} {rates : List T} {w : T}
    {cells cells' : List (CellState T)} {i : Nat} {ps : List (Particle T)}
    (h : sourceCells data dom rates w cells i = .ok (cells', ps)) :
    cells'.map (fun c => { c with sourceTally := 0 }) = cells.map (fun c => { c with sourceTally := 0 }) := by
  induction cells generalizing i cells' ps with
  | nil =>
    simp only [sourceCells, Except.ok.injEq, Prod.mk.injEq] at h
    rw [← h.1]
  | cons c cells ih =>
    simp only [sourceCells, bind_ok, pure_ok, Prod.exists, Prod.mk.injEq] at h
    obtain ⟨n, _, ps1, _, cs, ps2, h2, rfl, _⟩ := h
    simp only [List.map_cons, ih h2]

theorem populationControl_skeleton {data : Data T} {n : Nat} {w : T} {u u1 : UnitState T}
    {c c1 : Container T} (h : populationControl data n w u c = .ok (u1, c1)) :
    u1.dom.skeleton = u.dom.skeleton := by
  simp only [populationControl, sourceNow, bind_ok, pure_ok, Prod.exists, Prod.mk.injEq] at h
  obtain ⟨u2, c2, ⟨rates, hrates, cells, ps, hcells, rfl, rfl⟩, f, hf, h⟩ := h
  rw [regulateOrSplit_dom h]
  simp only [Domain.skeleton]
  rw [sourceCells_skeleton hcells]

/-! ### Whole runs -/

/-- The tables of a unit have the size of the problem and every energy group that the cross-section
tables cover has an entry. -/
structure Sized (data : Data T) (u : UnitState T) : Prop where
  cacheLen : u.cache.length = tableSize u.dom
  fluxLen : u.flux.length = tableSize u.dom
  groups : GroupsChecked data u.dom

theorem syncPrepare_cache {data : Data T} {s s' : SimState T} (h : syncPrepare data s = .ok s') :
    s'.unit.cache = s.unit.cache.map (fun _ => zero) ∧ s'.unit.dom = s.unit.dom ∧
      s'.unit.flux = s.unit.flux := by
  obtain ⟨_, _, _, _, h5, h6, _, _, h9⟩ := syncPrepare_fields h
  exact ⟨h9, h6, h5⟩

/-- After a synchronisation that prepares a cycle the cache is empty. -/
theorem cycleSync_sized {data : Data T} {o : SyncOpts} {n : Nat} {s s' : SimState T}
    (hn : n < data.nSteps + 1) (hs : Sized data s.unit) (h : cycleSync data o n s = .ok s') :
    Sized data s'.unit ∧ ∀ (i : Nat) (v : T), s'.unit.cache[i]? = some v → v = zero := by
  have hdom := cycleSync_dom h
  have key : ∀ {s1 : SimState T}, s1.unit.cache.length = s.unit.cache.length →
      s1.unit.flux.length = s.unit.flux.length → s1.unit.dom = s.unit.dom →
      syncPrepare data s1 = .ok s' →
      Sized data s'.unit ∧ ∀ (i : Nat) (v : T), s'.unit.cache[i]? = some v → v = zero := by
    intro s1 hc hf hd h
    obtain ⟨h1, h2, h3⟩ := syncPrepare_cache h
    refine ⟨⟨?_, ?_, ?_⟩, ?_⟩
    · rw [h1, List.length_map, hc, h2, hd]; exact hs.cacheLen
    · rw [h3, hf, h2, hd]; exact hs.fluxLen
    · rw [h2, hd]; exact hs.groups
    · intro i v hv
      rw [h1, List.getElem?_map, Option.map_eq_some_iff] at hv
      obtain ⟨_, _, rfl⟩ := hv
      rfl
  unfold cycleSync at h
  split at h
  · rw [bind_ok] at h
    obtain ⟨s1, h1, h⟩ := h
    rw [if_neg (by omega)] at h
    simp only [syncFinalize, bind_ok, pure_ok] at h1
    obtain ⟨sp, _, rfl⟩ := h1
    refine key ?_ ?_ ?_ h
    · rfl
    · simp [cycleFinalize]
    · rfl
  · exact key rfl rfl rfl h

/-- One cycle: a direct cycle from related states. -/
theorem cycleProcess_rel {data : Data T} {ex : ExecInfo} {fuel n : Nat} {w : T}
    (hz : (zero >. (zero : T)) = false) {u u' u1 u1' : UnitState T} {c c' c1 c1' : Container T}
    (hu : UnitRel u u') (hc : ContRel c c') (hs : Sized data u')
    (hcache : ∀ (i : Nat) v, u'.cache[i]? = some v → v = zero)
    (hd : DirectCycle data fuel n w u c u1 c1) :
    (CycleProcess data ex fuel n w u' c' u1' c1' →
      UnitRel u1 u1' ∧ ContRel c1 c1' ∧ Sized data u1') ∧
    (ExecUsable ex → ∃ u1' c1', CycleProcess data ex fuel n w u' c' u1' c1') := by
  obtain ⟨u2, c2, b, surv, cs, hpc, hgen, rfl, rfl⟩ := hd
  obtain ⟨u2', c2', hpc', hu2, hc2, hcache2⟩ := populationControl_rel hu hc hpc
  have hsk := populationControl_skeleton hpc'
  have hgc : GroupsChecked data u2'.dom := groupsChecked_skeleton hsk hs.groups
  have hfl2 : u2'.flux = u'.flux := by
    simp only [populationControl, sourceNow, bind_ok, pure_ok, Prod.exists, Prod.mk.injEq] at hpc'
    obtain ⟨u3, c3, ⟨_, _, _, _, _, rfl, rfl⟩, f, _, h⟩ := hpc'
    unfold regulateOrSplit at h
    split at h
    · simp only [Except.ok.injEq, Prod.mk.injEq] at h; rw [← h.1]
    · split at h
      · simp only [bind_ok, pure_ok, Prod.exists, Prod.mk.injEq] at h
        obtain ⟨_, _, _, rfl, _⟩ := h
        rfl
      · simp only [Except.ok.injEq, Prod.mk.injEq] at h; rw [← h.1]
  have hm : MemOk data u2'.dom (sharedOf u2' c2') := by
    refine ⟨?_, ?_, ?_⟩
    · rw [tableSize_skeleton hsk, sharedOf, hcache2]; exact hs.cacheLen
    · rw [tableSize_skeleton hsk, sharedOf, hfl2]; exact hs.fluxLen
    · intro i v hv
      left
      rw [sharedOf, hcache2] at hv
      rw [hcache i v hv]
      exact hz
  rw [← hu2.dom] at hgen
  constructor
  · rintro ⟨u3, c3, hpc3, hl⟩
    rw [hpc'] at hpc3
    simp only [Except.ok.injEq, Prod.mk.injEq] at hpc3
    obtain ⟨rfl, rfl⟩ := hpc3
    have hph := processLoop_direct hgc hgen rfl hm hc2.extra' hc2.processing hl
    obtain ⟨cs', hcs', hflux⟩ := hph.flux
    refine ⟨⟨hph.dom.trans hu2.dom, ?_, hph.weight.trans hu2.weight, ?_⟩, ⟨?_, ?_, rfl, hph.extra⟩,
      ⟨?_, ?_, ?_⟩⟩
    · rw [hph.balance, hu2.balance]
    · rw [hflux]; exact hu2.flux.add hcs'.symm
    · rw [hph.processing]
    · exact (hc2.processed.append_right _).trans hph.processed.symm
    · rw [hph.dom]; exact hph.mem.cacheLen
    · rw [hph.dom]; exact hph.mem.fluxLen
    · rw [hph.dom]; exact hgc
  · intro hex
    obtain ⟨u3, c3, hl⟩ := processLoop_exists hex hgc hgen rfl hm hc2.extra' hc2.processing
    exact ⟨u3, c3, u2', c2', hpc', hl⟩

theorem cycles_rel {data : Data T} {ex : ExecInfo} {o : SyncOpts} {fuel n : Nat}
    (hz : (zero >. (zero : T)) = false) (hn : n ≤ data.nSteps) {s0 s : SimState T}
    (hs0 : Sized data s0.unit) (hx0 : s0.container.extra = []) (hr0 : s0.reports = [])
    (hd : DirectCycles data o fuel n s0 s) :
    (∀ s', Cycles data ex o fuel n s0 s' → SimRel s s' ∧ Sized data s'.unit) ∧
    (ExecUsable ex → ∃ s', Cycles data ex o fuel n s0 s') := by
  induction hd with
  | zero =>
    constructor
    · intro s' h
      cases h
      refine ⟨⟨⟨rfl, rfl, rfl, .refl _⟩, ⟨.refl _, .refl _, hx0, hx0⟩, rfl, rfl, rfl, rfl, ?_⟩, hs0⟩
      rw [hr0]; exact .nil
    · intro _; exact ⟨_, .zero⟩
  | @succ n s00 s1 s2 u c _ hsync hdc ih =>
    obtain ⟨ih1, ih2⟩ := ih (by omega) hs0 hx0 hr0
    have main : ∀ s1', Cycles data ex o fuel n s00 s1' → ∃ s2', cycleSync data o n s1' = .ok s2' ∧
        SimRel s2 s2' ∧ Sized data s2'.unit ∧ ∀ (i : Nat) (v : T), s2'.unit.cache[i]? = some v → v = zero := by
      intro s1' hc
      obtain ⟨hr, hsz⟩ := ih1 s1' hc
      obtain ⟨s2', hsync', hr2⟩ := cycleSync_rel hr hsync
      obtain ⟨hsz2, hc0⟩ := cycleSync_sized (by omega) hsz hsync'
      exact ⟨s2', hsync', hr2, hsz2, hc0⟩
    constructor
    · intro s' h
      cases h with
      | @succ _ _ s1' s2'' u' c' hcy hsync'' hcp =>
        obtain ⟨s2', hsync', hr2, hsz2, hc0⟩ := main s1' hcy
        rw [hsync'] at hsync''
        cases hsync''
        rw [hr2.globalN, hr2.srcWeight] at hcp
        obtain ⟨h1, h2, h3⟩ := (cycleProcess_rel hz hr2.unit hr2.cont hsz2 hc0 hdc).1 hcp
        exact ⟨⟨h1, h2, hr2.srcWeight, hr2.globalN, hr2.cumulative, hr2.spectrum, hr2.reports⟩, h3⟩
    · intro hex
      obtain ⟨s1', hcy⟩ := ih2 hex
      obtain ⟨s2', hsync', hr2, hsz2, hc0⟩ := main s1' hcy
      obtain ⟨u', c', hcp⟩ := (cycleProcess_rel (u1' := s2'.unit) (c1' := s2'.container)
        hz hr2.unit hr2.cont hsz2 hc0 hdc).2 hex
      rw [← hr2.globalN, ← hr2.srcWeight] at hcp
      exact ⟨_, .succ hcy hsync' hcp⟩
