import Verif.Lemmas.CycleCount
import Verif.Lemmas.RunEquiv
/-! Energy groups stay within the level table; counting in the spectrum. -/
set_option linter.unusedSectionVars false
attribute [local irreducible] Rng.lcg Rng.sample Rng.spawn
open Flt
variable {T : Type} [Flt T]

theorem bisect_lt {energies : List T} {e : T} {fuel low high g : Nat} (hl : low < energies.length)
    (hh : high < energies.length) (h : bisect energies e fuel low high = .ok g) :
    g < energies.length := by
  induction fuel generalizing low high with
  | zero => simp [bisect] at h
  | succ n ih =>
    unfold bisect at h
    split at h
    · simp only [Except.ok.injEq] at h; omega
    · simp only [bind_ok] at h
      obtain ⟨x, _, h⟩ := h
      split at h
      · exact ih hl (by omega) h
      · exact ih (by omega) hh h

theorem getEnergyGroups_lt {energies : List T} {e : T} {g : Nat}
    (h : getEnergyGroups energies e = .ok g) : g < energies.length := by
  simp only [getEnergyGroups, bind_ok, idx_ok] at h
  obtain ⟨e0, h0, h⟩ := h
  have hlen := (List.getElem?_eq_some_iff.1 h0).1
  split at h
  · simp only [pure_ok] at h; omega
  · simp only [bind_ok, idx_ok] at h
    obtain ⟨el, _, h⟩ := h
    split at h
    · simp only [pure_ok] at h; omega
    · exact bisect_lt hlen (by omega) h

theorem facetCrossingEvent_group {p : Particle T} {adj : SubfacetAdj} {p' : Particle T}
    (h : facetCrossingEvent p adj = .ok p') : p'.energyGroup = p.energyGroup := by
  unfold facetCrossingEvent at h
  split at h
  all_goals first
    | (simp only [bind_ok, pure_ok] at h; obtain ⟨_, _, _, _, _, _, rfl⟩ := h; rfl)
    | (simp only [Except.ok.injEq] at h; subst h; rfl)
    | simp at h

theorem segmentEvent_group {data : Data T} {dom : Domain T} {fuel : Nat} {o : SegOutcome}
    {st st' : TrackState T} {keep : Bool} (hg : st.particle.energyGroup < data.nuclear.energies.length)
    (h : segmentEvent data dom fuel o st = .ok (keep, st')) :
    st'.particle.energyGroup < data.nuclear.energies.length := by
  cases o with
  | collision =>
    simp only [segmentEvent, collisionBranch, bind_ok, pure_ok, Prod.exists, Prod.mk.injEq] at h
    obtain ⟨cs, _, k, st1, _, g, hg', rfl, rfl⟩ := h
    have := getEnergyGroups_lt hg'
    dsimp only
    split <;> exact this
  | facetCrossing =>
    simp only [segmentEvent, facetBranch, bind_ok] at h
    obtain ⟨conn, _, fa, _, p, hp, h⟩ := h
    have hsp := facetCrossingEvent_group hp
    rw [← hsp] at hg
    split at h
    · simp only [pure_ok, Prod.mk.injEq] at h
      obtain ⟨rfl, rfl⟩ := h
      exact hg
    · simp only [bind_ok, pure_ok, Prod.mk.injEq] at h
      obtain ⟨_, _, _, _, rfl, rfl⟩ := h
      exact hg
    · simp at h
    · simp only [pure_ok, Prod.mk.injEq] at h
      obtain ⟨rfl, rfl⟩ := h
      exact hg
    · simp at h
  | census =>
    simp only [segmentEvent, Except.ok.injEq, Prod.mk.injEq] at h
    obtain ⟨rfl, rfl⟩ := h
    exact hg

theorem TrackRun.group {data : Data T} {dom : Domain T} {cfuel : Nat} {os : List SegOutcome}
    {st st' : TrackState T} (h : TrackRun data dom cfuel os st st')
    (hg : st.particle.energyGroup < data.nuclear.energies.length) :
    st'.particle.energyGroup < data.nuclear.energies.length := by
  induction h with
  | last ho hst1 hev =>
    refine segmentEvent_group ?_ hev
    rw [hst1]
    dsimp only
    rw [(outcome_frame ho).energyGroup]
    exact hg
  | more ho hst1 hev _ ih =>
    refine ih (segmentEvent_group ?_ hev)
    rw [hst1]
    dsimp only
    rw [(outcome_frame ho).energyGroup]
    exact hg

theorem Tracked.group {data : Data T} {dom : Domain T} {fuel : Nat} {ps oss ps'}
    (h : Tracked data dom fuel ps oss ps') :
    ∀ p ∈ ps', p.energyGroup < data.nuclear.energies.length := by
  induction h with
  | nil => simp
  | cons hg hr _ ih =>
    intro p hp
    rcases List.mem_cons.1 hp with rfl | hp
    · refine hr.group ?_
      simp only [gutsPrepare, bind_ok, pure_ok] at hg
      obtain ⟨g, hg, rfl⟩ := hg
      exact getEnergyGroups_lt hg
    · exact ih p hp

/-- Particles that have gone through a tracking loop have a group within the table. -/
theorem processLoop_groups {data : Data T} {ex : ExecInfo} {fuel : Nat} {u u' : UnitState T}
    {c c' : Container T} (hk : ∀ p ∈ c.processing ++ c.extra, p.species = .known)
    (hpd : c.processed = []) (h : ProcessLoop data ex fuel u c u' c') :
    ∀ p ∈ c'.processed, p.energyGroup < data.nuclear.energies.length := by
  obtain ⟨ps, oss, ps', d, new, hc, _, _, _, _, _, _, h5⟩ := processLoop_counts hk h
  rw [h5, hpd, List.nil_append]
  intro p hp
  exact hc.runs.group p (List.mem_filter.1 hp).1

theorem cycleProcess_groups {data : Data T} {ex : ExecInfo} {fuel : Nat} {globalN : Nat} {w : T}
    {u u' : UnitState T} {c c' : Container T}
    (hb : u.balance = { start := c.processing.length }) (hpd : c.processed = []) (hex : c.extra = [])
    (hk : ∀ p ∈ c.processing, p.species = .known)
    (h : CycleProcess data ex fuel globalN w u c u' c') :
    ∀ p ∈ c'.processed, p.energyGroup < data.nuclear.energies.length := by
  obtain ⟨u1, c1, hpc, hloop⟩ := h
  simp only [populationControl, bind_ok, Prod.exists] at hpc
  obtain ⟨u0, c0, hsrc, f, _, hreg⟩ := hpc
  obtain ⟨ps, hpsk, hub, hc0, _, _⟩ := sourceNow_count hsrc
  subst hc0
  rw [hb] at hub
  have hz : u0.balance.overRr = 0 ∧ u0.balance.weightRr = 0 ∧ u0.balance.split = 0 := by
    rw [hub]; exact ⟨rfl, rfl, rfl⟩
  obtain ⟨hex1, hpd1, hlen, hub1, _, _, _, _, hk1⟩ := regulateOrSplit_count (by exact hex) hz hreg
  have hk1 := hk1 (by
    intro p hp
    rcases List.mem_append.1 hp with h | h
    · exact hk p h
    · exact hpsk p h)
  exact processLoop_groups (by rw [hex1, List.append_nil]; exact hk1) (by rw [hpd1]; exact hpd) hloop

/-! ### The spectrum -/

/-- Counting succeeds when the groups are within the table, and counts. -/
theorem countSpectrum_ok (ps : List (Particle T)) (s : List Nat)
    (h : ∀ p ∈ ps, p.energyGroup < s.length) :
    ∃ t, countSpectrum ps s = .ok t := by
  induction ps generalizing s with
  | nil => exact ⟨s, rfl⟩
  | cons p ps ih =>
    have hp := h p (by simp)
    obtain ⟨t, ht⟩ := ih (s.set p.energyGroup (s[p.energyGroup] + 1))
      (fun q hq => by rw [List.length_set]; exact h q (by simp [hq]))
    refine ⟨t, ?_⟩
    simp only [countSpectrum, bind_ok, idx_ok]
    exact ⟨_, List.getElem?_eq_getElem hp, ht⟩

theorem countSpectrum_spec {ps : List (Particle T)} {s t : List Nat} (h : countSpectrum ps s = .ok t) :
    t.length = s.length ∧
    ∀ g v, s[g]? = some v → t[g]? = some (v + ps.countP (fun p => p.energyGroup = g)) := by
  induction ps generalizing s with
  | nil =>
    simp only [countSpectrum, Except.ok.injEq] at h
    subst h
    exact ⟨rfl, fun g v hv => by simpa using hv⟩
  | cons p ps ih =>
    simp only [countSpectrum, bind_ok, idx_ok] at h
    obtain ⟨x, hx, h⟩ := h
    obtain ⟨h1, h2⟩ := ih h
    refine ⟨by rw [h1, List.length_set], ?_⟩
    intro g v hv
    by_cases hg : p.energyGroup = g
    · subst hg
      have hlt := (List.getElem?_eq_some_iff.1 hx).1
      have := h2 p.energyGroup (x + 1) (by rw [List.getElem?_set]; simp [hlt])
      rw [this, List.countP_cons]
      rw [hx] at hv
      cases hv
      simp; omega
    · have := h2 g v (by rw [List.getElem?_set_ne hg]; exact hv)
      rw [this, List.countP_cons]
      simp [hg]

theorem spectrum_sum_set {s : List Nat} {g v : Nat} (h : s[g]? = some v) : (s.set g (v + 1)).sum = s.sum + 1 := by
  induction s generalizing g with
  | nil => simp at h
  | cons a s ih =>
    cases g with
    | zero => simp only [List.getElem?_cons_zero, Option.some.injEq] at h; subst h; simp; omega
    | succ g =>
      simp only [List.getElem?_cons_succ] at h
      simp only [List.set_cons_succ, List.sum_cons, ih h]; omega

theorem countSpectrum_sum {ps : List (Particle T)} {s t : List Nat} (h : countSpectrum ps s = .ok t) :
    t.sum = s.sum + ps.length := by
  induction ps generalizing s with
  | nil =>
    simp only [countSpectrum, Except.ok.injEq] at h
    subst h; simp
  | cons p ps ih =>
    simp only [countSpectrum, bind_ok, idx_ok] at h
    obtain ⟨x, hx, h⟩ := h
    rw [ih h, spectrum_sum_set hx, List.length_cons]; omega

theorem syncFinalize_spectrum {o : SyncOpts} {n : Nat} {s s' : SimState T}
    (h : syncFinalize o n s = .ok s') :
    updateSpectrum o.spectrumOn s.container s.spectrum = .ok s'.spectrum ∧
    s'.fluence = if o.bench then fluenceCompute s.fluence s.unit.dom.numGroups s.unit.flux else s.fluence := by
  simp only [syncFinalize, bind_ok, pure_ok] at h
  obtain ⟨sp, hsp, rfl⟩ := h
  exact ⟨hsp, rfl⟩

/-- Groups of the particles present between two cycles. -/
theorem cycles_groups {data : Data T} {ex : ExecInfo} {o : SyncOpts} {fuel n : Nat}
    {s0 s : SimState T} (hn : n ≤ data.nSteps) (h0 : InitialState s0)
    (h : Cycles data ex o fuel n s0 s) :
    ∀ p ∈ s.container.processed, p.energyGroup < data.nuclear.energies.length := by
  cases h with
  | zero => rw [h0.processed]; simp
  | @succ n s s1 s2 u c hc hsync hproc =>
    have ha := cycleSync_after (by omega) h0 (cycles_between (by omega) h0 hc) hsync
    exact cycleProcess_groups ha.balance ha.processed ha.extra ha.known hproc

theorem cycleSync_spectrum {data : Data T} {o : SyncOpts} {n : Nat} {s s' : SimState T}
    (hn : n ≤ data.nSteps) (hp : s.container.processing = []) (h : cycleSync data o n s = .ok s') :
    s'.container.processing = s.container.processed ∧
    (if n ≠ 0 ∧ o.spectrumOn = true then countSpectrum s.container.processed s.spectrum
      else .ok s.spectrum) = .ok s'.spectrum ∧
    s'.fluence = if n ≠ 0 ∧ o.bench = true then
      fluenceCompute s.fluence s.unit.dom.numGroups s.unit.flux else s.fluence := by
  unfold cycleSync at h
  split at h
  · next hne =>
    simp only [bind_ok] at h
    obtain ⟨s1, hf, h⟩ := h
    rw [if_neg (by omega)] at h
    obtain ⟨f1, f2, f3, f4⟩ := syncFinalize_fields hf
    obtain ⟨q1, q2⟩ := syncFinalize_spectrum hf
    obtain ⟨p1, p2, p3, p4, p5, p6, p7, p8, _⟩ := syncPrepare_fields h
    refine ⟨by rw [p1, f1]; simp [Container.swap, hp], ?_, ?_⟩
    · rw [p7, ← q1]
      unfold updateSpectrum
      cases o.spectrumOn
      · simp
      · simp only [hne, hp, ne_eq, not_false_eq_true, and_self, if_true]
        rfl
    · rw [p8, q2]
      simp [hne]
  · next hn0 =>
    have hn0 : n = 0 := by omega
    obtain ⟨p1, p2, p3, p4, p5, p6, p7, p8, _⟩ := syncPrepare_fields h
    refine ⟨by rw [p1]; simp [Container.swap, hp], ?_, ?_⟩
    · rw [p7, if_neg (by simp [hn0])]
    · rw [p8, if_neg (by simp [hn0])]
