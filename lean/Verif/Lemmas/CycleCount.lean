import Verif.Lemmas.Counting
/-! Counting lemmas for population control, the tracking loop of a cycle and whole runs. -/
set_option linter.unusedSectionVars false
attribute [local irreducible] Rng.lcg Rng.sample Rng.spawn
open Flt
variable {T : Type} [Flt T]

/-! ### Population control -/

theorem sourceParticle_known {data : Data T} {dom : Domain T} {w : T} {i : Nat} {cell : CellState T}
    {s : BitVec 64} {p : Particle T} (h : sourceParticle data dom w i cell s = .ok p) :
    p.species = .known := by
  simp only [sourceParticle, bind_ok, pure_ok, Prod.exists] at h
  obtain ⟨coord, s', _, rfl⟩ := h
  rfl

theorem sourceCells_known {data : Data T} {dom : Domain T} {rates : List T} {w : T}
    {cells cells' : List (CellState T)} {i : Nat} {ps : List (Particle T)}
    (h : sourceCells data dom rates w cells i = .ok (cells', ps)) : ∀ p ∈ ps, p.species = .known := by
  induction cells generalizing i cells' ps with
  | nil =>
    simp only [sourceCells, Except.ok.injEq, Prod.mk.injEq] at h
    obtain ⟨_, rfl⟩ := h
    simp
  | cons cell cells ih =>
    simp only [sourceCells, bind_ok, pure_ok, Prod.exists, Prod.mk.injEq] at h
    obtain ⟨n, _, ps1, hps1, cs, ps2, hcs, _, rfl⟩ := h
    intro p hp
    rcases List.mem_append.1 hp with h | h
    · obtain ⟨s, _, hs⟩ := mapM_ok_mem hps1 h
      exact sourceParticle_known hs
    · exact ih hcs p h

/-- Effect of `source_now` on counters and lists. -/
theorem sourceNow_count {data : Data T} {w : T} {u u' : UnitState T} {c c' : Container T}
    (h : sourceNow data w u c = .ok (u', c')) :
    ∃ ps, (∀ p ∈ ps, p.species = .known) ∧
      u'.balance = { u.balance with source := u.balance.source + ps.length } ∧
      c' = { c with processing := c.processing ++ ps } ∧
      u'.flux = u.flux ∧ u'.cache = u.cache := by
  simp only [sourceNow, bind_ok, pure_ok, Prod.exists, Prod.mk.injEq] at h
  obtain ⟨rates, _, cells, ps, hc, rfl, rfl⟩ := h
  exact ⟨ps, sourceCells_known hc, rfl, rfl, rfl, rfl⟩

theorem retainMut_length_le {α : Type} (f : α → α × Bool) (l : List α) :
    (retainMut f l).length ≤ l.length := List.length_filterMap_le _ _

theorem retainMut_mem {α : Type} {f : α → α × Bool} {l : List α} {b : α} (h : b ∈ retainMut f l) :
    ∃ a ∈ l, (f a).1 = b ∧ (f a).2 = true := by
  simp only [retainMut, List.mem_filterMap] at h
  obtain ⟨a, ha, h⟩ := h
  split at h
  · next hr => exact ⟨a, ha, by simpa using h, hr⟩
  · cases h

theorem overPopulatedRr_species (p : Particle T) (f : T) :
    (p.overPopulatedRr f).1.species = p.species := by
  unfold Particle.overPopulatedRr
  generalize Rng.sample (T := T) p.seed = r
  obtain ⟨v, s⟩ := r
  dsimp only
  split <;> rfl

theorem lowWeightRr_species (p : Particle T) (r w : T) :
    (p.lowWeightRr r w).1.species = p.species := by
  unfold Particle.lowWeightRr
  generalize Rng.sample (T := T) p.seed = q
  obtain ⟨v, s⟩ := q
  dsimp only
  split
  · split <;> rfl
  · rfl

theorem regulateOne_species (p : Particle T) (f r w : T) :
    (regulateOne f r w p).1.species = p.species := by
  unfold regulateOne
  dsimp only
  rw [lowWeightRr_species, overPopulatedRr_species]

theorem splitAll_count {f : T} {l ps cs : List (Particle T)} (h : splitAll f l = .ok (ps, cs)) :
    ps.length = l.length ∧
    ((∀ p ∈ l, p.species = .known) → ∀ p ∈ ps ++ cs, p.species = .known) := by
  induction l generalizing ps cs with
  | nil =>
    simp only [splitAll, Except.ok.injEq, Prod.mk.injEq] at h
    obtain ⟨rfl, rfl⟩ := h
    simp
  | cons q l ih =>
    simp only [splitAll, bind_ok, pure_ok, Prod.exists, Prod.mk.injEq] at h
    obtain ⟨q', c1, hq, ps1, cs1, h1, rfl, rfl⟩ := h
    obtain ⟨hl, hk⟩ := ih h1
    refine ⟨by simp [hl], fun hk0 p hp => ?_⟩
    have hk1 := hk (fun p hp => hk0 p (by simp [hp]))
    have hqk := hk0 q (by simp)
    simp only [Particle.underPopulatedSplit, bind_ok, pure_ok, Prod.mk.injEq] at hq
    obtain ⟨n, _, rfl, rfl⟩ := hq
    simp only [List.mem_append, List.mem_cons, List.mem_map] at hp hk1
    rcases hp with (rfl | hp) | ⟨sd, _, rfl⟩ | hp
    · exact hqk
    · exact hk1 p (.inl hp)
    · exact hqk
    · exact hk1 p (.inr hp)

/-- Effect of the regulation step. `d` = what `over_rr`, `weight_rr`, `split` are set to. -/
theorem regulateOrSplit_count {data : Data T} {f w : T} {u u' : UnitState T} {c c' : Container T}
    (hex : c.extra = [])
    (hb : u.balance.overRr = 0 ∧ u.balance.weightRr = 0 ∧ u.balance.split = 0)
    (h : regulateOrSplit data f w u c = .ok (u', c')) :
    c'.extra = [] ∧ c'.processed = c.processed ∧
    c'.processing.length + u'.balance.overRr + u'.balance.weightRr =
      c.processing.length + u'.balance.split ∧
    u'.balance = { u.balance with overRr := u'.balance.overRr, weightRr := u'.balance.weightRr,
                                  split := u'.balance.split } ∧
    u'.flux = u.flux ∧ u'.cache = u.cache ∧ u'.dom = u.dom ∧ u'.unitWeight = u.unitWeight ∧
    ((∀ p ∈ c.processing, p.species = .known) → ∀ p ∈ c'.processing, p.species = .known) := by
  unfold regulateOrSplit at h
  split at h
  · simp only [Container.regulate, Except.ok.injEq, Prod.mk.injEq] at h
    obtain ⟨rfl, rfl⟩ := h
    have hl := retainMut_length_le (regulateOne f data.lowWeightCutoff w) c.processing
    refine ⟨hex, rfl, ?_, rfl, rfl, rfl, rfl, rfl, ?_⟩
    · dsimp only; omega
    · intro hk p hp
      obtain ⟨a, ha, rfl, _⟩ := retainMut_mem hp
      rw [regulateOne_species]; exact hk a ha
  · split at h
    · simp only [Container.split, Container.cleanExtra, bind_ok, pure_ok, Prod.exists,
        Prod.mk.injEq] at h
      obtain ⟨c1, b1, ⟨ps, cs, hs, rfl, rfl⟩, rfl, rfl⟩ := h
      obtain ⟨hlen, hk⟩ := splitAll_count hs
      have hl := retainMut_length_le (fun p : Particle T => p.lowWeightRr data.lowWeightCutoff w)
        (ps ++ (c.extra ++ cs))
      refine ⟨rfl, rfl, ?_, rfl, rfl, rfl, rfl, rfl, ?_⟩
      · dsimp only
        simp only [List.length_append] at hl ⊢
        omega
      · intro hk0 p hp
        obtain ⟨a, ha, rfl, _⟩ := retainMut_mem hp
        rw [lowWeightRr_species]
        rw [hex, List.nil_append] at ha
        exact hk hk0 a ha
    · simp only [Except.ok.injEq, Prod.mk.injEq] at h
      obtain ⟨rfl, rfl⟩ := h
      exact ⟨hex, rfl, by omega, rfl, rfl, rfl, rfl, rfl, fun h => h⟩

/-! ### The tracking loop of a cycle -/

theorem stableInsert_perm {α : Type} (le : α → α → Bool) (a : α) (l : List α) :
    (stableInsert le a l).Perm (a :: l) := by
  induction l with
  | nil => exact .refl _
  | cons b l ih =>
    unfold stableInsert
    split
    · exact .refl _
    · exact (ih.cons b).trans (.swap a b l)

theorem stableSort_perm {α : Type} (le : α → α → Bool) (l : List α) :
    (stableSort le l).Perm l := by
  induction l with
  | nil => exact .refl _
  | cons a l ih => exact (stableInsert_perm le a _).trans (ih.cons a)

/-- The particles tracked in a cycle are the ones present at the beginning and the ones created on
the way, each exactly once; counters are the corresponding counts. -/
theorem processLoop_counts {data : Data T} {ex : ExecInfo} {fuel : Nat} {u u' : UnitState T}
    {c c' : Container T} (hk : ∀ p ∈ c.processing ++ c.extra, p.species = .known)
    (h : ProcessLoop data ex fuel u c u' c') :
    ∃ ps oss ps' d new, Counts data u.dom fuel ps oss ps' d new ∧
      ps.Perm (c.processing ++ c.extra ++ new) ∧
      u'.dom = u.dom ∧ u'.unitWeight = u.unitWeight ∧ u'.balance = u.balance.add d ∧
      c'.processing = [] ∧ c'.extra = [] ∧
      c'.processed = c.processed ++ ps'.filter (fun p => p.species ≠ .unknown) := by
  induction h with
  | @done u c hd =>
    simp only [Container.isDone, Bool.and_eq_true, List.isEmpty_iff] at hd
    refine ⟨[], [], [], {}, [], Counts.zero _ _ _, ?_, rfl, rfl, (Balance.add_zero _).symm, hd.2,
      hd.1, by simp⟩
    rw [hd.1, hd.2]; exact .refl _
  | @iter u c u1 c1 u2 c2 hd hp _ ih =>
    have hsort : (c.sort).processing.Perm c.processing := stableSort_perm _ _
    have hk1 : ∀ p ∈ c.sort.processing, p.species = .known := fun p hp =>
      hk p (List.mem_append_left _ (hsort.mem_iff.1 hp))
    obtain ⟨oss, ps', d, dex, hc, hdom, huw, hb, hproc, hprocd, hextra⟩ := processParticles_counts hk1 hp
    have hk2 : ∀ p ∈ c1.cleanExtra.processing ++ c1.cleanExtra.extra, p.species = .known := by
      intro p hp
      simp only [Container.cleanExtra, hproc, List.nil_append, List.append_nil] at hp
      rcases List.mem_append.1 (hextra.mem_iff.1 hp) with h | h
      · exact hk p (List.mem_append_right _ h)
      · exact hc.extraKnown p h
    obtain ⟨ps2, oss2, ps2', d2, new2, hc2, hperm2, hdom2, huw2, hb2, hpr2, hex2, hpd2⟩ := ih hk2
    rw [hdom] at hc2 hdom2
    refine ⟨_, _, _, _, _, hc.append hc2, ?_, hdom2, huw2.trans huw, ?_, hpr2, hex2, ?_⟩
    · -- permutation
      have h1 : ps2.Perm (c.extra ++ dex ++ new2) := by
        refine hperm2.trans ?_
        simp only [Container.cleanExtra, hproc, List.nil_append, List.append_nil]
        exact hextra.append_right _
      have h2 := hsort.append h1
      refine h2.trans ?_
      simp only [List.append_assoc]
      exact .refl _
    · rw [hb2, hb, Balance.add_assoc]
    · rw [hpd2, List.filter_append]
      simp only [Container.cleanExtra, hprocd, List.append_assoc]
      rfl

/-! ### Whole cycles -/

/-- Everything that is counted in one completed cycle. -/
structure CycleCounts (data : Data T) (fuel : Nat) (u : UnitState T) (c : Container T)
    (u' : UnitState T) (c' : Container T) : Prop where
  balance : u'.balance.start + u'.balance.source + u'.balance.produce + u'.balance.split =
    u'.balance.absorb + u'.balance.census + u'.balance.escape +
      (u'.balance.overRr + u'.balance.weightRr) + u'.balance.fission
  collisions : u'.balance.collision = u'.balance.scatter + u'.balance.absorb + u'.balance.fission
  start : u'.balance.start = u.balance.start
  end_ : u'.balance.end_ = 0
  survivors : c'.processed.length = u'.balance.census
  processing : c'.processing = []
  extra : c'.extra = []
  known : ∀ p ∈ c'.processed, p.species = .known
  segments : ∃ dom ps oss ps', Tracked data dom fuel ps oss ps' ∧
    u'.balance.numSegments = oss.flatten.length ∧
    u'.balance.collision = oss.flatten.count .collision ∧
    u'.balance.census = oss.flatten.count .census

/-- A fresh balance at the start of `cycle_process`: only `start` is set. -/
theorem cycleProcess_counts {data : Data T} {ex : ExecInfo} {fuel : Nat} {globalN : Nat} {w : T}
    {u u' : UnitState T} {c c' : Container T}
    (hb : u.balance = { start := c.processing.length }) (hpd : c.processed = []) (hex : c.extra = [])
    (hk : ∀ p ∈ c.processing, p.species = .known)
    (h : CycleProcess data ex fuel globalN w u c u' c') : CycleCounts data fuel u c u' c' := by
  obtain ⟨u1, c1, hpc, hloop⟩ := h
  simp only [populationControl, bind_ok, Prod.exists] at hpc
  obtain ⟨u0, c0, hsrc, f, _, hreg⟩ := hpc
  obtain ⟨ps, hpsk, hub, hc0, _, _⟩ := sourceNow_count hsrc
  subst hc0
  rw [hb] at hub
  have hz : u0.balance.overRr = 0 ∧ u0.balance.weightRr = 0 ∧ u0.balance.split = 0 := by
    rw [hub]; exact ⟨rfl, rfl, rfl⟩
  obtain ⟨hex1, hpd1, hlen, hub1, _, _, _, _, hk1⟩ := regulateOrSplit_count (by exact hex) hz hreg
  have hk1 := hk1 (by
    intro p hp
    rcases List.mem_append.1 hp with h | h
    · exact hk p h
    · exact hpsk p h)
  obtain ⟨ps1, oss, ps', d, new, hcnt, hperm, hdom, _, hbal, hpr, hexf, hpdf⟩ :=
    processLoop_counts (by rw [hex1, List.append_nil]; exact hk1) hloop
  obtain ⟨k1, k2, k3, k4, k5, k6, k7, k8, k9, k10, k11, k12, k13, k14⟩ := hcnt
  have hl := hperm.length_eq
  rw [hex1] at hl
  simp only [List.append_nil, List.length_append] at hl hlen
  have e := hbal
  rw [hub1, hub] at e
  have hprocd : c'.processed.length = d.census := by
    rw [hpdf, hpd1]; simp only [hpd, List.nil_append]; exact k13
  have hknown : ∀ p ∈ c'.processed, p.species = .known := by
    rw [hpdf, hpd1]
    simp only [hpd, List.nil_append]
    intro p hp
    have := (List.mem_filter.1 hp).2
    cases h : p.species with
    | known => rfl
    | unknown => simp [h] at this
  refine ⟨?_, ?_, ?_, ?_, ?_, hpr, hexf, hknown, _, ps1, oss, ps', k1, ?_, ?_, ?_⟩ <;> rw [e] <;>
    (try rw [hb]) <;> simp only [Balance.add] <;> omega

/-- Sum of the balances of the reports. -/
def sumReports (l : List (Nat × Balance × T)) : Balance := Balance.sum (l.map fun r => r.2.1)

theorem Balance.sum_append (l : List Balance) (b : Balance) :
    Balance.sum (l ++ [b]) = (Balance.sum l).add b := by
  simp [Balance.sum, List.foldl_append]

theorem sumReports_snoc (l : List (Nat × Balance × T)) (r : Nat × Balance × T) :
    sumReports (l ++ [r]) = (sumReports l).add r.2.1 := by
  simp [sumReports, Balance.sum_append]

/-- What a reported balance satisfies. -/
structure ReportOk (data : Data T) (fuel : Nat) (b : Balance) : Prop where
  balance : b.start + b.source + b.produce + b.split =
    b.absorb + b.census + b.escape + (b.overRr + b.weightRr) + b.fission
  collisions : b.collision = b.scatter + b.absorb + b.fission
  survivors : b.end_ = b.census
  segments : ∃ dom ps oss ps', Tracked data dom fuel ps oss ps' ∧
    b.numSegments = oss.flatten.length ∧
    b.collision = oss.flatten.count .collision ∧
    b.census = oss.flatten.count .census

/-- State between two cycles: nothing left to process. -/
structure BetweenCycles (data : Data T) (fuel n : Nat) (s0 s : SimState T) : Prop where
  processing : s.container.processing = []
  extra : s.container.extra = []
  known : ∀ p ∈ s.container.processed, p.species = .known
  /-- the balance of the cycle that has just ended, not reported yet -/
  current : 0 < n → ReportOk data fuel { s.unit.balance with end_ := s.container.processed.length }
  startOk : 0 < n → s.unit.balance.start = (s.reports.getLast?.map (·.2.1.end_)).getD 0
  reports : ∀ r ∈ s.reports, ReportOk data fuel r.2.1
  steps : s.reports.map (·.1) = List.range (n - 1)
  chain : ∀ i r r', s.reports[i]? = some r → s.reports[i + 1]? = some r' →
    r'.2.1.start = r.2.1.end_
  first : ∀ r, s.reports[0]? = some r → r.2.1.start = 0
  cumulative : s.cumulative = sumReports s.reports
  fresh : n = 0 → s = s0

/-- The state at the start of a run: no particle, zero tallies, nothing reported. -/
structure InitialState (s : SimState T) : Prop where
  processing : s.container.processing = []
  processed : s.container.processed = []
  extra : s.container.extra = []
  balance : s.unit.balance = {}
  cumulative : s.cumulative = {}
  reports : s.reports = []

/-- State after `cycle_sync` (before `cycle_process`), or at the very end. -/
structure AfterSync (data : Data T) (fuel n : Nat) (s : SimState T) : Prop where
  processed : s.container.processed = []
  extra : s.container.extra = []
  known : ∀ p ∈ s.container.processing, p.species = .known
  balance : s.unit.balance = { start := s.container.processing.length }
  startOk : s.container.processing.length = (s.reports.getLast?.map (·.2.1.end_)).getD 0
  reports : ∀ r ∈ s.reports, ReportOk data fuel r.2.1
  steps : s.reports.map (·.1) = List.range n
  chain : ∀ i r r', s.reports[i]? = some r → s.reports[i + 1]? = some r' →
    r'.2.1.start = r.2.1.end_
  first : ∀ r, s.reports[0]? = some r → r.2.1.start = 0
  cumulative : s.cumulative = sumReports s.reports

theorem syncPrepare_fields {data : Data T} {s s' : SimState T} (h : syncPrepare data s = .ok s') :
    s'.container = s.container.swap ∧
    s'.unit.balance = { s.unit.balance with start := s.container.swap.processing.length } ∧
    s'.reports = s.reports ∧ s'.cumulative = s.cumulative ∧ s'.unit.flux = s.unit.flux ∧
    s'.unit.dom = s.unit.dom ∧ s'.spectrum = s.spectrum ∧ s'.fluence = s.fluence ∧
    s'.unit.cache = s.unit.cache.map fun _ => zero := by
  simp only [syncPrepare, bind_ok, pure_ok] at h
  obtain ⟨w, _, k, _, rfl⟩ := h
  exact ⟨rfl, rfl, rfl, rfl, rfl, rfl, rfl, rfl, rfl⟩

theorem syncFinalize_fields {o : SyncOpts} {n : Nat} {s s' : SimState T}
    (h : syncFinalize o n s = .ok s') :
    s'.container = s.container ∧
    s'.unit.balance = { start := s.container.processed.length } ∧
    s'.reports = s.reports ++ [(n - 1, { s.unit.balance with end_ := s.container.processed.length },
      scalarFluxSum s.unit.flux)] ∧
    s'.cumulative = s.cumulative.add { s.unit.balance with end_ := s.container.processed.length } := by
  simp only [syncFinalize, bind_ok, pure_ok] at h
  obtain ⟨sp, _, rfl⟩ := h
  exact ⟨rfl, rfl, rfl, rfl⟩

theorem cycleSync_after {data : Data T} {o : SyncOpts} {fuel n : Nat} {s0 s s' : SimState T}
    (hn : n ≤ data.nSteps) (h0 : InitialState s0) (hb : BetweenCycles data fuel n s0 s)
    (h : cycleSync data o n s = .ok s') : AfterSync data fuel n s' := by
  unfold cycleSync at h
  split at h
  · next hne =>
    have hpos : 0 < n := Nat.pos_of_ne_zero hne
    simp only [bind_ok] at h
    obtain ⟨s1, hf, h⟩ := h
    rw [if_neg (by omega)] at h
    obtain ⟨f1, f2, f3, f4⟩ := syncFinalize_fields hf
    obtain ⟨p1, p2, p3, p4, _⟩ := syncPrepare_fields h
    have hc : s'.container.processing = s.container.processed := by
      rw [p1, f1]; simp [Container.swap, hb.processing]
    refine ⟨by rw [p1]; rfl, by rw [p1, f1]; exact hb.extra, by rw [hc]; exact hb.known,
      ?_, ?_, ?_, ?_, ?_, ?_, ?_⟩
    · rw [p2, f2, ← p1]
    · rw [hc, p3, f3]; simp
    · rw [p3, f3]
      intro r hr
      rcases List.mem_append.1 hr with h | h
      · exact hb.reports r h
      · simp only [List.mem_singleton] at h
        subst h
        exact hb.current hpos
    · rw [p3, f3, List.map_append, hb.steps]
      obtain ⟨m, rfl⟩ := Nat.exists_eq_succ_of_ne_zero hne
      simp [List.range_succ]
    · rw [p3, f3]
      intro i r r' hr hr'
      have hstart := hb.startOk hpos
      rcases Nat.lt_trichotomy (i + 1) s.reports.length with hlt | heq | hgt
      · rw [List.getElem?_append_left (by omega)] at hr
        rw [List.getElem?_append_left hlt] at hr'
        exact hb.chain i r r' hr hr'
      · rw [List.getElem?_append_left (by omega)] at hr
        rw [List.getElem?_append_right (by omega), heq, Nat.sub_self] at hr'
        simp only [List.getElem?_cons_zero, Option.some.injEq] at hr'
        subst hr'
        dsimp only
        rw [hstart]
        have : s.reports.getLast? = some r := by
          rw [List.getLast?_eq_getElem?, ← heq]; simpa using hr
        rw [this]; rfl
      · rw [List.getElem?_append_right (by omega)] at hr'
        have : i + 1 - s.reports.length ≠ 0 := by omega
        obtain ⟨k, hk⟩ := Nat.exists_eq_succ_of_ne_zero this
        rw [hk] at hr'
        simp at hr'
    · rw [p3, f3]
      intro r hr
      cases hrep : s.reports with
      | nil =>
        rw [hrep] at hr
        simp only [List.nil_append, List.getElem?_cons_zero, Option.some.injEq] at hr
        subst hr
        have := hb.startOk hpos
        rw [hrep] at this
        simpa using this
      | cons a l =>
        rw [hrep] at hr
        exact hb.first r (by rw [hrep]; simpa using hr)
    · rw [p4, f4, p3, f3, sumReports_snoc, hb.cumulative]
  · next hn0 =>
    have hn0 : n = 0 := by omega
    subst hn0
    have hs := hb.fresh rfl
    subst hs
    obtain ⟨p1, p2, p3, p4, _⟩ := syncPrepare_fields h
    obtain ⟨i1, i2, i3, i4, i5, i6⟩ := h0
    have hc : s'.container.processing = [] := by rw [p1]; simp [Container.swap, i1, i2]
    refine ⟨by rw [p1]; rfl, by rw [p1]; exact i3, by rw [hc]; simp, ?_, ?_, ?_, ?_, ?_, ?_, ?_⟩
    · rw [p2, ← p1, i4]
    · rw [hc, p3, i6]; rfl
    · rw [p3, i6]; simp
    · rw [p3, i6]; rfl
    · rw [p3, i6]; simp
    · rw [p3, i6]; simp
    · rw [p4, p3, i5, i6]; rfl

theorem cycles_between {data : Data T} {ex : ExecInfo} {o : SyncOpts} {fuel n : Nat}
    {s0 s : SimState T} (hn : n ≤ data.nSteps) (h0 : InitialState s0)
    (h : Cycles data ex o fuel n s0 s) : BetweenCycles data fuel n s0 s := by
  induction h with
  | zero =>
    obtain ⟨i1, i2, i3, i4, i5, i6⟩ := h0
    refine ⟨i1, i3, by rw [i2]; simp, by simp, by simp, by rw [i6]; simp, by rw [i6]; rfl,
      by rw [i6]; simp, by rw [i6]; simp, by rw [i5, i6]; rfl, fun _ => rfl⟩
  | @succ n s s1 s2 u c _ hsync hproc ih =>
    have hb := ih (by omega) h0
    have ha := cycleSync_after (by omega) h0 hb hsync
    have hc := cycleProcess_counts ha.balance ha.processed ha.extra ha.known hproc
    refine ⟨hc.processing, hc.extra, hc.known, fun _ => ?_, fun _ => ?_, ha.reports,
      by simpa using ha.steps, ha.chain, ha.first, ha.cumulative, by simp⟩
    · obtain ⟨dom, ps, oss, ps', t, t2, t3, t4⟩ := hc.segments
      exact ⟨hc.balance, hc.collisions, hc.survivors, dom, ps, oss, ps', t, t2, t3, t4⟩
    · dsimp only
      rw [hc.start, ha.balance]
      exact ha.startOk

theorem runCore_after {data : Data T} {ex : ExecInfo} {o : SyncOpts} {fuel : Nat}
    {s0 s : SimState T} (h0 : InitialState s0) (h : RunCore data ex o fuel s0 s) :
    AfterSync data fuel data.nSteps s := by
  obtain ⟨s1, hc, hs⟩ := h
  exact cycleSync_after (Nat.le_refl _) h0 (cycles_between (Nat.le_refl _) h0 hc) hs

/-- The executable sequential loop is one of the runs of the relation. -/
theorem processLoopSeq_sound {data : Data T} {ex : ExecInfo} (hex : ex.policy = .sequential)
    {fuel n : Nat} {u u' : UnitState T} {c c' : Container T}
    (h : processLoopSeq data fuel n u c = .ok (u', c')) : ProcessLoop data ex fuel u c u' c' := by
  induction n generalizing u c with
  | zero => simp [processLoopSeq] at h
  | succ n ih =>
    unfold processLoopSeq at h
    split at h
    · next hd =>
      simp only [Except.ok.injEq, Prod.mk.injEq] at h
      obtain ⟨rfl, rfl⟩ := h
      exact .done hd
    · next hd =>
      simp only [bind_ok, Prod.exists] at h
      obtain ⟨u1, c1, h1, h2⟩ := h
      exact .iter (by simpa using hd) (.seq (.inl hex) h1) (ih h2)
