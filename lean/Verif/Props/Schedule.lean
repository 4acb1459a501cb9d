import Verif.Lemmas.RunEquiv
import Verif.Props.ToyRun
/-!
# C09, C10: schedules and the cross-section cache

The reference is `Verif/Spec/Direct.lean`: every particle tracked on its own, cross-sections computed
directly, no cache, no thread.  The theorems hold for every `Flt T` whose zero is not positive.
`PoolSteps` is any interleaving of the single accesses of the workers; `RunCore` contains every policy,
number of threads, chunk size and interleaving.
-/
open Flt
set_option linter.unusedSectionVars false
attribute [local irreducible] Rng.lcg Rng.sample Rng.spawn
variable {T : Type} [Flt T]

/-! ## Specification -/

/-- Every energy group beyond the tables is rejected by the cross-section tables themselves: each cell
has a material with at least one isotope and one reaction, whose table has one value per group, and
the fraction and density are not zero. -/
structure TablesSized (data : Data T) (dom : Domain T) : Prop where
  material : ∀ cell ∈ dom.cells, ∀ mat, data.materials[cell.material]? = some mat →
    (cell.cellNumberDensity ==. zero) = false ∧
    ∃ iso ∈ mat.iso, (iso.atomFraction ==. zero) = false ∧
      ∀ rs, data.nuclear.isotopes[iso.gid]? = some rs →
        ∃ r ∈ rs, r.crossSection.length = dom.numGroups

/-- The state of a unit at startup: tables sized as the cells and groups. -/
structure StartTables (data : Data T) (u : UnitState T) : Prop where
  cache : u.cache.length = u.dom.cells.length * u.dom.numGroups
  flux : u.flux.length = u.dom.cells.length * u.dom.numGroups
  tables : TablesSized data u.dom

/-- Two final states that a user cannot tell apart, except for the rounding of flux sums: same
reported steps and counters, same cumulative counters, same spectrum, same source weight and
population, same particles up to order. -/
structure SameResults (s s' : SimState T) : Prop where
  reports : s'.reports.map (fun r => (r.1, r.2.1)) = s.reports.map (fun r => (r.1, r.2.1))
  cumulative : s'.cumulative = s.cumulative
  spectrum : s'.spectrum = s.spectrum
  srcWeight : s'.srcWeight = s.srcWeight
  globalN : s'.globalN = s.globalN
  waiting : s'.container.processing.Perm s.container.processing
  done : s'.container.processed.Perm s.container.processed
  cells : s'.unit.dom.cells = s.unit.dom.cells

/-! ## From the specification to the lemmas -/

theorem TablesSized.groups {data : Data T} {dom : Domain T} (h : TablesSized data dom) :
    GroupsChecked data dom := by
  intro c g v hv
  simp only [directXs, weightedMacroXs, bind_ok, idx_ok, pure_ok] at hv
  obtain ⟨cell, hc, mat, hmat, l, hl, rfl⟩ := hv
  obtain ⟨hden, iso, hiso, hfr, hrs⟩ := h.material cell (List.mem_of_getElem? hc) mat hmat
  obtain ⟨i, hi⟩ := List.mem_iff_getElem?.1 hiso
  have hilt := (List.getElem?_eq_some_iff.1 hi).1
  obtain ⟨x, _, hx⟩ := mapM_ok_getElem hl i i (by simp [hilt])
  simp only [macroscopicTotalXs, bind_ok, idx_ok] at hx
  obtain ⟨iso', hi', hx⟩ := hx
  rw [hi] at hi'
  cases hi'
  rw [hfr, hden] at hx
  simp only [Bool.or_self, Bool.false_eq_true, if_false, NuclearData.getTotalCrossSection, bind_ok,
    idx_ok, groupCrossSections, pure_ok] at hx
  obtain ⟨m, ⟨rs, hrs', l', hl', _⟩, _⟩ := hx
  obtain ⟨r, hr, hlen⟩ := hrs rs hrs'
  obtain ⟨j, hj⟩ := List.mem_iff_getElem?.1 hr
  obtain ⟨y, _, hy⟩ := mapM_ok_getElem hl' j r hj
  rw [idx_ok] at hy
  have := (List.getElem?_eq_some_iff.1 hy).1
  omega

theorem StartTables.sized {data : Data T} {u : UnitState T} (h : StartTables data u) : Sized data u :=
  ⟨h.cache, h.flux, h.tables.groups⟩

theorem SimRel.same {s s' : SimState T} (h : SimRel s s') : SameResults s s' := by
  refine ⟨?_, h.cumulative, h.spectrum, h.srcWeight, h.globalN, h.cont.processing.symm,
    h.cont.processed.symm, by rw [h.unit.dom]⟩
  have hr := h.reports
  generalize s.reports = a at hr ⊢
  generalize s'.reports = b at hr ⊢
  induction hr with
  | nil => rfl
  | cons h1 _ ih => rw [List.map_cons, List.map_cons, ih, h1.1, h1.2.1]

theorem runCore_rel {data : Data T} {o : SyncOpts} {fuel : Nat}
    (hz : (zero >. (zero : T)) = false) {s0 s : SimState T} (hs0 : Sized data s0.unit)
    (hx0 : s0.container.extra = []) (hr0 : s0.reports = []) (hd : DirectRun data o fuel s0 s)
    (ex : ExecInfo) :
    (∀ s', RunCore data ex o fuel s0 s' → SimRel s s') ∧
    (ExecUsable ex → ∃ s', RunCore data ex o fuel s0 s') := by
  obtain ⟨s1, hc, hsync⟩ := hd
  obtain ⟨h1, h2⟩ := cycles_rel (ex := ex) hz (Nat.le_refl _) hs0 hx0 hr0 hc
  constructor
  · rintro s' ⟨s1', hc', hsync'⟩
    obtain ⟨s2, e, hr⟩ := cycleSync_rel (h1 s1' hc').1 hsync
    rw [hsync'] at e
    cases e
    exact hr
  · intro hex
    obtain ⟨s1', hc'⟩ := h2 hex
    obtain ⟨s2, e, _⟩ := cycleSync_rel (h1 s1' hc').1 hsync
    exact ⟨s2, s1', hc', e⟩

/-! ## C09 -/

/-- **C09**, whole runs: if tracking every particle on its own succeeds, then under every policy,
number of threads, chunk size and interleaving the run gives the same results as that reference, and
a finished run exists. -/
theorem C09_run_schedule_independent (data : Data T) (o : SyncOpts) (fuel : Nat) (s0 s : SimState T)
    (hz : (zero >. (zero : T)) = false) (ht : StartTables data s0.unit)
    (hx : s0.container.extra = []) (hr : s0.reports = []) (hd : DirectRun data o fuel s0 s) :
    (∀ ex s', RunCore data ex o fuel s0 s' → SameResults s s') ∧
    (∀ ex, ex.chunkSize ≠ 0 ∨ ex.nRayonThreads ≠ 0 → ∃ s', RunCore data ex o fuel s0 s') :=
  ⟨fun ex s' h => ((runCore_rel hz ht.sized hx hr hd ex).1 s' h).same,
   fun ex h => (runCore_rel hz ht.sized hx hr hd ex).2 h⟩

/-- **C09**, one call of the tracking of a list of particles, for every schedule: same particles in
the same order, same counters, same new particles up to order, as the sequential code. -/
theorem C09_batch_schedule_independent (data : Data T) (fuel : Nat) (u : UnitState T) (c : Container T)
    (hz : (zero >. (zero : T)) = false) (ht : StartTables data u)
    (hcache : ∀ v ∈ u.cache, v = zero)
    (hs : List (Hist T)) (hd : c.processing.mapM (directHist data u.dom fuel) = .ok hs) :
    ∃ us cs, processSeq data fuel u c = .ok (us, cs) ∧
      ∀ ex u' c', ProcessParticles data ex fuel u c u' c' →
        c'.processed = cs.processed ∧ c'.processing = cs.processing ∧ c'.extra.Perm cs.extra ∧
        u'.balance = us.balance ∧ u'.dom = us.dom ∧ FluxRel us.flux u'.flux := by
  have hm : MemOk data u.dom (sharedOf u c) :=
    ⟨ht.cache, ht.flux, fun i v hv => .inl (by rw [hcache v (List.mem_of_getElem? hv)]; exact hz)⟩
  obtain ⟨us, cs, hex⟩ := processParticles_exists (ex := ⟨.sequential, 1, 1, 0⟩) (.inr (by decide))
    ht.tables.groups hm hd
  have hseq : processSeq data fuel u c = .ok (us, cs) := by
    cases hex with
    | seq _ h => exact h
    | par h => rcases h with h | h <;> cases h
  have hb := processParticles_direct ht.tables.groups hm hd hex
  refine ⟨us, cs, hseq, ?_⟩
  intro ex u' c' h
  have hb' := processParticles_direct ht.tables.groups hm hd h
  obtain ⟨e1, p1, q1⟩ := hb.extra
  obtain ⟨e2, p2, q2⟩ := hb'.extra
  obtain ⟨f1, r1, t1⟩ := hb.flux
  obtain ⟨f2, r2, t2⟩ := hb'.flux
  refine ⟨by rw [hb.processed, hb'.processed], by rw [hb.processing, hb'.processing], ?_,
    by rw [hb.balance, hb'.balance], by rw [hb.dom, hb'.dom], ⟨u.flux, f1, f2, r1.trans r2.symm, t1, t2⟩⟩
  rw [q1, q2]
  exact (p2.trans p1.symm).append_left _

/-- **C09**, no schedule goes wrong: in every state reached by any interleaving of the chunks no
worker has panicked, every interleaving is finite with a bound known in advance, and from every
reached state the work can be completed. -/
theorem C09_no_schedule_panics (data : Data T) (fuel k : Nat) (u : UnitState T) (c : Container T)
    (hk : 0 < k) (hz : (zero >. (zero : T)) = false) (ht : StartTables data u)
    (hcache : ∀ v ∈ u.cache, v = zero)
    (hs : List (Hist T)) (hd : c.processing.mapM (directHist data u.dom fuel) = .ok hs) :
    (∃ bound, ∀ n pool m, PoolRun n ((chunks k c.processing).map (chunkProg data u.dom fuel))
      (sharedOf u c) pool m → n ≤ bound) ∧
    ∀ pool m, PoolSteps ((chunks k c.processing).map (chunkProg data u.dom fuel)) (sharedOf u c)
      pool m →
      (∀ w ∈ pool, ∀ e, w ≠ .fail e) ∧
      ∃ (results : List _) (m' : Shared T), PoolSteps pool m (results.map Prog.ret) m' := by
  have hm : MemOk data u.dom (sharedOf u c) :=
    ⟨ht.cache, ht.flux, fun i v hv => .inl (by rw [hcache v (List.mem_of_getElem? hv)]; exact hz)⟩
  obtain ⟨hss, hfl, hpc⟩ := chunkPool_conforms ht.tables.groups hk hd
  refine ⟨⟨_, fun n pool m h => hpc.bound hm h⟩, ?_⟩
  intro pool m hst
  obtain ⟨hm', jobs', _, _, hpc', _⟩ := hpc.steps hm hst
  refine ⟨?_, hpc'.complete hm'⟩
  rintro w hw e rfl
  obtain ⟨j, hj⟩ := List.mem_iff_getElem?.1 hw
  have hlt := (List.getElem?_eq_some_iff.1 hj).1
  obtain ⟨job, hjob⟩ : ∃ job, jobs'[j]? = some job :=
    ⟨_, List.getElem?_eq_getElem (by rw [← hpc'.1]; exact hlt)⟩
  exact Conforms.not_fail (hpc'.2 j (.fail e) job hj hjob)

/-! ## C10 -/

/-- **C10.** In every state reached by any interleaving of the workers, the cache entry of a cell and
group, when it counts as filled, is the directly computed cross-section; so a look-up performed at
that moment returns the directly computed value. -/
theorem C10_cache_transparent (data : Data T) (fuel k : Nat) (u : UnitState T) (c : Container T)
    (hk : 0 < k) (hz : (zero >. (zero : T)) = false) (ht : StartTables data u)
    (hcache : ∀ v ∈ u.cache, v = zero)
    (hs : List (Hist T)) (hd : c.processing.mapM (directHist data u.dom fuel) = .ok hs)
    (pool : List (Prog T (List (Particle T) × Balance))) (m : Shared T)
    (hst : PoolSteps ((chunks k c.processing).map (chunkProg data u.dom fuel)) (sharedOf u c) pool m)
    (cell group : Nat) (v : T) (hv : directXs data u.dom cell group = .ok v) :
    (∃ x, m.cache[cell * u.dom.numGroups + group]? = some x ∧ ((x >. zero) = true → x = v)) ∧
    ∃ m', (cachedXs data u.dom cell group).run m = .ok (v, m') ∧ m'.flux = m.flux ∧
      m'.extra = m.extra := by
  have hm : MemOk data u.dom (sharedOf u c) :=
    ⟨ht.cache, ht.flux, fun i v hv => .inl (by rw [hcache v (List.mem_of_getElem? hv)]; exact hz)⟩
  obtain ⟨hss, hfl, hpc⟩ := chunkPool_conforms ht.tables.groups hk hd
  obtain ⟨hm', jobs', _, _, hpc', _⟩ := hpc.steps hm hst
  have hg := ht.tables.groups _ _ _ hv
  have hc := directXs_cell hv
  constructor
  · have hi := index_lt hg hc
    have hi' : cell * u.dom.numGroups + group < m.cache.length := by rw [hm'.cacheLen]; exact hi
    refine ⟨_, List.getElem?_eq_getElem hi', ?_⟩
    intro hpos
    rcases hm'.cache _ _ (List.getElem?_eq_getElem hi') with h | ⟨c', g', hg', hc', he, hx⟩
    · rw [hpos] at h; cases h
    · obtain ⟨rfl, rfl⟩ := index_inj hg hg' he
      rw [hv] at hx
      cases hx
      rfl
  · obtain ⟨m'', h1, _, h3, h4⟩ := (cachedXs_conforms ht.tables.groups hv).run hm'
    exact ⟨m'', h1, h3, by simpa using h4⟩

/-- **C10**, contents of the cache are irrelevant: starting the same tracking with an empty cache or
with any cache filled by earlier tracking (entries not positive or directly computed) gives the same
particles and counters, under any two schedules. -/
theorem C10_cache_contents_irrelevant (data : Data T) (fuel : Nat) (u : UnitState T) (c : Container T)
    (cache : List T) (hz : (zero >. (zero : T)) = false) (ht : StartTables data u)
    (hlen : cache.length = u.cache.length) (hempty : ∀ v ∈ u.cache, v = zero)
    (hgood : ∀ (i : Nat) (v : T), cache[i]? = some v → (v >. zero) = true →
      ∃ cell group, group < u.dom.numGroups ∧ i = cell * u.dom.numGroups + group ∧
        directXs data u.dom cell group = .ok v)
    (hs : List (Hist T)) (hd : c.processing.mapM (directHist data u.dom fuel) = .ok hs)
    (ex ex' : ExecInfo) (u1 u2 : UnitState T) (c1 c2 : Container T)
    (h1 : ProcessParticles data ex fuel u c u1 c1)
    (h2 : ProcessParticles data ex' fuel { u with cache := cache } c u2 c2) :
    c2.processed = c1.processed ∧ c2.extra.Perm c1.extra ∧ u2.balance = u1.balance ∧
      FluxRel u1.flux u2.flux := by
  have hm : MemOk data u.dom (sharedOf u c) :=
    ⟨ht.cache, ht.flux, fun i v hv => .inl (by rw [hempty v (List.mem_of_getElem? hv)]; exact hz)⟩
  have hm2 : MemOk data u.dom (sharedOf { u with cache := cache } c) := by
    refine ⟨hlen.trans ht.cache, ht.flux, ?_⟩
    intro i v hv
    cases hp : (v >. zero) with
    | false => exact .inl hp
    | true =>
      obtain ⟨cell, group, hg, hi, hx⟩ := hgood i v hv hp
      exact .inr ⟨cell, group, hg, directXs_cell hx, hi, hx⟩
  have hb := processParticles_direct ht.tables.groups hm hd h1
  have hb' := processParticles_direct (u := { u with cache := cache }) ht.tables.groups hm2 hd h2
  obtain ⟨e1, p1, q1⟩ := hb.extra
  obtain ⟨e2, p2, q2⟩ := hb'.extra
  obtain ⟨f1, r1, t1⟩ := hb.flux
  obtain ⟨f2, r2, t2⟩ := hb'.flux
  refine ⟨by rw [hb.processed, hb'.processed], ?_, by rw [hb.balance, hb'.balance],
    ⟨u.flux, f1, f2, r1.trans r2.symm, t1, t2⟩⟩
  rw [q1, q2]
  exact (p2.trans p1.symm).append_left _

/-- **C10**, where transparency ends: when the energy of a particle lies above the last level its
group is `num_groups`, one past the tables, and the look-up shares its entry with group 0 of the next
cell.  With an empty cache the look-up panics; after a worker has filled the neighbour's entry it
returns the neighbour's cross-section.  So the results then depend on the schedule. -/
theorem C10_violated_above_last_level (data : Data T) (dom : Domain T) (cell : Nat) (v : T)
    (hz : (zero >. (zero : T)) = false) (hcell : cell + 1 < dom.cells.length) (hn : 0 < dom.numGroups)
    (hdir : directXs data dom cell dom.numGroups = .error .indexOutOfBounds) (hpos : (v >. zero) = true)
    (hv : directXs data dom (cell + 1) 0 = .ok v) (flux : List T) :
    (cachedXs data dom cell dom.numGroups).run
        ⟨List.replicate (dom.cells.length * dom.numGroups) zero, flux, []⟩ =
      .error .indexOutOfBounds ∧
    ∃ m, (cachedXs data dom (cell + 1) 0).run
        ⟨List.replicate (dom.cells.length * dom.numGroups) zero, flux, []⟩ = .ok (v, m) ∧
      (cachedXs data dom cell dom.numGroups).run m = .ok (v, m) := by
  have hi : cell * dom.numGroups + dom.numGroups < dom.cells.length * dom.numGroups := by
    have := index_lt (group := 0) hn hcell
    rw [Nat.add_mul] at this; omega
  have he : (cell + 1) * dom.numGroups + 0 = cell * dom.numGroups + dom.numGroups := by
    rw [Nat.add_mul]; omega
  refine ⟨?_, ⟨(List.replicate (dom.cells.length * dom.numGroups) zero).set
    (cell * dom.numGroups + dom.numGroups) v, flux, []⟩, ?_, ?_⟩
  · simp only [cachedXs, Prog.run, List.getElem?_replicate, if_pos hi, hz, Bool.false_eq_true, if_false,
      hdir]
  · simp only [cachedXs, he, Prog.run, List.getElem?_replicate, if_pos hi, hz, Bool.false_eq_true,
      if_false, hv, List.length_replicate]
  · simp only [cachedXs, Prog.run, List.getElem?_set, List.length_replicate, if_pos hi, if_true, hpos]

/-! ## The hypotheses are met -/

/-- Generations computed. -/
def generationsFn (data : Data T) (dom : Domain T) (fuel : Nat) :
    Nat → List (Particle T) → Except Panic (Balance × List (Particle T) × List (Nat × T))
  | _, [] => .ok ({}, [], [])
  | 0, _ => .error .outOfFuel
  | n + 1, ps => do
    let hs ← ps.mapM (directHist data dom fuel)
    let (b, surv, cs) ← generationsFn data dom fuel n (hs.flatMap (·.extra))
    return ((Balance.sum (hs.map (·.balance))).add b,
      (hs.map (·.particle)).filter (fun p => p.species ≠ .unknown) ++ surv,
      hs.flatMap (·.contribs) ++ cs)

theorem generationsFn_sound {data : Data T} {dom : Domain T} {fuel n : Nat} {ps surv b cs}
    (h : generationsFn data dom fuel n ps = .ok (b, surv, cs)) :
    Generations data dom fuel ps b surv cs := by
  induction n generalizing ps b surv cs with
  | zero =>
    cases ps with
    | nil =>
      simp only [generationsFn, Except.ok.injEq, Prod.mk.injEq] at h
      obtain ⟨rfl, rfl, rfl⟩ := h
      exact .done
    | cons _ _ => simp [generationsFn] at h
  | succ n ih =>
    cases ps with
    | nil =>
      simp only [generationsFn, Except.ok.injEq, Prod.mk.injEq] at h
      obtain ⟨rfl, rfl, rfl⟩ := h
      exact .done
    | cons p ps =>
      simp only [generationsFn, bind_ok, pure_ok, Prod.exists, Prod.mk.injEq] at h
      obtain ⟨hs, hhs, b1, s1, c1, h1, rfl, rfl, rfl⟩ := h
      exact .next (by simp) hhs (ih h1)

/-- One cycle of the reference on the toy problem. -/
def toyDirectCycle (n : Nat) (s : SimState Toy) : Except Panic (SimState Toy) := do
  let s ← cycleSync toyData toyOpts n s
  let (u, c) ← populationControl toyData s.globalN s.srcWeight s.unit s.container
  let (b, surv, cs) ← generationsFn toyData u.dom 20 8 c.processing
  return { s with
    unit := { u with balance := u.balance.add b, flux := addContribs u.flux cs }
    container := { processing := [], processed := c.processed ++ surv, extra := [] } }

/-- The reference on the toy problem. -/
def toyDirectRun : Except Panic (SimState Toy) := do
  let s ← toyDirectCycle 0 toySim
  let s ← toyDirectCycle 1 s
  cycleSync toyData toyOpts 2 s

theorem toyDirectCycle_sound {n : Nat} {s0 s s' : SimState Toy}
    (h0 : DirectCycles toyData toyOpts 20 n s0 s) (h : toyDirectCycle n s = .ok s') :
    DirectCycles toyData toyOpts 20 (n + 1) s0 s' := by
  simp only [toyDirectCycle, bind_ok, pure_ok, Prod.exists] at h
  obtain ⟨s1, hs1, u, c, hpc, b, surv, cs, hg, rfl⟩ := h
  exact .succ h0 hs1 ⟨u, c, b, surv, cs, hpc, generationsFn_sound hg, rfl, rfl⟩

/-- Evaluated by the kernel: the reference run reports collisions, fissions, escapes. -/
def toyDirectCheck : Bool :=
  match toyDirectRun with
  | .ok s => decide ((s.reports.map fun r => (r.1, r.2.1)) = toyReports)
  | .error _ => false

theorem toyDirectCheck_true : toyDirectCheck = true := by decide +kernel

theorem toyDirect_run : ∃ s, DirectRun toyData toyOpts 20 toySim s ∧
    (s.reports.map fun r => (r.1, r.2.1)) = toyReports := by
  have h := toyDirectCheck_true
  unfold toyDirectCheck at h
  split at h
  · next s hs =>
    simp only [decide_eq_true_eq] at h
    refine ⟨s, ?_, h⟩
    simp only [toyDirectRun, bind_ok] at hs
    obtain ⟨s1, hs1, s2, hs2, hs3⟩ := hs
    exact ⟨s2, toyDirectCycle_sound (toyDirectCycle_sound .zero hs1) hs2, hs3⟩
  · cases h

theorem toy_startTables : StartTables toyData toySim.unit := by
  refine ⟨by decide +kernel, by decide +kernel, ⟨?_⟩⟩
  intro cell hc mat hm
  have : cell = { material := 0, volume := 1024, cellNumberDensity := 1024, id := 0, sourceTally := 0 } := by
    simpa [toySim, toyUnit, toyDomain] using hc
  subst this
  have : mat = { name := "m", mass := 12*1024, iso := [{ gid := 0, atomFraction := 1024 }] } := by
    simpa [toyData, eq_comm] using hm
  subst this
  refine ⟨by decide +kernel, _, List.mem_singleton.2 rfl, by decide +kernel, ?_⟩
  intro rs hrs
  have : rs = toyReactions := by simpa [toyData, eq_comm] using hrs
  subst this
  exact ⟨_, List.mem_cons_self, rfl⟩

/-- A reference run with all kinds of events meets the hypotheses of C09, and so every threaded run
with chunks of one particle reports the same counters. -/
example : ∃ s', RunCore toyData ⟨.rayon, 1, 4, 1⟩ toyOpts 20 toySim s' ∧
    (s'.reports.map fun r => (r.1, r.2.1)) = toyReports := by
  obtain ⟨s, hd, hrep⟩ := toyDirect_run
  obtain ⟨h1, h2⟩ := C09_run_schedule_independent toyData toyOpts 20 toySim s (by decide +kernel)
    toy_startTables rfl rfl hd
  obtain ⟨s', hs'⟩ := h2 ⟨.rayon, 1, 4, 1⟩ (.inl (by decide +kernel))
  exact ⟨s', hs', (h1 _ s' hs').reports.trans hrep⟩

/-- A list of particles in a state met by the batch theorems: one particle of the toy problem. -/
def toyBatch : Container Toy :=
  { processing := [{ Particle.default with
      coordinate := ⟨1024, 0, 0⟩, direction := ⟨1024, 0, 0⟩, kineticEnergy := 2048, weight := 1024,
      timeToCensus := 1, numMeanFreePaths := 1024, seed := 77 }, { Particle.default with
      coordinate := ⟨2048, 0, 0⟩, direction := ⟨1024, 0, 0⟩, kineticEnergy := 2048, weight := 1024,
      timeToCensus := 1, numMeanFreePaths := 1024, seed := 99 }]
    processed := [], extra := [] }

/-- Evaluated by the kernel. -/
def toyBatchCheck : Bool :=
  match toyBatch.processing.mapM (directHist toyData toyUnit.dom 20) with
  | .ok hs => decide (hs.length = 2)
  | .error _ => false

theorem toyBatchCheck_true : toyBatchCheck = true := by decide +kernel

theorem toyBatch_ok : ∃ hs, toyBatch.processing.mapM (directHist toyData toyUnit.dom 20) = .ok hs ∧
    hs.length = 2 := by
  have h := toyBatchCheck_true
  unfold toyBatchCheck at h
  split at h
  · next hs hhs => exact ⟨hs, hhs, by simpa using h⟩
  · cases h

/-- The hypotheses of the batch theorems are met, with two workers. -/
example : (∃ us cs, processSeq toyData 20 toyUnit toyBatch = .ok (us, cs)) ∧
    (chunks 1 toyBatch.processing).length = 2 ∧
    ∀ pool m, PoolSteps ((chunks 1 toyBatch.processing).map (chunkProg toyData toyUnit.dom 20))
      (sharedOf toyUnit toyBatch) pool m → ∀ w ∈ pool, ∀ e, w ≠ .fail e := by
  obtain ⟨hs, hhs, _⟩ := toyBatch_ok
  obtain ⟨us, cs, h1, _⟩ := C09_batch_schedule_independent toyData 20 toyUnit toyBatch (by decide +kernel)
    toy_startTables (by decide +kernel) hs hhs
  refine ⟨⟨us, cs, h1⟩, rfl, fun pool m h => ?_⟩
  exact ((C09_no_schedule_panics toyData 20 1 toyUnit toyBatch (by decide +kernel) (by decide +kernel)
    toy_startTables (by decide +kernel) hs hhs).2 pool m h).1

/-- C10 applies to the toy problem: the cross-section of its cell is 21/1024. -/
example : ∃ m, (cachedXs toyData toyUnit.dom 0 0).run (sharedOf toyUnit toyBatch) = .ok (21, m) := by
  obtain ⟨hs, hhs, _⟩ := toyBatch_ok
  obtain ⟨_, m, h, _⟩ := C10_cache_transparent toyData 20 1 toyUnit toyBatch (by decide +kernel) (by decide +kernel)
    toy_startTables (by decide +kernel) hs hhs _ _ .refl 0 0 21 (by decide +kernel)
  exact ⟨m, h⟩

/-- A domain of two cells: the first cell's group 1 (one past the tables) meets the hypotheses of the
violation. -/
example :
    let dom : Domain Toy := { toyDomain with cells := toyDomain.cells ++ toyDomain.cells }
    directXs toyData dom 0 1 = .error .indexOutOfBounds ∧ directXs toyData dom 1 0 = .ok 21 ∧
    getEnergyGroups toyData.nuclear.energies 40961 = .ok 1 := by
  exact ⟨by decide +kernel, by decide +kernel, by decide +kernel⟩
