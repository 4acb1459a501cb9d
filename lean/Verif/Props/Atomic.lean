import Verif.Lemmas.Relaxed
import Verif.Props.Schedule
/-!
# C61: the atomic instructions give what the atomic operations promise

`Verif/Model/Relaxed.lean` models the tracking phase at the level of single atomic instructions: the
flux is updated by a load and a loop of weak compare-and-exchange instructions, and a load of the
cross-section cache may return any value the entry held since the workers started.  The theorems say
that no other result is possible than with indivisible additions and up-to-date loads, and that no
contribution to the flux is lost or counted twice.
-/
open Flt
set_option linter.unusedSectionVars false
attribute [local irreducible] Rng.lcg Rng.sample Rng.spawn
variable {T : Type} [Flt T]

theorem memOk_empty {data : Data T} {u : UnitState T} {c : Container T}
    (hz : (zero >. (zero : T)) = false) (ht : StartTables data u) (hcache : ∀ v ∈ u.cache, v = zero) :
    MemOk data u.dom (sharedOf u c) :=
  ⟨ht.cache, ht.flux, fun i v hv => .inl (by rw [hcache v (List.mem_of_getElem? hv)]; exact hz)⟩

/-- **C61**, whole runs: if tracking every particle on its own succeeds, the runs on the memory with
stale loads and exchange loops are exactly the runs of C09. -/
theorem C61_runs (data : Data T) (o : SyncOpts) (fuel : Nat) (s0 s : SimState T)
    (hz : (zero >. (zero : T)) = false) (ht : StartTables data s0.unit)
    (hx : s0.container.extra = []) (hr : s0.reports = []) (hd : DirectRun data o fuel s0 s)
    (ex : ExecInfo) (s' : SimState T) :
    RelaxedRun data ex o fuel s0 s' ↔ RunCore data ex o fuel s0 s' := by
  obtain ⟨s1, hc, _⟩ := hd
  have key := relaxedCycles_iff (ex := ex) hz (Nat.le_refl _) ht.sized hx hr hc
  constructor
  · rintro ⟨s2, h1, h2⟩; exact ⟨s2, (key s2).1 h1, h2⟩
  · rintro ⟨s2, h1, h2⟩; exact ⟨s2, (key s2).2 h1, h2⟩

/-- **C61**, results: every such run gives the results of the reference, whatever its loads return and
however often its exchanges fail, and there is such a run. -/
theorem C61_results (data : Data T) (o : SyncOpts) (fuel : Nat) (s0 s : SimState T)
    (hz : (zero >. (zero : T)) = false) (ht : StartTables data s0.unit)
    (hx : s0.container.extra = []) (hr : s0.reports = []) (hd : DirectRun data o fuel s0 s) :
    (∀ ex s', RelaxedRun data ex o fuel s0 s' → SameResults s s') ∧
    (∀ ex, ex.chunkSize ≠ 0 ∨ ex.nRayonThreads ≠ 0 → ∃ s', RelaxedRun data ex o fuel s0 s') := by
  obtain ⟨h1, h2⟩ := C09_run_schedule_independent data o fuel s0 s hz ht hx hr hd
  refine ⟨fun ex s' h => h1 ex s' ((C61_runs data o fuel s0 s hz ht hx hr hd ex s').1 h),
    fun ex h => ?_⟩
  obtain ⟨s', hs'⟩ := h2 ex h
  exact ⟨s', (C61_runs data o fuel s0 s hz ht hx hr hd ex s').2 hs'⟩

/-- **C61**, no lost update: after the workers have tracked a list of particles, every contribution of
every segment has been added to its flux entry exactly once, in some order. -/
theorem C61_no_lost_update (data : Data T) (fuel : Nat) (u u' : UnitState T) (c c' : Container T)
    (hz : (zero >. (zero : T)) = false) (ht : StartTables data u) (hcache : ∀ v ∈ u.cache, v = zero)
    (hs : List (Hist T)) (hd : c.processing.mapM (directHist data u.dom fuel) = .ok hs)
    (ex : ExecInfo) (h : RelaxedParticles data ex fuel u c u' c') :
    ∃ added, added.Perm (hs.flatMap (·.contribs)) ∧ u'.flux = addContribs u.flux added := by
  have hm := memOk_empty (c := c) hz ht hcache
  exact (processParticles_direct ht.tables.groups hm hd
    ((relaxedParticles_iff ht.tables.groups hm hd).1 h)).flux

/-- **C61**, no panic and no dead end: in every state the workers can reach none has panicked, and
they can finish from there. -/
theorem C61_completes (data : Data T) (fuel k : Nat) (u : UnitState T) (c : Container T)
    (hk : 0 < k) (hz : (zero >. (zero : T)) = false) (ht : StartTables data u)
    (hcache : ∀ v ∈ u.cache, v = zero)
    (hs : List (Hist T)) (hd : c.processing.mapM (directHist data u.dom fuel) = .ok hs)
    (pool : List (Worker T (List (Particle T) × Balance))) (m : History T)
    (h : WorkersSteps (startWorkers data u.dom fuel k c.processing) ⟨sharedOf u c, []⟩ pool m) :
    (∀ w ∈ pool, ∀ e, w.prog ≠ .fail e) ∧
    ∃ (results : List _) (m' : History T),
      WorkersSteps pool m (results.map fun r => ⟨.ret r, none⟩) m' := by
  have hm := memOk_empty (c := c) hz ht hcache
  obtain ⟨hss, hfl, hpc⟩ := chunkPool_conforms ht.tables.groups hk hd
  rw [startWorkers_eq] at h
  obtain ⟨hm', progs, hf, _⟩ := (hpc.follows (sharedOf u c)).steps (histOk_start hm) h
  obtain ⟨⟨jobs, hjobs⟩, hruns⟩ := hf.conforms hm'.now
  constructor
  · intro w hw e he
    obtain ⟨j, hj⟩ := List.mem_iff_getElem?.1 hw
    have hp : (pool.map (·.prog))[j]? = some (.fail e) := by rw [List.getElem?_map, hj, Option.map_some, he]
    have hjl : j < jobs.length := by rw [← hjobs.1]; exact (List.getElem?_eq_some_iff.1 hp).1
    exact (hjobs.2 j _ _ hp (List.getElem?_eq_getElem hjl)).not_fail
  · obtain ⟨results, s', hst⟩ := hjobs.complete hm'.now
    obtain ⟨pool', m1, _, hr, hw⟩ := steps_realised hruns hjobs hm'.now hst
    exact ⟨results, m1, runs_finished hr ▸ hw⟩

/-- **C61**, the exchange loop alone, whatever the programs: an instruction changes a flux entry only by
adding the contribution of the worker that made it to the value the entry holds at that moment. -/
theorem C61_exchange (α : Type) (w w' : Worker T α) (m m' : History T) (h : Worker.Step w m w' m') :
    m'.now.flux = m.now.flux ∨
    ∃ i v k x, w.prog = .addFlux i v k ∧ w'.prog = k () ∧ m.now.flux[i]? = some x ∧
      m'.now.flux = m.now.flux.set i (x +. v) := by
  cases h with
  | fluxSwap hx => exact .inr ⟨_, _, _, _, rfl, rfl, hx, rfl⟩
  | _ => exact .inl rfl

/-! ## The hypotheses are met -/

/-- The reference run of the toy problem meets the hypotheses: a run with four threads exists on the
relaxed memory and reports the counters of the reference. -/
example : ∃ s', RelaxedRun toyData ⟨.rayon, 1, 4, 1⟩ toyOpts 20 toySim s' ∧
    (s'.reports.map fun r => (r.1, r.2.1)) = toyReports := by
  obtain ⟨s, hd, hrep⟩ := toyDirect_run
  obtain ⟨h1, h2⟩ := C61_results toyData toyOpts 20 toySim s (by decide +kernel)
    toy_startTables rfl rfl hd
  obtain ⟨s', hs'⟩ := h2 ⟨.rayon, 1, 4, 1⟩ (.inl (by decide +kernel))
  exact ⟨s', hs', (h1 _ s' hs').reports.trans hrep⟩

/-- The batch theorems apply to two workers of the toy problem. -/
example : ∃ u' c', RelaxedParticles toyData ⟨.rayon, 1, 4, 1⟩ 20 toyUnit toyBatch u' c' := by
  obtain ⟨hs, hhs, _⟩ := toyBatch_ok
  have hm := memOk_empty (c := toyBatch) (by decide +kernel) toy_startTables (by decide +kernel)
  obtain ⟨u', c', h⟩ := processParticles_exists (ex := ⟨.rayon, 1, 4, 1⟩) (.inl (by decide +kernel))
    toy_startTables.tables.groups hm hhs
  exact ⟨u', c', (relaxedParticles_iff toy_startTables.tables.groups hm hhs).2 h⟩

/-- Two workers read the same value of a flux entry; the slower one has to retry, and both
contributions are counted. -/
example : WorkersSteps (T := Toy) (α := Unit)
    [⟨.addFlux 0 3 fun _ => .ret (), none⟩, ⟨.addFlux 0 5 fun _ => .ret (), none⟩] ⟨⟨[], [0], []⟩, []⟩
    [⟨.ret (), none⟩, ⟨.ret (), none⟩] ⟨⟨[], [8], []⟩, []⟩ := by
  have h1 := WorkersStep.mk (T := Toy) (α := Unit)
    (pool := [⟨.addFlux 0 3 fun _ => .ret (), none⟩, ⟨.addFlux 0 5 fun _ => .ret (), none⟩])
    (m := ⟨⟨[], [0], []⟩, []⟩) (j := 0) rfl (.fluxRead 0 (by decide))
  refine .tail (.tail (.tail (.tail (.tail .refl h1) (.mk (j := 1) rfl (.fluxRead 0 (by decide))))
    (.mk (j := 0) rfl (.fluxSwap rfl))) (.mk (j := 1) rfl (.fluxRetry 3))) (.mk (j := 1) rfl (.fluxSwap rfl))
