import Verif.Props.Flux
import Verif.Props.Balance
import Verif.Lemmas.Fails
import Verif.Lemmas.Reactions
/-!
# C11, whole cycles: the flux reported for a cycle is the flux of that cycle

The tally is set to zero between two cycles, so that the total reported for a cycle is the sum of the
contributions of the segments of this cycle, and of no other.
-/
open Flt
set_option linter.unusedSectionVars false
attribute [local irreducible] Rng.lcg Rng.sample Rng.spawn

section generic
variable {T : Type} [Flt T]

theorem processLoop_lengths {data : Data T} {ex : ExecInfo} {fuel : Nat} {u u' : UnitState T} {c c' : Container T}
    (h : ProcessLoop data ex fuel u c u' c') :
    u'.cache.length = u.cache.length ∧ u'.flux.length = u.flux.length ∧ u'.dom = u.dom := by
  induction h with
  | done => exact ⟨rfl, rfl, rfl⟩
  | iter _ hp _ ih =>
    obtain ⟨l1, l2⟩ := processParticles_lengths hp
    exact ⟨ih.1.trans l1, ih.2.1.trans l2, ih.2.2.trans (processParticles_dom hp)⟩

theorem populationControl_tables {data : Data T} {n : Nat} {w : T} {u u1 : UnitState T} {c c1 : Container T}
    (h : populationControl data n w u c = .ok (u1, c1)) :
    u1.cache = u.cache ∧ u1.flux = u.flux ∧ (c.extra = [] → c1.extra = []) := by
  simp only [populationControl, sourceNow, bind_ok, pure_ok, Prod.exists, Prod.mk.injEq] at h
  obtain ⟨u3, c3, ⟨_, _, _, _, _, rfl, rfl⟩, f, _, h⟩ := h
  unfold regulateOrSplit at h
  split at h
  · simp only [Container.regulate, Except.ok.injEq, Prod.mk.injEq] at h
    obtain ⟨rfl, rfl⟩ := h
    exact ⟨rfl, rfl, id⟩
  · split at h
    · simp only [Container.split, bind_ok, pure_ok, Prod.exists, Prod.mk.injEq] at h
      obtain ⟨_, _, ⟨_, _, _, rfl, rfl⟩, rfl, rfl⟩ := h
      exact ⟨rfl, rfl, fun _ => rfl⟩
    · simp only [Except.ok.injEq, Prod.mk.injEq] at h
      obtain ⟨rfl, rfl⟩ := h
      exact ⟨rfl, rfl, id⟩

/-- The sizes of the tables are kept by every cycle, under every schedule. -/
theorem cycles_sized {data : Data T} {ex : ExecInfo} {o : SyncOpts} {fuel n : Nat} {s0 s : SimState T}
    (hs0 : Sized data s0.unit) (hn : n ≤ data.nSteps) (h : Cycles data ex o fuel n s0 s) :
    Sized data s.unit := by
  induction h with
  | zero => exact hs0
  | @succ n s0 s1 s2 u c _ hsync hcyc ih =>
    obtain ⟨hsz, _⟩ := cycleSync_sized (by omega) (ih hs0 (by omega)) hsync
    obtain ⟨u1, c1, hpc, hl⟩ := hcyc
    obtain ⟨p1, p2, _⟩ := populationControl_tables hpc
    obtain ⟨l1, l2, l3⟩ := processLoop_lengths hl
    have hsk := populationControl_skeleton hpc
    refine ⟨?_, ?_, ?_⟩
    · rw [l1, l3, p1, tableSize_skeleton hsk]; exact hsz.cacheLen
    · rw [l2, l3, p2, tableSize_skeleton hsk]; exact hsz.fluxLen
    · rw [l3]; exact groupsChecked_skeleton hsk hsz.groups

/-- **C11, reset.** After the synchronisation that ends a cycle every entry of the flux tally is zero. -/
theorem C11_reset {data : Data T} {o : SyncOpts} {n : Nat} {s s' : SimState T}
    (h : cycleSync data o (n + 1) s = .ok s') : ∀ v ∈ s'.unit.flux, v = zero := by
  have key : ∀ s1, syncFinalize o (n + 1) s = .ok s1 → ∀ v ∈ s1.unit.flux, v = zero := by
    intro s1 h1 v hv
    simp only [syncFinalize, bind_ok, pure_ok] at h1
    obtain ⟨sp, _, rfl⟩ := h1
    obtain ⟨_, _, rfl⟩ := List.mem_map.1 hv
    rfl
  unfold cycleSync at h
  rw [if_pos (Nat.succ_ne_zero n), bind_ok] at h
  obtain ⟨s1, h1, h⟩ := h
  split at h
  · simp only [pure_ok] at h
    subst h
    exact key _ h1
  · intro v hv
    rw [(syncPrepare_cache h).2.2] at hv
    exact key _ h1 v hv

theorem cycleSync_report {data : Data T} {o : SyncOpts} {n : Nat} {s s' : SimState T}
    (h : cycleSync data o (n + 1) s = .ok s') :
    s'.reports = s.reports ++ [(n, { s.unit.balance with end_ := s.container.processed.length },
      scalarFluxSum s.unit.flux)] := by
  unfold cycleSync at h
  rw [if_pos (Nat.succ_ne_zero n), bind_ok] at h
  obtain ⟨s1, h1, h⟩ := h
  simp only [syncFinalize, bind_ok, pure_ok] at h1
  obtain ⟨sp, _, rfl⟩ := h1
  split at h
  · simp only [pure_ok] at h
    subst h
    rfl
  · simp only [syncPrepare, bind_ok, pure_ok] at h
    obtain ⟨w, _, k, _, rfl⟩ := h
    rfl

/-- The tracking phase of a cycle starts from an empty tally. -/
theorem cycle_phase_perm {data : Data T} {ex : ExecInfo} {o : SyncOpts} {fuel n : Nat} {s0 s1 s2 : SimState T}
    {u1 u : UnitState T} {c1 c : Container T} {ps : List (Particle T)} {b : Balance}
    {surv : List (Particle T)} {cs : List (Nat × T)}
    (hz : (zero >. (zero : T)) = false) (ht : StartTables data s0.unit) (h0 : StartOfRun s0)
    (hf : ∀ v ∈ s0.unit.flux, v = zero)
    (hn : n < data.nSteps) (h : Cycles data ex o fuel n s0 s1) (hs : cycleSync data o n s1 = .ok s2)
    (hp : populationControl data s2.globalN s2.srcWeight s2.unit s2.container = .ok (u1, c1))
    (hg : Generations data u1.dom fuel ps b surv cs) (hps : ps.Perm c1.processing)
    (hl : ProcessLoop data ex fuel u1 c1 u c) :
    (∀ v ∈ s2.unit.flux, v = zero) ∧ cs.length = b.numSegments ∧ (∀ d ∈ cs, d.1 < s2.unit.flux.length) ∧
    ∃ cs', cs'.Perm cs ∧ u.flux = addContribs s2.unit.flux cs' := by
  have hsz := cycles_sized ht.sized (Nat.le_of_lt hn) h
  obtain ⟨hsz2, hcache⟩ := cycleSync_sized (by omega) hsz hs
  obtain ⟨p1, p2, p3⟩ := populationControl_tables hp
  have hsk := populationControl_skeleton hp
  have hzero : ∀ v ∈ s2.unit.flux, v = zero := by
    cases n with
    | zero =>
      cases h
      simp only [cycleSync, ne_eq, not_true_eq_false, if_false] at hs
      rw [(syncPrepare_cache hs).2.2]
      exact hf
    | succ n => exact C11_reset hs
  have hm : MemOk data u1.dom (sharedOf u1 c1) := by
    refine ⟨?_, ?_, ?_⟩
    · rw [tableSize_skeleton hsk, sharedOf, p1]; exact hsz2.cacheLen
    · rw [tableSize_skeleton hsk, sharedOf, p2]; exact hsz2.fluxLen
    · intro i v hv
      left
      rw [sharedOf, p1] at hv
      rw [hcache i v hv]
      exact hz
  have hgc := groupsChecked_skeleton hsk hsz2.groups
  have hextra : c1.extra = [] := by
    apply p3
    have := (cycles_between (Nat.le_of_lt hn) h0.initial h).extra
    unfold cycleSync at hs
    split at hs
    · simp only [bind_ok] at hs
      obtain ⟨s1', h1, hs⟩ := hs
      rw [if_neg (by omega)] at hs
      simp only [syncFinalize, bind_ok, pure_ok] at h1
      obtain ⟨sp, _, rfl⟩ := h1
      simp only [syncPrepare, bind_ok, pure_ok] at hs
      obtain ⟨w, _, k, _, rfl⟩ := hs
      exact this
    · simp only [syncPrepare, bind_ok, pure_ok] at hs
      obtain ⟨w, _, k, _, rfl⟩ := hs
      exact this
  have hph := processLoop_direct hgc hg rfl hm hextra hps hl
  obtain ⟨g1, g2⟩ := generations_contribs hgc hg
  obtain ⟨cs', hperm, hflux⟩ := hph.flux
  refine ⟨hzero, g1, fun d hd => ?_, cs', hperm, by rw [hflux, p2]⟩
  rw [hsz2.fluxLen, ← tableSize_skeleton hsk]
  exact g2 d hd

theorem cycle_phase {data : Data T} {ex : ExecInfo} {o : SyncOpts} {fuel n : Nat} {s0 s1 s2 : SimState T}
    {u1 u : UnitState T} {c1 c : Container T} {b : Balance} {surv : List (Particle T)} {cs : List (Nat × T)}
    (hz : (zero >. (zero : T)) = false) (ht : StartTables data s0.unit) (h0 : StartOfRun s0)
    (hf : ∀ v ∈ s0.unit.flux, v = zero)
    (hn : n < data.nSteps) (h : Cycles data ex o fuel n s0 s1) (hs : cycleSync data o n s1 = .ok s2)
    (hp : populationControl data s2.globalN s2.srcWeight s2.unit s2.container = .ok (u1, c1))
    (hg : Generations data u1.dom fuel c1.processing b surv cs) (hl : ProcessLoop data ex fuel u1 c1 u c) :
    (∀ v ∈ s2.unit.flux, v = zero) ∧ cs.length = b.numSegments ∧ (∀ d ∈ cs, d.1 < s2.unit.flux.length) ∧
    ∃ cs', cs'.Perm cs ∧ u.flux = addContribs s2.unit.flux cs' :=
  cycle_phase_perm hz ht h0 hf hn h hs hp hg (.refl _) hl

/-- **C11, entries of the tally in a run.** For every number type, policy and schedule: at the end of the
tracking phase of any cycle of a run, each entry of the tally is exactly the contributions of the segments of
this cycle tallied there, added to zero one after the other; nothing of an earlier cycle is left. -/
theorem C11_cycle_flux {data : Data T} {ex : ExecInfo} {o : SyncOpts} {fuel n : Nat} {s0 s1 s2 : SimState T}
    {u1 u : UnitState T} {c1 c : Container T} {b : Balance} {surv : List (Particle T)} {cs : List (Nat × T)}
    (hz : (zero >. (zero : T)) = false) (ht : StartTables data s0.unit) (h0 : StartOfRun s0)
    (hf : ∀ v ∈ s0.unit.flux, v = zero)
    (hn : n < data.nSteps) (h : Cycles data ex o fuel n s0 s1) (hs : cycleSync data o n s1 = .ok s2)
    (hp : populationControl data s2.globalN s2.srcWeight s2.unit s2.container = .ok (u1, c1))
    (hg : Generations data u1.dom fuel c1.processing b surv cs) (hl : ProcessLoop data ex fuel u1 c1 u c) :
    (∀ d ∈ cs, d.1 < u.flux.length) ∧
    ∃ cs', cs'.Perm cs ∧ ∀ i, i < u.flux.length → u.flux[i]? = some ((contribsAt cs' i).foldl Flt.add zero) := by
  obtain ⟨h1, _, h3, cs', hc, hfl⟩ := cycle_phase hz ht h0 hf hn h hs hp hg hl
  have hlen : u.flux.length = s2.unit.flux.length := by rw [hfl, addContribs_length]
  refine ⟨fun d hd => by rw [hlen]; exact h3 d hd, cs', hc, fun i hi => ?_⟩
  rw [hlen] at hi
  rw [hfl]
  refine addContribs_getElem _ _ _ _ ?_
  rw [List.getElem?_eq_getElem hi, h1 _ (List.getElem_mem hi)]

end generic

/-! ## Over the reals -/

theorem addContribs_sum (flux : List ℝ) (cs : List (ℕ × ℝ)) (h : ∀ c ∈ cs, c.1 < flux.length) :
    (addContribs flux cs).sum = flux.sum + (cs.map (·.2)).sum := by
  induction cs generalizing flux with
  | nil => simp [addContribs]
  | cons c cs ih =>
    have hstep : addContribs flux (c :: cs) = addContribs (flux.modify c.1 (fun x => x +. c.2)) cs := rfl
    have hm : ∀ (l : List ℝ) (i : ℕ) (v : ℝ), i < l.length → (l.modify i (fun x => x +. v)).sum = l.sum + v := by
      intro l
      induction l with
      | nil => intro i v hi; simp at hi
      | cons a l ih =>
        intro i v hi
        cases i with
        | zero => simp [List.modify]; ring
        | succ i =>
          rw [List.modify_succ_cons, List.sum_cons, List.sum_cons, ih i v (by simpa using hi)]; ring
    rw [hstep, ih _ (fun d hd => by rw [List.length_modify]; exact h d (List.mem_cons_of_mem _ hd)),
      hm _ _ _ (h c (by simp))]
    simp [add_assoc]

/-- **C11, reports of a run.** The total flux reported for cycle `n` of a run, under any policy and
schedule, is the sum of the contributions (path length times weight, one per counted segment) of the
segments of that cycle alone; the reports of the earlier cycles stay as they are. -/
theorem C11_cycle_report {data : Data ℝ} {ex : ExecInfo} {o : SyncOpts} {fuel n : ℕ} {s0 s1 s2 s3 : SimState ℝ}
    {u1 u : UnitState ℝ} {c1 c : Container ℝ} {b : Balance} {surv : List (Particle ℝ)} {cs : List (ℕ × ℝ)}
    (ht : StartTables data s0.unit) (h0 : StartOfRun s0) (hf : ∀ v ∈ s0.unit.flux, v = 0)
    (hn : n < data.nSteps) (h : Cycles data ex o fuel n s0 s1) (hs : cycleSync data o n s1 = .ok s2)
    (hp : populationControl data s2.globalN s2.srcWeight s2.unit s2.container = .ok (u1, c1))
    (hg : Generations data u1.dom fuel c1.processing b surv cs) (hl : ProcessLoop data ex fuel u1 c1 u c)
    (hs' : cycleSync data o (n + 1) { s2 with unit := u, container := c } = .ok s3) :
    s3.reports = s2.reports ++ [(n, { u.balance with end_ := c.processed.length }, (cs.map (·.2)).sum)] ∧
    cs.length = b.numSegments := by
  obtain ⟨h1, h2, h3, cs', hc, hfl⟩ := cycle_phase (by simp) ht h0 (by simpa using hf) hn h hs hp hg hl
  refine ⟨?_, h2⟩
  rw [cycleSync_report hs']
  congr 4
  change scalarFluxSum u.flux = _
  rw [scalarFluxSum, flt_sum_real, hfl, addContribs_sum]
  · rw [(hc.map _).sum_eq, List.sum_eq_zero (by simpa using h1), zero_add]
  · intro d hd
    exact h3 d (hc.mem_iff.1 hd)

/-! ## The hypotheses are met -/

/-- Evaluated by the kernel: the second cycle of the toy run, with its synchronisations. -/
def toyReportCheck : Bool :=
  match toyCycle 0 toySim with
  | .ok s1 =>
    match cycleSync toyData toyOpts 1 s1 with
    | .ok s2 =>
      match populationControl toyData s2.globalN s2.srcWeight s2.unit s2.container with
      | .ok (u1, c1) =>
        match generationsFn toyData u1.dom 20 8 c1.processing, processLoopSeq toyData 20 8 u1 c1 with
        | .ok (_, _, cs), .ok _ => decide (0 < cs.length)
        | _, _ => false
      | .error _ => false
    | .error _ => false
  | .error _ => false

theorem toyReportCheck_true : toyReportCheck = true := by decide +kernel

/-- The hypotheses of `C11_cycle_flux` are met by the second cycle of the toy run, with contributions. -/
example : (zero >. (zero : Toy)) = false ∧ StartTables toyData toySim.unit ∧ StartOfRun toySim ∧
    (∀ v ∈ toySim.unit.flux, v = zero) ∧ 1 < toyData.nSteps ∧
    ∃ s1 s2 u1 c1 b surv cs u c, Cycles toyData toyExec toyOpts 20 1 toySim s1 ∧
      cycleSync toyData toyOpts 1 s1 = .ok s2 ∧
      populationControl toyData s2.globalN s2.srcWeight s2.unit s2.container = .ok (u1, c1) ∧
      Generations toyData u1.dom 20 c1.processing b surv cs ∧ 0 < cs.length ∧
      ProcessLoop toyData toyExec 20 u1 c1 u c := by
  refine ⟨by decide, toy_startTables, ⟨rfl, rfl, rfl, rfl, rfl, rfl⟩, by decide, by decide, ?_⟩
  have h := toyReportCheck_true
  unfold toyReportCheck at h
  split at h
  · next s1 h1 =>
    split at h
    · next s2 h2 =>
      split at h
      · next u1 c1 h3 =>
        split at h
        · next b surv cs u h4 h5 =>
          obtain ⟨u, c⟩ := u
          exact ⟨s1, s2, u1, c1, b, surv, cs, u, c, toyCycle_sound .zero h1, h2, h3, generationsFn_sound h4,
            by simpa using h, processLoopSeq_sound rfl h5⟩
        · cases h
      · cases h
    · cases h
  · cases h
