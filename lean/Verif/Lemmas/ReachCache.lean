import Verif.Lemmas.RunEquiv
import Verif.Props.CycleReport
/-!
# The values read from the cross-section cache

The cache is cleared before each cycle and only computed cross-sections are stored in it: every value read from
it during a run is zero or the cross-section computed for the entry.
-/
set_option linter.unusedSectionVars false
open Flt
variable {T : Type} [Flt T]

theorem cacheAnswer_stores (data : Data T) (dom : Domain T) : StoresIn data dom (CacheAnswer data dom) :=
  fun cell group _ h => .inr ⟨cell, group, rfl, h⟩

theorem directXs_of_skeleton {data : Data T} {d dom : Domain T} (h : d.skeleton = dom.skeleton) (c g : Nat) :
    directXs data d c g = directXs data dom c g := by
  rw [← directXs_skeleton data d, h, directXs_skeleton]

theorem CacheAnswer.skeleton {data : Data T} {d dom : Domain T} (h : d.skeleton = dom.skeleton) {i : Nat} {v : T}
    (hv : CacheAnswer data dom i v) : CacheAnswer data d i v := by
  rcases hv with h0 | ⟨c, g, hi, hx⟩
  · exact .inl h0
  · exact .inr ⟨c, g, by rw [numGroups_skeleton h]; exact hi, by rw [directXs_of_skeleton h]; exact hx⟩

/-- The preparation of a cycle clears the cache. -/
theorem cycleSync_cleared {data : Data T} {o : SyncOpts} {n : Nat} {s s' : SimState T} (hn : n ≤ data.nSteps)
    (h : cycleSync data o n s = .ok s') (i : Nat) (v : T) (hv : s'.unit.cache[i]? = some v) : v = zero := by
  have key : ∀ {s1 : SimState T}, syncPrepare data s1 = .ok s' → v = zero := by
    intro s1 h
    rw [(syncPrepare_cache h).1, List.getElem?_map, Option.map_eq_some_iff] at hv
    obtain ⟨_, _, rfl⟩ := hv
    rfl
  unfold cycleSync at h
  split at h
  · rw [bind_ok] at h
    obtain ⟨s1, h1, h⟩ := h
    rw [if_neg (by omega)] at h
    exact key h
  · exact key h

/-- Before the tracking of a cycle. -/
theorem populationControl_answers {data : Data T} {o : SyncOpts} {n gn : Nat} {w : T} {s s1 : SimState T}
    {u : UnitState T} {c : Container T} (hn : n ≤ data.nSteps) (hsync : cycleSync data o n s = .ok s1)
    (hpc : populationControl data gn w s1.unit s1.container = .ok (u, c)) :
    CacheIn (CacheAnswer data u.dom) u.cache := by
  intro i v hv
  rw [(populationControl_tables hpc).1] at hv
  exact .inl (cycleSync_cleared hn hsync i v hv)

/-- Every particle of a run is reached with such values only. -/
theorem cycles_reachableBy {data : Data T} {ex : ExecInfo} {o : SyncOpts} {fuel n : Nat}
    {s0 s : SimState T} (h0 : InitialState s0) (hn : n ≤ data.nSteps + 1) (h : Cycles data ex o fuel n s0 s) :
    s.unit.dom.skeleton = s0.unit.dom.skeleton ∧
    ∀ p ∈ s.container.all, ReachableBy (CacheAnswer data) data s0.unit.dom fuel p := by
  induction h with
  | zero =>
    refine ⟨rfl, ?_⟩
    simp [Container.all, h0.processing, h0.processed, h0.extra]
  | @succ n s0 s1 s2 u c _ hsync hproc ih =>
    obtain ⟨hd, hk⟩ := ih h0 (by omega)
    have hd2 : s2.unit.dom.skeleton = s0.unit.dom.skeleton := by rw [cycleSync_dom hsync, hd]
    have hk2 := fun p hp => hk p (cycleSync_all hsync p hp)
    obtain ⟨u1, c1, hpc, hl⟩ := hproc
    have hk3 := populationControl_reach hd2 hk2 hpc
    have hd3 := (populationControl_skeleton hpc).trans hd2
    exact ⟨(congrArg _ (processLoop_dom hl)).trans hd3, (processLoop_reachBy hd3 hk3 (cacheAnswer_stores _ _)
      (populationControl_answers (by omega) hsync hpc) hl).1⟩
