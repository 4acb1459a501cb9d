import Verif.Lemmas.SafeCycle
/-!
# A run on a sound problem does not panic

The sizes of the tables and of the energy spectrum are kept over the cycles; with them, each step of a cycle
goes through.
-/
open Flt FltReal
attribute [local irreducible] Rng.lcg Rng.sample Rng.spawn

theorem cycleSync_lengths {T : Type} [Flt T] {data : Data T} {o : SyncOpts} {n : Nat} {s s' : SimState T}
    (hn : n ≤ data.nSteps) (h : cycleSync data o n s = .ok s') :
    s'.unit.cache.length = s.unit.cache.length ∧ s'.unit.flux.length = s.unit.flux.length := by
  have key : ∀ {s1 : SimState T}, s1.unit.cache.length = s.unit.cache.length →
      s1.unit.flux.length = s.unit.flux.length → syncPrepare data s1 = .ok s' →
      s'.unit.cache.length = s.unit.cache.length ∧ s'.unit.flux.length = s.unit.flux.length := by
    intro s1 hc hf h
    obtain ⟨h1, _, h3⟩ := syncPrepare_cache h
    exact ⟨by rw [h1, List.length_map, hc], by rw [h3, hf]⟩
  unfold cycleSync at h
  split at h
  · rw [bind_ok] at h
    obtain ⟨s1, h1, h⟩ := h
    rw [if_neg (by omega)] at h
    simp only [syncFinalize, bind_ok, pure_ok] at h1
    obtain ⟨sp, _, rfl⟩ := h1
    refine key ?_ ?_ h
    · rfl
    · simp [cycleFinalize]
  · exact key rfl rfl h

/-- The state in which the loop over the cycles starts: the tables have an entry by cell and energy group, the
spectrum one more than the groups. -/
structure StartSizes {T : Type} [Flt T] (s : SimState T) : Prop where
  cache : s.unit.cache.length = tableSize s.unit.dom
  flux : s.unit.flux.length = tableSize s.unit.dom
  spectrum : s.spectrum.length = s.unit.dom.numGroups + 1

variable {data : Data ℝ} {ex : ExecInfo} {o : SyncOpts} {fuel : Nat}

theorem cycles_safe {n : Nat} {s0 s : SimState ℝ} (hp : SafeProblem data s0.unit.dom) (h0 : InitialState s0)
    (hs : StartSizes s0) (hn : n ≤ data.nSteps) (h : Cycles data ex o fuel n s0 s) :
    StartSizes s ∧ s.unit.dom.skeleton = s0.unit.dom.skeleton ∧
    (∀ p ∈ s.container.all, Reachable data s0.unit.dom fuel p) := by
  obtain ⟨r1, r2⟩ := cycles_reachable h0 h
  refine ⟨?_, r1, r2⟩
  clear r1 r2
  induction h with
  | zero => exact hs
  | @succ n s0 s1 s2 u c hc hsync hcyc ih =>
    have ih := ih hp h0 hs (by omega)
    obtain ⟨r1, r2⟩ := cycles_reachable h0 hc
    have hp1 := hp.skeleton r1
    have hg := numGroups_skeleton r1
    obtain ⟨s', e1, e2, _, e4, _⟩ := hp1.sync (o := o) (n := n) (by omega) ih.spectrum (fun p h => by
      have := (C27_reachable hp.tracking.energy (r2 p h)).2.2
      omega)
    rw [hsync] at e1
    cases e1
    obtain ⟨l1, l2⟩ := cycleSync_lengths (by omega) hsync
    obtain ⟨u1, c1, hpc, hl⟩ := hcyc
    obtain ⟨p1, p2, _⟩ := populationControl_tables hpc
    obtain ⟨k1, k2, k3⟩ := processLoop_lengths hl
    have hsk := populationControl_skeleton hpc
    refine ⟨?_, ?_, ?_⟩
    · show u.cache.length = tableSize u.dom
      rw [k1, k3, p1, tableSize_skeleton hsk, e4, l1]; exact ih.cache
    · show u.flux.length = tableSize u.dom
      rw [k2, k3, p2, tableSize_skeleton hsk, e4, l2]; exact ih.flux
    · show s2.spectrum.length = u.dom.numGroups + 1
      rw [e2, k3, numGroups_skeleton hsk, e4]

theorem runFails_safe {s0 : SimState ℝ} {e : Panic} (hp : SafeProblem data s0.unit.dom) (h0 : InitialState s0)
    (hs : StartSizes s0) (hx : ¬ (ex.chunkSize = 0 ∧ ex.nRayonThreads = 0))
    (h : RunFails data ex o fuel s0 e) : e = .outOfFuel := by
  have sync : ∀ {n s}, n ≤ data.nSteps → Cycles data ex o fuel n s0 s → ∃ s', cycleSync data o n s = .ok s' ∧
      0 < s'.globalN ∧ s'.unit.dom = s.unit.dom ∧
      ∃ w, unitWeightOf data s.unit.dom.cells = .ok w ∧ s'.srcWeight = w / (data.nParticles / 10) := by
    intro n s hn hc
    obtain ⟨a1, a2, a3⟩ := cycles_safe hp h0 hs hn hc
    have hg := numGroups_skeleton a2
    obtain ⟨s', e1, _, e3, e4, e5⟩ := (hp.skeleton a2).sync (o := o) hn a1.spectrum (fun p h => by
      have := (C27_reachable hp.tracking.energy (a3 p h)).2.2
      omega)
    exact ⟨s', e1, e3, e4, e5⟩
  cases h with
  | @sync n s _ hn hc he =>
    obtain ⟨s', e1, _⟩ := sync hn hc
    rw [e1] at he
    cases he
  | @population n s s1 _ hn hc hsync he =>
    obtain ⟨s', e1, e2, e3, w, e4, e5⟩ := sync (by omega) hc
    rw [hsync] at e1
    cases e1
    obtain ⟨_, a2, _⟩ := cycles_safe hp h0 hs (by omega) hc
    obtain ⟨x, hx⟩ := (hp.skeleton (d := s1.unit.dom) (by rw [e3]; exact a2)).population (c := s1.container) e2
      (by rw [e3]; exact e4)
    rw [e5, hx] at he
    cases he
  | @tracking n s s1 u c _ hn hc hsync hpc he =>
    obtain ⟨a1, a2, a3⟩ := cycles_safe hp h0 hs (by omega) hc
    have hd1 : s1.unit.dom.skeleton = s0.unit.dom.skeleton := by rw [cycleSync_dom hsync]; exact a2
    have hk1 := fun p hp => a3 p (cycleSync_all hsync p hp)
    have hk2 := populationControl_reach hd1 hk1 hpc
    have hsk := populationControl_skeleton hpc
    have hd2 := hsk.trans hd1
    obtain ⟨l1, l2⟩ := cycleSync_lengths (by omega) hsync
    obtain ⟨p1, p2, _⟩ := populationControl_tables hpc
    have t : tableSize u.dom = tableSize s.unit.dom := by
      rw [tableSize_skeleton hsk, cycleSync_dom hsync]
    rcases loopFails_inv hd2 hk2 (fun _ _ _ _ => trivial) (fun _ _ _ => trivial) he with h | ⟨_, h⟩ | ⟨p, hr, hf⟩
    · exact h
    · exact absurd h hx
    · exact hp.tracking.particle hd2 hr (by rw [p1, l1, t, a1.cache]) (by rw [p2, l2, t, a1.flux]) hf
