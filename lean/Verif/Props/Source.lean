import Verif.Lemmas.Sourced
import Verif.Props.ToyRun
/-!
# C05: identifiers of sourced particles

Holds for every `Flt T`, every policy and schedule, every number of cycles.
-/
set_option linter.unusedSectionVars false
attribute [local irreducible] Rng.lcg Rng.hashState
open Flt Rng
variable {T : Type} [Flt T]

/-! ## Specification -/

/-- Cell identifiers as built by `MCDomain::new`: a distinct global number below `2^32`, shifted by 32
bits. -/
def GlobalIds (cells : List (CellState T)) : Prop :=
  ∃ gids : List Nat, gids.Nodup ∧ (∀ g ∈ gids, g < 2 ^ 32) ∧
    cells.map (·.id) = gids.map (· * 2 ^ 32)

/-- The cycles of a run, with the list of all the particles created by the source. -/
inductive SourcedRun (data : Data T) (ex : ExecInfo) (o : SyncOpts) (fuel : Nat) :
    Nat → SimState T → SimState T → List (Particle T) → Prop where
  | zero {s} : SourcedRun data ex o fuel 0 s s []
  | succ {n s s1 s2 u1 c1 u c sourced new} : SourcedRun data ex o fuel n s s1 sourced →
      cycleSync data o n s1 = .ok s2 →
      sourceNow data s2.srcWeight s2.unit s2.container = .ok (u1, c1) →
      c1.processing = s2.container.processing ++ new →
      CycleProcess data ex fuel s2.globalN s2.srcWeight s2.unit s2.container u c →
      SourcedRun data ex o fuel (n + 1) s { s2 with unit := u, container := c } (sourced ++ new)

/-! ## Theorems -/

/-- Every run has a source history. -/
theorem C05_history (data : Data T) (ex : ExecInfo) (o : SyncOpts) (fuel n : Nat)
    (s0 s : SimState T) (h : Cycles data ex o fuel n s0 s) :
    ∃ sourced, SourcedRun data ex o fuel n s0 s sourced := by
  induction h with
  | zero => exact ⟨[], .zero⟩
  | @succ n s s1 s2 u c _ hsync hp ih =>
    obtain ⟨l, hl⟩ := ih
    have hp' := hp
    obtain ⟨u1, c1, hpc, _⟩ := hp
    simp only [populationControl, bind_ok, Prod.exists] at hpc
    obtain ⟨u2, c2, hs, _⟩ := hpc
    obtain ⟨ps, _, _, hc, _⟩ := sourceNow_count hs
    exact ⟨l ++ ps, .succ hl hsync hs (by rw [hc]) hp'⟩

theorem firstSeed_inj {gids : List Nat} (hnd : gids.Nodup) (hlt : ∀ g ∈ gids, g < 2 ^ 32)
    {i j t t' : Nat} {g g' : Nat} (hi : gids[i]? = some g) (hj : gids[j]? = some g')
    (ht : t < 2 ^ 32) (ht' : t' < 2 ^ 32)
    (h : firstSeed (g * 2 ^ 32) t = firstSeed (g' * 2 ^ 32) t') : i = j ∧ t = t' := by
  have hg := hlt g (List.mem_of_getElem? hi)
  have hg' := hlt g' (List.mem_of_getElem? hj)
  have h := congrArg BitVec.toNat h
  simp only [firstSeed, BitVec.toNat_ofNat] at h
  have e : g = g' ∧ t = t' := by omega
  obtain ⟨rfl, rfl⟩ := e
  refine ⟨?_, rfl⟩
  obtain ⟨h1, e1⟩ := List.getElem?_eq_some_iff.1 hi
  obtain ⟨h2, e2⟩ := List.getElem?_eq_some_iff.1 hj
  exact (List.Nodup.getElem_inj_iff hnd).1 (e1.trans e2.symm)

/-- Invariant of the source history: the particles are numbered by distinct (cell, rank) pairs with
the rank below the counter of the cell. -/
theorem sourcedRun_ranks {data : Data T} {ex : ExecInfo} {o : SyncOpts} {fuel n : Nat}
    {s0 s : SimState T} {l : List (Particle T)} (h : SourcedRun data ex o fuel n s0 s l) :
    s.unit.dom.cells.map (·.id) = s0.unit.dom.cells.map (·.id) ∧
    ∃ K : List (Nat × Nat), K.Nodup ∧
      (∀ x ∈ K, ∃ b : CellState T, s.unit.dom.cells[x.1]? = some b ∧ x.2 < b.sourceTally) ∧
      l.map (fun p => (some p.identifier, some p.seed)) = K.map (fun x =>
        let s := ((s0.unit.dom.cells.map (·.id))[x.1]?).map fun id => firstSeed id x.2
        (s.map lcg, s.map fun s => lcg^[9] (hashState s))) := by
  induction h with
  | zero => exact ⟨rfl, [], List.nodup_nil, by simp, rfl⟩
  | @succ n s s1 s2 u1 c1 u c sourced new _ hsync hsrc hnew hp ih =>
    obtain ⟨hids, K, hnd, hK, hmap⟩ := ih
    have hdom : s2.unit.dom = s1.unit.dom := cycleSync_dom hsync
    obtain ⟨u3, c3, hpc, hl⟩ := hp
    simp only [populationControl, bind_ok, Prod.exists] at hpc
    obtain ⟨u2, c2, hs, f, _, hreg⟩ := hpc
    rw [hs] at hsrc
    obtain ⟨rfl, rfl⟩ : u2 = u1 ∧ c2 = c1 := by simpa using hsrc
    have hu : u.dom = u2.dom := by rw [processLoop_dom hl, regulateOrSplit_dom hreg]
    simp only [sourceNow, bind_ok, pure_ok, Prod.exists, Prod.mk.injEq] at hs
    obtain ⟨rates, _, cells, ps, hsc, rfl, rfl⟩ := hs
    have hps : ps = new := List.append_cancel_left hnew
    subst hps
    obtain ⟨hid, htal, K', hnd', hK', hmap'⟩ := sourceCells_ids hsc
    dsimp only at hu ⊢
    rw [hu]
    dsimp only
    rw [hdom] at hid htal hK' hmap'
    refine ⟨hid.trans hids, K ++ K', ?_, ?_, ?_⟩
    · rw [List.nodup_append]
      refine ⟨hnd, hnd', ?_⟩
      rintro x hx y hy rfl
      obtain ⟨b, hb, hlt⟩ := hK x hx
      obtain ⟨a, _, ha, _, hle, _⟩ := hK' x hy
      rw [ha] at hb
      cases hb
      omega
    · intro x hx
      rcases List.mem_append.1 hx with hx | hx
      · obtain ⟨b, hb, hlt⟩ := hK x hx
        have hlen : cells.length = s1.unit.dom.cells.length := by
          have := congrArg List.length hid
          simpa using this
        obtain ⟨hlt', _⟩ := List.getElem?_eq_some_iff.1 hb
        have hc : cells[x.1]? = some cells[x.1] := List.getElem?_eq_getElem (by omega)
        exact ⟨_, hc, Nat.lt_of_lt_of_le hlt (htal x.1 b _ hb hc)⟩
      · obtain ⟨_, b, _, hb, _, hlt⟩ := hK' x hx
        exact ⟨b, hb, hlt⟩
    · rw [List.map_append, List.map_append, hmap, hmap']
      congr 1
      apply List.map_congr_left
      intro x _
      rw [← hids, List.getElem?_map]
      cases s1.unit.dom.cells[x.1]? <;> rfl

/-- **C05.** If the cells have identifiers of distinct global numbers and no cell has sourced more
than `2^32` particles, all the particles sourced during the run have pairwise distinct identifiers
and pairwise distinct generator seeds. -/
theorem C05_sourced_distinct (data : Data T) (ex : ExecInfo) (o : SyncOpts) (fuel n : Nat)
    (s0 s : SimState T) (sourced : List (Particle T))
    (h : SourcedRun data ex o fuel n s0 s sourced) (hg : GlobalIds s0.unit.dom.cells)
    (ht : ∀ c ∈ s.unit.dom.cells, c.sourceTally ≤ 2 ^ 32) :
    (sourced.map (·.identifier)).Nodup ∧ (sourced.map (·.seed)).Nodup := by
  obtain ⟨gids, hnd, hlt, hids⟩ := hg
  obtain ⟨hids', K, hK, hKlt, hmap⟩ := sourcedRun_ranks h
  have hr : ∀ x ∈ K, ∃ g, gids[x.1]? = some g ∧ x.2 < 2 ^ 32 := by
    intro x hx
    obtain ⟨b, hb, hlt'⟩ := hKlt x hx
    have h1 : (s.unit.dom.cells.map (·.id))[x.1]? = some b.id := by simp [hb]
    rw [hids', hids, List.getElem?_map, Option.map_eq_some_iff] at h1
    obtain ⟨g, hg, _⟩ := h1
    have := ht b (List.mem_of_getElem? hb)
    exact ⟨g, hg, by omega⟩
  rw [hids] at hmap
  have key : ∀ x ∈ K, ∀ y ∈ K, ∀ {β : Type} (f : BitVec 64 → β), Function.Injective f →
      ((gids.map (· * 2 ^ 32))[x.1]?.map fun id => firstSeed id x.2).map f =
        ((gids.map (· * 2 ^ 32))[y.1]?.map fun id => firstSeed id y.2).map f → x = y := by
    intro x hx y hy β f hf he
    obtain ⟨g, hg, hx2⟩ := hr x hx
    obtain ⟨g', hg', hy2⟩ := hr y hy
    simp only [List.getElem?_map, hg, hg', Option.map_some, Option.some.injEq] at he
    obtain ⟨h1, h2⟩ := firstSeed_inj hnd hlt hg hg' hx2 hy2 (hf he)
    exact Prod.ext h1 h2
  constructor
  · have e := congrArg (List.map Prod.fst) hmap
    simp only [List.map_map, Function.comp_def] at e
    have hn : (sourced.map fun p => some p.identifier).Nodup := by
      rw [e, List.nodup_map_iff_inj_on hK]
      intro x hx y hy he
      exact key x hx y hy lcg lcg_injective he
    rw [show (sourced.map fun p => some p.identifier) = (sourced.map (·.identifier)).map some by
      rw [List.map_map]; rfl] at hn
    exact List.Nodup.of_map _ hn
  · have e := congrArg (List.map Prod.snd) hmap
    simp only [List.map_map, Function.comp_def] at e
    have hn : (sourced.map fun p => some p.seed).Nodup := by
      rw [e, List.nodup_map_iff_inj_on hK]
      intro x hx y hy he
      exact key x hx y hy _ ((lcg_injective.iterate 9).comp hashState_bijective.1) he
    rw [show (sourced.map fun p => some p.seed) = (sourced.map (·.seed)).map some by
      rw [List.map_map]; rfl] at hn
    exact List.Nodup.of_map _ hn

/-! ## Non-vacuity -/

/-- Two cycles of the toy problem meet the hypotheses; they source two particles. -/
example : ∃ s sourced, SourcedRun toyData toyExec toyOpts 20 2 toySim s sourced ∧
    GlobalIds toySim.unit.dom.cells ∧ s.unit.dom.cells.map (·.sourceTally) = [2] := by
  obtain ⟨s, hs, _, _, h⟩ := toyRun_ok
  simp only [toyRun, bind_ok] at hs
  obtain ⟨s1, hs1, s2, hs2, hs3⟩ := hs
  obtain ⟨l, hl⟩ := C05_history _ _ _ _ _ _ _ (toyCycle_sound (toyCycle_sound .zero hs1) hs2)
  refine ⟨s2, l, hl, ⟨[0], by simp, by simp, rfl⟩, ?_⟩
  rwa [cycleSync_dom hs3] at h
