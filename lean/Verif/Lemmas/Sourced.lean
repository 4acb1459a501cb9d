import Verif.Lemmas.CycleCount
import Verif.Lemmas.Rng
/-! Lemmas on the identifiers and seeds of sourced particles. -/
set_option linter.unusedSectionVars false
attribute [local irreducible] Rng.lcg Rng.hashState
open Flt Rng
variable {T : Type} [Flt T]

theorem generateCoordinate3dg_seed {seed s : BitVec 64} {mesh : Mesh T} {cell : Nat} {v : T}
    {x : Vec3 T} (h : generateCoordinate3dg seed mesh cell v = .ok (x, s)) :
    s = lcg (lcg (lcg (lcg seed))) := by
  simp only [generateCoordinate3dg, bind_ok, pure_ok, Prod.exists, Prod.mk.injEq] at h
  obtain ⟨_, _, _, _, _, _, _, h⟩ := h
  exact h.symm

/-- Identifier and seed of a sourced particle. -/
theorem sourceParticle_ids {data : Data T} {dom : Domain T} {w : T} {i : Nat} {cell : CellState T}
    {s0 : BitVec 64} {p : Particle T} (h : sourceParticle data dom w i cell s0 = .ok p) :
    p.identifier = lcg s0 ∧ p.seed = lcg^[9] (hashState s0) := by
  simp only [sourceParticle, bind_ok, pure_ok, Prod.exists] at h
  obtain ⟨coord, s', hg, rfl⟩ := h
  have := generateCoordinate3dg_seed hg
  subst this
  exact ⟨rfl, rfl⟩

/-- The first seed of the `t`-th particle sourced in a cell. -/
def firstSeed (id t : Nat) : BitVec 64 := BitVec.ofNat 64 (t + id)

/-- The particles of one call of `source_now`, as (cell, rank) pairs. -/
theorem sourceCells_ids {data : Data T} {dom : Domain T} {rates : List T} {w : T}
    {cells cells' : List (CellState T)} {i : Nat} {ps : List (Particle T)}
    (h : sourceCells data dom rates w cells i = .ok (cells', ps)) :
    cells'.map (·.id) = cells.map (·.id) ∧
    (∀ (j : Nat) (a b : CellState T), cells[j]? = some a → cells'[j]? = some b →
      a.sourceTally ≤ b.sourceTally) ∧
    ∃ K : List (Nat × Nat), K.Nodup ∧
      (∀ x ∈ K, ∃ a b : CellState T, cells[x.1]? = some a ∧ cells'[x.1]? = some b ∧
        a.sourceTally ≤ x.2 ∧ x.2 < b.sourceTally) ∧
      ps.map (fun p => (some p.identifier, some p.seed)) = K.map (fun x =>
        let s := (cells[x.1]?).map fun c => firstSeed c.id x.2
        (s.map lcg, s.map fun s => lcg^[9] (hashState s))) := by
  induction cells generalizing i cells' ps with
  | nil =>
    simp only [sourceCells, Except.ok.injEq, Prod.mk.injEq] at h
    obtain ⟨rfl, rfl⟩ := h
    exact ⟨rfl, by simp, [], List.nodup_nil, by simp, rfl⟩
  | cons cell cells ih =>
    simp only [sourceCells, bind_ok, pure_ok, Prod.exists, Prod.mk.injEq] at h
    obtain ⟨n, _, ps1, hps1, cs, ps2, hcs, rfl, rfl⟩ := h
    obtain ⟨hid, htal, K, hnd, hK, hmap⟩ := ih hcs
    refine ⟨by simp [hid], ?_, (List.range n).map (fun t => (0, cell.sourceTally + t)) ++
      K.map (fun x => (x.1 + 1, x.2)), ?_, ?_, ?_⟩
    · intro j a b ha hb
      cases j with
      | zero =>
        simp only [List.getElem?_cons_zero, Option.some.injEq] at ha hb
        subst ha hb; exact Nat.le_add_right _ _
      | succ j => exact htal j a b (by simpa using ha) (by simpa using hb)
    · rw [List.nodup_append]
      refine ⟨?_, ?_, ?_⟩
      · refine List.Nodup.map ?_ List.nodup_range
        intro a b hab
        simp only [Prod.mk.injEq, true_and] at hab
        omega
      · refine List.Nodup.map ?_ hnd
        rintro ⟨a1, a2⟩ ⟨b1, b2⟩ hab
        simp only [Prod.mk.injEq] at hab ⊢
        omega
      · intro a ha b hb hab
        obtain ⟨t, _, rfl⟩ := List.mem_map.1 ha
        obtain ⟨x, _, rfl⟩ := List.mem_map.1 hb
        simp only [Prod.mk.injEq] at hab
        omega
    · intro x hx
      rcases List.mem_append.1 hx with hx | hx
      · obtain ⟨t, ht, rfl⟩ := List.mem_map.1 hx
        rw [List.mem_range] at ht
        exact ⟨cell, { cell with sourceTally := cell.sourceTally + n }, rfl, rfl,
          Nat.le_add_right _ _, Nat.add_lt_add_left ht _⟩
      · obtain ⟨y, hy, rfl⟩ := List.mem_map.1 hx
        obtain ⟨a, b, h1, h2, h3, h4⟩ := hK y hy
        exact ⟨a, b, by simpa using h1, by simpa using h2, h3, h4⟩
    · rw [List.map_append, List.map_append]
      congr 1
      · apply List.ext_getElem?
        intro t
        have hlen := mapM_ok_length hps1
        simp only [List.getElem?_map]
        by_cases ht : t < n
        · rw [List.getElem?_range ht]
          have hs : (cellSeeds cell.sourceTally cell.id n)[t]? =
              some (BitVec.ofNat 64 (cell.sourceTally + t + cell.id)) := by
            simp [cellSeeds, List.getElem?_range ht]
          obtain ⟨p, hp, hsp⟩ := mapM_ok_getElem hps1 t _ hs
          obtain ⟨e1, e2⟩ := sourceParticle_ids hsp
          rw [hp]
          simp only [Option.map_some, List.getElem?_cons_zero, firstSeed, e1, e2]
        · rw [List.getElem?_eq_none (by simp [cellSeeds] at hlen; omega),
            List.getElem?_eq_none (by simp; omega)]
          rfl
      · rw [hmap, List.map_map]
        apply List.map_congr_left
        intro x _
        simp only [Function.comp_apply, List.getElem?_cons_succ]

theorem processParticles_dom {data : Data T} {ex : ExecInfo} {fuel : Nat} {u u' : UnitState T}
    {c c' : Container T} (h : ProcessParticles data ex fuel u c u' c') : u'.dom = u.dom := by
  cases h with
  | seq _ h =>
    simp only [processSeq, bind_ok, pure_ok, Prod.exists] at h
    obtain ⟨_, _, _, _, h⟩ := h
    have := congrArg (fun x => x.1.dom) h
    exact this.symm
  | par => rfl

theorem processLoop_dom {data : Data T} {ex : ExecInfo} {fuel : Nat} {u u' : UnitState T}
    {c c' : Container T} (h : ProcessLoop data ex fuel u c u' c') : u'.dom = u.dom := by
  induction h with
  | done => rfl
  | iter _ hp _ ih => rw [ih, processParticles_dom hp]

theorem regulateOrSplit_dom {data : Data T} {f w : T} {u u' : UnitState T} {c c' : Container T}
    (h : regulateOrSplit data f w u c = .ok (u', c')) : u'.dom = u.dom := by
  unfold regulateOrSplit at h
  split at h
  · simp only [Except.ok.injEq, Prod.mk.injEq] at h
    rw [← h.1]
  · split at h
    · simp only [bind_ok, pure_ok, Prod.exists, Prod.mk.injEq] at h
      obtain ⟨_, _, _, rfl, _⟩ := h
      rfl
    · simp only [Except.ok.injEq, Prod.mk.injEq] at h
      rw [← h.1]

theorem cycleSync_dom {data : Data T} {o : SyncOpts} {n : Nat} {s s' : SimState T}
    (h : cycleSync data o n s = .ok s') : s'.unit.dom = s.unit.dom := by
  have hprep : ∀ {s s' : SimState T}, syncPrepare data s = .ok s' → s'.unit.dom = s.unit.dom := by
    intro s s' h
    simp only [syncPrepare, bind_ok, pure_ok] at h
    obtain ⟨_, _, _, _, rfl⟩ := h
    rfl
  have hfin : ∀ {s s' : SimState T}, syncFinalize o n s = .ok s' → s'.unit.dom = s.unit.dom := by
    intro s s' h
    simp only [syncFinalize, bind_ok, pure_ok] at h
    obtain ⟨_, _, rfl⟩ := h
    rfl
  unfold cycleSync at h
  split at h
  · rw [bind_ok] at h
    obtain ⟨s1, h1, h⟩ := h
    split at h
    · rw [pure_ok] at h; rw [← h]; exact hfin h1
    · rw [hprep h, hfin h1]
  · exact hprep h
