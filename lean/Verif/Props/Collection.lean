import Verif.Props.Atomic
import Verif.Props.Exec
import Verif.Lemmas.Collection
/-!
# C73: the parallel iteration misses nothing and repeats nothing

Rayon splits the work on a collection of particles into tasks while it runs, guided by the load of the threads.
Whatever it decides, the tasks together treat the chunks of the collection, each exactly once, and the counters that
the tasks return add up to the ones of the chunks.
-/
open Flt

/-- The counters of a balance. -/
def Balance.counters : List (Balance → Nat) :=
  [Balance.absorb, Balance.census, Balance.escape, Balance.collision, Balance.end_, Balance.fission, Balance.produce,
   Balance.scatter, Balance.start, Balance.source, Balance.overRr, Balance.weightRr, Balance.split, Balance.numSegments]

/-- **C73**, particles: for every size of chunks but 0 and all decisions, the splitting does not panic, the pieces of
the tasks are a cut of the collection into chunks of this size, in order, and the particle `i` is at place `i % size` of
the chunk `i / size`. -/
theorem C73_once {α : Type} (tree : SplitTree) (k : Nat) (hk : 0 < k) (l : List α) :
    ∃ parts, parChunks tree k l = .ok parts ∧ Cuts k l parts.toList ∧
      ∀ i, (parts.toList[i / k]?.bind fun c => c[i % k]?) = l[i]? := by
  obtain ⟨parts, h1, h2⟩ := parChunks_ok tree hk l
  exact ⟨parts, h1, h2 ▸ C42_chunks_partition k l hk, fun i => h2 ▸ chunks_getElem hk l.length l i (Nat.le_refl _)⟩

/-- **C73**, refusal: chunks of size 0 are refused, whatever the collection. -/
theorem C73_zero {α : Type} (tree : SplitTree) (l : List α) : parChunks tree 0 l = .error .assertFailed := rfl

/-- **C73**, counters: each counter of the reduced balance is the sum of those of the chunks, whatever the way in which
the work was split. -/
theorem C73_counters {β : Type} (parts : Parts β) (bs : List Balance) :
    ∀ f ∈ Balance.counters, f (parts.fill bs).reduce = (bs.map f).sum := by
  intro f hf
  rw [Parts.reduce_eq, Parts.fill_toList]
  have hz : f {} = 0 := by
    simp only [Balance.counters, List.mem_cons, List.not_mem_nil, or_false] at hf
    rcases hf with h | h | h | h | h | h | h | h | h | h | h | h | h | h <;> subst h <;> rfl
  have ha : ∀ a b : Balance, f (a.add b) = f a + f b := by
    intro a b
    simp only [Balance.counters, List.mem_cons, List.not_mem_nil, or_false] at hf
    rcases hf with h | h | h | h | h | h | h | h | h | h | h | h | h | h <;> subst h <;> rfl
  induction bs with
  | nil => exact hz
  | cons b bs ih => rw [Balance.sum_cons, ha, ih, List.map_cons, List.sum_cons]

/-- **C73**, tracking: the results of a parallel tracking under given decisions of rayon are those of a tracking of the
chunks in which the balances are added in order, so that no theorem on a run depends on these decisions. -/
theorem C73_tracking {T : Type} [Flt T] (data : Data T) (ex : ExecInfo) (fuel : Nat) (tree : SplitTree)
    (u u' : UnitState T) (c c' : Container T) :
    ProcessSplit data ex fuel tree u c u' c' ↔
      (ex.policy = .rayon ∨ ex.policy = .hybrid) ∧ ProcessParticles data ex fuel u c u' c' := by
  constructor
  · intro h
    cases h with
    | par hp hks hparts hpool hres h1 h2 h3 =>
      rename_i k parts pool' m' results
      obtain ⟨q, e1, e2⟩ := parChunks_ok tree (chunkSizeFor_pos hks) c.processing
      cases hparts.symm.trans e1
      rw [e2] at hpool
      rw [Parts.reduce_eq, Parts.fill_toList] at *
      exact ⟨hp, .par hp hks hpool hres h1 h2 h3⟩
  · rintro ⟨hp, h⟩
    cases h with
    | seq hs _ => rcases hp with h | h <;> rcases hs with h' | h' <;> rw [h] at h' <;> cases h'
    | par hp' hks hpool hres h1 h2 h3 =>
      rename_i k pool' m' results
      obtain ⟨parts, e1, e2⟩ := parChunks_ok tree (chunkSizeFor_pos hks) c.processing
      have hr : (parts.fill (results.map Prod.snd)).reduce = Balance.sum (results.map Prod.snd) := by
        rw [Parts.reduce_eq, Parts.fill_toList]
      have := ProcessSplit.par (data := data) (fuel := fuel) (tree := tree) (u := u) (c := c) (results := results)
        (m' := m') hp hks e1 (e2 ▸ hpool) hres (hr ▸ h1) (hr ▸ h2) (hr ▸ h3)
      rw [hr] at this
      exact this

/-! Seven particles in chunks of two, split twice on the left and once on the right. -/

example : parChunks (.node (.node .leaf .leaf) (.node .leaf .leaf)) 2 [0, 1, 2, 3, 4, 5, 6] =
    .ok (.node (.node (.leaf [[0, 1]]) (.leaf [[2, 3]])) (.node (.leaf [[4, 5]]) (.leaf [[6]]))) := by
  rfl

example : parChunks (.node .leaf (.node .leaf (.node .leaf .leaf))) 2 [0, 1, 2, 3, 4, 5, 6] =
    .ok (.node (.leaf [[0, 1], [2, 3]]) (.node (.leaf [[4, 5]]) (.leaf [[6]]))) := by
  rfl

/-- A parallel tracking of the toy problem, with a split. -/
example : ∃ u' c', ProcessSplit toyData ⟨.rayon, 1, 4, 1⟩ 20 (.node .leaf .leaf) toyUnit toyBatch u' c' := by
  obtain ⟨hs, hhs, _⟩ := toyBatch_ok
  have hm := memOk_empty (c := toyBatch) (by decide +kernel) toy_startTables (by decide +kernel)
  obtain ⟨u', c', h⟩ := processParticles_exists (ex := ⟨.rayon, 1, 4, 1⟩) (.inl (by decide +kernel))
    toy_startTables.tables.groups hm hhs
  exact ⟨u', c', (C73_tracking _ _ _ _ _ _ _ _).2 ⟨.inl rfl, h⟩⟩

/-- The counters of three chunks, two of them in one task. -/
example : ((Parts.node (.leaf [(), ()]) (.leaf [()])).fill [({ absorb := 1, census := 2 } : Balance), { absorb := 3 },
    { census := 5 }]).reduce = { absorb := 4, census := 7 } := by decide +kernel
