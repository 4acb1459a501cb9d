import Verif.Lemmas.Grid
import Verif.Model.Domain
import Mathlib.Data.List.Nodup
import Mathlib.Data.List.Perm.Subperm
/-!
# Numbering and neighbours of the grid (C12, C14), decomposition tables (C43)
-/
open GridSpec

variable {T : Type}

/-- **C12** (cells).  Cell indices below `nx*ny*nz` and coordinates inside the grid are in
one-to-one correspondence: both conversions stay in range and are inverse of each other. -/
theorem C12_cells (g : Grid T) :
    (∀ i, i < g.nx * g.ny * g.nz →
      InGrid g (g.cellIdxToTuple i) ∧ g.cellTupleToIdx (g.cellIdxToTuple i) = i) ∧
    (∀ t, InGrid g t →
      g.cellTupleToIdx t < g.nx * g.ny * g.nz ∧ g.cellIdxToTuple (g.cellTupleToIdx t) = t) :=
  ⟨fun _ h => ⟨Grid.idx_inGrid h, Grid.idx_tuple _⟩,
   fun _ h => ⟨Grid.tuple_lt h, Grid.tuple_idx h.1 h.2.1⟩⟩

/-- **C12** (nodes).  The same for the nodes and their four sub-lattices. -/
theorem C12_nodes (g : Grid T) :
    (∀ i, i < (g.nx + 1) * (g.ny + 1) * (g.nz + 1) * 4 →
      NodeInGrid g (g.nodeIdxToTuple i) ∧ g.nodeTupleToIdx (g.nodeIdxToTuple i) = i) ∧
    (∀ t, NodeInGrid g t →
      g.nodeTupleToIdx t < (g.nx + 1) * (g.ny + 1) * (g.nz + 1) * 4 ∧
      g.nodeIdxToTuple (g.nodeTupleToIdx t) = t) := by
  have e : (g.nx + 1) * (g.ny + 1) * (g.nz + 1) * 4
      = (g.nx + 1) * ((g.ny + 1) * ((g.nz + 1) * 4)) := by ring
  rw [e]
  exact ⟨fun _ h => ⟨Grid.node_idx_inGrid h, Grid.node_idx_tuple _⟩,
    fun _ h => ⟨Grid.node_tuple_lt h, Grid.node_tuple_idx h.1 h.2.1 h.2.2.1⟩⟩

/-- **C12** (uses): the nodes of a cell of the grid are 14 different nodes of the grid. -/
theorem C12_nodes_of_cell (g : Grid T) (i : Nat) (h : i < g.nx * g.ny * g.nz) :
    (g.getNodeGids i).length = 14 ∧ (g.getNodeGids i).Nodup ∧
    ∀ n ∈ g.getNodeGids i, n < (g.nx + 1) * (g.ny + 1) * (g.nz + 1) * 4 := by
  obtain ⟨h1, h2, h3⟩ := Grid.idx_inGrid h
  have hin : ∀ o ∈ cornerOffset, NodeInGrid g ((g.cellIdxToTuple i).1 + o.1,
      (g.cellIdxToTuple i).2.1 + o.2.1, (g.cellIdxToTuple i).2.2 + o.2.2.1, o.2.2.2) := by
    intro o ho
    have hb : o.1 ≤ 1 ∧ o.2.1 ≤ 1 ∧ o.2.2.1 ≤ 1 ∧ o.2.2.2 < 4 := by
      revert o; decide
    refine ⟨?_, ?_, ?_, hb.2.2.2⟩ <;> dsimp only <;> omega
  refine ⟨by simp [Grid.getNodeGids, cornerOffset], ?_, ?_⟩
  · unfold Grid.getNodeGids
    refine List.Nodup.map_on ?_ (by decide)
    intro a ha b hb hab
    have h1 := hin a ha
    have h2 := hin b hb
    have := (Grid.node_tuple_idx h1.1 h1.2.1 h1.2.2.1).symm.trans
      ((congrArg g.nodeIdxToTuple hab).trans (Grid.node_tuple_idx h2.1 h2.2.1 h2.2.2.1))
    obtain ⟨a1, a2, a3, a4⟩ := a
    obtain ⟨b1, b2, b3, b4⟩ := b
    simp only [Prod.mk.injEq, Grid.cellIdxToTuple] at this ⊢
    omega
  · intro n hn
    obtain ⟨o, ho, rfl⟩ := List.mem_map.1 hn
    exact ((C12_nodes g).2 _ (hin o ho)).1

/-- **C14**.  Across each face of each cell: the neighbour is a cell of the grid; on the border it is
the cell itself; elsewhere it is the cell with the coordinate moved by one, a different cell, and
going back through the opposite face returns to the first cell. -/
theorem C14_faces (g : Grid T) (i : Nat) (h : i < g.nx * g.ny * g.nz) (f : Face) :
    ∃ n, (g.getFaceNbrGids i)[f.num]? = some n ∧ n < g.nx * g.ny * g.nz ∧
      (n = i ↔ OnBorder g (g.cellIdxToTuple i) f) ∧
      (¬ OnBorder g (g.cellIdxToTuple i) f →
        g.cellIdxToTuple n = across (g.cellIdxToTuple i) f ∧
        (g.getFaceNbrGids n)[f.opposite.num]? = some i) := by
  obtain ⟨t, ht, hb, hn⟩ := Grid.faceNbr_eq h f
  have hig := Grid.idx_inGrid h
  by_cases hbor : OnBorder g (g.cellIdxToTuple i) f
  · rw [hb hbor] at ht
    refine ⟨_, ht, Grid.tuple_lt hig, ?_, fun hc => absurd hbor hc⟩
    simp [hbor, Grid.idx_tuple]
  · obtain ⟨hta, hti⟩ := hn hbor
    have hcell : g.cellTupleToIdx t < g.nx * g.ny * g.nz := Grid.tuple_lt hti
    have hback : g.cellIdxToTuple (g.cellTupleToIdx t) = t := Grid.tuple_idx hti.1 hti.2.1
    have hne : t ≠ g.cellIdxToTuple i := by
      rw [hta]
      intro he
      have hx := congrArg Prod.fst he
      have hy := congrArg (fun p => p.2.1) he
      have hz := congrArg (fun p => p.2.2) he
      cases f <;> simp only [across, OnBorder] at hx hy hz hbor <;> omega
    refine ⟨_, ht, hcell, ?_, fun _ => ⟨by rw [hback, hta], ?_⟩⟩
    · constructor
      · intro he
        exact absurd (by rw [← hback, he]) hne
      · intro hc
        exact absurd hc hbor
    · obtain ⟨t2, ht2, _, hn2⟩ := Grid.faceNbr_eq hcell f.opposite
      rw [hback] at hn2
      have hnb : ¬ OnBorder g t f.opposite := by
        rw [hta]
        have := hti
        rw [hta] at this
        obtain ⟨q1, q2, q3⟩ := hig
        cases f <;> simp only [Face.opposite, OnBorder, across] at hbor ⊢ <;> omega
      rw [ht2, (hn2 hnb).1]
      have : across t f.opposite = g.cellIdxToTuple i := by
        rw [hta]
        cases f <;> simp only [Face.opposite, across, OnBorder] at hbor ⊢ <;>
          refine Prod.ext ?_ (Prod.ext ?_ ?_) <;> dsimp only <;> omega
      rw [this, Grid.idx_tuple]

/-- The tables have one entry per face. -/
theorem C14_six_faces (g : Grid T) (i : Nat) : (g.getFaceNbrGids i).length = 6 := by
  simp [Grid.getFaceNbrGids, faceOffset]

/-- **C43**.  With `n` ranks of `d` domains each: the construction succeeds for every rank below `n`;
domain `k` is the domain number `index k` of rank `rank k`; the domains assigned to rank `r` are
exactly those whose rank is `r`, each once; so every domain is assigned to exactly one rank. -/
theorem C43_decomposition (r n d : Nat) (hr : r < n) :
    ∃ dec, Decomposition.new r n d = .ok dec ∧
      dec.rank.length = n * d ∧ dec.index.length = n * d ∧
      (∀ k, k < n * d → ∃ rk ix, dec.rank[k]? = some rk ∧ dec.index[k]? = some ix ∧
        rk < n ∧ ix < d ∧ k = d * rk + ix) ∧
      dec.assignedGids.Nodup ∧
      (∀ k, k ∈ dec.assignedGids ↔ k < n * d ∧ dec.rank[k]? = some r) := by
  have hget : ∀ k, k < n * d → 0 < d ∧ k / d < n := by
    intro k hk
    have hd : 0 < d := Nat.pos_of_ne_zero (by rintro rfl; simp at hk)
    exact ⟨hd, Nat.div_lt_of_lt_mul (by rwa [Nat.mul_comm] at hk)⟩
  have hlt : ∀ ii, ii < d → d * r + ii < n * d := by
    intro ii hii
    have : d * (r + 1) ≤ d * n := Nat.mul_le_mul_left d hr
    rw [Nat.mul_add, Nat.mul_one, Nat.mul_comm d n] at this
    omega
  have hrow : ∀ ii ∈ List.range d, (do
      let i := d * r + ii
      let rk ← idx ((List.range (n * d)).map (· / d)) i
      let x ← idx ((List.range (n * d)).map (· % d)) i
      return d * rk + x : Except Panic Nat) = .ok (d * r + ii) := by
    intro ii hii
    have hii := List.mem_range.1 hii
    have h1 := hlt ii hii
    simp only [idx, List.getElem?_map, List.getElem?_range h1, Option.map_some]
    show Except.ok _ = Except.ok _
    rw [Nat.div_add_mod]
  have hmap : (List.range d).mapM (fun ii => (do
      let i := d * r + ii
      let rk ← idx ((List.range (n * d)).map (· / d)) i
      let x ← idx ((List.range (n * d)).map (· % d)) i
      return d * rk + x : Except Panic Nat)) = .ok ((List.range d).map (d * r + ·)) := by
    generalize List.range d = l at hrow
    induction l with
    | nil => rfl
    | cons a l ih =>
      rw [List.mapM_cons, hrow a (by simp), ih (fun b hb => hrow b (by simp [hb]))]
      rfl
  refine ⟨{ assignedGids := (List.range d).map (d * r + ·),
            rank := (List.range (n * d)).map (· / d),
            index := (List.range (n * d)).map (· % d) }, ?_, by simp, by simp, ?_, ?_, ?_⟩
  · unfold Decomposition.new
    simp only [hmap]
    rfl
  · intro k hk
    obtain ⟨hd, hkn⟩ := hget k hk
    refine ⟨k / d, k % d, by simp [List.getElem?_range hk], by simp [List.getElem?_range hk],
      hkn, Nat.mod_lt _ hd, (Nat.div_add_mod _ _).symm⟩
  · exact List.Nodup.map (fun a b h => by simpa using h) List.nodup_range
  · intro k
    simp only [List.mem_map, List.mem_range, List.getElem?_map]
    constructor
    · rintro ⟨ii, hii, rfl⟩
      have h1 := hlt ii hii
      refine ⟨h1, ?_⟩
      rw [List.getElem?_range h1, Option.map_some, Nat.mul_add_div (by omega),
        Nat.div_eq_of_lt hii, Nat.add_zero]
    · rintro ⟨hk, hrk⟩
      obtain ⟨hd, _⟩ := hget k hk
      rw [List.getElem?_range hk, Option.map_some] at hrk
      refine ⟨k % d, Nat.mod_lt _ hd, ?_⟩
      rw [← Option.some.inj hrk, Nat.div_add_mod]

/-- A rank that does not exist stops the program (index out of bounds), unless it has no domain. -/
theorem C43_bad_rank (r n d : Nat) (hr : n ≤ r) (hd : 0 < d) :
    Decomposition.new r n d = .error .indexOutOfBounds := by
  unfold Decomposition.new
  obtain ⟨d, rfl⟩ : ∃ e, d = e + 1 := ⟨d - 1, by omega⟩
  dsimp only
  rw [List.range_succ_eq_map, List.mapM_cons]
  have : ¬ (d + 1) * r + 0 < n * (d + 1) := by
    have : (d + 1) * n ≤ (d + 1) * r := Nat.mul_le_mul_left _ hr
    rw [Nat.mul_comm n]
    omega
  simp only [idx, List.getElem?_map, List.getElem?_eq_none (l := List.range (n * (d + 1)))
    (i := (d + 1) * r + 0) (by simp; omega), Option.map_none]
  rfl

/-- **C43** (slots): when the partitions have different domain numbers below their count, the table
from domain number to position is the inverse of the one from position to domain number. -/
theorem C43_slots (ps : List Partition) (hlt : ∀ p ∈ ps, p.domainGid < ps.length)
    (hnd : (ps.map (·.domainGid)).Nodup) :
    ∃ c, Comm.new ps = .ok c ∧ c.partition = ps ∧ c.gidToIdx.length = ps.length ∧
      (∀ (i : Nat) (p : Partition), ps[i]? = some p → c.gidToIdx[p.domainGid]? = some i) ∧
      (∀ gid, gid < ps.length → ∃ i p, c.gidToIdx[gid]? = some i ∧ ps[i]? = some p ∧
        p.domainGid = gid) := by
  have key : ∀ (n : Nat) (l : List (Partition × Nat)) (t : List Nat), t.length = n →
      (∀ e ∈ l, e.1.domainGid < n) → (l.map (·.1.domainGid)).Nodup →
      ∃ t', Comm.fill n l t = .ok t' ∧ t'.length = n ∧
        (∀ e ∈ l, t'[e.1.domainGid]? = some e.2) ∧
        (∀ k, (∀ e ∈ l, e.1.domainGid ≠ k) → t'[k]? = t[k]?) := by
    intro n l
    induction l with
    | nil => intro t ht _ _; exact ⟨t, rfl, ht, by simp, by simp⟩
    | cons e l ih =>
      intro t ht hb hn
      obtain ⟨p, i⟩ := e
      have hp := hb (p, i) (by simp)
      rw [List.map_cons, List.nodup_cons] at hn
      obtain ⟨t', h1, h2, h3, h4⟩ := ih (t.set p.domainGid i) (by simp [ht])
        (fun e he => hb e (by simp [he])) hn.2
      refine ⟨t', ?_, h2, ?_, ?_⟩
      · unfold Comm.fill
        simp only [hp, decide_true, assertB, if_true]
        exact h1
      · intro e he
        rcases List.mem_cons.1 he with rfl | he
        · rw [h4]
          · simp only at hp
            simp [hp, ht]
          · intro e he hee
            exact hn.1 (List.mem_map.2 ⟨e, he, hee⟩)
        · exact h3 e he
      · intro k hk
        rw [h4 k (fun e he => hk e (by simp [he]))]
        have := hk (p, i) (by simp)
        simp only at this
        rw [List.getElem?_set_ne this]
  obtain ⟨t, h1, h2, h3, _⟩ := key ps.length ps.zipIdx (List.replicate ps.length 0) (by simp)
    (by
      intro e he
      obtain ⟨p, i⟩ := e
      exact hlt p (List.mem_of_getElem? (List.mk_mem_zipIdx_iff_getElem?.1 he)))
    (by
      have : (ps.zipIdx.map (·.1.domainGid)) = ps.map (·.domainGid) := by
        conv_rhs => rw [← List.zipIdx_map_fst 0 ps, List.map_map]
        rfl
      rwa [this])
  have hinv : ∀ (i : Nat) (p : Partition), ps[i]? = some p → t[p.domainGid]? = some i :=
    fun i p hp => h3 (p, i) (List.mk_mem_zipIdx_iff_getElem?.2 hp)
  refine ⟨{ partition := ps, gidToIdx := t }, ?_, rfl, h2, hinv, ?_⟩
  · unfold Comm.new
    rw [h1]
    rfl
  · intro gid hgid
    -- the domain numbers are `ps.length` distinct numbers below `ps.length`: all are present
    have hmem : gid ∈ ps.map (·.domainGid) := by
      have hsub : ps.map (·.domainGid) ⊆ List.range ps.length := by
        intro k hk
        obtain ⟨p, hp, rfl⟩ := List.mem_map.1 hk
        exact List.mem_range.2 (hlt p hp)
      have hperm : (ps.map (·.domainGid)).Perm (List.range ps.length) :=
        (List.subperm_of_subset hnd hsub).perm_of_length_le (by simp)
      exact hperm.mem_iff.2 (List.mem_range.2 hgid)
    obtain ⟨p, hp, hpg⟩ := List.mem_map.1 hmem
    obtain ⟨i, hi⟩ := List.getElem?_of_mem hp
    exact ⟨i, p, by rw [← hpg]; exact hinv i p hi, hi, hpg⟩

/-! Concrete cases. -/

example : (Grid.mk 3 4 5 () () () () () () : Grid Unit).cellIdxToTuple 47 = (2, 3, 3) ∧
    (Grid.mk 3 4 5 () () () () () () : Grid Unit).cellTupleToIdx (2, 3, 3) = 47 := by decide

example : (Grid.mk 3 4 5 () () () () () () : Grid Unit).nodeIdxToTuple 479 = (3, 4, 5, 3) := by
  decide

/-- The cell in the middle of a 3x3x3 grid has six different neighbours. -/
example : (Grid.mk 3 3 3 () () () () () () : Grid Unit).getFaceNbrGids 13 = [14, 12, 16, 10, 22, 4] ∧
    (Grid.mk 3 3 3 () () () () () () : Grid Unit).getFaceNbrGids 0 = [1, 0, 3, 0, 9, 0] := by decide

example : Decomposition.new 1 3 2 =
    .ok { assignedGids := [2, 3], rank := [0, 0, 1, 1, 2, 2], index := [0, 1, 0, 1, 0, 1] } := by
  decide

example : (Comm.new [Partition.new 2 0, Partition.new 0 0, Partition.new 1 0]).map (·.gidToIdx)
    = .ok [1, 2, 0] := by decide
