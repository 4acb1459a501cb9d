import Verif.Model.Collection
import Verif.Lemmas.Schedule
/-! Lemmas on the parallel iteration over a collection of particles. -/

theorem chunksAux_fuel {α : Type} (k : Nat) (hk : 0 < k) : ∀ (n m : Nat) (l : List α), l.length ≤ n → l.length ≤ m →
    chunksAux k n l = chunksAux k m l := by
  intro n
  induction n with
  | zero =>
    intro m l h _
    have : l = [] := List.length_eq_zero_iff.1 (by omega)
    subst this
    cases m <;> rfl
  | succ n ih =>
    intro m l h h'
    cases l with
    | nil => cases m <;> rfl
    | cons a l =>
      cases m with
      | zero => simp at h'
      | succ m =>
        rw [chunksAux, chunksAux]
        · rw [ih m _ (by simp at h ⊢; omega) (by simp at h' ⊢; omega)]
        · simp
        · simp

theorem chunks_nil {α : Type} (k : Nat) : chunks k ([] : List α) = [] := rfl

theorem chunks_step {α : Type} {k : Nat} (hk : 0 < k) {l : List α} (hl : l ≠ []) :
    chunks k l = l.take k :: chunks k (l.drop k) := by
  cases l with
  | nil => exact absurd rfl hl
  | cons a l =>
    have : chunks k (a :: l) = (a :: l).take k :: chunksAux k l.length ((a :: l).drop k) := by
      unfold chunks
      rw [List.length_cons, chunksAux]
      simp
    rw [this]
    unfold chunks
    rw [chunksAux_fuel k hk l.length ((a :: l).drop k).length _ (by simp; omega) (Nat.le_refl _)]

/-- A list cut after a whole number of chunks. -/
theorem chunks_cut {α : Type} {k : Nat} (hk : 0 < k) : ∀ (i : Nat) (l : List α),
    chunks k (l.take (min (i * k) l.length)) ++ chunks k (l.drop (min (i * k) l.length)) = chunks k l := by
  intro i
  induction i with
  | zero => intro l; simp [chunks_nil]
  | succ i ih =>
    intro l
    by_cases hl : l = []
    · subst hl; simp [chunks_nil]
    have hpos : 0 < l.length := List.length_pos_iff.2 hl
    have hm : (i + 1) * k = i * k + k := by rw [Nat.add_mul, Nat.one_mul]
    by_cases hlen : l.length ≤ k
    · have : min ((i + 1) * k) l.length = l.length := by rw [hm]; omega
      rw [this, List.take_length, List.drop_length, chunks_nil, List.append_nil]
    · have hmin : min ((i + 1) * k) l.length = k + min (i * k) (l.drop k).length := by
        rw [hm, List.length_drop]; omega
      rw [hmin]
      have hne : l.take (k + min (i * k) (l.drop k).length) ≠ [] := by
        rw [ne_eq, List.take_eq_nil_iff]
        rintro (h | h)
        · omega
        · exact hl h
      rw [chunks_step hk hne, List.take_take, Nat.min_eq_left (by omega), List.drop_take, Nat.add_sub_cancel_left,
        ← List.drop_drop, List.cons_append, ih (l.drop k), ← chunks_step hk hl]

theorem chunkSeq_ok {α : Type} {k : Nat} (hk : 0 < k) : ∀ (fuel : Nat) (l : List α), 0 < l.length → l.length ≤ fuel →
    chunkSeq k fuel l.length l = .ok (chunks k l) := by
  intro fuel
  induction fuel with
  | zero => intro l h h'; omega
  | succ fuel ih =>
    intro l hpos hf
    have hl : l ≠ [] := List.length_pos_iff.1 hpos
    unfold chunkSeq
    split
    · rename_i hgt
      have h := ih (l.drop k) (by rw [List.length_drop]; omega) (by rw [List.length_drop]; omega)
      rw [List.length_drop] at h
      unfold producerSplitAt
      rw [if_pos (by omega)]
      dsimp only [bind, Except.bind]
      rw [h]
      dsimp only [pure, Except.pure]
      rw [chunks_step hk hl]
    · rename_i hle
      rw [chunks_step hk hl, List.take_of_length_le (by omega), List.drop_eq_nil_of_le (by omega), chunks_nil]

theorem ChunkProducer.iter_ok {α : Type} {p : ChunkProducer α} (hk : 0 < p.size) (hl : p.len = p.base.length) :
    p.iter = .ok (chunks p.size p.base) := by
  unfold ChunkProducer.iter
  split
  · rename_i h
    rw [hl] at h ⊢
    exact chunkSeq_ok hk _ _ h (Nat.le_refl _)
  · rename_i h
    have : p.base = [] := List.length_eq_zero_iff.1 (by omega)
    rw [this, chunks_nil]

/-- Whatever the decisions and the announced number of items, the pieces hold the chunks of the list. -/
theorem bridgeParts_ok {α : Type} : ∀ (tree : SplitTree) (n : Nat) (p : ChunkProducer α), 0 < p.size →
    p.len = p.base.length → ∃ parts, bridgeParts tree n p = .ok parts ∧ parts.toList = chunks p.size p.base := by
  intro tree
  induction tree with
  | leaf =>
    intro n p hk hl
    refine ⟨.leaf (chunks p.size p.base), ?_, rfl⟩
    unfold bridgeParts
    rw [ChunkProducer.iter_ok hk hl]
    rfl
  | node tl tr ihl ihr =>
    intro n p hk hl
    by_cases hn : n / 2 ≥ 1
    · let e := min (n / 2 * p.size) p.len
      have hle : e ≤ p.base.length := by rw [← hl]; exact Nat.min_le_right _ _
      obtain ⟨l, hl1, hl2⟩ := ihl (n / 2) { p with len := e, base := p.base.take e } hk
        (by rw [List.length_take]; exact (Nat.min_eq_left hle).symm)
      obtain ⟨r, hr1, hr2⟩ := ihr (n - n / 2) { p with len := p.len - e, base := p.base.drop e } hk
        (by rw [List.length_drop, hl])
      refine ⟨.node l r, ?_, ?_⟩
      · unfold bridgeParts
        rw [if_pos hn]
        have hs : p.splitAt (n / 2) = .ok ({ p with len := e, base := p.base.take e },
            { p with len := p.len - e, base := p.base.drop e }) := by
          unfold ChunkProducer.splitAt producerSplitAt
          dsimp only
          rw [if_pos hle]
          rfl
        rw [hs]
        dsimp only [bind, Except.bind]
        rw [hl1]
        dsimp only
        rw [hr1]
        rfl
      · rw [Parts.toList, hl2, hr2]
        have h := chunks_cut hk (n / 2) p.base
        rw [← hl] at h
        exact h
    · refine ⟨.leaf (chunks p.size p.base), ?_, rfl⟩
      unfold bridgeParts
      rw [if_neg hn, ChunkProducer.iter_ok hk hl]
      rfl

theorem parChunks_ok {α : Type} (tree : SplitTree) {k : Nat} (hk : 0 < k) (l : List α) :
    ∃ parts, parChunks tree k l = .ok parts ∧ parts.toList = chunks k l := by
  obtain ⟨parts, h1, h2⟩ := bridgeParts_ok tree ((l.length + (k - 1)) / k) { size := k, len := l.length, base := l } hk rfl
  refine ⟨parts, ?_, h2⟩
  unfold parChunks
  rw [← h1]
  have : k ≠ 0 := by omega
  simp [assertB, this, bind, Except.bind]

theorem Parts.fill_toList {β γ : Type} : ∀ (p : Parts β) (rs : List γ), (p.fill rs).toList = rs := by
  intro p
  induction p with
  | leaf l => intro rs; rfl
  | node l r ihl ihr => intro rs; rw [Parts.fill, Parts.toList, ihl, ihr, List.take_append_drop]

theorem Parts.reduce_eq : ∀ p : Parts Balance, p.reduce = Balance.sum p.toList := by
  intro p
  induction p with
  | leaf bs =>
    rw [Parts.reduce, Parts.toList, Balance.sum_cons, Balance.sum_cons]
    change (Balance.sum []).add ((Balance.sum bs).add (Balance.sum [])) = _
    change Balance.add {} ((Balance.sum bs).add {}) = _
    rw [Balance.zero_add, Balance.add_zero]
  | node l r ihl ihr =>
    rw [Parts.reduce, Parts.toList, Balance.sum_append2, ihl, ihr, Balance.sum_cons, Balance.sum_cons]
    change (Balance.sum l.toList).add ((Balance.sum r.toList).add {}) = _
    rw [Balance.add_zero]

theorem chunks_getElem {α : Type} {k : Nat} (hk : 0 < k) : ∀ (n : Nat) (l : List α) (i : Nat), l.length ≤ n →
    ((chunks k l)[i / k]?.bind fun c => c[i % k]?) = l[i]? := by
  intro n
  induction n with
  | zero =>
    intro l i h
    have : l = [] := List.length_eq_zero_iff.1 (by omega)
    subst this
    simp [chunks_nil]
  | succ n ih =>
    intro l i h
    by_cases hl : l = []
    · subst hl; simp [chunks_nil]
    rw [chunks_step hk hl]
    by_cases hi : i < k
    · rw [Nat.div_eq_of_lt hi, Nat.mod_eq_of_lt hi]
      simp [hi]
    · have hge : k ≤ i := by omega
      have hd : i / k = (i - k) / k + 1 := Nat.div_eq_sub_div hk hge
      have hpos : 0 < l.length := List.length_pos_iff.2 hl
      rw [hd, Nat.mod_eq_sub_mod hge, List.getElem?_cons_succ,
        ih (l.drop k) (i - k) (by rw [List.length_drop]; omega), List.getElem?_drop]
      congr 1; omega
