import Verif.Lemmas.Index
/-!
# Construction of the mesh of the only domain: helper lemmas
-/
open Flt GridSpec
set_option linter.unusedSectionVars false

namespace Flooding
variable {T : Type} [Flt T] {g : Grid T}

/-! ### Nodes -/

/-- Sub-lattice coordinates of a point of a cell. -/
def nodeTuple (t : Nat × Nat × Nat) (o : Nat × Nat × Nat × Nat) : Nat × Nat × Nat × Nat :=
  (t.1 + o.1, t.2.1 + o.2.1, t.2.2 + o.2.2.1, o.2.2.2)

theorem getNodeGids_eq (c : Nat) :
    g.getNodeGids c = cornerOffset.map fun o => g.nodeTupleToIdx (nodeTuple (g.cellIdxToTuple c) o) :=
  rfl

theorem getNodeGids_length (c : Nat) : (g.getNodeGids c).length = 14 := by
  rw [getNodeGids_eq, List.length_map]; rfl

theorem nodeTuple_in {t : Nat × Nat × Nat} (h : InGrid g t) {o : Nat × Nat × Nat × Nat}
    (ho : o ∈ cornerOffset) : NodeInGrid g (nodeTuple t o) := by
  obtain ⟨h1, h2, h3⟩ := h
  have hb : ∀ o ∈ cornerOffset, o.1 ≤ 1 ∧ o.2.1 ≤ 1 ∧ o.2.2.1 ≤ 1 ∧ o.2.2.2 < 4 := by decide
  obtain ⟨b1, b2, b3, b4⟩ := hb o ho
  refine ⟨?_, ?_, ?_, b4⟩ <;> simp only [nodeTuple] <;> omega

theorem gid_tuple {c : Nat} (hc : c < cells g) {x : Nat} (hx : x ∈ g.getNodeGids c) :
    ∃ o ∈ cornerOffset, x = g.nodeTupleToIdx (nodeTuple (g.cellIdxToTuple c) o) ∧
      g.nodeIdxToTuple x = nodeTuple (g.cellIdxToTuple c) o := by
  rw [getNodeGids_eq, List.mem_map] at hx
  obtain ⟨o, ho, rfl⟩ := hx
  obtain ⟨b1, b2, b3, _⟩ := nodeTuple_in (Grid.idx_inGrid hc) ho
  exact ⟨o, ho, rfl, Grid.node_tuple_idx b1 b2 b3⟩

theorem gid_corner {c : Nat} (hc : c < cells g) {x : Nat} (hx : x ∈ (g.getNodeGids c).take 8) :
    (g.nodeIdxToTuple x).2.2.2 = 0 := by
  rw [getNodeGids_eq, ← List.map_take, List.mem_map] at hx
  obtain ⟨o, ho, rfl⟩ := hx
  obtain ⟨b1, b2, b3, _⟩ := nodeTuple_in (Grid.idx_inGrid hc) (List.mem_of_mem_take ho)
  rw [Grid.node_tuple_idx b1 b2 b3]
  have : ∀ o ∈ cornerOffset.take 8, o.2.2.2 = 0 := by decide
  exact this o ho

theorem gid_face {c : Nat} (hc : c < cells g) {x : Nat} (hx : x ∈ (g.getNodeGids c).drop 8) :
    (g.nodeIdxToTuple x).2.2.2 ≠ 0 := by
  rw [getNodeGids_eq, ← List.map_drop, List.mem_map] at hx
  obtain ⟨o, ho, rfl⟩ := hx
  obtain ⟨b1, b2, b3, _⟩ := nodeTuple_in (Grid.idx_inGrid hc) (List.mem_of_mem_drop ho)
  rw [Grid.node_tuple_idx b1 b2 b3]
  have : ∀ o ∈ cornerOffset.drop 8, o.2.2.2 ≠ 0 := by decide
  exact this o ho

theorem gid_coord {c : Nat} (hc : c < cells g) {x : Nat} (hx : x ∈ g.getNodeGids c) :
    ∃ r, g.nodeCoordFromIdx x = .ok r := by
  obtain ⟨o, ho, _, h⟩ := gid_tuple hc hx
  unfold Grid.nodeCoordFromIdx Grid.nodeCoordFromTuple
  rw [h]
  have hb : (nodeTuple (g.cellIdxToTuple c) o).2.2.2 < g.basisOffset.length := by
    have := (nodeTuple_in (Grid.idx_inGrid hc) ho).2.2.2
    simpa [Grid.basisOffset] using this
  rw [show idx g.basisOffset _ = .ok _ from idx_ok.2 (List.getElem?_eq_getElem hb)]
  exact ⟨_, rfl⟩

/-- The numbering of the nodes of the cells. -/
theorem bootstrap_spec {order : IterOrder} (ho : ∀ l, (order l).Perm l) {p : Partition}
    (hgid : p.domainGid = 0) (hk : p.cellInfoMap.keys.Nodup)
    (hd : ∀ e ∈ p.cellInfoMap, e.2.domainGid = some 0 ∧ e.1 < cells g) :
    ∃ nm, bootstrapNodeMap order p g = .ok nm ∧ nm.keys.Nodup ∧
      (nm.map (·.2)).Perm (List.range nm.length) ∧
      ∀ x, x ∈ nm.keys ↔ ∃ c ∈ p.cellInfoMap.keys, x ∈ g.getNodeGids c := by
  have hit : ∀ e, e ∈ p.cellInfoMap.iter order ↔ e ∈ p.cellInfoMap := fun e =>
    HMap.mem_iter ho hk
  obtain ⟨⟨nodes, centers⟩, h1, ⟨n1, n1'⟩, ⟨n2, n2'⟩, h4, h5⟩ := nodeMapLoop_spec (g := g)
    (p.cellInfoMap.iter order) ([], []) (fun e he => (hd e ((hit e).1 he)).1)
    numbers_nil numbers_nil
  simp only at n1 n1' n2 n2' h4 h5
  set shift : HMap Nat Nat := centers.map fun e => (e.1, e.2 + nodes.length) with hshift
  have hsk : shift.keys = centers.keys := by
    simp [hshift, HMap.keys, Function.comp_def]
  have hitk : (HMap.iter order shift).map (·.1) = order centers.keys := by
    rw [HMap.iter_keys ho, hsk]
  have hitk' : HMap.keys (HMap.iter order shift) = order centers.keys := hitk
  have hperm : (HMap.iter order shift).Perm shift := HMap.iter_perm ho (by rw [hsk]; exact n2)
  have hnil : ∀ x, ¬ x ∈ HMap.keys ([] : HMap Nat Nat) := by simp [HMap.keys]
  have hnodes : ∀ x, x ∈ nodes.keys ↔ ∃ c ∈ p.cellInfoMap.keys, x ∈ (g.getNodeGids c).take 8 := by
    intro x
    rw [h4 x]
    rw [or_iff_left (hnil x)]
    simp only [HMap.keys, List.mem_map]
    constructor
    · rintro ⟨e, he, hx⟩
      exact ⟨e.1, ⟨e, (hit e).1 he, rfl⟩, hx⟩
    · rintro ⟨c, ⟨e, he, rfl⟩, hx⟩
      exact ⟨e, (hit e).2 he, hx⟩
  have hcenters : ∀ x, x ∈ centers.keys ↔
      ∃ c ∈ p.cellInfoMap.keys, x ∈ (g.getNodeGids c).drop 8 := by
    intro x
    rw [h5 x]
    rw [or_iff_left (hnil x)]
    simp only [HMap.keys, List.mem_map]
    constructor
    · rintro ⟨e, he, hx⟩
      exact ⟨e.1, ⟨e, (hit e).1 he, rfl⟩, hx⟩
    · rintro ⟨c, ⟨e, he, rfl⟩, hx⟩
      exact ⟨e, (hit e).2 he, hx⟩
  have hlt : ∀ c ∈ p.cellInfoMap.keys, c < cells g := by
    intro c hc
    obtain ⟨e, he, rfl⟩ := List.mem_map.1 hc
    exact (hd e he).2
  have hdisj : ∀ k ∈ HMap.keys (HMap.iter order shift), k ∉ nodes.keys := by
    intro k hk' hn
    rw [hitk'] at hk'
    obtain ⟨c, hc, hx⟩ := (hcenters k).1 ((ho _).mem_iff.1 hk')
    obtain ⟨c', hc', hx'⟩ := (hnodes k).1 hn
    exact gid_face (hlt c hc) hx (gid_corner (hlt c' hc') hx')
  have hnd : (HMap.keys (HMap.iter order shift)).Nodup := by
    rw [hitk']; exact (ho _).nodup_iff.2 n2
  refine ⟨nodes ++ HMap.iter order shift, ?_, ?_, ?_, ?_⟩
  · unfold bootstrapNodeMap
    rw [hgid]
    simp only [h1, bind, Except.bind, pure, Except.pure]
    rw [← hshift, foldl_insert_new _ _ hnd hdisj]
  · have : HMap.keys (nodes ++ HMap.iter order shift)
        = nodes.keys ++ HMap.keys (HMap.iter order shift) := by simp [HMap.keys]
    rw [this, List.nodup_append]
    refine ⟨n1, hnd, ?_⟩
    rintro a ha b hb rfl
    exact hdisj a hb ha
  · rw [List.map_append, List.length_append]
    have e1 : nodes.map (·.2) = List.range nodes.length := by
      have hl : nodes.keys.length = nodes.length := by simp [HMap.keys]
      conv_lhs => rw [n1']
      rw [List.zipIdx_map_snd, hl, List.range_eq_range']
    have e2 : (shift.map (·.2)) = List.range' nodes.length centers.length := by
      have hl : centers.keys.length = centers.length := by simp [HMap.keys]
      rw [hshift, List.map_map]
      have : ((fun x : Nat × Nat => x.2) ∘ fun e : Nat × Nat => (e.1, e.2 + nodes.length))
        = (fun i => nodes.length + i) ∘ Prod.snd := by
        funext e; simp [Nat.add_comm]
      rw [this, ← List.map_map]
      conv_lhs => rw [n2']
      rw [List.zipIdx_map_snd, hl, List.map_add_range']
      simp
    have e3 : ((HMap.iter order shift).map (·.2)).Perm (List.range' nodes.length centers.length) := by
      rw [← e2]; exact hperm.map _
    have e4 : (HMap.iter order shift).length = centers.length := by
      rw [hperm.length_eq, hshift, List.length_map]
    rw [e1, e4]
    refine (List.Perm.append_left _ e3).trans ?_
    rw [List.range_eq_range', List.range_eq_range']
    have := List.range'_append (s := 0) (m := nodes.length) (n := centers.length) (step := 1)
    simp only [Nat.one_mul, Nat.zero_add] at this
    rw [this]
  · intro x
    have : HMap.keys (nodes ++ HMap.iter order shift)
        = nodes.keys ++ HMap.keys (HMap.iter order shift) := by simp [HMap.keys]
    rw [this, List.mem_append, hitk', (ho _).mem_iff, hnodes x, hcenters x]
    constructor
    · rintro (⟨c, hc, hx⟩ | ⟨c, hc, hx⟩)
      · exact ⟨c, hc, List.mem_of_mem_take hx⟩
      · exact ⟨c, hc, List.mem_of_mem_drop hx⟩
    · rintro ⟨c, hc, hx⟩
      rw [← List.take_append_drop 8 (g.getNodeGids c), List.mem_append] at hx
      rcases hx with hx | hx
      · exact Or.inl ⟨c, hc, hx⟩
      · exact Or.inr ⟨c, hc, hx⟩

theorem fillNodes_spec (es : List (Nat × Nat)) (node : List (Vec3 T))
    (hn : (es.map (·.2)).Nodup) (hlt : ∀ e ∈ es, e.2 < node.length)
    (hc : ∀ e ∈ es, ∃ r, g.nodeCoordFromIdx e.1 = .ok r) :
    ∃ node', fillNodes g es node = .ok node' ∧ node'.length = node.length ∧
      (∀ i, i ∉ es.map (·.2) → node'[i]? = node[i]?) ∧
      ∀ e ∈ es, ∃ r, g.nodeCoordFromIdx e.1 = .ok r ∧ node'[e.2]? = some r := by
  induction es generalizing node with
  | nil => exact ⟨node, rfl, rfl, fun _ _ => rfl, by simp⟩
  | cons e es ih =>
    obtain ⟨gid, i⟩ := e
    obtain ⟨r, hr⟩ := hc (gid, i) (by simp)
    simp only at hr
    have hi := hlt (gid, i) (by simp)
    simp only at hi
    rw [List.map_cons, List.nodup_cons] at hn
    obtain ⟨node', h1, h2, h3, h4⟩ := ih (node.set i r) hn.2
      (fun e he => by rw [List.length_set]; exact hlt e (by simp [he]))
      (fun e he => hc e (by simp [he]))
    refine ⟨node', ?_, by rw [h2, List.length_set], ?_, ?_⟩
    · rw [fillNodes, hr]
      simp only [bind, Except.bind, hi, if_true]
      exact h1
    · intro j hj
      rw [List.map_cons, List.mem_cons, not_or] at hj
      rw [h3 j hj.2, List.getElem?_set, if_neg (fun h => hj.1 h.symm)]
    · intro e he
      rcases List.mem_cons.1 he with rfl | he
      · refine ⟨r, hr, ?_⟩
        rw [h3 i hn.1, List.getElem?_set, if_pos rfl, if_pos hi]
      · exact h4 e he

end Flooding
