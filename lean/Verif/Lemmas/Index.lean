import Verif.Lemmas.Flood
import Verif.Model.Domain
/-!
# Numbering of the cells of the only domain: helper lemmas
-/
open Flt GridSpec
set_option linter.unusedSectionVars false

namespace Flooding
variable {T : Type} [Flt T] {g : Grid T}

/-- What is recorded for a cell of the only domain once it is numbered. -/
def placed (j : Nat) : CellInfo :=
  { domainGid := some 0, foreman := some 0, domainIndex := some 0, cellIndex := some j }

theorem idxLoop_spec (readMap : HMap Nat CellInfo) (cs : List Nat) (m : HMap Nat CellInfo) (n : Nat)
    (remote : List (Nat × Nat)) (hn : cs.Nodup) (hm : ∀ c ∈ cs, c ∈ m.keys) :
    ∃ m', idxLoop g readMap 0 0 (cs.map fun c => (c, found)) m n remote = .ok (m', remote) ∧
      m'.keys = m.keys ∧ (∀ c, c ∉ cs → m'.get? c = m.get? c) ∧
      ∀ j c, cs[j]? = some c → m'.get? c = some (placed (n + j)) := by
  induction cs generalizing m n with
  | nil => exact ⟨m, rfl, rfl, fun _ _ => rfl, by simp⟩
  | cons c cs ih =>
    rw [List.nodup_cons] at hn
    have hmem := hm c (by simp)
    obtain ⟨m', h1, h2, h3, h4⟩ := ih (m.insert c (placed n)) (n + 1) hn.2 (by
      intro x hx
      rw [HMap.keys_insert_old hmem]
      exact hm x (by simp [hx]))
    refine ⟨m', ?_, ?_, ?_, ?_⟩
    · rw [List.map_cons, idxLoop]
      exact h1
    · rw [h2, HMap.keys_insert_old hmem]
    · intro x hx
      rw [List.mem_cons, not_or] at hx
      rw [h3 x hx.2, HMap.get?_insert, if_neg (fun h => hx.1 h.symm)]
    · intro j x hj
      cases j with
      | zero =>
        simp only [List.getElem?_cons_zero, Option.some.injEq] at hj
        subst hj
        rw [h3 _ hn.1, HMap.get?_insert, if_pos rfl]; rfl
      | succ j =>
        rw [List.getElem?_cons_succ] at hj
        rw [h4 j x hj]
        congr 2; omega

/-- The entries of a map in iteration order, when their values are known. -/
theorem iter_eq {order : IterOrder} {V : Type} {m : HMap Nat V}
    (v : Nat → Nat → V)
    (hv : ∀ j c, (order m.keys)[j]? = some c → m.get? c = some (v j c)) :
    HMap.iter order m = (order m.keys).zipIdx.map fun e => (e.1, v e.2 e.1) := by
  have gen : ∀ (l : List Nat) (n : Nat), (∀ j c, l[j]? = some c → m.get? c = some (v (n + j) c)) →
      (l.filterMap fun k => (m.get? k).map fun v => (k, v))
        = (l.zipIdx n).map fun e => (e.1, v e.2 e.1) := by
    intro l
    induction l with
    | nil => intro n _; rfl
    | cons c l ih =>
      intro n h
      have h0 := h 0 c rfl
      rw [List.filterMap_cons, h0, List.zipIdx_cons, List.map_cons]
      simp only [Option.map_some, Nat.add_zero]
      rw [ih (n + 1) fun j x hj => by
        have := h (j + 1) x (by simpa using hj)
        rw [this]; congr 2; omega]
  unfold HMap.iter
  exact gen _ 0 fun j c h => by rw [hv j c h, Nat.zero_add]

/-- The partition of the only domain, from the cells in the order in which the flood met them. -/
theorem buildCellIdxMap_spec {order : IterOrder} (ho : ∀ l, (order l).Perm l) {p : Partition}
    {l : List Nat} (hl : l.Nodup) (hp : p.domainGid = 0) (hf : p.foreman = 0)
    (hm : p.cellInfoMap = l.map fun c => (c, found)) :
    ∃ m', buildCellIdxMap order g p = .ok ({ p with cellInfoMap := m' }, []) ∧ m'.keys = l ∧
      ∀ j c, (order l)[j]? = some c → m'.get? c = some (placed j) := by
  have hkeys : p.cellInfoMap.keys = l := by rw [hm]; simp [HMap.keys, Function.comp_def]
  have hiter : p.cellInfoMap.iter order = (order l).map fun c => (c, found) := by
    rw [iter_eq (fun _ _ => found), hkeys]
    · rw [show (fun e : Nat × Nat => (e.1, found)) = (fun c => (c, found)) ∘ Prod.fst from rfl,
        ← List.map_map, List.zipIdx_map_fst]
    · intro j c hc
      refine HMap.get?_of_mem (by rw [hkeys]; exact hl) ?_
      rw [hm]
      refine List.mem_map.2 ⟨c, ?_, rfl⟩
      rw [hkeys] at hc
      exact (ho l).mem_iff.1 (List.mem_of_getElem? hc)
  obtain ⟨m', h1, h2, -, h4⟩ := idxLoop_spec (g := g) p.cellInfoMap (order l) p.cellInfoMap 0 []
    ((ho l).nodup_iff.2 hl) (by rw [hkeys]; exact fun c hc => (ho l).mem_iff.1 hc)
  refine ⟨m', ?_, by rw [h2, hkeys], ?_⟩
  · unfold buildCellIdxMap
    rw [hp, hf, hiter]
    simp only [h1, bind, Except.bind]
    obtain ⟨d, f, m, n⟩ := p
    rfl
  · intro j c hj
    have := h4 j c hj
    rwa [Nat.zero_add] at this

/-! ### Maps that number their keys -/

/-- A map that numbers its keys from 0 in the order of their insertion. -/
def Numbers (m : HMap Nat Nat) : Prop := m.keys.Nodup ∧ m = m.keys.zipIdx

theorem numbers_nil : Numbers [] := ⟨by simp [HMap.keys], rfl⟩

theorem numbers_orInsert {m : HMap Nat Nat} (h : Numbers m) (k : Nat) :
    Numbers (m.orInsert k m.length) ∧ ∀ x, x ∈ (m.orInsert k m.length).keys ↔ x = k ∨ x ∈ m.keys := by
  by_cases hk : k ∈ m.keys
  · rw [HMap.orInsert_old hk]
    refine ⟨h, fun x => ⟨Or.inr, ?_⟩⟩
    rintro (rfl | h)
    · exact hk
    · exact h
  · rw [HMap.orInsert_new hk]
    have hkeys : HMap.keys (m ++ [(k, m.length)]) = m.keys ++ [k] := by simp [HMap.keys]
    refine ⟨⟨?_, ?_⟩, ?_⟩
    · rw [hkeys, List.nodup_append]
      refine ⟨h.1, by simp, ?_⟩
      rintro a ha b hb rfl
      exact hk (by rw [← List.mem_singleton.1 hb]; exact ha)
    · rw [hkeys, List.zipIdx_append]
      have : m.keys.length = m.length := by simp [HMap.keys]
      rw [this]
      conv_lhs => rw [h.2]
      simp [this]
    · intro x
      rw [hkeys]
      simp only [List.mem_append, List.mem_singleton]
      exact or_comm

theorem numbers_foldl (l : List Nat) (m : HMap Nat Nat) (h : Numbers m) :
    Numbers (l.foldl (fun m k => m.orInsert k m.length) m) ∧
      ∀ x, x ∈ (l.foldl (fun m k => m.orInsert k m.length) m).keys ↔ x ∈ l ∨ x ∈ m.keys := by
  induction l generalizing m with
  | nil => exact ⟨h, by simp⟩
  | cons k l ih =>
    obtain ⟨h1, h2⟩ := numbers_orInsert h k
    obtain ⟨h3, h4⟩ := ih _ h1
    refine ⟨h3, fun x => ?_⟩
    rw [List.foldl_cons, h4 x, h2 x, List.mem_cons]
    constructor
    · rintro (h | h | h)
      · exact Or.inl (Or.inr h)
      · exact Or.inl (Or.inl h)
      · exact Or.inr h
    · rintro ((h | h) | h)
      · exact Or.inr (Or.inl h)
      · exact Or.inl h
      · exact Or.inr (Or.inr h)

theorem nodeMapStep_spec (c : Nat) (maps : HMap Nat Nat × HMap Nat Nat) (h1 : Numbers maps.1)
    (h2 : Numbers maps.2) :
    (Numbers (nodeMapStep g c maps).1 ∧ ∀ x, x ∈ (nodeMapStep g c maps).1.keys ↔
      x ∈ (g.getNodeGids c).take 8 ∨ x ∈ maps.1.keys) ∧
    (Numbers (nodeMapStep g c maps).2 ∧ ∀ x, x ∈ (nodeMapStep g c maps).2.keys ↔
      x ∈ (g.getNodeGids c).drop 8 ∨ x ∈ maps.2.keys) := by
  unfold nodeMapStep
  generalize g.getNodeGids c = gids
  exact ⟨numbers_foldl (gids.take 8) maps.1 h1, numbers_foldl (gids.drop 8) maps.2 h2⟩

theorem nodeMapLoop_spec (es : List (Nat × CellInfo)) (maps : HMap Nat Nat × HMap Nat Nat)
    (he : ∀ e ∈ es, e.2.domainGid = some 0) (h1 : Numbers maps.1) (h2 : Numbers maps.2) :
    ∃ maps', nodeMapLoop g 0 es maps = .ok maps' ∧ Numbers maps'.1 ∧ Numbers maps'.2 ∧
      (∀ x, x ∈ maps'.1.keys ↔ (∃ e ∈ es, x ∈ (g.getNodeGids e.1).take 8) ∨ x ∈ maps.1.keys) ∧
      (∀ x, x ∈ maps'.2.keys ↔ (∃ e ∈ es, x ∈ (g.getNodeGids e.1).drop 8) ∨ x ∈ maps.2.keys) := by
  induction es generalizing maps with
  | nil => exact ⟨maps, rfl, h1, h2, by simp, by simp⟩
  | cons e es ih =>
    obtain ⟨c, ci⟩ := e
    have hci := he (c, ci) (by simp)
    simp only at hci
    obtain ⟨⟨a1, a2⟩, b1, b2⟩ := nodeMapStep_spec (g := g) c maps h1 h2
    obtain ⟨maps', d1, d2, d3, d4, d5⟩ := ih (nodeMapStep g c maps)
      (fun e he' => he e (by simp [he'])) a1 b1
    refine ⟨maps', ?_, d2, d3, ?_, ?_⟩
    · rw [nodeMapLoop, hci]
      exact d1
    · intro x
      rw [d4 x]
      rw [a2 x]
      simp only [List.mem_cons, exists_eq_or_imp]
      constructor
      · rintro (h | h | h)
        · exact Or.inl (Or.inr h)
        · exact Or.inl (Or.inl h)
        · exact Or.inr h
      · rintro ((h | h) | h)
        · exact Or.inr (Or.inl h)
        · exact Or.inl h
        · exact Or.inr (Or.inr h)
    · intro x
      rw [d5 x]
      rw [b2 x]
      simp only [List.mem_cons, exists_eq_or_imp]
      constructor
      · rintro (h | h | h)
        · exact Or.inl (Or.inr h)
        · exact Or.inl (Or.inl h)
        · exact Or.inr h
      · rintro ((h | h) | h)
        · exact Or.inr (Or.inl h)
        · exact Or.inl h
        · exact Or.inr (Or.inr h)

/-- Insertion of new keys. -/
theorem foldl_insert_new (es m : HMap Nat Nat) (hn : es.keys.Nodup)
    (hd : ∀ k ∈ es.keys, k ∉ m.keys) :
    es.foldl (fun m e => m.insert e.1 e.2) m = m ++ es := by
  induction es generalizing m with
  | nil => simp
  | cons e es ih =>
    simp only [HMap.keys, List.map_cons, List.nodup_cons] at hn
    rw [List.foldl_cons, HMap.insert_new (hd e.1 (by simp [HMap.keys])), ih _ hn.2]
    · simp
    · intro k hk
      have h1 := hd k (by simp only [HMap.keys, List.map_cons, List.mem_cons]; exact Or.inr hk)
      have h2 : k ≠ e.1 := by
        rintro rfl
        exact hn.1 hk
      simp only [HMap.keys, List.map_append, List.map_cons, List.map_nil, List.mem_append,
        List.mem_singleton, not_or]
      exact ⟨h1, h2⟩

end Flooding
