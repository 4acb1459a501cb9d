import Verif.Model.HMap
import Mathlib.Data.List.Nodup
import Mathlib.Data.List.Perm.Basic
/-!
# Hash maps: helper lemmas
-/

namespace HMap
variable {K V : Type} [DecidableEq K]

theorem hasKey_iff {m : HMap K V} {k : K} : m.hasKey k = true ↔ k ∈ m.keys := by
  simp [hasKey, keys]

theorem get?_nil (k : K) : get? ([] : HMap K V) k = none := rfl

theorem get?_cons (e : K × V) (m : HMap K V) (k : K) :
    get? (e :: m) k = if e.1 = k then some e.2 else get? m k := by
  unfold get?
  by_cases h : e.1 = k <;> simp [h]

theorem mem_of_get? {m : HMap K V} {k : K} {v : V} (h : m.get? k = some v) : (k, v) ∈ m := by
  induction m with
  | nil => simp [get?_nil] at h
  | cons e m ih =>
    rw [get?_cons] at h
    split at h
    · rename_i hk
      cases h
      rw [← hk]; simp
    · exact List.mem_cons_of_mem _ (ih h)

theorem get?_of_mem {m : HMap K V} (hn : m.keys.Nodup) {k : K} {v : V} (h : (k, v) ∈ m) :
    m.get? k = some v := by
  induction m with
  | nil => simp at h
  | cons e m ih =>
    rw [get?_cons]
    simp only [keys, List.map_cons, List.nodup_cons] at hn
    rcases List.mem_cons.1 h with rfl | h
    · simp
    · have : e.1 ≠ k := by
        rintro rfl
        exact hn.1 (List.mem_map.2 ⟨_, h, rfl⟩)
      rw [if_neg this]
      exact ih hn.2 h

theorem get?_isSome {m : HMap K V} {k : K} : k ∈ m.keys ↔ ∃ v, m.get? k = some v := by
  constructor
  · intro h
    induction m with
    | nil => simp [keys] at h
    | cons e m ih =>
      rw [get?_cons]
      split
      · exact ⟨_, rfl⟩
      · rename_i hne
        refine ih ?_
        simp only [keys, List.map_cons, List.mem_cons] at h
        rcases h with h | h
        · exact absurd h.symm hne
        · exact h
  · rintro ⟨v, h⟩
    exact List.mem_map.2 ⟨_, mem_of_get? h, rfl⟩

theorem get?_append (m m' : HMap K V) (k : K) :
    get? (m ++ m') k = (get? m k).or (get? m' k) := by
  induction m with
  | nil => simp [get?_nil]
  | cons e m ih =>
    rw [List.cons_append, get?_cons, get?_cons, ih]
    split <;> simp

theorem get?_none {m : HMap K V} {k : K} (h : k ∉ m.keys) : m.get? k = none := by
  cases hg : m.get? k with
  | none => rfl
  | some v => exact absurd (get?_isSome.2 ⟨v, hg⟩) h

theorem orInsert_new {m : HMap K V} {k : K} {v : V} (h : k ∉ m.keys) :
    m.orInsert k v = m ++ [(k, v)] := by
  unfold orInsert
  rw [if_neg (by rwa [hasKey_iff])]

theorem orInsert_old {m : HMap K V} {k : K} {v : V} (h : k ∈ m.keys) : m.orInsert k v = m := by
  unfold orInsert
  rw [if_pos (by rwa [hasKey_iff])]

theorem insert_new {m : HMap K V} {k : K} {v : V} (h : k ∉ m.keys) :
    m.insert k v = m ++ [(k, v)] := by
  unfold insert
  rw [if_neg (by rwa [hasKey_iff])]

theorem keys_insert_old {m : HMap K V} {k : K} {v : V} (h : k ∈ m.keys) :
    (m.insert k v).keys = m.keys := by
  unfold insert
  rw [if_pos (by rwa [hasKey_iff])]
  unfold keys
  rw [List.map_map]
  apply List.map_congr_left
  intro e _
  simp only [Function.comp]
  split
  · rename_i h; exact h.symm
  · rfl

theorem get?_insert (m : HMap K V) (k : K) (v : V) (k' : K) :
    (m.insert k v).get? k' = if k = k' then some v else m.get? k' := by
  by_cases h : k ∈ m.keys
  · unfold insert
    rw [if_pos (by rwa [hasKey_iff])]
    induction m with
    | nil => simp [keys] at h
    | cons e m ih =>
      rw [List.map_cons, get?_cons, get?_cons]
      by_cases hk : e.1 = k
      · rw [if_pos hk]
        by_cases hk' : k = k'
        · simp [hk']
        · simp only [if_neg hk', show ¬ e.1 = k' by rw [hk]; exact hk', if_false]
          clear ih h
          induction m with
          | nil => rfl
          | cons e' m ih' =>
            rw [List.map_cons, get?_cons, get?_cons]
            by_cases h2 : e'.1 = k
            · rw [if_pos h2]
              simp only [if_neg hk', show ¬ e'.1 = k' by rw [h2]; exact hk', if_false]
              exact ih'
            · rw [if_neg h2, ih']
      · rw [if_neg hk]
        have hmem : k ∈ keys m := by
          simp only [keys, List.map_cons, List.mem_cons] at h
          rcases h with h | h
          · exact absurd h.symm hk
          · exact h
        rw [ih hmem]
        by_cases hk' : e.1 = k'
        · have : ¬ k = k' := fun h => hk (hk'.trans h.symm)
          simp [hk', this]
        · simp [hk']
  · rw [insert_new h, get?_append, get?_cons, get?_nil]
    by_cases hk : k = k'
    · subst hk
      rw [get?_none h]; simp
    · simp [hk]

section iter
variable {order : IterOrder} {m : HMap Nat V}

theorem iter_keys (ho : ∀ l, (order l).Perm l) : (iter order m).map (·.1) = order m.keys := by
  unfold iter
  have : ∀ l : List Nat, (∀ k ∈ l, k ∈ m.keys) →
      (l.filterMap fun k => (m.get? k).map fun v => (k, v)).map (·.1) = l := by
    intro l hl
    induction l with
    | nil => rfl
    | cons k l ih =>
      obtain ⟨v, hv⟩ := get?_isSome.1 (hl k (by simp))
      rw [List.filterMap_cons, hv]
      simp only [Option.map_some, List.map_cons]
      rw [ih fun k hk => hl k (by simp [hk])]
  exact this _ fun k hk => (ho _).mem_iff.1 hk

theorem mem_iter (ho : ∀ l, (order l).Perm l) (hn : m.keys.Nodup) {e : Nat × V} :
    e ∈ iter order m ↔ e ∈ m := by
  obtain ⟨k, v⟩ := e
  unfold iter
  rw [List.mem_filterMap]
  constructor
  · rintro ⟨a, _, h⟩
    cases hg : m.get? a with
    | none => rw [hg] at h; simp at h
    | some w =>
      rw [hg] at h
      simp only [Option.map_some, Option.some.injEq, Prod.mk.injEq] at h
      obtain ⟨rfl, rfl⟩ := h
      exact mem_of_get? hg
  · intro h
    refine ⟨k, (ho _).mem_iff.2 (List.mem_map.2 ⟨_, h, rfl⟩), ?_⟩
    rw [get?_of_mem hn h]; rfl

theorem iter_perm (ho : ∀ l, (order l).Perm l) (hn : m.keys.Nodup) : (iter order m).Perm m := by
  have h1 : (iter order m).Nodup := by
    refine List.Nodup.of_map (·.1) ?_
    rw [iter_keys ho]
    exact (ho _).nodup_iff.2 hn
  have h2 : m.Nodup := by
    refine List.Nodup.of_map (·.1) ?_
    exact hn
  exact (List.perm_ext_iff_of_nodup h1 h2).2 fun e => mem_iter ho hn

end iter

end HMap
