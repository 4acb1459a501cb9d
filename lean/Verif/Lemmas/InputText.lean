import Verif.Spec.InputText
import Verif.Lemmas.InputFile
/-!
# Lemmas on the texts of an input file
-/
open Flt

namespace Config

/-! ### Decimal numbers -/

theorem foldl_decimal (ds : List Char) (n : Nat) :
    ds.foldl (fun n c => 10 * n + (c.toNat - '0'.toNat)) n = n * 10 ^ ds.length + decimalValue ds := by
  induction ds generalizing n with
  | nil => simp [decimalValue]
  | cons c r ih =>
    rw [List.foldl_cons, ih, decimalValue, digitValue, List.length_cons, Nat.pow_succ, Nat.add_mul]
    rw [Nat.mul_comm 10 n, Nat.mul_assoc, Nat.mul_comm 10, Nat.add_assoc]

theorem decimalValue_eq (ds : List Char) : decimalValue ds = Nat.ofDigitChars 10 ds 0 := by
  rw [Nat.ofDigitChars_eq_foldl]
  have := foldl_decimal ds 0
  simpa using this.symm

theorem isDigit_bounds {c : Char} (h : c.isDigit = true) : '0' ≤ c ∧ c ≤ '9' := by
  simp only [Char.isDigit, Bool.and_eq_true, decide_eq_true_eq] at h
  exact h

theorem decimal_toString (n : Nat) : DecimalNotation (toString n) n := by
  refine ⟨Nat.toDigits 10 n, .inl ?_, Nat.toDigits_ne_nil, fun c hc => ?_, ?_⟩
  · exact Nat.toList_repr
  · exact isDigit_bounds (Nat.isDigit_of_mem_toDigits (by decide) (by decide) hc)
  · rw [decimalValue_eq]
    exact Nat.ofDigitChars_toDigits (by decide) (by decide)

theorem parseU64_iff (s : String) (n : Nat) : parseU64 s = some n ↔ DecimalNotation s n ∧ n < 2 ^ 64 := by
  have core : ∀ cs : List Char, (if cs.isEmpty || !(cs.all fun c => decide ('0' ≤ c) && decide (c ≤ '9')) then none
      else if cs.foldl (fun n c => 10 * n + (c.toNat - '0'.toNat)) 0 < 2 ^ 64 then
        some (cs.foldl (fun n c => 10 * n + (c.toNat - '0'.toNat)) 0) else none) = some n ↔
      (cs ≠ [] ∧ (∀ c ∈ cs, '0' ≤ c ∧ c ≤ '9') ∧ decimalValue cs = n) ∧ n < 2 ^ 64 := by
    intro cs
    rw [foldl_decimal cs 0, Nat.zero_mul, Nat.zero_add]
    have hall : (cs.all fun c => decide ('0' ≤ c) && decide (c ≤ '9')) = true ↔ ∀ c ∈ cs, '0' ≤ c ∧ c ≤ '9' := by
      simp
    have hemp : cs.isEmpty = true ↔ cs = [] := by simp
    split
    · rename_i h
      simp only [Bool.or_eq_true, Bool.not_eq_true'] at h
      constructor
      · intro h'; cases h'
      · rintro ⟨⟨h1, h2, _⟩, _⟩
        rcases h with h | h
        · exact absurd (hemp.1 h) h1
        · rw [hall.2 h2] at h; cases h
    · rename_i h
      simp only [Bool.or_eq_true, Bool.not_eq_true', not_or] at h
      have h1 : cs ≠ [] := fun e => h.1 (hemp.2 e)
      have h2 : ∀ c ∈ cs, '0' ≤ c ∧ c ≤ '9' := hall.1 (by
        cases hb : cs.all fun c => decide ('0' ≤ c) && decide (c ≤ '9')
        · exact absurd hb h.2
        · rfl)
      split
      · rename_i h3
        simp only [Option.some.injEq]
        constructor
        · rintro rfl; exact ⟨⟨h1, h2, rfl⟩, h3⟩
        · rintro ⟨⟨_, _, h4⟩, _⟩; exact h4
      · rename_i h3
        constructor
        · intro h'; cases h'
        · rintro ⟨⟨_, _, h4⟩, h5⟩; exact absurd (h4 ▸ h5) h3
  have hplus : ¬ ('0' ≤ '+') := by decide
  unfold parseU64
  dsimp only
  split
  · rename_i r hs
    refine (core r).trans ⟨fun h => ⟨⟨r, .inr hs, h.1.1, h.1.2.1, h.1.2.2⟩, h.2⟩, ?_⟩
    rintro ⟨⟨ds, h1 | h1, h2, h3, h4⟩, h5⟩
    · rw [hs] at h1; subst h1
      exact absurd (h3 '+' (by simp)).1 hplus
    · rw [hs] at h1; cases h1
      exact ⟨⟨h2, h3, h4⟩, h5⟩
  · rename_i hs
    refine (core s.toList).trans ⟨fun h => ⟨⟨_, .inl rfl, h.1.1, h.1.2.1, h.1.2.2⟩, h.2⟩, ?_⟩
    rintro ⟨⟨ds, h1 | h1, h2, h3, h4⟩, h5⟩
    · subst h1
      exact ⟨⟨h2, h3, h4⟩, h5⟩
    · exact absurd h1 (hs ds)

theorem parseU64_toString {n : Nat} (h : n < 2 ^ 64) : parseU64 (toString n) = some n :=
  (parseU64_iff _ _).2 ⟨decimal_toString n, h⟩

theorem plain_toString (n : Nat) : Plain (toString n) := by
  have hd : ∀ c ∈ (toString n).toList, c.isDigit = true := by
    intro c hc
    have e : (toString n).toList = Nat.toDigits 10 n := Nat.toList_repr
    rw [e] at hc
    exact Nat.isDigit_of_mem_toDigits (by decide) (by decide) hc
  have ha : ∀ c ∈ (toString n).toList, c.isAlphanum = true := fun c hc => by
    simp [Char.isAlphanum, hd c hc]
  refine ⟨fun c hc => by simp [plainChar, ha c hc], ?_⟩
  cases hs : (toString n).toList with
  | nil =>
    have e : (toString n).toList = Nat.toDigits 10 n := Nat.toList_repr
    rw [e] at hs
    exact absurd hs Nat.toDigits_ne_nil
  | cons c r => exact .inl (ha c (by rw [hs]; simp))

/-! ### Blocks -/

theorem lookup_perm {b b' : Block} (h : b'.Perm b) (hn : (b.map (·.1)).Nodup) (k : String) :
    textOf b' k = textOf b k := by
  unfold textOf
  induction h with
  | nil => rfl
  | cons x _ ih =>
    rw [List.map_cons, List.nodup_cons] at hn
    rw [List.lookup_cons, List.lookup_cons, ih hn.2]
  | swap x y l =>
    simp only [List.map_cons, List.nodup_cons, List.mem_cons, not_or] at hn
    obtain ⟨x1, x2⟩ := x
    obtain ⟨y1, y2⟩ := y
    simp only [List.lookup_cons]
    by_cases h1 : k = x1
    · by_cases h2 : k = y1
      · exact absurd (h1.symm.trans h2) (by simpa using hn.1.1)
      · simp [h1, beq_eq_false_iff_ne.2 (h1 ▸ h2 : x1 ≠ y1)]
    · have : (k == x1) = false := beq_eq_false_iff_ne.2 h1
      simp [this]
  | trans h1 h2 ih1 ih2 =>
    rw [ih1 ((h2.map _).nodup_iff.2 hn), ih2 hn]

theorem blockOf_keys (es : List (String × Option String)) :
    ((blockOf es).map (·.1)).Sublist (es.map (·.1)) := by
  induction es with
  | nil => exact .slnil
  | cons e es ih =>
    obtain ⟨k, t⟩ := e
    cases t with
    | none => exact ih.cons _
    | some t => exact ih.cons_cons _

theorem blockOf_nodup {es : List (String × Option String)} (h : (es.map (·.1)).Nodup) :
    ((blockOf es).map (·.1)).Nodup := h.sublist (blockOf_keys es)

theorem blockOf_text {es : List (String × Option String)} (h : (es.map (·.1)).Nodup) (k : String) :
    textOf (blockOf es) k = (es.lookup k).join := by
  unfold textOf
  induction es with
  | nil => rfl
  | cons e es ih =>
    obtain ⟨k', t⟩ := e
    rw [List.map_cons, List.nodup_cons] at h
    rw [List.lookup_cons]
    by_cases hk : k = k'
    · subst hk
      cases t with
      | none =>
        have : (blockOf ((k, none) :: es)) = blockOf es := rfl
        rw [this]
        simp only [beq_self_eq_true]
        show List.lookup k (blockOf es) = none
        rw [List.lookup_eq_none_iff]
        intro p hp
        have hmem : p.1 ∈ es.map (·.1) := (blockOf_keys es).subset (List.mem_map_of_mem hp)
        rw [bne_iff_ne]
        rintro rfl
        exact h.1 hmem
      | some t =>
        have : (blockOf ((k, some t) :: es)) = (k, t) :: blockOf es := rfl
        rw [this, List.lookup_cons]
        simp
    · have hk' : (k == k') = false := beq_eq_false_iff_ne.2 hk
      rw [hk']
      cases t with
      | none => exact ih h.2
      | some t =>
        have : (blockOf ((k', some t) :: es)) = (k', t) :: blockOf es := rfl
        rw [this, List.lookup_cons, hk']
        exact ih h.2

theorem mem_blockOf {es : List (String × Option String)} {kv : String × String} (h : kv ∈ blockOf es) :
    (kv.1, some kv.2) ∈ es := by
  obtain ⟨e, he, h1⟩ := List.mem_filterMap.1 h
  obtain ⟨k, t⟩ := e
  cases t with
  | none => cases h1
  | some t => cases h1; exact he

end Config
