import Verif.Spec.Stats
import Verif.Lemmas.Reactions
import Verif.Lemmas.Except
import Mathlib.Algebra.QuadraticDiscriminant
/-! Lists of fields and lists of numbers. -/

theorem splitFields_ne_nil (sep : Char) (l : List Char) : splitFields sep l ≠ [] := by
  cases l with
  | nil => simp [splitFields]
  | cons c l =>
    unfold splitFields
    split
    · simp
    · split <;> simp

theorem splitFields_append {sep : Char} {f : List Char} (h : sep ∉ f) (l : List Char) :
    splitFields sep (f ++ sep :: l) = f :: splitFields sep l := by
  induction f with
  | nil => simp [splitFields]
  | cons c f ih =>
    have hc : c ≠ sep := fun e => h (by simp [e])
    have hf : sep ∉ f := fun e => h (by simp [e])
    rw [List.cons_append, splitFields, if_neg hc, ih hf]

theorem splitFields_single {sep : Char} {f : List Char} (h : sep ∉ f) : splitFields sep f = [f] := by
  induction f with
  | nil => simp [splitFields]
  | cons c f ih =>
    have hc : c ≠ sep := fun e => h (by simp [e])
    have hf : sep ∉ f := fun e => h (by simp [e])
    rw [splitFields, if_neg hc, ih hf]

/-- Reading the fields of a written line gives them back. -/
theorem split_join {sep : Char} {fs : List (List Char)} (hne : fs ≠ []) (h : ∀ f ∈ fs, sep ∉ f) :
    splitFields sep (joinFields sep fs) = fs := by
  induction fs with
  | nil => exact absurd rfl hne
  | cons f fs ih =>
    cases fs with
    | nil => exact splitFields_single (h f (by simp))
    | cons g fs =>
      rw [joinFields, splitFields_append (h f (by simp)), ih (by simp) (fun x hx => h x (by simp [hx]))]

/-- Reading the records of a written file gives its lines back. -/
theorem csvRecords_join {sep : Char} {header : List (List Char)} {rows : List (List (List Char))}
    (hh : header ≠ []) (hhs : ∀ f ∈ header, sep ∉ f)
    (hr : ∀ r ∈ rows, r.length = header.length ∧ ∀ f ∈ r, sep ∉ f) :
    csvRecords sep (joinFields sep header :: rows.map (joinFields sep)) = .ok rows := by
  rw [csvRecords, split_join hh hhs]
  have : rows = rows.map id := by simp
  conv_rhs => rw [this]
  rw [List.mapM_map]
  apply mapM_ok_of_forall
  intro r hr'
  have h1 := hr r hr'
  have hne : r ≠ [] := by
    intro e; rw [e] at h1
    exact hh (List.length_eq_zero_iff.1 h1.1.symm)
  simp [split_join hne h1.2, h1.1]

/-- Cauchy–Schwarz for a list of pairs. -/
theorem list_cauchy_schwarz (l : List (ℝ × ℝ)) :
    (l.map fun p => p.1 * p.2).sum ^ 2 ≤ (l.map fun p => p.1 ^ 2).sum * (l.map fun p => p.2 ^ 2).sum := by
  have key : ∀ t : ℝ, 0 ≤ (l.map fun p => p.1 ^ 2).sum * (t * t) + (2 * (l.map fun p => p.1 * p.2).sum) * t +
      (l.map fun p => p.2 ^ 2).sum := by
    intro t
    have e : (l.map fun p => p.1 ^ 2).sum * (t * t) + (2 * (l.map fun p => p.1 * p.2).sum) * t +
        (l.map fun p => p.2 ^ 2).sum = (l.map fun p => (p.1 * t + p.2) ^ 2).sum := by
      induction l with
      | nil => simp
      | cons a l ih =>
        simp only [List.map_cons, List.sum_cons]
        rw [← ih]; ring
    rw [e]
    apply List.sum_nonneg
    intro x hx
    obtain ⟨p, _, rfl⟩ := List.mem_map.1 hx
    positivity
  have h := discrim_le_zero key
  unfold discrim at h
  nlinarith

theorem sum_fst_zip {α : Type} (f : α → ℝ) (xs ys : List α) (h : xs.length = ys.length) :
    ((xs.zip ys).map fun p => f p.1).sum = (xs.map f).sum := by
  have : ((xs.zip ys).map fun p => f p.1) = ((xs.zip ys).map Prod.fst).map f := by simp [Function.comp_def]
  rw [this, List.map_fst_zip h.le]

theorem sum_snd_zip {α : Type} (f : α → ℝ) (xs ys : List α) (h : xs.length = ys.length) :
    ((xs.zip ys).map fun p => f p.2).sum = (ys.map f).sum := by
  have : ((xs.zip ys).map fun p => f p.2) = ((xs.zip ys).map Prod.snd).map f := by simp [Function.comp_def]
  rw [this, List.map_snd_zip h.ge]

theorem coMoment_symm (xs ys : List ℝ) (h : xs.length = ys.length) : coMoment xs ys = coMoment ys xs := by
  unfold coMoment
  rw [← List.zip_swap ys xs, List.map_map, h]
  congr 2
  apply List.map_congr_left
  intro p _
  simp [mul_comm]

theorem zip_self_map {α β : Type} (f : α × α → β) (l : List α) : (l.zip l).map f = l.map fun x => f (x, x) := by
  induction l with
  | nil => rfl
  | cons a l ih => simp [ih]

theorem coMoment_self (xs : List ℝ) :
    coMoment xs xs = (xs.map fun x => (x - meanOf xs) ^ 2).sum / xs.length := by
  unfold coMoment
  rw [zip_self_map]
  congr 2
  apply List.map_congr_left
  intro x _
  ring

theorem coMoment_self_nonneg (xs : List ℝ) : 0 ≤ coMoment xs xs := by
  rw [coMoment_self]
  apply div_nonneg _ (Nat.cast_nonneg _)
  apply List.sum_nonneg
  intro x hx
  obtain ⟨y, _, rfl⟩ := List.mem_map.1 hx
  positivity

/-- Cauchy–Schwarz for the co-moments. -/
theorem coMoment_sq_le (xs ys : List ℝ) (h : xs.length = ys.length) :
    coMoment xs ys ^ 2 ≤ coMoment xs xs * coMoment ys ys := by
  have h1 := list_cauchy_schwarz ((xs.zip ys).map fun p => (p.1 - meanOf xs, p.2 - meanOf ys))
  simp only [List.map_map, Function.comp_def] at h1
  rw [sum_fst_zip (fun x => (x - meanOf xs) ^ 2) xs ys h, sum_snd_zip (fun x => (x - meanOf ys) ^ 2) xs ys h] at h1
  rw [coMoment_self, coMoment_self]
  unfold coMoment
  rw [div_pow, div_mul_div_comm, ← h, ← sq]
  exact div_le_div_of_nonneg_right h1 (by positivity)

/-! ### The model computes these numbers -/

theorem new_mean (xs : List ℝ) : (TalliedVariable.new xs).mean = meanOf xs := by
  simp [TalliedVariable.new, meanOf, flt_sum_real]

theorem new_values {T : Type} [Flt T] (xs : List T) : (TalliedVariable.new xs).values = xs := rfl

theorem new_variance (xs : List ℝ) : (TalliedVariable.new xs).variance = coMoment xs xs := by
  rw [coMoment_self]
  simp only [TalliedVariable.new, meanOf, flt_sum_real, FltReal.div_eq, FltReal.mul_eq, FltReal.sub_eq,
    FltReal.ofNat_eq]
  congr 2
  apply List.map_congr_left
  intro x _
  ring

theorem covariance_new (xs ys : List ℝ) :
    covariance (TalliedVariable.new xs) (TalliedVariable.new ys) =
      if xs.length = ys.length then .ok (coMoment xs ys) else .error .assertFailed := by
  unfold covariance
  rw [new_mean, new_mean]
  simp only [new_values, flt_sum_real, FltReal.div_eq, FltReal.mul_eq, FltReal.sub_eq, FltReal.ofNat_eq]
  by_cases h : xs.length = ys.length
  · simp only [h, beq_self_eq_true, assertB, if_true]
    unfold coMoment
    rw [h]; rfl
  · simp only [h, if_false]
    have : (xs.length == ys.length) = false := by simpa using h
    rw [this]; rfl

theorem list_sum_eq_zero {l : List ℝ} (h : ∀ y ∈ l, 0 ≤ y) : l.sum = 0 ↔ ∀ y ∈ l, y = 0 := by
  induction l with
  | nil => simp
  | cons a l ih =>
    have ha := h a (by simp)
    have hl : ∀ y ∈ l, 0 ≤ y := fun y hy => h y (by simp [hy])
    have hs : 0 ≤ l.sum := List.sum_nonneg hl
    rw [List.sum_cons, List.forall_mem_cons, ← ih hl]
    constructor
    · intro e; constructor <;> linarith
    · rintro ⟨e1, e2⟩; rw [e1, e2]; ring
