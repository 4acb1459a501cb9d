import Verif.Spec.Reactions
import Verif.Lemmas.Except
import Mathlib.Algebra.Order.BigOperators.Group.List
import Mathlib.Tactic.Linarith
/-! Helper lemmas for the choice of the reaction and the macroscopic cross-sections. -/
open FltReal

theorem flt_sum_real (l : List ℝ) : Flt.sum l = l.sum := by
  unfold Flt.sum
  have : ∀ (l : List ℝ) (a : ℝ), l.foldl Flt.add a = a + l.sum := by
    intro l
    induction l with
    | nil => simp
    | cons b l ih => intro a; rw [List.foldl_cons, ih, List.sum_cons, add_eq]; ring
  rw [this]; simp

/-- The search over a flat list of weighted reactions. -/
noncomputable def scanT : List (ℝ × Reaction ℝ) → ℝ → Option (Reaction ℝ) → ℝ × Option (Reaction ℝ)
  | [], xs, r => (xs, r)
  | t :: ts, xs, r => if xs - t.1 < 0 then (xs - t.1, some t.2) else scanT ts (xs - t.1) r

theorem scanReactions_terms {f ρ : ℝ} (hf : f ≠ 0) (hρ : ρ ≠ 0) {g : ℕ} {rs : List (Reaction ℝ)}
    {ts : List (ℝ × Reaction ℝ)}
    (h : List.Forall₂ (fun r t => ∃ σ, r.crossSection[g]? = some σ ∧ t = (f * ρ * σ, r)) rs ts)
    (xs : ℝ) (r : Option (Reaction ℝ)) : scanReactions f ρ g rs xs r = .ok (scanT ts xs r) := by
  induction h generalizing xs with
  | nil => rfl
  | @cons c t rs ts hct _ ih =>
    obtain ⟨σ, hσ, rfl⟩ := hct
    unfold scanReactions
    simp only [beq_eq, zero_eq, hf, hρ, decide_false, Bool.or_self, Bool.false_eq_true, if_false,
      idx_ok.2 hσ, sub_eq, mul_eq, lt_eq, decide_eq_true_eq]
    simp only [bind, Except.bind, pure, Except.pure, scanT]
    split
    · rfl
    · exact ih _

theorem scanT_append (a b : List (ℝ × Reaction ℝ)) {xs : ℝ} (hx : 0 ≤ xs) (r : Option (Reaction ℝ)) :
    scanT (a ++ b) xs r =
      if (scanT a xs r).1 < 0 then scanT a xs r else scanT b (scanT a xs r).1 (scanT a xs r).2 := by
  induction a generalizing xs with
  | nil => simp [scanT, not_lt.2 hx]
  | cons t a ih =>
    simp only [List.cons_append, scanT]
    split
    · simp_all
    · rw [ih (by linarith)]

theorem scanIsotopes_terms {data : Data ℝ} {ρ : ℝ} (hρ : ρ ≠ 0) {g : ℕ} {isos : List (Isotope ℝ)}
    (hf : ∀ iso ∈ isos, iso.atomFraction ≠ 0) {tss : List (List (ℝ × Reaction ℝ))}
    (h : List.Forall₂ (IsotopeTerms data ρ g) isos tss) {xs : ℝ} (hx : 0 ≤ xs)
    (r : Option (Reaction ℝ)) : scanIsotopes data ρ g isos xs r = .ok (scanT tss.flatten xs r) := by
  induction h generalizing xs r with
  | nil => rfl
  | @cons iso ts isos tss hi _ ih =>
    obtain ⟨rs, hrs, hall⟩ := hi
    unfold scanIsotopes
    rw [idx_ok.2 hrs]
    simp only [bind, Except.bind, scanReactions_terms (hf iso (by simp)) hρ hall]
    rw [List.flatten_cons, scanT_append _ _ hx]
    simp only [lt_eq, zero_eq, decide_eq_true_eq]
    split
    · rfl
    · rename_i hn
      exact ih (fun i hi => hf i (by simp [hi])) (not_lt.1 hn) _

theorem cumWeight_cons (t : ℝ × Reaction ℝ) (ts : List (ℝ × Reaction ℝ)) (k : ℕ) :
    cumWeight (t :: ts) (k + 1) = t.1 + cumWeight ts k := by
  simp [cumWeight]

theorem cumWeight_zero (ts : List (ℝ × Reaction ℝ)) : cumWeight ts 0 = 0 := by simp [cumWeight]

theorem cumWeight_length (ts : List (ℝ × Reaction ℝ)) : cumWeight ts ts.length = totalWeight ts := by
  simp [cumWeight, totalWeight]

theorem cumWeight_nonneg {ts : List (ℝ × Reaction ℝ)} (h : ∀ t ∈ ts, 0 ≤ t.1) (k : ℕ) :
    0 ≤ cumWeight ts k := by
  apply List.sum_nonneg
  intro x hx
  obtain ⟨t, ht, rfl⟩ := List.mem_map.1 hx
  exact h t (List.mem_of_mem_take ht)

theorem cumWeight_succ {ts : List (ℝ × Reaction ℝ)} {k : ℕ} (hk : k < ts.length) :
    cumWeight ts (k + 1) = cumWeight ts k + ts[k].1 := by
  induction ts generalizing k with
  | nil => simp at hk
  | cons t ts ih =>
    cases k with
    | zero => simp [cumWeight]
    | succ k =>
      rw [cumWeight_cons, cumWeight_cons, ih (by simpa using hk)]
      simp; ring

theorem cumWeight_mono {ts : List (ℝ × Reaction ℝ)} (h : ∀ t ∈ ts, 0 ≤ t.1) : Monotone (cumWeight ts) := by
  apply monotone_nat_of_le_succ
  intro k
  by_cases hk : k < ts.length
  · rw [cumWeight_succ hk]
    have := h ts[k] (List.getElem_mem hk)
    linarith
  · rw [cumWeight, cumWeight, List.take_of_length_le (by omega), List.take_of_length_le (by omega)]

theorem scanT_hit {ts : List (ℝ × Reaction ℝ)} (h : ∀ t ∈ ts, 0 ≤ t.1) {k : ℕ} (hk : k < ts.length)
    {xs : ℝ} (h1 : cumWeight ts k ≤ xs) (h2 : xs < cumWeight ts (k + 1)) (r : Option (Reaction ℝ)) :
    scanT ts xs r = (xs - cumWeight ts (k + 1), some ts[k].2) := by
  induction ts generalizing k xs with
  | nil => simp at hk
  | cons t ts ih =>
    cases k with
    | zero =>
      rw [cumWeight_cons, cumWeight_zero] at h2
      simp only [scanT, cumWeight_cons, cumWeight_zero]
      rw [if_pos (by linarith)]
      simp
    | succ k =>
      rw [cumWeight_cons] at h1 h2
      have hc := cumWeight_nonneg (ts := ts) (fun t ht => h t (by simp [ht])) k
      simp only [scanT]
      rw [if_neg (by linarith), ih (fun t ht => h t (by simp [ht])) (by simpa using hk)
        (by linarith) (by linarith), cumWeight_cons]
      simp only [List.getElem_cons_succ, Prod.mk.injEq, and_true]
      ring

theorem scanT_miss {ts : List (ℝ × Reaction ℝ)} (h : ∀ t ∈ ts, 0 ≤ t.1) {xs : ℝ}
    (h1 : totalWeight ts ≤ xs) (r : Option (Reaction ℝ)) : scanT ts xs r = (xs - totalWeight ts, r) := by
  induction ts generalizing xs with
  | nil => simp [scanT, totalWeight]
  | cons t ts ih =>
    have ht : totalWeight (t :: ts) = t.1 + totalWeight ts := by simp [totalWeight]
    have hn : 0 ≤ totalWeight ts := by
      rw [← cumWeight_length]; exact cumWeight_nonneg (fun t ht => h t (by simp [ht])) _
    rw [ht] at h1 ⊢
    simp only [scanT]
    rw [if_neg (by linarith), ih (fun t ht => h t (by simp [ht])) (by linarith)]
    simp only [Prod.mk.injEq, and_true]; ring

/-- The interval of a drawn value. -/
theorem exists_interval {ts : List (ℝ × Reaction ℝ)} (h : ∀ t ∈ ts, 0 ≤ t.1) {xs : ℝ} (h0 : 0 ≤ xs)
    (h1 : xs < totalWeight ts) :
    ∃! k : ℕ, k < ts.length ∧ cumWeight ts k ≤ xs ∧ xs < cumWeight ts (k + 1) := by
  have hex : ∃ n, xs < cumWeight ts n := ⟨ts.length, by rwa [cumWeight_length]⟩
  classical
  have hm := cumWeight_mono h
  obtain ⟨n, hn, hmin⟩ : ∃ n, xs < cumWeight ts n ∧ ∀ m < n, ¬ xs < cumWeight ts m :=
    ⟨Nat.find hex, Nat.find_spec hex, fun m hm => Nat.find_min hex hm⟩
  have hn0 : n ≠ 0 := by rintro rfl; rw [cumWeight_zero] at hn; linarith
  obtain ⟨k, rfl⟩ := Nat.exists_eq_succ_of_ne_zero hn0
  have hk : k < ts.length := by
    by_contra hk
    apply hmin k (by omega)
    have : cumWeight ts k = cumWeight ts (k + 1) := by
      rw [cumWeight, cumWeight, List.take_of_length_le (by omega), List.take_of_length_le (by omega)]
    rw [this]; exact hn
  refine ⟨k, ⟨hk, not_lt.1 (hmin k (by omega)), hn⟩, ?_⟩
  rintro j ⟨_, hj1, hj2⟩
  rcases lt_trichotomy j k with hlt | heq | hgt
  · have := hm (show j + 1 ≤ k by omega)
    have := not_lt.1 (hmin k (by omega))
    linarith
  · exact heq
  · have := hm (show k + 1 ≤ j by omega)
    have hn' : xs < cumWeight ts (k + 1) := hn
    linarith
