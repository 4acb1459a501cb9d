import Verif.Props.Rng
import Mathlib.Algebra.Order.Floor.Semiring
/-!
# How evenly the samples are spread

The probabilistic properties are stated twice: with an ideal uniform draw (Lebesgue measure on the
unit interval) and by counting, among the `2^64` states of the generator, those that lead to the
event.  The lemmas below give the counts.
-/
namespace Rng
attribute [local irreducible] Rng.lcg

/-- The sample drawn from a generator state. -/
noncomputable def draw (seed : BitVec 64) : ℝ := (Rng.sample (T := ℝ) seed).1

theorem draw_nonneg (seed : BitVec 64) : 0 ≤ draw seed := (C01_sample_range seed).1
theorem draw_le_one (seed : BitVec 64) : draw seed ≤ 1 := (C01_sample_range seed).2.1

theorem lcg_surjective : Function.Surjective lcg := fun t =>
  ⟨lcg^[2 ^ 64 - 1] t, by
    rw [← Function.iterate_succ_apply' (f := lcg)]; exact lcg_iterate_mod t⟩

theorem ncard_seed (P : Nat → Prop) :
    {s : BitVec 64 | P (lcg s).toNat}.ncard = {n : Nat | n < 2 ^ 64 ∧ P n}.ncard := by
  have e1 : {s : BitVec 64 | P (lcg s).toNat} = lcg ⁻¹' {s : BitVec 64 | P s.toNat} := rfl
  rw [e1, Set.ncard_preimage_of_injective_subset_range lcg_injective
    (by rw [lcg_surjective.range_eq]; exact Set.subset_univ _)]
  have e2 : {s : BitVec 64 | P s.toNat} =
      (fun n => BitVec.ofNat 64 n) '' {n : Nat | n < 2 ^ 64 ∧ P n} := by
    ext s
    simp only [Set.mem_ofPred_eq, Set.mem_image]
    constructor
    · intro h
      exact ⟨s.toNat, ⟨s.isLt, h⟩, by simp⟩
    · rintro ⟨n, ⟨hn, hP⟩, rfl⟩
      rw [BitVec.toNat_ofNat, Nat.mod_eq_of_lt hn]; exact hP
  rw [e2, Set.InjOn.ncard_image]
  rintro i ⟨hi, _⟩ j ⟨hj, _⟩ h
  have := congrArg BitVec.toNat h
  simp only [BitVec.toNat_ofNat] at this
  rwa [Nat.mod_eq_of_lt hi, Nat.mod_eq_of_lt hj] at this

theorem u64ToF64_close {n : Nat} (hn : n < 2 ^ 64) : |(u64ToF64 n : ℝ) - n| ≤ 2 ^ 11 := by
  have h := u64ToF64_error n
  have h2 : |(u64ToF64 n : ℤ) - n| ≤ 2 ^ 11 := by
    have : (n : ℤ) < 2 ^ 64 := by exact_mod_cast hn
    omega
  exact_mod_cast h2

/-- A set of states squeezed around a threshold has about the expected number of elements. -/
theorem ncard_squeeze {P : Nat → Prop} {X : ℝ} (hX0 : 0 ≤ X) (hX1 : X ≤ 2 ^ 64)
    (hlo : ∀ n : Nat, n < 2 ^ 64 → (n : ℝ) + 2 ^ 11 < X → P n)
    (hhi : ∀ n : Nat, n < 2 ^ 64 → P n → (n : ℝ) ≤ X + 2 ^ 11) :
    |(({n : Nat | n < 2 ^ 64 ∧ P n}.ncard : ℕ) : ℝ) - X| ≤ 2 ^ 12 := by
  have hfin : {n : Nat | n < 2 ^ 64 ∧ P n}.Finite :=
    (Set.finite_lt_nat (2 ^ 64)).subset fun n hn => hn.1
  have hup : {n : Nat | n < 2 ^ 64 ∧ P n}.ncard ≤ ⌊X + 2 ^ 11⌋₊ + 1 := by
    calc {n : Nat | n < 2 ^ 64 ∧ P n}.ncard
        ≤ (Finset.range (⌊X + 2 ^ 11⌋₊ + 1) : Set Nat).ncard := by
          apply Set.ncard_le_ncard _ (Finset.finite_toSet _)
          rintro n ⟨hn, hP⟩
          simp only [Finset.coe_range, Set.mem_Iio]
          exact Nat.lt_succ_of_le (Nat.le_floor (hhi n hn hP))
      _ = _ := by rw [Set.ncard_coe_finset, Finset.card_range]
  have hdown : ⌊X - 2 ^ 11⌋₊ ≤ {n : Nat | n < 2 ^ 64 ∧ P n}.ncard := by
    calc ⌊X - 2 ^ 11⌋₊ = (Finset.range ⌊X - 2 ^ 11⌋₊ : Set Nat).ncard := by
          rw [Set.ncard_coe_finset, Finset.card_range]
      _ ≤ _ := by
          apply Set.ncard_le_ncard _ hfin
          intro n hn
          simp only [Finset.coe_range, Set.mem_Iio] at hn
          have h1 : (n : ℝ) < X - 2 ^ 11 := by
            have h2 : (0 : ℝ) ≤ X - 2 ^ 11 := by
              by_contra hc
              rw [Nat.floor_of_nonpos (by linarith)] at hn
              omega
            calc (n : ℝ) < ⌊X - 2 ^ 11⌋₊ := by exact_mod_cast hn
              _ ≤ _ := Nat.floor_le h2
          have h3 : n < 2 ^ 64 := by
            have : (n : ℝ) < 2 ^ 64 := by linarith
            exact_mod_cast this
          exact ⟨h3, hlo n h3 (by linarith)⟩
  have hup' : (({n : Nat | n < 2 ^ 64 ∧ P n}.ncard : ℕ) : ℝ) ≤ X + 2 ^ 11 + 1 := by
    have h1 : (({n : Nat | n < 2 ^ 64 ∧ P n}.ncard : ℕ) : ℝ) ≤ ((⌊X + 2 ^ 11⌋₊ + 1 : ℕ) : ℝ) := by
      exact_mod_cast hup
    have h2 := Nat.floor_le (a := X + 2 ^ 11) (by positivity)
    rw [Nat.cast_add, Nat.cast_one] at h1
    linarith
  have hdown' : X - 2 ^ 11 - 1 ≤ (({n : Nat | n < 2 ^ 64 ∧ P n}.ncard : ℕ) : ℝ) := by
    have h1 : ((⌊X - 2 ^ 11⌋₊ : ℕ) : ℝ) ≤ (({n : Nat | n < 2 ^ 64 ∧ P n}.ncard : ℕ) : ℝ) := by
      exact_mod_cast hdown
    have h2 := Nat.lt_floor_add_one (X - 2 ^ 11)
    linarith
  rw [abs_le]
  constructor <;> linarith

theorem draw_eq (s : BitVec 64) : draw s = (u64ToF64 (lcg s).toNat : ℝ) / 2 ^ 64 := rfl

/-- Among the `2^64` states, those whose sample is at most `x` number `x * 2^64` up to 4096. -/
theorem count_draw_le {x : ℝ} (h0 : 0 ≤ x) (h1 : x ≤ 1) :
    |(({s : BitVec 64 | draw s ≤ x}.ncard : ℕ) : ℝ) - x * 2 ^ 64| ≤ 2 ^ 12 := by
  have e : {s : BitVec 64 | draw s ≤ x} =
      {s : BitVec 64 | (fun n : Nat => (u64ToF64 n : ℝ) / 2 ^ 64 ≤ x) (lcg s).toNat} := rfl
  rw [e, ncard_seed (fun n : Nat => (u64ToF64 n : ℝ) / 2 ^ 64 ≤ x)]
  apply ncard_squeeze (by positivity) (by linarith)
  · intro n hn h
    have := abs_le.1 (u64ToF64_close hn)
    show _ ≤ _
    rw [div_le_iff₀ (by positivity)]
    linarith
  · intro n hn h
    have := abs_le.1 (u64ToF64_close hn)
    have h' : (u64ToF64 n : ℝ) / 2 ^ 64 ≤ x := h
    rw [div_le_iff₀ (by positivity)] at h'
    linarith

/-- Among the `2^64` states, those whose sample is less than `x` number `x * 2^64` up to 4096. -/
theorem count_draw_lt {x : ℝ} (h0 : 0 ≤ x) (h1 : x ≤ 1) :
    |(({s : BitVec 64 | draw s < x}.ncard : ℕ) : ℝ) - x * 2 ^ 64| ≤ 2 ^ 12 := by
  have e : {s : BitVec 64 | draw s < x} =
      {s : BitVec 64 | (fun n : Nat => (u64ToF64 n : ℝ) / 2 ^ 64 < x) (lcg s).toNat} := rfl
  rw [e, ncard_seed (fun n : Nat => (u64ToF64 n : ℝ) / 2 ^ 64 < x)]
  apply ncard_squeeze (by positivity) (by linarith)
  · intro n hn h
    have := abs_le.1 (u64ToF64_close hn)
    show _ < _
    rw [div_lt_iff₀ (by positivity)]
    linarith
  · intro n hn h
    have := abs_le.1 (u64ToF64_close hn)
    have h' : (u64ToF64 n : ℝ) / 2 ^ 64 < x := h
    rw [div_lt_iff₀ (by positivity)] at h'
    linarith

theorem ncard_states : (Set.univ : Set (BitVec 64)).ncard = 2 ^ 64 := by
  have := ncard_seed (fun _ => True)
  simp only [and_true] at this
  rw [show (Set.univ : Set (BitVec 64)) = {s : BitVec 64 | True} by ext; simp, this]
  rw [show {n : Nat | n < 2 ^ 64} = (Finset.range (2 ^ 64) : Set Nat) by ext; simp]
  rw [Set.ncard_coe_finset, Finset.card_range]

/-- The states that lead to an event and those that do not make up all states. -/
theorem ncard_compl_seed (P : BitVec 64 → Prop) :
    (({s | ¬ P s}.ncard : ℕ) : ℝ) = 2 ^ 64 - (({s | P s}.ncard : ℕ) : ℝ) := by
  have hfin : (Set.univ : Set (BitVec 64)).Finite :=
    Set.finite_of_ncard_ne_zero (by rw [ncard_states]; positivity)
  have h := Set.ncard_add_ncard_compl {s | P s} (hfin.subset (Set.subset_univ _))
    (hfin.subset (Set.subset_univ _))
  have hN : Nat.card (BitVec 64) = 2 ^ 64 := by rw [← Set.ncard_univ]; exact ncard_states
  rw [hN] at h
  have e : {s | P s}ᶜ = {s | ¬ P s} := rfl
  rw [e] at h
  have : (({s | P s}.ncard + {s | ¬ P s}.ncard : ℕ) : ℝ) = ((2 ^ 64 : ℕ) : ℝ) := by rw [h]
  push_cast at this
  linarith

end Rng
