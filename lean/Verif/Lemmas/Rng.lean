import Verif.Model.Particle
import Mathlib.NumberTheory.Multiplicity
import Mathlib.Data.BitVec
/-! Lemmas on the generator: period, Feistel inverse, spawned seeds. -/

namespace Rng

theorem affine_iterate (f : BitVec 64 → BitVec 64) (a c : ℤ)
    (hf : ∀ t, ((f t).toNat : ℤ) ≡ a * (t.toNat : ℤ) + c [ZMOD 2 ^ 64]) (s : BitVec 64) (k : Nat) :
    (((f^[k] s).toNat : ℤ)) ≡ a ^ k * (s.toNat : ℤ) +
      c * (∑ i ∈ Finset.range k, a ^ i) [ZMOD 2 ^ 64] := by
  induction k with
  | zero => simp
  | succ k ih =>
    rw [Function.iterate_succ_apply']
    refine (hf _).trans ?_
    refine ((ih.mul_left _).add_right _).trans ?_
    have : (∑ i ∈ Finset.range (k + 1), a ^ i) = a * (∑ i ∈ Finset.range k, a ^ i) + 1 := by
      rw [Finset.sum_range_succ', Finset.mul_sum]
      simp only [pow_succ']
      simp
    rw [this, pow_succ' _ k]
    have e : a * (a ^ k * (s.toNat : ℤ) + c * (∑ i ∈ Finset.range k, a ^ i)) + c =
        a * a ^ k * (s.toNat : ℤ) + c * (a * (∑ i ∈ Finset.range k, a ^ i) + 1) := by
      ring
    rw [e]

theorem lcg_nat (t : BitVec 64) : (lcg t).toNat =
    (2862933555777941757 * t.toNat + 3037000493) % 2 ^ 64 := by
  unfold lcg
  generalize ha : 2862933555777941757#64 = a
  generalize hc : 3037000493#64 = c
  have ha' : a.toNat = 2862933555777941757 := by rw [← ha]; decide
  have hc' : c.toNat = 3037000493 := by rw [← hc]; decide
  rw [BitVec.toNat_add, BitVec.toNat_mul, ha', hc', Nat.mod_add_mod]

theorem lcg_affine (t : BitVec 64) : ((lcg t).toNat : ℤ) ≡
    2862933555777941757 * (t.toNat : ℤ) + 3037000493 [ZMOD 2 ^ 64] := by
  rw [lcg_nat]
  generalize t.toNat = n
  rw [Int.ModEq]; push_cast
  exact Int.emod_emod_of_dvd _ (dvd_refl _)

/-- Lifting the exponent: for `a ≡ 1 mod 4`, the geometric sum has the 2-adic valuation of `k`. -/
theorem two_pow_dvd_geom (a : ℤ) (ha : 4 ∣ a - 1) (ha1 : a ≠ 1) (k j : Nat) :
    2 ^ j ∣ (∑ i ∈ Finset.range k, a ^ i) ↔ (2 : ℤ) ^ j ∣ (k : ℤ) := by
  have hodd : ¬ 2 ∣ a := by omega
  have h := Int.two_pow_sub_pow' (x := a) (y := 1) k ha hodd
  rw [one_pow, ← geom_sum_mul a k, mul_comm, emultiplicity_mul Int.prime_two] at h
  have hfin : FiniteMultiplicity 2 (a - 1) := by
    rw [Int.finiteMultiplicity_iff]
    exact ⟨by decide, by omega⟩
  have h' : emultiplicity 2 (∑ i ∈ Finset.range k, a ^ i) = emultiplicity 2 (k : ℤ) := by
    rw [hfin.emultiplicity_eq_multiplicity] at h
    exact ENat.add_right_injective_of_ne_top (ENat.natCast_ne_top _) h
  rw [pow_dvd_iff_le_emultiplicity, pow_dvd_iff_le_emultiplicity, h']

theorem lcg_iterate_eq_iff (s : BitVec 64) (k : Nat) : lcg^[k] s = s ↔ 2 ^ 64 ∣ k := by
  have h := affine_iterate lcg _ _ lcg_affine s k
  set a : ℤ := 2862933555777941757 with ha
  have hgeom : (∑ i ∈ Finset.range k, a ^ i) * (a - 1) = a ^ k - 1 := geom_sum_mul a k
  have key : lcg^[k] s = s ↔
      (2 : ℤ) ^ 64 ∣ (∑ i ∈ Finset.range k, a ^ i) * ((a - 1) * s.toNat + 3037000493) := by
    have e : (∑ i ∈ Finset.range k, a ^ i) * ((a - 1) * (s.toNat : ℤ) + 3037000493) =
        (a ^ k * (s.toNat : ℤ) + 3037000493 * (∑ i ∈ Finset.range k, a ^ i)) - s.toNat := by
      rw [mul_add, ← mul_assoc, hgeom]; ring
    rw [e, ← Int.modEq_iff_dvd]
    constructor
    · intro h'; rw [h'] at h; exact h
    · intro h'
      have := (h'.trans h.symm)
      have h1 := (lcg^[k] s).isLt
      have h2 := s.isLt
      apply BitVec.eq_of_toNat_eq
      have := this.eq
      omega
  rw [key]
  have hodd : ¬ 2 ∣ ((a - 1) * (s.toNat : ℤ) + 3037000493) := by
    rw [ha]; omega
  rw [show (2 : ℤ) ^ 64 ∣ (∑ i ∈ Finset.range k, a ^ i) * ((a - 1) * s.toNat + 3037000493) ↔
      (2 : ℤ) ^ 64 ∣ (∑ i ∈ Finset.range k, a ^ i) from
    ⟨fun h => Int.prime_two.pow_dvd_of_dvd_mul_right 64 hodd h, fun h => h.mul_right _⟩]
  rw [two_pow_dvd_geom a (by rw [ha]; decide) (by rw [ha]; decide)]
  constructor
  · intro h; exact_mod_cast h
  · intro h; exact_mod_cast h

theorem lcg_iterate_mod (s : BitVec 64) : lcg^[2 ^ 64] s = s := (lcg_iterate_eq_iff s _).2 ⟨1, rfl⟩

theorem lcg_injective : Function.Injective lcg := by
  intro s t h
  have h1 := lcg_iterate_mod s
  have h2 := lcg_iterate_mod t
  have e : (2 : Nat) ^ 64 = (2 ^ 64 - 1) + 1 := rfl
  rw [e, Function.iterate_add_apply, Function.iterate_one] at h1 h2
  rw [← h1, ← h2, h]

theorem lcg_iterate_inj (s : BitVec 64) {i j : Nat} (hi : i < 2 ^ 64) (hj : j < 2 ^ 64)
    (h : lcg^[i] s = lcg^[j] s) : i = j := by
  have inj : ∀ n, Function.Injective (lcg^[n]) := fun n => lcg_injective.iterate n
  rcases Nat.le_total i j with hij | hij
  · have e : j = i + (j - i) := by omega
    rw [e, Function.iterate_add_apply] at h
    have := (lcg_iterate_eq_iff s _).1 ((inj i h).symm)
    have := Nat.eq_zero_of_dvd_of_lt this (by omega)
    omega
  · have e : i = j + (i - j) := by omega
    rw [e, Function.iterate_add_apply] at h
    have := (lcg_iterate_eq_iff s _).1 (inj j h)
    have := Nat.eq_zero_of_dvd_of_lt this (by omega)
    omega

/-- Inverse of a round. -/
def desUnround (c1 c2 : BitVec 32) (w : BitVec 32 × BitVec 32) : BitVec 32 × BitVec 32 :=
  (w.2 ^^^ roundF c1 c2 w.1, w.1)

theorem desUnround_round (c1 c2 : BitVec 32) (w : BitVec 32 × BitVec 32) :
    desUnround c1 c2 (desRound c1 c2 w) = w := by
  obtain ⟨a, b⟩ := w
  simp only [desUnround, desRound, Prod.mk.injEq, and_true]
  rw [BitVec.xor_assoc, BitVec.xor_self, BitVec.xor_zero]

theorem desRound_unround (c1 c2 : BitVec 32) (w : BitVec 32 × BitVec 32) :
    desRound c1 c2 (desUnround c1 c2 w) = w := by
  obtain ⟨a, b⟩ := w
  simp only [desUnround, desRound, Prod.mk.injEq, true_and]
  rw [BitVec.xor_assoc, BitVec.xor_self, BitVec.xor_zero]

theorem rebuild_breakup (s : BitVec 64) : rebuild (breakup s).1 (breakup s).2 = s := by
  simp only [rebuild, breakup]
  ext i hi
  simp only [BitVec.getElem_append, BitVec.getElem_extractLsb']
  split
  · simp [BitVec.getLsbD_eq_getElem, hi]
  · rw [show 32 + (i - 32) = i by omega]
    simp [BitVec.getLsbD_eq_getElem, hi]

theorem breakup_rebuild (w : BitVec 32 × BitVec 32) : breakup (rebuild w.1 w.2) = w := by
  obtain ⟨a, b⟩ := w
  simp only [rebuild, breakup, Prod.mk.injEq]
  constructor
  · ext i hi
    simp only [BitVec.getElem_extractLsb', BitVec.getLsbD_append]
    rw [if_neg (by omega), show 32 + i - 32 = i by omega]
    simp [BitVec.getLsbD_eq_getElem, hi]
  · ext i hi
    simp only [BitVec.getElem_extractLsb', BitVec.getLsbD_append]
    rw [if_pos (by omega)]
    simp [BitVec.getLsbD_eq_getElem, hi]

theorem hashState_bijective : Function.Bijective hashState := by
  constructor
  · intro s t h
    have h1 := congrArg breakup h
    simp only [hashState, breakup_rebuild, pseudoDes] at h1
    have h2 := congrArg (desUnround 0x1e17d32c#32 0xe874f0c3#32) h1
    rw [desUnround_round, desUnround_round] at h2
    have h3 := congrArg (desUnround 0xbaa96887#32 0x4b0f3b58#32) h2
    rw [desUnround_round, desUnround_round] at h3
    rw [← rebuild_breakup s, h3, rebuild_breakup t]
  · intro t
    let w := desUnround 0xbaa96887#32 0x4b0f3b58#32
      (desUnround 0x1e17d32c#32 0xe874f0c3#32 (breakup t))
    refine ⟨rebuild w.1 w.2, ?_⟩
    simp only [hashState, breakup_rebuild, pseudoDes, w, desRound_unround]
    exact rebuild_breakup t

end Rng

namespace Particle
open Rng

attribute [local irreducible] Rng.lcg Rng.hashState

theorem spawnSeeds_succ (n : Nat) (s : BitVec 64) :
    spawnSeeds (n + 1) s =
      (hashState s :: (spawnSeeds n (lcg s)).1, (spawnSeeds n (lcg s)).2) := rfl

theorem spawn_generic (f g : BitVec 64 → BitVec 64)
    (S : Nat → BitVec 64 → List (BitVec 64) × BitVec 64) (h0 : ∀ s, S 0 s = ([], s))
    (h1 : ∀ n s, S (n + 1) s = (g s :: (S n (f s)).1, (S n (f s)).2)) (n : Nat) (s : BitVec 64) :
    S n s = ((List.range n).map fun i => g (f^[i] s), f^[n] s) := by
  induction n generalizing s with
  | zero => rw [h0]; rfl
  | succ n ih =>
    rw [h1, ih, List.range_succ_eq_map]
    simp only [List.map_cons, List.map_map, Function.iterate_zero, id, Function.comp_def,
      Function.iterate_succ_apply]

/-- The seeds spawned one after the other are the hashes of the successive states. -/
theorem spawnSeeds_eq (n : Nat) (s : BitVec 64) :
    spawnSeeds n s = ((List.range n).map fun i => hashState (lcg^[i] s), lcg^[n] s) :=
  spawn_generic lcg hashState spawnSeeds (fun _ => rfl) spawnSeeds_succ n s

theorem spawnSeeds_nodup (n : Nat) (hn : n ≤ 2 ^ 64) (s : BitVec 64) : (spawnSeeds n s).1.Nodup := by
  rw [spawnSeeds_eq]
  rw [List.nodup_map_iff_inj_on List.nodup_range]
  intro i hi j hj h
  rw [List.mem_range] at hi hj
  exact lcg_iterate_inj s (by omega) (by omega) (hashState_bijective.1 h)

end Particle
