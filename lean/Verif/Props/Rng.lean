import Verif.Lemmas.Rng
import Verif.Lemmas.F64
import Verif.Lemmas.Except
import Verif.Model.Real
import Verif.Model.ToyInst
import Mathlib.Data.Set.Card
/-!
# C01 - C04: the random number generator and the seeds it spawns

C02 - C04 do not involve floats, or hold for every `Flt T`.  C01 is about the value computed by
`5.421010862427522e-20 * (seed as f64)`; the literal is the binary64 number `2^-64`.
-/
open Rng
attribute [local irreducible] Rng.lcg Rng.hashState

/-! ## C01 -/

/-- The conversion used by the sampler is a nearest representable number: the specification of IEEE
rounding, on which the theorems below rest. -/
theorem C01_conversion_is_nearest (n : Nat) :
    IsF64 (u64ToF64 n) ∧ ∀ y, IsF64 y → |(u64ToF64 n : ℤ) - n| ≤ |(y : ℤ) - n| :=
  ⟨u64ToF64_isF64 n, u64ToF64_nearest n⟩

/-- Ties are rounded to the even significand. -/
example : u64ToF64 (2 ^ 53 + 1) = 2 ^ 53 ∧ u64ToF64 (2 ^ 53 + 3) = 2 ^ 53 + 4 := by decide +kernel

/-- **C01.** Every sample lies in `[0, 1]`; it is 1 exactly for the 1024 top states, 0 exactly for
the state 0, and the state returned is the next one. -/
theorem C01_sample_range (seed : BitVec 64) :
    0 ≤ (Rng.sample (T := ℝ) seed).1 ∧ (Rng.sample (T := ℝ) seed).1 ≤ 1 ∧
    ((Rng.sample (T := ℝ) seed).1 = 1 ↔ 2 ^ 64 - 1024 ≤ (Rng.sample (T := ℝ) seed).2.toNat) ∧
    ((Rng.sample (T := ℝ) seed).1 = 0 ↔ (Rng.sample (T := ℝ) seed).2 = 0) := by
  simp only [Rng.sample, FltReal.ofSeed_eq]
  generalize lcg seed = s
  have hs : s.toNat < 2 ^ 64 := s.isLt
  have hle := u64ToF64_lt_top hs
  refine ⟨by positivity, ?_, ?_, ?_⟩
  · rw [div_le_one (by positivity)]
    exact_mod_cast hle
  · rw [div_eq_one_iff_eq (by positivity), ← u64ToF64_top hs]
    constructor
    · intro h; exact_mod_cast h
    · intro h; rw [h]; norm_num
  · rw [div_eq_zero_iff]
    constructor
    · intro h
      rcases h with h | h
      · have : s.toNat = 0 := (u64ToF64_zero_iff _).1 (by exact_mod_cast h)
        exact BitVec.eq_of_toNat_eq this
      · norm_num at h
    · rintro rfl; left; norm_num [u64ToF64]

/-- **C01**, the documented half-open interval fails: exactly 1024 of the `2^64` seeds give 1. -/
theorem C01_documented_range_violated :
    {seed : BitVec 64 | (Rng.sample (T := ℝ) seed).1 = 1}.ncard = 1024 := by
  have e1 : {seed : BitVec 64 | (Rng.sample (T := ℝ) seed).1 = 1} =
      lcg ⁻¹' {s : BitVec 64 | 2 ^ 64 - 1024 ≤ s.toNat} := by
    ext seed
    exact (C01_sample_range seed).2.2.1
  have hsurj : Function.Surjective lcg := fun t =>
    ⟨lcg^[2 ^ 64 - 1] t, by
      rw [← Function.iterate_succ_apply' (f := lcg)]; exact lcg_iterate_mod t⟩
  rw [e1, Set.ncard_preimage_of_injective_subset_range lcg_injective
    (by rw [hsurj.range_eq]; exact Set.subset_univ _)]
  have e2 : {s : BitVec 64 | 2 ^ 64 - 1024 ≤ s.toNat} =
      (fun i => BitVec.ofNat 64 (2 ^ 64 - 1024 + i)) '' (Finset.range 1024 : Set Nat) := by
    ext s
    simp only [Set.mem_ofPred_eq, Set.mem_image, Finset.coe_range, Set.mem_Iio]
    constructor
    · intro h
      have := s.isLt
      refine ⟨s.toNat - (2 ^ 64 - 1024), by omega, ?_⟩
      apply BitVec.eq_of_toNat_eq
      rw [BitVec.toNat_ofNat]
      omega
    · rintro ⟨i, hi, rfl⟩
      rw [BitVec.toNat_ofNat]
      omega
  rw [e2, Set.InjOn.ncard_image, Set.ncard_coe_finset, Finset.card_range]
  intro i hi j hj h
  simp only [Finset.coe_range, Set.mem_Iio] at hi hj
  have := congrArg BitVec.toNat h
  simp only [BitVec.toNat_ofNat] at this
  omega

/-! ## C02 -/

/-- **C02.** After `k` draws the state is back to the start exactly when `2^64` divides `k`. -/
theorem C02_full_period {T : Type} [Flt T] (seed : BitVec 64) (k : Nat) :
    (fun s => (Rng.sample (T := T) s).2)^[k] seed = seed ↔ 2 ^ 64 ∣ k :=
  lcg_iterate_eq_iff seed k

/-- **C02**, every state is visited: from any seed, every 64-bit state is reached by fewer than `2^64`
draws, and by only one such number of draws.  Holds for every float type. -/
theorem C02_visits_all {T : Type} [Flt T] (seed t : BitVec 64) :
    ∃! k, k < 2 ^ 64 ∧ (fun s => (Rng.sample (T := T) s).2)^[k] seed = t := by
  change ∃! k, k < 2 ^ 64 ∧ lcg^[k] seed = t
  let f : Fin (2 ^ 64) → Fin (2 ^ 64) := fun k => (lcg^[k.val] seed).toFin
  have hinj : Function.Injective f := by
    intro i j h
    have h' : lcg^[i.val] seed = lcg^[j.val] seed := BitVec.eq_of_toFin_eq h
    exact Fin.ext (lcg_iterate_inj seed i.isLt j.isLt h')
  obtain ⟨k, hk⟩ := (Finite.injective_iff_surjective.1 hinj) t.toFin
  refine ⟨k.val, ⟨k.isLt, BitVec.eq_of_toFin_eq hk⟩, ?_⟩
  rintro j ⟨hj, h⟩
  have h' : lcg^[k.val] seed = t := BitVec.eq_of_toFin_eq hk
  exact lcg_iterate_inj seed hj k.isLt (h.trans h'.symm)

/-! ## C03 -/

/-- **C03.** Spawning is a bijection from parent states to seeds, and advances the parent by one
draw. -/
theorem C03_spawn_bijective {T : Type} [Flt T] :
    Function.Bijective (fun parent : BitVec 64 => (Rng.spawn parent).1) ∧
    ∀ parent, (Rng.spawn parent).2 = (Rng.sample (T := T) parent).2 :=
  ⟨hashState_bijective, fun _ => rfl⟩

/-- A value of the repository's unit test of the hash. -/
example : (Rng.spawn 90374384094798327#64).1 ≠ (Rng.spawn 90374384094798328#64).1 := by
  decide +kernel

/-! ## C04 -/

/-- Number of draws made by `update_trajectory`. -/
theorem updateTrajectory_seed {T : Type} [Flt T] (p : Particle T) (e a : T) :
    (p.updateTrajectory e a).seed = lcg (lcg p.seed) := rfl

theorem updateTrajectory_identifier {T : Type} [Flt T] (p : Particle T) (e a : T) :
    (p.updateTrajectory e a).identifier = p.identifier := rfl

/-- **C04**, split: the copies made of one particle have pairwise distinct identifiers and seeds. -/
theorem C04_split_distinct {T : Type} [Flt T] (p p' : Particle T) (factor : T)
    (copies : List (Particle T)) (h : p.underPopulatedSplit factor = .ok (p', copies))
    (hlen : copies.length ≤ 2 ^ 64) :
    (copies.map (·.identifier)).Nodup ∧ (copies.map (·.seed)).Nodup := by
  simp only [Particle.underPopulatedSplit] at h
  rw [bind_ok] at h
  obtain ⟨n, _, h⟩ := h
  generalize hs : Particle.spawnSeeds n _ = r at h
  obtain ⟨seeds, s'⟩ := r
  simp only [pure_ok, Prod.mk.injEq] at h
  obtain ⟨_, rfl⟩ := h
  have hn : seeds.length = n := by
    have := congrArg (fun x => x.1.length) hs
    simp only [Particle.spawnSeeds_eq, List.length_map, List.length_range] at this
    exact this.symm
  rw [List.length_map, hn] at hlen
  have hnd := Particle.spawnSeeds_nodup n hlen (Rng.sample (T := T) p.seed).2
  rw [hs] at hnd
  constructor
  · rw [List.map_map]
    exact hnd.map (f := id) Function.injective_id
  · rw [List.map_map]
    exact hnd.map (f := id) Function.injective_id

theorem map_fst_zip_sublist {α β : Type} (l : List α) (m : List β) :
    ((l.zip m).map Prod.fst).Sublist l := by
  induction l generalizing m with
  | nil => simp
  | cons a l ih =>
    cases m with
    | nil => simp
    | cons b m => exact (ih m).cons_cons a

/-- **C04**, fission: the particles created by a collision have pairwise distinct identifiers and
seeds. -/
theorem C04_fission_distinct {T : Type} [Flt T] (p p' : Particle T) (r : Reaction T) (mass : T)
    (n : Nat) (extra : List (Particle T)) (h : p.sampleCollision r mass = .ok (n, p', extra)) :
    (extra.map (·.identifier)).Nodup ∧ (extra.map (·.seed)).Nodup := by
  have triv : extra = [] → (extra.map (·.identifier)).Nodup ∧ (extra.map (·.seed)).Nodup := by
    rintro rfl; exact ⟨List.nodup_nil, List.nodup_nil⟩
  cases hr : r.rtype with
  | scatter =>
    simp only [Particle.sampleCollision, hr, Except.ok.injEq, Prod.mk.injEq] at h
    exact triv h.2.2.symm
  | absorption =>
    simp only [Particle.sampleCollision, hr, Except.ok.injEq, Prod.mk.injEq] at h
    exact triv h.2.2.symm
  | fission =>
    simp only [Particle.sampleCollision, hr] at h
    generalize hsam : Rng.sample (T := T) p.seed = us at h
    obtain ⟨u, s⟩ := us
    rw [bind_ok] at h
    obtain ⟨k, _, h⟩ := h
    dsimp only at h
    split at h
    · simp only [pure_ok, Prod.mk.injEq] at h; exact triv h.2.2.symm
    · split at h
      · simp only [pure_ok, Prod.mk.injEq] at h; exact triv h.2.2.symm
      · rw [bind_ok] at h
        obtain ⟨_, hk, h⟩ := h
        rw [assertB_ok, decide_eq_true_eq] at hk
        generalize Particle.drawFission (T := T) s = d1 at h
        obtain ⟨ea, s1⟩ := d1
        dsimp only at h
        generalize Particle.drawFissions (T := T) (k - 1) s1 = d2 at h
        obtain ⟨out, s2⟩ := d2
        dsimp only at h
        have hnd := Particle.spawnSeeds_nodup (k - 1) (by omega) s2
        generalize Particle.spawnSeeds (k - 1) s2 = d3 at h hnd
        obtain ⟨seeds, s3⟩ := d3
        simp only [pure_ok, Prod.mk.injEq] at h
        obtain ⟨_, _, rfl⟩ := h
        have hsub : ((seeds.zip out).map Prod.fst).Sublist seeds := by
          exact map_fst_zip_sublist seeds out
        have hz := hnd.sublist hsub
        constructor
        · rw [List.map_map]
          have : ((·.identifier) ∘ fun x : BitVec 64 × T × T =>
              ({ p with seed := x.1, identifier := x.1 } : Particle T).updateTrajectory x.2.1 x.2.2)
              = Prod.fst := rfl
          exact (congrArg (fun f => (List.map f (seeds.zip out)).Nodup) this).mpr hz
        · rw [List.map_map]
          have : ((·.seed) ∘ fun x : BitVec 64 × T × T =>
              ({ p with seed := x.1, identifier := x.1 } : Particle T).updateTrajectory x.2.1 x.2.2)
              = (fun s => lcg (lcg s)) ∘ Prod.fst := rfl
          refine (congrArg (fun f => (List.map f (seeds.zip out)).Nodup) this).mpr ?_
          rw [← List.map_map]
          exact hz.map (lcg_injective.comp lcg_injective)

/-- A fission that creates three particles beside the parent. -/
example : ∃ p' extra, (Particle.default (T := Toy)).sampleCollision
    { crossSection := [], rtype := .fission, nuBar := 4100 } 1024 = .ok (4, p', extra) ∧
    extra.length = 3 := by
  have h : (match (Particle.default (T := Toy)).sampleCollision
    { crossSection := [], rtype := .fission, nuBar := 4100 } 1024 with
    | .ok (n, _, extra) => n == 4 && extra.length == 3 | .error _ => false) = true := by
    decide +kernel
  split at h
  · next n p' extra he =>
    simp only [Bool.and_eq_true, beq_iff_eq] at h
    exact ⟨p', extra, by rw [he, h.1], h.2⟩
  · exact absurd h (by decide)

/-- A split into four copies. -/
example : ∃ p' copies, (Particle.default (T := Toy)).underPopulatedSplit 5000 = .ok (p', copies) ∧
    copies.length ≥ 3 := by
  have h : (match (Particle.default (T := Toy)).underPopulatedSplit 5000 with
    | .ok (_, copies) => decide (copies.length ≥ 3) | .error _ => false) = true := by decide +kernel
  split at h
  · next p' copies he => exact ⟨p', copies, he, of_decide_eq_true h⟩
  · exact absurd h (by decide)
