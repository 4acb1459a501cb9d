import Verif.Lemmas.Sphere
import Verif.Spec.Distribution
/-!
# Directions of uniform height and azimuth, in any axes, are isotropic
-/
open MeasureTheory Set ENNReal
attribute [local irreducible] Rng.lcg Rng.sample Rng.spawn

namespace Sphere

/-- The combination of three vectors. -/
noncomputable def comb (a b c : Vec3 ℝ) : (ℝ × ℝ × ℝ) →ₗ[ℝ] (ℝ × ℝ × ℝ) where
  toFun v := (v.1 * a.x + v.2.1 * b.x + v.2.2 * c.x, v.1 * a.y + v.2.1 * b.y + v.2.2 * c.y,
    v.1 * a.z + v.2.1 * b.z + v.2.2 * c.z)
  map_add' v w := by
    ext <;> simp <;> ring
  map_smul' k v := by
    ext <;> simp <;> ring

/-- The coordinates along three vectors. -/
noncomputable def coords (a b c : Vec3 ℝ) : (ℝ × ℝ × ℝ) →ₗ[ℝ] (ℝ × ℝ × ℝ) where
  toFun v := (a.x * v.1 + a.y * v.2.1 + a.z * v.2.2, b.x * v.1 + b.y * v.2.1 + b.z * v.2.2,
    c.x * v.1 + c.y * v.2.1 + c.z * v.2.2)
  map_add' v w := by
    ext <;> simp <;> ring
  map_smul' k v := by
    ext <;> simp <;> ring

theorem comb_sq {a b c : Vec3 ℝ} (h : Axes a b c) (v : ℝ × ℝ × ℝ) : sq (comb a b c v) = sq v := by
  obtain ⟨x, y, z⟩ := v
  obtain ⟨h1, h2, h3, h4, h5, h6⟩ := h
  simp only [IsUnit3, dot3] at h1 h2 h3 h4 h5 h6
  simp only [sq, comb, LinearMap.coe_mk, AddHom.coe_mk]
  linear_combination x ^ 2 * h1 + y ^ 2 * h2 + z ^ 2 * h3 + 2 * x * y * h4 + 2 * x * z * h5 + 2 * y * z * h6

theorem coords_comb {a b c : Vec3 ℝ} (h : Axes a b c) (v : ℝ × ℝ × ℝ) : coords a b c (comb a b c v) = v := by
  obtain ⟨x, y, z⟩ := v
  obtain ⟨h1, h2, h3, h4, h5, h6⟩ := h
  simp only [IsUnit3, dot3] at h1 h2 h3 h4 h5 h6
  simp only [coords, comb, LinearMap.coe_mk, AddHom.coe_mk, Prod.mk.injEq]
  refine ⟨?_, ?_, ?_⟩
  · linear_combination x * h1 + y * h4 + z * h5
  · linear_combination x * h4 + y * h2 + z * h6
  · linear_combination x * h5 + y * h6 + z * h3

theorem coords_sq {a b c : Vec3 ℝ} (h : Axes a b c) (v : ℝ × ℝ × ℝ) : sq (coords a b c v) = sq v := by
  have hinj : Function.Injective (comb a b c) := Function.LeftInverse.injective (coords_comb h)
  obtain ⟨w, rfl⟩ := LinearMap.surjective_of_injective hinj v
  rw [coords_comb h, comb_sq h]

/-- Integral over the unit square of a function of the direction. -/
theorem square_dir {a b : ℝ} (ha : a ≠ 0) (hab : (fun u => a * u + b) '' Ioo 0 1 = Ioo (-1) 1) (g : ℝ × ℝ × ℝ → ℝ≥0∞) :
    ∫⁻ φ in Ioo (-Real.pi) Real.pi, ∫⁻ c in Ioo (-1 : ℝ) 1, g (dir c φ) =
      ENNReal.ofReal |2 * Real.pi| * (ENNReal.ofReal |a| *
        ∫⁻ v in Ioo (0 : ℝ) 1, ∫⁻ u in Ioo (0 : ℝ) 1, g (dir (a * u + b) (2 * Real.pi * v + -Real.pi))) := by
  have hpi : (fun v => 2 * Real.pi * v + -Real.pi) '' Ioo 0 1 = Ioo (-Real.pi) Real.pi := by
    ext φ
    constructor
    · rintro ⟨v, ⟨h0, h1⟩, rfl⟩
      constructor <;> dsimp only <;> nlinarith [Real.pi_pos]
    · rintro ⟨h0, h1⟩
      have := Real.pi_pos
      refine ⟨(φ + Real.pi) / (2 * Real.pi), ⟨by apply div_pos <;> linarith, ?_⟩, by field_simp; ring⟩
      rw [div_lt_one (by linarith)]; linarith
  rw [← lintegral_const_mul' _ _ ENNReal.ofReal_ne_top, ← hpi,
    lintegral_affine (by have := Real.pi_pos; positivity) fun φ => ∫⁻ c in Ioo (-1 : ℝ) 1, g (dir c φ)]
  congr 1
  refine lintegral_congr fun v => ?_
  rw [← hab, lintegral_affine ha fun c => g (dir c _)]

theorem chance2_eq {P : ℝ → ℝ → Prop} (hP : MeasurableSet {q : ℝ × ℝ | P q.1 q.2}) :
    chance2 P = ∫⁻ v in Ioo (0 : ℝ) 1, ∫⁻ u in Ioo (0 : ℝ) 1, {q : ℝ × ℝ | P q.1 q.2}.indicator 1 (u, v) := by
  have e : {q : ℝ × ℝ | (0 ≤ q.1 ∧ q.1 ≤ 1) ∧ (0 ≤ q.2 ∧ q.2 ≤ 1) ∧ P q.1 q.2} =
      {q : ℝ × ℝ | P q.1 q.2} ∩ (Icc 0 1 ×ˢ Icc 0 1) := by
    ext q; simp only [mem_ofPred_eq, mem_inter_iff, mem_prod, mem_Icc]; tauto
  have hm : Measurable ({q : ℝ × ℝ | P q.1 q.2}.indicator (1 : ℝ × ℝ → ℝ≥0∞)) := measurable_one.indicator hP
  rw [chance2, e, ← Measure.restrict_apply hP, ← lintegral_indicator_one hP, Measure.volume_eq_prod,
    ← Measure.prod_restrict, lintegral_prod_symm' _ hm, restrict_Ioo_eq_restrict_Icc]

/-- Directions obtained from uniform heights and azimuths by a map that keeps lengths. -/
theorem isotropic {d : ℝ → ℝ → Vec3 ℝ} {a b : ℝ} (ha : |a| = 2)
    (hab : (fun u => a * u + b) '' Ioo 0 1 = Ioo (-1) 1) {L : (ℝ × ℝ × ℝ) →ₗ[ℝ] (ℝ × ℝ × ℝ)}
    (hL : ∀ v, sq (L v) = sq v)
    (hd : ∀ u v, ((d u v).x, (d u v).y, (d u v).z) = L (dir (a * u + b) (2 * Real.pi * v + -Real.pi)))
    (hunit : ∀ u v, 0 ≤ u → u ≤ 1 → 0 ≤ v → v ≤ 1 → IsUnit3 (d u v)) : Isotropic d := by
  have ha0 : a ≠ 0 := by rintro rfl; simp at ha
  have hmd : Measurable fun q : ℝ × ℝ => ((d q.1 q.2).x, (d q.1 q.2).y, (d q.1 q.2).z) := by
    have h1 : Measurable fun q : ℝ × ℝ => dir (a * q.1 + b) (2 * Real.pi * q.2 + -Real.pi) :=
      measurable_dir.comp (g := fun p : ℝ × ℝ => dir p.1 p.2)
        (f := fun q : ℝ × ℝ => (a * q.1 + b, 2 * Real.pi * q.2 + -Real.pi)) (by fun_prop)
    have h2 : Measurable L := L.continuous_of_finiteDimensional.measurable
    have e : (fun q : ℝ × ℝ => ((d q.1 q.2).x, (d q.1 q.2).y, (d q.1 q.2).z)) =
        fun q => L (dir (a * q.1 + b) (2 * Real.pi * q.2 + -Real.pi)) := by
      funext q; exact hd q.1 q.2
    rw [e]; exact h2.comp h1
  -- the law
  have law : ∀ {M : (ℝ × ℝ × ℝ) →ₗ[ℝ] (ℝ × ℝ × ℝ)}, (∀ v, sq (M v) = sq v) → ∀ {A : Set (ℝ × ℝ × ℝ)},
      MeasurableSet A →
      ENNReal.ofReal |2 * Real.pi| * (ENNReal.ofReal 2 *
        chance2 (fun u v => M ((d u v).x, (d u v).y, (d u v).z) ∈ A)) =
      ∫⁻ φ in Ioo (-Real.pi) Real.pi, ∫⁻ c in Ioo (-1 : ℝ) 1, A.indicator 1 (dir c φ) := by
    intro M hM A hA
    have hMm : Measurable M := M.continuous_of_finiteDimensional.measurable
    rw [chance2_eq (P := fun u v => M ((d u v).x, (d u v).y, (d u v).z) ∈ A) (hA.preimage (hMm.comp hmd)),
      ← lintegral_isometry (L := M ∘ₗ L) (fun v => by rw [LinearMap.comp_apply, hM, hL]) (measurable_one.indicator hA),
      square_dir ha0 hab fun v => A.indicator 1 ((M ∘ₗ L) v), ha]
    congr 2
    refine lintegral_congr fun v => lintegral_congr fun u => ?_
    simp only [LinearMap.comp_apply, ← hd]
    rfl
  have cancel : ∀ {x y : ℝ≥0∞}, ENNReal.ofReal |2 * Real.pi| * (ENNReal.ofReal 2 * x) =
      ENNReal.ofReal |2 * Real.pi| * (ENNReal.ofReal 2 * y) → x = y := by
    intro x y h
    have h1 : ENNReal.ofReal |2 * Real.pi| ≠ 0 := by
      simp [Real.pi_ne_zero]
    have h2 : ENNReal.ofReal 2 ≠ 0 := by simp
    exact (ENNReal.mul_right_inj h2 ENNReal.ofReal_ne_top).1 ((ENNReal.mul_right_inj h1 ENNReal.ofReal_ne_top).1 h)
  have axes : ∀ a b c, Axes a b c → ∀ A : Set (ℝ × ℝ × ℝ), MeasurableSet A →
      chance2 (fun u v => coordsAlong a b c (d u v) ∈ A) =
        chance2 (fun u v => ((d u v).x, (d u v).y, (d u v).z) ∈ A) := by
    intro a b c h A hA
    apply cancel
    have h1 := law (coords_sq h) hA
    have h2 := law (M := LinearMap.id) (fun _ => rfl) hA
    exact h1.trans h2.symm
  refine ⟨hunit, axes, ?_⟩
  intro n hn t ht0 ht1
  -- complete the axis
  obtain ⟨p, q, hpq⟩ : ∃ p q, Axes p q n := by
    unfold IsUnit3 at hn
    by_cases h0 : n.x ^ 2 + n.y ^ 2 = 0
    · have hx : n.x = 0 := by nlinarith [sq_nonneg n.x, sq_nonneg n.y]
      have hy : n.y = 0 := by nlinarith [sq_nonneg n.x, sq_nonneg n.y]
      exact ⟨⟨1, 0, 0⟩, ⟨0, 1, 0⟩, by simp [IsUnit3], by simp [IsUnit3], hn, by simp [dot3], by simp [dot3, hx],
        by simp [dot3, hy]⟩
    · have hpos : 0 < n.x ^ 2 + n.y ^ 2 := lt_of_le_of_ne (by positivity) (Ne.symm h0)
      have hs := Real.sq_sqrt hpos.le
      have hs0 : 0 < √(n.x ^ 2 + n.y ^ 2) := Real.sqrt_pos.2 hpos
      generalize √(n.x ^ 2 + n.y ^ 2) = s at hs hs0
      have hx : n.x = s * (n.x / s) := by field_simp
      have hy : n.y = s * (n.y / s) := by field_simp
      have hxy : (n.x / s) ^ 2 + (n.y / s) ^ 2 = 1 := by
        rw [div_pow, div_pow, ← add_div, ← hs]
        exact div_self (by positivity)
      generalize n.x / s = cx at *
      generalize n.y / s = cy at *
      refine ⟨⟨n.z * cx, n.z * cy, -s⟩, ⟨-cy, cx, 0⟩, ?_, ?_, hn, ?_, ?_, ?_⟩ <;>
        simp only [IsUnit3, dot3]
      · linear_combination n.z ^ 2 * hxy + hs + hn
      · linear_combination hxy
      · ring
      · linear_combination n.z * cx * hx + n.z * cy * hy + n.z * s * hxy
      · linear_combination -cy * hx + cx * hy
  have hA : MeasurableSet {v : ℝ × ℝ × ℝ | v.2.2 ≤ t} := measurableSet_le (by fun_prop) measurable_const
  have h1 := law (coords_sq hpq) hA
  apply cancel
  refine Eq.trans h1 ?_
  have e : ∀ φ, ∫⁻ c in Ioo (-1 : ℝ) 1, {v : ℝ × ℝ × ℝ | v.2.2 ≤ t}.indicator (1 : ℝ × ℝ × ℝ → ℝ≥0∞) (dir c φ) =
      ENNReal.ofReal (t + 1) := by
    intro φ
    have e1 : ∀ c, {v : ℝ × ℝ × ℝ | v.2.2 ≤ t}.indicator (1 : ℝ × ℝ × ℝ → ℝ≥0∞) (dir c φ) =
        (Iic t).indicator 1 c := fun c => rfl
    simp only [e1]
    rw [lintegral_indicator_one measurableSet_Iic, Measure.restrict_apply measurableSet_Iic,
      ← sub_neg_eq_add]
    rcases ht1.eq_or_lt with rfl | h
    · rw [inter_eq_right.2 (fun x hx => hx.2.le), Real.volume_Ioo]
    · have : Iic t ∩ Ioo (-1 : ℝ) 1 = Ioc (-1) t := by
        ext x; simp only [mem_inter_iff, mem_Iic, mem_Ioo, mem_Ioc]
        exact ⟨fun h => ⟨h.2.1, h.1⟩, fun h2 => ⟨h2.2, h2.1, by linarith [h2.2]⟩⟩
      rw [this, Real.volume_Ioc]
  simp only [e]
  rw [lintegral_const, Measure.restrict_apply MeasurableSet.univ, univ_inter, Real.volume_Ioo, mul_comm,
    abs_of_pos (by have := Real.pi_pos; positivity), ← ENNReal.ofReal_mul (p := 2) (by norm_num)]
  congr 2 <;> ring

end Sphere
