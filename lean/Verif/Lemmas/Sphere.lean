import Mathlib.Analysis.SpecialFunctions.PolarCoord
import Mathlib.MeasureTheory.Function.JacobianOneDim
import Mathlib.MeasureTheory.Measure.Lebesgue.EqHaar
import Mathlib.MeasureTheory.Integral.Prod
import Mathlib.Analysis.SpecialFunctions.Trigonometric.Deriv
import Mathlib.Analysis.SpecialFunctions.Integrals.Basic
/-!
# Directions with a uniform height and a uniform azimuth are spread evenly over the sphere

Pure mathematics, used for the sampled directions.  The points of the unit ball are integrated in cylindrical, then
spherical coordinates; the volume of the ball is kept by rotations.
-/
open MeasureTheory Set ENNReal

namespace Sphere

/-- The direction of height `c` and azimuth `φ`. -/
noncomputable def dir (c φ : ℝ) : ℝ × ℝ × ℝ := (√(1 - c * c) * Real.cos φ, √(1 - c * c) * Real.sin φ, c)

/-- Squared length. -/
def sq (v : ℝ × ℝ × ℝ) : ℝ := v.1 * v.1 + v.2.1 * v.2.1 + v.2.2 * v.2.2

/-- A function of the direction, cut to the unit ball. -/
noncomputable def cut (f : ℝ × ℝ × ℝ → ℝ≥0∞) (v : ℝ × ℝ × ℝ) : ℝ≥0∞ :=
  if 0 < sq v ∧ sq v < 1 then f ((√(sq v))⁻¹ • v) else 0

theorem measurable_sq : Measurable sq := by
  unfold sq; fun_prop

theorem measurable_cut {f : ℝ × ℝ × ℝ → ℝ≥0∞} (hf : Measurable f) : Measurable (cut f) := by
  unfold cut
  refine Measurable.ite ?_ ?_ measurable_const
  · exact (measurableSet_lt measurable_const measurable_sq).inter (measurableSet_lt measurable_sq measurable_const)
  · exact hf.comp (by have := measurable_sq; fun_prop)

/-- Substitution of the cosine. -/
theorem lintegral_cos (h : ℝ → ℝ≥0∞) :
    ∫⁻ θ in Ioo 0 Real.pi, ENNReal.ofReal (Real.sin θ) * h (Real.cos θ) = ∫⁻ c in Ioo (-1 : ℝ) 1, h c := by
  have him : Real.cos '' Ioo 0 Real.pi = Ioo (-1) 1 := by
    ext c
    constructor
    · rintro ⟨θ, ⟨h0, h1⟩, rfl⟩
      have a := Real.cos_lt_cos_of_nonneg_of_le_pi le_rfl h1.le h0
      have b := Real.cos_lt_cos_of_nonneg_of_le_pi h0.le le_rfl h1
      simp only [Real.cos_zero, Real.cos_pi] at a b
      exact ⟨b, a⟩
    · rintro ⟨h0, h1⟩
      refine ⟨Real.arccos c, ⟨Real.arccos_pos.2 h1, ?_⟩, Real.cos_arccos h0.le h1.le⟩
      refine lt_of_le_of_ne (Real.arccos_le_pi c) fun e => ?_
      have := Real.cos_arccos h0.le h1.le
      rw [e, Real.cos_pi] at this
      linarith
  rw [← him, lintegral_image_eq_lintegral_abs_deriv_mul (f' := fun θ => -Real.sin θ) measurableSet_Ioo
    (fun θ _ => (Real.hasDerivAt_cos θ).hasDerivWithinAt)
    (Real.injOn_cos.mono Ioo_subset_Icc_self)]
  refine setLIntegral_congr_fun measurableSet_Ioo fun θ hθ => ?_
  have := Real.sin_pos_of_pos_of_lt_pi hθ.1 hθ.2
  simp only [abs_neg, abs_of_pos this]

/-- An affine substitution. -/
theorem lintegral_affine {a b : ℝ} (ha : a ≠ 0) (h : ℝ → ℝ≥0∞) :
    ∫⁻ x in (fun u => a * u + b) '' Ioo 0 1, h x = ENNReal.ofReal |a| * ∫⁻ u in Ioo (0 : ℝ) 1, h (a * u + b) := by
  rw [lintegral_image_eq_lintegral_abs_deriv_mul (f' := fun _ => a) measurableSet_Ioo
    (fun u _ => by
      have := ((hasDerivAt_id u).const_mul a).add_const b
      simpa using this.hasDerivWithinAt)
    (fun u _ v _ e => by simpa [ha] using e)]
  exact lintegral_const_mul' _ _ ENNReal.ofReal_ne_top

/-- The radial factor. -/
theorem lintegral_radius : ∫⁻ r in Ioo (0 : ℝ) 1, ENNReal.ofReal (r * r) = ENNReal.ofReal (1 / 3) := by
  rw [← ofReal_integral_eq_lintegral_ofReal]
  · rw [← integral_Ioc_eq_integral_Ioo, ← intervalIntegral.integral_of_le zero_le_one]
    congr 1
    have : (fun x : ℝ => x * x) = fun x => x ^ 2 := by funext x; ring
    rw [this, integral_pow]
    norm_num
  · exact ((by fun_prop : Continuous fun r : ℝ => r * r).integrableOn_Icc (a := 0) (b := 1)).mono_set Ioo_subset_Icc_self
  · exact Filter.Eventually.of_forall fun r => mul_self_nonneg r

theorem measurable_dir : Measurable fun p : ℝ × ℝ => dir p.1 p.2 := by
  unfold dir; fun_prop

/-- Half of the plane in polar coordinates, for the meridian of azimuth `φ`. -/
theorem lintegral_meridian {f : ℝ × ℝ × ℝ → ℝ≥0∞} (hf : Measurable f) (φ : ℝ) :
    ∫⁻ q : ℝ × ℝ, (if 0 < q.2 then ENNReal.ofReal q.2 * cut f (q.2 * Real.cos φ, q.2 * Real.sin φ, q.1) else 0) =
      ENNReal.ofReal (1 / 3) * ∫⁻ c in Ioo (-1 : ℝ) 1, f (dir c φ) := by
  rw [← lintegral_comp_polarCoord_symm]
  have e : ∀ q ∈ polarCoord.target, ENNReal.ofReal q.1 •
      (if 0 < (polarCoord.symm q).2 then ENNReal.ofReal (polarCoord.symm q).2 *
        cut f ((polarCoord.symm q).2 * Real.cos φ, (polarCoord.symm q).2 * Real.sin φ, (polarCoord.symm q).1) else 0) =
      (Ioo (0 : ℝ) 1).indicator (fun r => ENNReal.ofReal (r * r)) q.1 *
        (Ioo (0 : ℝ) Real.pi).indicator (fun θ => ENNReal.ofReal (Real.sin θ) * f (dir (Real.cos θ) φ)) q.2 := by
    rintro ⟨r, θ⟩ ⟨hr, hθ⟩
    replace hr : 0 < r := hr
    replace hθ : -Real.pi < θ ∧ θ < Real.pi := hθ
    simp only [polarCoord_symm_apply]
    by_cases h0 : 0 < θ
    · have hs := Real.sin_pos_of_pos_of_lt_pi h0 hθ.2
      have hsq : sq (r * Real.sin θ * Real.cos φ, r * Real.sin θ * Real.sin φ, r * Real.cos θ) = r * r := by
        simp only [sq]
        linear_combination r ^ 2 * Real.sin θ ^ 2 * Real.sin_sq_add_cos_sq φ + r ^ 2 * Real.sin_sq_add_cos_sq θ
      have hroot : √(1 - Real.cos θ * Real.cos θ) = Real.sin θ := by
        rw [show 1 - Real.cos θ * Real.cos θ = Real.sin θ * Real.sin θ by
          linear_combination -(Real.sin_sq_add_cos_sq θ)]
        exact Real.sqrt_mul_self hs.le
      rw [if_pos (mul_pos hr hs), indicator_of_mem (show θ ∈ Ioo 0 Real.pi from ⟨h0, hθ.2⟩)]
      simp only [cut, hsq]
      by_cases h1 : r < 1
      · rw [if_pos ⟨mul_pos hr hr, by nlinarith⟩, indicator_of_mem (show r ∈ Ioo (0 : ℝ) 1 from ⟨hr, h1⟩),
          Real.sqrt_mul_self hr.le]
        have ev : (r⁻¹ • (r * Real.sin θ * Real.cos φ, r * Real.sin θ * Real.sin φ, r * Real.cos θ) : ℝ × ℝ × ℝ) =
            dir (Real.cos θ) φ := by
          simp only [dir, hroot, Prod.smul_mk, smul_eq_mul, Prod.mk.injEq]
          refine ⟨by field_simp, by field_simp, by field_simp⟩
        rw [ev, smul_eq_mul, ENNReal.ofReal_mul hr.le, ENNReal.ofReal_mul hr.le]
        ring
      · rw [if_neg (fun h => by nlinarith [h.2]), indicator_of_notMem (fun h => h1 h.2)]
        simp
    · have hs : ¬ 0 < r * Real.sin θ := by
        have := Real.sin_nonpos_of_nonpos_of_neg_pi_le (not_lt.1 h0) hθ.1.le
        nlinarith
      rw [if_neg hs, indicator_of_notMem (s := Ioo 0 Real.pi) (fun h => h0 h.1)]
      simp
  rw [setLIntegral_congr_fun polarCoord.open_target.measurableSet e]
  have hT : polarCoord.target = Ioi (0 : ℝ) ×ˢ Ioo (-Real.pi) Real.pi := rfl
  rw [hT, Measure.volume_eq_prod, ← Measure.prod_restrict]
  have hm : Measurable fun θ => ENNReal.ofReal (Real.sin θ) * f (dir (Real.cos θ) φ) := by
    have h2 : Measurable fun θ => dir (Real.cos θ) φ := by unfold dir; fun_prop
    exact (by fun_prop : Measurable fun θ => ENNReal.ofReal (Real.sin θ)).mul (hf.comp h2)
  rw [lintegral_prod_mul (f := fun r => (Ioo (0 : ℝ) 1).indicator (fun r => ENNReal.ofReal (r * r)) r)
    (g := fun θ => (Ioo (0 : ℝ) Real.pi).indicator (fun θ => ENNReal.ofReal (Real.sin θ) * f (dir (Real.cos θ) φ)) θ)
    (((by fun_prop : Measurable fun r : ℝ => ENNReal.ofReal (r * r)).indicator measurableSet_Ioo).aemeasurable)
    ((hm.indicator measurableSet_Ioo).aemeasurable)]
  congr 1
  · rw [lintegral_indicator measurableSet_Ioo, Measure.restrict_restrict measurableSet_Ioo,
      inter_eq_left.2 (fun x hx => hx.1), lintegral_radius]
  · rw [lintegral_indicator measurableSet_Ioo, Measure.restrict_restrict measurableSet_Ioo,
      inter_eq_left.2 (Ioo_subset_Ioo_left (by linarith [Real.pi_pos])),
      lintegral_cos fun c => f (dir c φ)]

/-- Integrating a function of the direction over the ball: a third of its integral over heights and azimuths. -/
theorem lintegral_cut {f : ℝ × ℝ × ℝ → ℝ≥0∞} (hf : Measurable f) :
    ∫⁻ v, cut f v = ENNReal.ofReal (1 / 3) * ∫⁻ φ in Ioo (-Real.pi) Real.pi, ∫⁻ c in Ioo (-1 : ℝ) 1, f (dir c φ) := by
  have hc := measurable_cut hf
  have h1 : ∫⁻ v, cut f v = ∫⁻ p : ℝ × ℝ, ∫⁻ z, cut f (p.1, p.2, z) := by
    rw [Measure.volume_eq_prod, lintegral_prod _ hc.aemeasurable]
    rw [Measure.volume_eq_prod ℝ ℝ, lintegral_prod (f := fun p : ℝ × ℝ => ∫⁻ z, cut f (p.1, p.2, z))]
    · refine lintegral_congr fun x => ?_
      rw [lintegral_prod _ (by fun_prop)]
    · have : Measurable fun q : (ℝ × ℝ) × ℝ => cut f (q.1.1, q.1.2, q.2) := by fun_prop
      exact this.lintegral_prod_right'.aemeasurable
  have h2 : ∫⁻ p : ℝ × ℝ, ∫⁻ z, cut f (p.1, p.2, z) =
      ∫⁻ q in polarCoord.target, ENNReal.ofReal q.1 * ∫⁻ z, cut f (q.1 * Real.cos q.2, q.1 * Real.sin q.2, z) := by
    rw [← lintegral_comp_polarCoord_symm]
    simp only [polarCoord_symm_apply, smul_eq_mul]
  have hT : polarCoord.target = Ioi (0 : ℝ) ×ˢ Ioo (-Real.pi) Real.pi := rfl
  rw [h1, h2, hT, Measure.volume_eq_prod, ← Measure.prod_restrict]
  have hm : Measurable fun q : ℝ × ℝ =>
      ENNReal.ofReal q.1 * ∫⁻ z, cut f (q.1 * Real.cos q.2, q.1 * Real.sin q.2, z) := by
    have : Measurable fun q : (ℝ × ℝ) × ℝ => cut f (q.1.1 * Real.cos q.1.2, q.1.1 * Real.sin q.1.2, q.2) := by
      fun_prop
    exact (by fun_prop : Measurable fun q : ℝ × ℝ => ENNReal.ofReal q.1).mul this.lintegral_prod_right'
  rw [lintegral_prod_symm' _ hm, ← lintegral_const_mul' _ _ ENNReal.ofReal_ne_top]
  refine lintegral_congr fun φ => ?_
  rw [← lintegral_meridian hf φ]
  have hm2 : Measurable fun q : ℝ × ℝ =>
      (if 0 < q.2 then ENNReal.ofReal q.2 * cut f (q.2 * Real.cos φ, q.2 * Real.sin φ, q.1) else 0) := by
    refine Measurable.ite (measurableSet_lt measurable_const measurable_snd) ?_ measurable_const
    fun_prop
  rw [Measure.volume_eq_prod, lintegral_prod_symm' _ hm2, ← lintegral_indicator measurableSet_Ioi]
  refine lintegral_congr fun ρ => ?_
  by_cases h : 0 < ρ
  · rw [indicator_of_mem (show ρ ∈ Ioi (0 : ℝ) from h)]
    simp only [h, if_true]
    exact (lintegral_const_mul' _ _ ENNReal.ofReal_ne_top).symm
  · rw [indicator_of_notMem (show ρ ∉ Ioi (0 : ℝ) from h)]
    simp [h]

/-- A linear map that keeps lengths keeps the volume. -/
theorem map_isometry {L : (ℝ × ℝ × ℝ) →ₗ[ℝ] (ℝ × ℝ × ℝ)} (hL : ∀ v, sq (L v) = sq v) :
    Measure.map L volume = volume := by
  have hinj : Function.Injective L := by
    rw [← LinearMap.ker_eq_bot, LinearMap.ker_eq_bot']
    rintro ⟨x, y, z⟩ h
    have := hL (x, y, z)
    rw [h] at this
    simp only [sq, Prod.fst_zero, Prod.snd_zero] at this
    have hx : x = 0 := by nlinarith [mul_self_nonneg x, mul_self_nonneg y, mul_self_nonneg z]
    have hy : y = 0 := by nlinarith [mul_self_nonneg x, mul_self_nonneg y, mul_self_nonneg z]
    have hz : z = 0 := by nlinarith [mul_self_nonneg x, mul_self_nonneg y, mul_self_nonneg z]
    rw [hx, hy, hz]; rfl
  have hdet : LinearMap.det L ≠ 0 := by
    have := LinearEquiv.isUnit_det' (LinearEquiv.ofInjectiveEndo L hinj)
    have e : ((LinearEquiv.ofInjectiveEndo L hinj : (ℝ × ℝ × ℝ) ≃ₗ[ℝ] (ℝ × ℝ × ℝ)) :
      (ℝ × ℝ × ℝ) →ₗ[ℝ] (ℝ × ℝ × ℝ)) = L := by ext <;> rfl
    rw [e] at this
    exact this.ne_zero
  have h2 : Measure.IsAddHaarMeasure (volume : Measure (ℝ × ℝ)) := Measure.prod.instIsAddHaarMeasure _ _
  have h3 : Measure.IsAddHaarMeasure (volume : Measure (ℝ × ℝ × ℝ)) := Measure.prod.instIsAddHaarMeasure _ _
  have hmap := Measure.map_linearMap_addHaar_eq_smul_addHaar (μ := (volume : Measure (ℝ × ℝ × ℝ))) hdet
  have hB : MeasurableSet {v | sq v < 1} := measurableSet_lt measurable_sq measurable_const
  have hLm : Measurable L := L.continuous_of_finiteDimensional.measurable
  have h1 : Measure.map L volume {v | sq v < 1} = volume {v | sq v < 1} := by
    rw [Measure.map_apply hLm hB]
    congr 1; ext v; simp [hL]
  have hcont : Continuous sq := by unfold sq; fun_prop
  have hpos : volume {v | sq v < 1} ≠ 0 := by
    refine (IsOpen.measure_pos volume (isOpen_lt hcont continuous_const) ⟨0, ?_⟩).ne'
    simp [sq]
  have hfin : volume {v | sq v < 1} ≠ ⊤ := by
    refine ((measure_mono (t := Icc (-1, -1, -1) (1, 1, 1)) ?_).trans_lt
      (isCompact_Icc.measure_lt_top)).ne
    rintro ⟨x, y, z⟩ h
    simp only [sq, mem_ofPred_eq] at h
    refine ⟨⟨?_, ?_, ?_⟩, ?_, ?_, ?_⟩ <;> dsimp only <;>
      nlinarith [mul_self_nonneg x, mul_self_nonneg y, mul_self_nonneg z]
  rw [hmap] at h1 ⊢
  rw [Measure.smul_apply, smul_eq_mul] at h1
  have : ENNReal.ofReal |(LinearMap.det L)⁻¹| = 1 := by
    have h2 : ENNReal.ofReal |(LinearMap.det L)⁻¹| * volume {v | sq v < 1} = 1 * volume {v | sq v < 1} := by
      rw [h1, one_mul]
    exact (ENNReal.mul_left_inj hpos hfin).1 h2
  rw [this, one_smul]

/-- The integral over all directions is kept by every linear map that keeps lengths. -/
theorem lintegral_isometry {L : (ℝ × ℝ × ℝ) →ₗ[ℝ] (ℝ × ℝ × ℝ)} (hL : ∀ v, sq (L v) = sq v)
    {f : ℝ × ℝ × ℝ → ℝ≥0∞} (hf : Measurable f) :
    ∫⁻ φ in Ioo (-Real.pi) Real.pi, ∫⁻ c in Ioo (-1 : ℝ) 1, f (L (dir c φ)) =
      ∫⁻ φ in Ioo (-Real.pi) Real.pi, ∫⁻ c in Ioo (-1 : ℝ) 1, f (dir c φ) := by
  have hLm : Measurable L := L.continuous_of_finiteDimensional.measurable
  have h1 := lintegral_cut (hf.comp hLm)
  have h2 := lintegral_cut hf
  have h3 : ∫⁻ v, cut (f ∘ L) v = ∫⁻ v, cut f v := by
    have e : cut (f ∘ L) = fun v => cut f (L v) := by
      funext v
      simp only [cut, hL, Function.comp_apply, map_smul]
    rw [e]
    conv_rhs => rw [← map_isometry hL]
    rw [lintegral_map (measurable_cut hf) hLm]
  rw [h1, h2] at h3
  have h4 : ENNReal.ofReal (1 / 3) ≠ 0 := by simp
  exact (ENNReal.mul_right_inj h4 ENNReal.ofReal_ne_top).1 h3

end Sphere
