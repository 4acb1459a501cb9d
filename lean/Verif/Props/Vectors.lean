import Verif.Spec.Vectors
/-!
# C90: the vectors are those of the Euclidean space
-/
open Flt FltReal

theorem euclid_apply (u : Vec3 ℝ) (i : Fin 3) : u.euclid i = u.coords i := rfl

/-- Different vectors have different coordinates. -/
theorem euclid_inj {u v : Vec3 ℝ} (h : u.euclid = v.euclid) : u = v := by
  obtain ⟨a, b, c⟩ := u
  obtain ⟨d, e, f⟩ := v
  have h0 := congrFun (congrArg WithLp.ofLp h) 0
  have h1 := congrFun (congrArg WithLp.ofLp h) 1
  have h2 := congrFun (congrArg WithLp.ofLp h) 2
  simp only [Vec3.euclid, Vec3.coords] at h0 h1 h2
  simp at h0 h1 h2
  rw [h0, h1, h2]

/-- **C90, operations.**  Over the reals, the sum, the difference and the multiples of vectors, their sum over a list,
their scalar product, length and distance are those of the Euclidean space of dimension three. -/
theorem C90_operations (u v : Vec3 ℝ) (f : ℝ) :
    (u.add v).euclid = u.euclid + v.euclid ∧ (u.sub v).euclid = u.euclid - v.euclid ∧
    (u.smul f).euclid = f • u.euclid ∧ u.dot v = inner ℝ u.euclid v.euclid ∧
    u.length = ‖u.euclid‖ ∧ u.distance v = dist u.euclid v.euclid ∧
    (∀ l : List (Vec3 ℝ), (Vec3.sum l).euclid = (l.map Vec3.euclid).sum) := by
  have hadd : ∀ u v : Vec3 ℝ, (u.add v).euclid = u.euclid + v.euclid := fun u v => by
    ext i; fin_cases i <;> simp [euclid_apply, Vec3.coords, Vec3.add]
  have hsub : ∀ u v : Vec3 ℝ, (u.sub v).euclid = u.euclid - v.euclid := fun u v => by
    ext i; fin_cases i <;> simp [euclid_apply, Vec3.coords, Vec3.sub]
  have hlen : ∀ u : Vec3 ℝ, u.length = ‖u.euclid‖ := fun u => by
    rw [EuclideanSpace.norm_eq, Fin.sum_univ_three]
    simp [euclid_apply, Vec3.coords, Vec3.length, pow_two]
  refine ⟨hadd u v, hsub u v, ?_, ?_, hlen u, ?_, fun l => ?_⟩
  · ext i; fin_cases i <;> simp [euclid_apply, Vec3.coords, Vec3.smul, mul_comm]
  · rw [PiLp.inner_apply, Fin.sum_univ_three]
    simp [euclid_apply, Vec3.coords, Vec3.dot, mul_comm]
  · rw [dist_eq_norm, ← hsub, ← hlen]; rfl
  · have h0 : (Vec3.zero : Vec3 ℝ).euclid = 0 := by
      ext i; fin_cases i <;> simp [euclid_apply, Vec3.coords, Vec3.zero]
    have : ∀ (l : List (Vec3 ℝ)) (w : Vec3 ℝ), (l.foldl Vec3.add w).euclid = w.euclid + (l.map Vec3.euclid).sum := by
      intro l
      induction l with
      | nil => intro w; simp
      | cons a l ih => intro w; rw [List.foldl_cons, ih, hadd, List.map_cons, List.sum_cons, add_assoc]
    rw [Vec3.sum, this, h0, zero_add]

/-- **C90, vector product.**  It is the one of the space: it is orthogonal to both vectors, changes sign with their
order, and its squared length is the product of the squared lengths without the squared scalar product. -/
theorem C90_cross (u v : Vec3 ℝ) :
    (u.cross v).coords = crossProduct u.coords v.coords ∧
    u.dot (u.cross v) = 0 ∧ v.dot (u.cross v) = 0 ∧ u.cross v = (v.cross u).smul (-1) ∧
    (u.cross v).length ^ 2 = u.length ^ 2 * v.length ^ 2 - (u.dot v) ^ 2 := by
  refine ⟨?_, ?_, ?_, ?_, ?_⟩
  · rw [cross_apply]
    simp [Vec3.coords, Vec3.cross]
  · simp only [Vec3.dot, Vec3.cross, add_eq, mul_eq, sub_eq]; ring
  · simp only [Vec3.dot, Vec3.cross, add_eq, mul_eq, sub_eq]; ring
  · simp only [Vec3.smul, Vec3.cross, mul_eq, sub_eq, Vec3.mk.injEq]
    refine ⟨?_, ?_, ?_⟩ <;> ring
  · have h : ∀ w : Vec3 ℝ, w.length ^ 2 = w.x * w.x + w.y * w.y + w.z * w.z := fun w => by
      show Real.sqrt (w.x * w.x + w.y * w.y + w.z * w.z) ^ 2 = _
      exact Real.sq_sqrt (by nlinarith [mul_self_nonneg w.x, mul_self_nonneg w.y, mul_self_nonneg w.z])
    rw [h, h, h]
    simp only [Vec3.dot, Vec3.cross, add_eq, mul_eq, sub_eq]; ring

/-- **C90, division.**  Dividing a vector by zero is refused, and nothing else is: otherwise the quotient is the only
vector whose multiple is the vector. -/
theorem C90_division (u : Vec3 ℝ) (f : ℝ) :
    (u.sdiv f = .error .assertFailed ↔ f = 0) ∧ ∀ q, u.sdiv f = .ok q ↔ f ≠ 0 ∧ q.smul f = u := by
  obtain ⟨x, y, z⟩ := u
  by_cases hf : f = 0
  · have e : (Vec3.mk x y z).sdiv f = .error .assertFailed := by simp [Vec3.sdiv, hf]
    rw [e]
    simp [hf]
  · have e : (Vec3.mk x y z).sdiv f = .ok ⟨x / f, y / f, z / f⟩ := by simp [Vec3.sdiv, hf]
    rw [e]
    refine ⟨by simp [hf], fun ⟨a, b, c⟩ => ?_⟩
    simp only [Except.ok.injEq, Vec3.mk.injEq, Vec3.smul, mul_eq, ne_eq, hf, not_false_eq_true, true_and,
      div_eq_iff hf]
    constructor <;> rintro ⟨h1, h2, h3⟩ <;> exact ⟨h1.symm, h2.symm, h3.symm⟩

/-- The distance obeys the triangle inequality, and the products of (1, 2, 3) and (4, 5, 6) are 32 and (-3, 6, -3). -/
example (u v w : Vec3 ℝ) : u.distance w ≤ u.distance v + v.distance w := by
  rw [(C90_operations u w 0).2.2.2.2.2.1, (C90_operations u v 0).2.2.2.2.2.1, (C90_operations v w 0).2.2.2.2.2.1]
  exact dist_triangle _ _ _

example : (Vec3.mk (1 : ℝ) 2 3).dot ⟨4, 5, 6⟩ = 32 ∧ (Vec3.mk (1 : ℝ) 2 3).cross ⟨4, 5, 6⟩ = ⟨-3, 6, -3⟩ ∧
    (Vec3.mk (2 : ℝ) 4 6).sdiv 2 = .ok ⟨1, 2, 3⟩ ∧ (Vec3.mk (2 : ℝ) 4 6).sdiv 0 = .error .assertFailed := by
  refine ⟨by norm_num [Vec3.dot], by norm_num [Vec3.cross], ((C90_division _ _).2 _).2 ?_, (C90_division _ _).1.2 rfl⟩
  norm_num [Vec3.smul]
