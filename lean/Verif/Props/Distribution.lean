import Verif.Lemmas.Isotropic
import Verif.Props.Positions
import Verif.Props.Draws
/-!
# C70: directions, energies and times are drawn with the intended distributions

Exact real arithmetic.  Each quantity is a fixed function of numbers of the generator, named by their rank
(`nthDraw`); the distribution of this function is computed for uniform, independent numbers.
-/
open Flt FltReal MeasureTheory Rng

theorem sample_pair (s : BitVec 64) : Rng.sample (T := ℝ) s = (draw s, lcg s) := rfl

attribute [local irreducible] Rng.lcg Rng.sample Rng.spawn Rng.draw

/-! ## Helper lemmas -/

theorem nthDraw_zero (s : BitVec 64) : nthDraw s 0 = draw s := by
  rw [nthDraw, Function.iterate_zero_apply]
theorem nthDraw_succ (s : BitVec 64) (k : Nat) : nthDraw s (k + 1) = nthDraw (lcg s) k := by
  rw [nthDraw, nthDraw, Function.iterate_succ_apply]

theorem image_up : (fun u : ℝ => 2 * u + -1) '' Set.Ioo 0 1 = Set.Ioo (-1) 1 := by
  ext c
  constructor
  · rintro ⟨u, ⟨h0, h1⟩, rfl⟩; constructor <;> dsimp only <;> linarith
  · rintro ⟨h0, h1⟩
    exact ⟨(c + 1) / 2, ⟨by linarith, by linarith⟩, by ring⟩

theorem image_down : (fun u : ℝ => -2 * u + 1) '' Set.Ioo 0 1 = Set.Ioo (-1) 1 := by
  ext c
  constructor
  · rintro ⟨u, ⟨h0, h1⟩, rfl⟩; constructor <;> dsimp only <;> linarith
  · rintro ⟨h0, h1⟩
    exact ⟨(1 - c) / 2, ⟨by linarith, by linarith⟩, by ring⟩

theorem chance1_le {t : ℝ} (_ : 0 ≤ t) (h1 : t ≤ 1) : chance1 (fun u => u ≤ t) = ENNReal.ofReal t := by
  have : {u : ℝ | (0 ≤ u ∧ u ≤ 1) ∧ u ≤ t} = Set.Icc 0 t := by
    ext u; simp only [Set.mem_ofPred_eq, Set.mem_Icc]
    exact ⟨fun h => ⟨h.1.1, h.2⟩, fun h => ⟨⟨h.1, by linarith [h.2]⟩, h.2⟩⟩
  rw [chance1, this, Real.volume_Icc, sub_zero]

theorem chance1_ge {t : ℝ} (h0 : 0 ≤ t) (_ : t ≤ 1) : chance1 (fun u => t ≤ u) = ENNReal.ofReal (1 - t) := by
  have : {u : ℝ | (0 ≤ u ∧ u ≤ 1) ∧ t ≤ u} = Set.Icc t 1 := by
    ext u; simp only [Set.mem_ofPred_eq, Set.mem_Icc]
    exact ⟨fun h => ⟨h.2, h.1.2⟩, fun h => ⟨⟨by linarith [h.1], h.2⟩, h.1⟩⟩
  rw [chance1, this, Real.volume_Icc]

theorem uniform_up {a b : ℝ} (h : a < b) : UniformOn (fun u => u * (b - a) + a) a b := by
  intro t h0 h1
  have hp : 0 < b - a := by linarith
  rw [← chance1_le (t := (t - a) / (b - a)) (div_nonneg (by linarith) hp.le) ((div_le_one hp).2 (by linarith))]
  congr 1; funext u
  rw [le_div_iff₀ hp]
  exact propext ⟨fun h => by linarith, fun h => by linarith⟩

theorem uniform_down {a b : ℝ} (h : a < b) : UniformOn (fun u => b - u * (b - a)) a b := by
  intro t h0 h1
  have hp : 0 < b - a := by linarith
  have e : (t - a) / (b - a) = 1 - (b - t) / (b - a) := by field_simp; ring
  rw [e, ← chance1_ge (t := (b - t) / (b - a)) (div_nonneg (by linarith) hp.le) ((div_le_one hp).2 (by linarith))]
  congr 1; funext u
  rw [div_le_iff₀ hp]
  exact propext ⟨fun h => by linarith, fun h => by linarith⟩

/-- The direction of a sourced particle as a function of two numbers. -/
noncomputable def sourceDir (u v : ℝ) : Vec3 ℝ :=
  ⟨√(1 - (1 - 2 * u) * (1 - 2 * u)) * Real.cos (Real.pi * (2 * v - 1)),
   √(1 - (1 - 2 * u) * (1 - 2 * u)) * Real.sin (Real.pi * (2 * v - 1)), 1 - 2 * u⟩

theorem sourceDir_isotropic : Isotropic sourceDir := by
  refine Sphere.isotropic (a := -2) (b := 1) (L := LinearMap.id) (by norm_num) image_down (fun _ => rfl) ?_ ?_
  · intro u v
    simp only [sourceDir, Sphere.dir, LinearMap.id_apply]
    rw [show -2 * u + 1 = 1 - 2 * u by ring, show 2 * Real.pi * v + -Real.pi = Real.pi * (2 * v - 1) by ring]
  · intro u v h0 h1 _ _
    have h2 : 0 ≤ 1 - (1 - 2 * u) * (1 - 2 * u) := by nlinarith
    have h3 := Real.sq_sqrt h2
    have h4 := Real.sin_sq_add_cos_sq (Real.pi * (2 * v - 1))
    simp only [IsUnit3, sourceDir]
    linear_combination h3 + √(1 - (1 - 2 * u) * (1 - 2 * u)) ^ 2 * h4

theorem sampleIsotropic_direction (p : Particle ℝ) :
    p.sampleIsotropic = { p with direction := sourceDir (nthDraw p.seed 0) (nthDraw p.seed 1),
                                 seed := lcg (lcg p.seed) } := by
  unfold Particle.sampleIsotropic sourceDir
  simp only [sample_pair, nthDraw_zero, nthDraw_succ, mul_eq, sub_eq, one_eq, two_eq, sqrt_eq, cos_eq, sin_eq, pi_eq]

/-- The direction after a collision, as a function of the direction before it and of two numbers. -/
noncomputable def scatterDir (d : Vec3 ℝ) (u v : ℝ) : Vec3 ℝ :=
  Particle.rotate d (√(1 - (u * 2 - 1) * (u * 2 - 1))) (u * 2 - 1) (Real.sin (2 * Real.pi * v))
    (Real.cos (2 * Real.pi * v))

/-- The axes used for the rotation. -/
theorem rotate_axes {d : Vec3 ℝ} (hd : IsUnit3 d) : ∃ a b c, Axes a b c ∧ ∀ st ct sp cp : ℝ,
    Particle.rotate d st ct sp cp = ⟨st * cp * a.x + st * sp * b.x + ct * c.x,
      st * cp * a.y + st * sp * b.y + ct * c.y, st * cp * a.z + st * sp * b.z + ct * c.z⟩ := by
  have hz := hd.z_sq
  have hs : d.x ^ 2 + d.y ^ 2 = 1 - d.z * d.z := by unfold IsUnit3 at hd; linarith
  have hsq := Real.sq_sqrt hz
  have hthr : (Flt.lit 1 (-6) : ℝ) = 1 / 10 ^ 6 := by simp [lit_eq]
  unfold Particle.rotate
  simp only [mul_eq, sub_eq, add_eq, div_eq, neg_eq, one_eq, zero_eq, sqrt_eq, lt_eq, hthr, decide_eq_true_eq]
  generalize hs0 : √(1 - d.z * d.z) = s0 at *
  have main : ∀ cx cy : ℝ, cx ^ 2 + cy ^ 2 = 1 →
      Axes ⟨d.z * cx, d.z * cy, -s0⟩ ⟨-cy, cx, 0⟩ ⟨s0 * cx, s0 * cy, d.z⟩ := by
    intro cx cy h
    refine ⟨?_, ?_, ?_, ?_, ?_, ?_⟩ <;> simp only [IsUnit3, dot3]
    · linear_combination d.z ^ 2 * h + hsq
    · linear_combination h
    · linear_combination s0 ^ 2 * h + hsq
    · ring
    · linear_combination d.z * s0 * h
    · ring
  by_cases hlt : s0 < 1 / 10 ^ 6
  · simp only [if_pos hlt]
    refine ⟨_, _, _, main 1 0 (by norm_num), fun st ct sp cp => ?_⟩
    simp only [Vec3.mk.injEq]
    refine ⟨by ring, by ring, by ring⟩
  · simp only [if_neg hlt]
    have hpos : 0 < s0 := lt_of_lt_of_le (by norm_num) (not_lt.1 hlt)
    refine ⟨_, _, _, main (d.x / s0) (d.y / s0) ?_, fun st ct sp cp => ?_⟩
    · rw [div_pow, div_pow, ← add_div, hs, ← hsq]
      exact div_self (by positivity)
    · simp only [Vec3.mk.injEq]
      refine ⟨by ring, by ring, by ring⟩

theorem scatterDir_isotropic {d : Vec3 ℝ} (hd : IsUnit3 d) : Isotropic (scatterDir d) := by
  obtain ⟨a, b, c, hax, hrot⟩ := rotate_axes hd
  have hax' : Axes ⟨-a.x, -a.y, -a.z⟩ ⟨-b.x, -b.y, -b.z⟩ c := by
    obtain ⟨h1, h2, h3, h4, h5, h6⟩ := hax
    simp only [IsUnit3, dot3] at h1 h2 h3 h4 h5 h6
    refine ⟨?_, ?_, h3, ?_, ?_, ?_⟩ <;> simp only [IsUnit3, dot3] <;> linarith
  refine Sphere.isotropic (a := 2) (b := -1) (L := Sphere.comb ⟨-a.x, -a.y, -a.z⟩ ⟨-b.x, -b.y, -b.z⟩ c) (by norm_num)
    image_up (Sphere.comb_sq hax') ?_ ?_
  · intro u v
    have e1 : Real.cos (2 * Real.pi * v + -Real.pi) = -Real.cos (2 * Real.pi * v) := by
      rw [← sub_eq_add_neg, Real.cos_sub_pi]
    have e2 : Real.sin (2 * Real.pi * v + -Real.pi) = -Real.sin (2 * Real.pi * v) := by
      rw [← sub_eq_add_neg, Real.sin_sub_pi]
    simp only [scatterDir, hrot, Sphere.dir, Sphere.comb, LinearMap.coe_mk, AddHom.coe_mk, e1, e2]
    rw [show 2 * u + -1 = u * 2 - 1 by ring]
    simp only [Prod.mk.injEq]
    refine ⟨by ring, by ring, by ring⟩
  · intro u v h0 h1 _ _
    refine (C20_rotation hd ?_ (Real.sin_sq_add_cos_sq _)).1
    rw [Real.sq_sqrt (by nlinarith)]; ring

theorem updateTrajectory_eq (p : Particle ℝ) (e u : ℝ) :
    let q := p.updateTrajectory e (u * 2 - 1)
    q.direction = scatterDir p.direction u (nthDraw p.seed 0) ∧ q.kineticEnergy = e ∧
    q.numMeanFreePaths = -Real.log (nthDraw p.seed 1) ∧ q.identifier = p.identifier := by
  simp only [Particle.updateTrajectory, Particle.rotateDirection, Particle.sampleNumMfp, scatterDir, sample_pair,
    nthDraw_zero, nthDraw_succ, mul_eq, sub_eq, one_eq, two_eq, sqrt_eq, cos_eq, sin_eq, pi_eq, neg_eq, ln_eq]
  refine ⟨trivial, trivial, by ring, trivial⟩

/-! ## C70 -/

/-- **C70, sourced particles.**  The direction is isotropic, the energy uniform over the energy range of the problem,
the time left uniform over the time step.  They are computed from the numbers that follow the choice of the
position, each from its own: the first two give the direction, the third the energy, the fourth the flight (see C36),
the fifth the time.  Everything else is fixed: the weight, the cell, the age. -/
theorem C70_source (data : Data ℝ) (dom : Domain ℝ) :
    ∃ (dir : ℝ → ℝ → Vec3 ℝ) (energy time : ℝ → ℝ), Isotropic dir ∧
      (data.eMin < data.eMax → UniformOn energy data.eMin data.eMax) ∧
      (0 < data.dt → UniformOn time 0 data.dt) ∧
      ∀ (w : ℝ) (i : Nat) (cell : CellState ℝ) (seed : BitVec 64) (p : Particle ℝ),
        sourceParticle data dom w i cell seed = .ok p →
        ∃ s, generateCoordinate3dg (Rng.spawn seed).1 dom.mesh i cell.volume = .ok (p.coordinate, s) ∧
          p.direction = dir (nthDraw s 0) (nthDraw s 1) ∧
          p.kineticEnergy = energy (nthDraw s 2) ∧
          p.numMeanFreePaths = -Real.log (nthDraw s 3) ∧
          p.timeToCensus = time (nthDraw s 4) ∧
          p.weight = w ∧ p.cell = i ∧ p.age = 0 := by
  refine ⟨sourceDir, fun u => u * (data.eMax - data.eMin) + data.eMin, fun u => data.dt * u, sourceDir_isotropic,
    uniform_up, ?_, ?_⟩
  · intro h
    have := uniform_up h
    simpa [mul_comm] using this
  · intro w i cell seed p h
    unfold sourceParticle at h
    generalize Rng.spawn seed = sp at h ⊢
    obtain ⟨s0, s0'⟩ := sp
    simp only [bind_ok, pure_ok, Prod.exists] at h
    obtain ⟨coord, s, hg, h⟩ := h
    rw [sampleIsotropic_direction] at h
    simp only [sample_pair, Particle.sampleNumMfp, mul_eq, sub_eq, add_eq, one_eq, neg_eq, ln_eq, Particle.default,
      zero_eq] at h
    subst h
    simp only [nthDraw_zero, nthDraw_succ]
    refine ⟨s, hg, rfl, rfl, by ring, rfl, trivial, trivial, trivial⟩

/-- **C70, scattering.**  Whatever the direction before it, the direction after a scattering is isotropic, computed
from the second and third numbers drawn; the energy, computed from the first, is uniform between `E (1 - 1/A)` and `E`
for a nucleus of mass `A`; the next flight comes from the fourth. -/
theorem C70_scatter {d : Vec3 ℝ} (hd : IsUnit3 d) {e mass : ℝ} (he : 0 < e) (hm : 0 < mass) :
    ∃ (dir : ℝ → ℝ → Vec3 ℝ) (energy : ℝ → ℝ), Isotropic dir ∧ UniformOn energy (e * (1 - 1 / mass)) e ∧
      ∀ (p : Particle ℝ) (r : Reaction ℝ), p.direction = d → p.kineticEnergy = e → r.rtype = .scatter →
        ∃ q, p.sampleCollision r mass = .ok (1, q, []) ∧
          q.kineticEnergy = energy (nthDraw p.seed 0) ∧
          q.direction = dir (nthDraw p.seed 1) (nthDraw p.seed 2) ∧
          q.numMeanFreePaths = -Real.log (nthDraw p.seed 3) := by
  refine ⟨scatterDir d, fun u => e * (1 - u * (1 / mass)), scatterDir_isotropic hd, ?_, ?_⟩
  · have h1 : 0 < e * (1 / mass) := by positivity
    have := uniform_down (a := e * (1 - 1 / mass)) (b := e) (by nlinarith)
    have e1 : (fun u => e - u * (e - e * (1 - 1 / mass))) = fun u => e * (1 - u * (1 / mass)) := by
      funext u; ring
    rw [e1] at this
    exact this
  · intro p r h1 h2 hr
    refine ⟨({ p with seed := lcg (lcg p.seed) } : Particle ℝ).updateTrajectory
      (p.kineticEnergy * (1 - draw p.seed * (1 / mass))) (draw (lcg p.seed) * 2 - 1), ?_, ?_⟩
    · unfold Particle.sampleCollision
      rw [hr]
      simp only [sample_pair, mul_eq, sub_eq, div_eq, one_eq, two_eq]
    obtain ⟨a, b, c, _⟩ := updateTrajectory_eq { p with seed := lcg (lcg p.seed) }
      (p.kineticEnergy * (1 - draw p.seed * (1 / mass))) (draw (lcg p.seed))
    subst h1 h2
    simp only [nthDraw_zero, nthDraw_succ] at a b c ⊢
    exact ⟨b, a, c⟩

theorem drawFission_eq (s : BitVec 64) : Particle.drawFission (T := ℝ) s =
    ((20 * ((nthDraw s 0 + 1) / 2) * ((nthDraw s 0 + 1) / 2), nthDraw s 1 * 2 - 1), lcg (lcg s)) := by
  simp only [Particle.drawFission, sample_pair, nthDraw_zero, nthDraw_succ, mul_eq, sub_eq, add_eq, div_eq, one_eq,
    two_eq, ofNat_eq]
  norm_num

theorem drawFissions_eq (n : Nat) (s : BitVec 64) :
    (∀ i, i < n → (Particle.drawFissions (T := ℝ) n s).1[i]? =
      some (20 * ((nthDraw s (2 * i) + 1) / 2) * ((nthDraw s (2 * i) + 1) / 2), nthDraw s (2 * i + 1) * 2 - 1)) ∧
    (Particle.drawFissions (T := ℝ) n s).1.length = n ∧
    (Particle.drawFissions (T := ℝ) n s).2 = lcg^[2 * n] s := by
  induction n generalizing s with
  | zero =>
    refine ⟨fun i h => absurd h (Nat.not_lt_zero i), rfl, ?_⟩
    simp only [Nat.mul_zero, Function.iterate_zero_apply, Particle.drawFissions]
  | succ n ih =>
    obtain ⟨h1, h2, h3⟩ := ih (lcg (lcg s))
    simp only [Particle.drawFissions, drawFission_eq]
    refine ⟨fun i hi => ?_, by simp [h2], by
      rw [h3, Nat.mul_succ, Function.iterate_succ_apply, Function.iterate_succ_apply]⟩
    cases i with
    | zero => simp only [List.getElem?_cons_zero, Nat.mul_zero, Nat.zero_add]
    | succ i =>
      rw [List.getElem?_cons_succ, h1 i (by omega)]
      simp only [Nat.mul_succ, Nat.add_right_comm _ 2 1, nthDraw_succ]

/-- **C70, fission.**  Whatever the direction before it, the directions of all the particles that leave a fission are
isotropic; the energies lie between 5 and 20, at most `x` with the chance `2 √(x/20) - 1`.  They are computed from
pairs of successive numbers of the colliding particle, one pair for each, and from the first number of the generator
of the outgoing particle. -/
theorem C70_fission {d : Vec3 ℝ} (hd : IsUnit3 d) :
    ∃ (dir : ℝ → ℝ → Vec3 ℝ) (energy : ℝ → ℝ), Isotropic dir ∧
      (∀ x, 5 ≤ x → x ≤ 20 → chance1 (fun u => energy u ≤ x) = ENNReal.ofReal (2 * √(x / 20) - 1)) ∧
      (∀ u, 0 ≤ u → u ≤ 1 → 5 ≤ energy u ∧ energy u ≤ 20) ∧
      ∀ (p p' : Particle ℝ) (r : Reaction ℝ) (mass : ℝ) (n : Nat) (extra : List (Particle ℝ)),
        p.direction = d → r.rtype = .fission → p.sampleCollision r mass = .ok (n, p', extra) → 0 < n →
        (p'.kineticEnergy = energy (nthDraw p.seed 1) ∧
          ∃ s, s = (Particle.spawnSeeds (n - 1) (lcg^[2 * n + 1] p.seed)).2 ∧
            p'.direction = dir (nthDraw p.seed 2) (nthDraw s 0) ∧ p'.numMeanFreePaths = -Real.log (nthDraw s 1)) ∧
        ∀ (i : Nat) (q : Particle ℝ), extra[i]? = some q →
          q.kineticEnergy = energy (nthDraw p.seed (2 * i + 3)) ∧
          (Particle.spawnSeeds (n - 1) (lcg^[2 * n + 1] p.seed)).1[i]? = some q.identifier ∧
          q.direction = dir (nthDraw p.seed (2 * i + 4)) (nthDraw q.identifier 0) ∧
          q.numMeanFreePaths = -Real.log (nthDraw q.identifier 1) := by
  refine ⟨scatterDir d, fun u => 20 * ((u + 1) / 2) * ((u + 1) / 2), scatterDir_isotropic hd, ?_, ?_, ?_⟩
  · intro x h0 h1
    have hr := Real.sq_sqrt (show 0 ≤ x / 20 by linarith)
    have hr0 := Real.sqrt_nonneg (x / 20)
    have ha : 1 / 2 ≤ √(x / 20) := Real.le_sqrt_of_sq_le (by norm_num; linarith)
    have hb : √(x / 20) ≤ 1 := Real.sqrt_le_one.2 (by linarith)
    rw [← chance1_le (t := 2 * √(x / 20) - 1) (by linarith) (by linarith)]
    unfold chance1
    congr 1; ext u
    simp only [Set.mem_ofPred_eq]
    refine and_congr_right fun ⟨hu0, hu1⟩ => ?_
    constructor
    · intro h
      have : ((u + 1) / 2) ^ 2 ≤ x / 20 := by nlinarith
      have := Real.le_sqrt_of_sq_le this
      linarith
    · intro h
      nlinarith
  · intro u h0 h1
    constructor <;> nlinarith
  · intro p p' r mass n extra hdir hr h hn
    unfold Particle.sampleCollision at h
    rw [hr] at h
    simp only [sample_pair, bind_ok] at h
    obtain ⟨m, hm, h⟩ := h
    clear hm
    split at h
    · simp only [pure_ok, Prod.mk.injEq] at h
      omega
    split at h
    · next h1 =>
      simp only [pure_ok, Prod.mk.injEq, drawFission_eq] at h
      obtain ⟨rfl, rfl, rfl⟩ := h
      subst h1 hdir
      obtain ⟨a, b, c, _⟩ := updateTrajectory_eq { p with seed := lcg (lcg (lcg p.seed)) }
        (20 * ((nthDraw (lcg p.seed) 0 + 1) / 2) * ((nthDraw (lcg p.seed) 0 + 1) / 2)) (nthDraw (lcg p.seed) 1)
      simp only [Nat.sub_self, Particle.spawnSeeds, Function.iterate_succ_apply, Function.iterate_zero_apply,
        Nat.reduceMul, Nat.reduceAdd]
      simp only [nthDraw_zero, nthDraw_succ] at a b c ⊢
      exact ⟨⟨b, _, rfl, a, c⟩, fun i q h => by simp at h⟩
    · next h0 h1 =>
      simp only [bind_ok, pure_ok, Prod.mk.injEq, drawFission_eq] at h
      obtain ⟨_, _, h⟩ := h
      obtain ⟨e1, e2, e3⟩ := drawFissions_eq (m - 1) (lcg (lcg (lcg p.seed)))
      generalize hdf : Particle.drawFissions (T := ℝ) (m - 1) (lcg (lcg (lcg p.seed))) = df at h e1 e2 e3
      obtain ⟨out, s2⟩ := df
      dsimp only at h e1 e2 e3
      have es2 : s2 = lcg^[2 * m + 1] p.seed := by
        rw [e3, ← Function.iterate_succ_apply, ← Function.iterate_succ_apply, ← Function.iterate_succ_apply]
        congr 2; omega
      clear e3
      subst es2
      obtain ⟨rfl, rfl, rfl⟩ := h
      subst hdir
      refine ⟨?_, ?_⟩
      · obtain ⟨a, b, c, _⟩ := updateTrajectory_eq
          { p with seed := (Particle.spawnSeeds (m - 1) (lcg^[2 * m + 1] p.seed)).2 }
          (20 * ((nthDraw (lcg p.seed) 0 + 1) / 2) * ((nthDraw (lcg p.seed) 0 + 1) / 2)) (nthDraw (lcg p.seed) 1)
        simp only [nthDraw_zero, nthDraw_succ] at a b c ⊢
        exact ⟨b, _, rfl, a, c⟩
      · intro i q hq
        rw [List.getElem?_map, Option.map_eq_some_iff] at hq
        obtain ⟨⟨sd, ea⟩, hz, rfl⟩ := hq
        rw [List.getElem?_zip_eq_some] at hz
        obtain ⟨hz1, hz2⟩ := hz
        have hi : i < m - 1 := by
          have := (List.getElem?_eq_some_iff.1 hz2).1
          omega
        rw [e1 i hi, Option.some.injEq] at hz2
        subst hz2
        dsimp only
        obtain ⟨a, b, c, d⟩ := updateTrajectory_eq
          { p with seed := sd, identifier := sd }
          (20 * ((nthDraw (lcg (lcg (lcg p.seed))) (2 * i) + 1) / 2) *
            ((nthDraw (lcg (lcg (lcg p.seed))) (2 * i) + 1) / 2)) (nthDraw (lcg (lcg (lcg p.seed))) (2 * i + 1))
        dsimp only at a b c d
        rw [d]
        simp only [nthDraw_succ] at a b c ⊢
        exact ⟨b, hz1, a, c⟩

/-! Non-vacuity. -/

/-- A direction that always points upward is not isotropic. -/
example : ¬ Isotropic (fun _ _ => ⟨0, 0, 1⟩) := by
  intro h
  have h1 := h.even ⟨0, 0, 1⟩ (by simp [IsUnit3]) 0 (by norm_num) (by norm_num)
  have h2 : chance2 (fun _ _ => dot3 ⟨0, 0, 1⟩ ⟨0, 0, 1⟩ ≤ 0) = 0 := by
    simp only [chance2, dot3]
    norm_num
  rw [h2] at h1
  have : (0 : ENNReal) < ENNReal.ofReal ((0 + 1) / 2) := by simp
  rw [← h1] at this
  exact lt_irrefl _ this

/-- In every cell of the default problem a particle can be sourced from every seed. -/
example (data : Data ℝ) (w : ℝ) (seed : BitVec 64) : ∃ dom i cell p,
    initMesh id 1001 (defaultProblem 1029384756) defaultMats = .ok [dom] ∧
    sourceParticle data dom w i cell seed = .ok p := by
  obtain ⟨dom, cellAt, _, h1, _, h3, _, h5, _⟩ := C16_mesh (order := id) (fun _ => List.Perm.refl _)
    (default_single (by norm_num)) default_root 1001 (by rw [default_cells])
  obtain ⟨i, hi⟩ := List.getElem?_of_mem (h3.perm.mem_iff.2 (List.mem_range.2
    (show 7 < GridSpec.cells (defaultProblem 1029384756).grid by rw [default_cells]; norm_num)))
  have hat := (h5 i 7).1 hi
  obtain ⟨_, _, _, _, _, _, h⟩ := unit_mesh (order := id) (fun _ => List.Perm.refl _)
    (default_single (by norm_num)) default_root 1001 (by rw [default_cells]) h1
  obtain ⟨st, hst, _⟩ := h i 7 hat
  obtain ⟨k, p0, p1, p2, ce, u, r1, r2, r3, s1, s2, s3, s4, _, _, _, _, _, _, _, _, hg⟩ := C58_tetrahedron
    (order := id) (fun _ => List.Perm.refl _) (default_single (by norm_num)) default_root 1001
    (by rw [default_cells]) h1 hat hst (Rng.spawn seed).1
  refine ⟨dom, i, st, ?_⟩
  have : ∃ p, sourceParticle data dom w i st seed = .ok p := by
    unfold sourceParticle
    generalize Rng.spawn seed = sp at hg ⊢
    dsimp only [bind, Except.bind]
    rw [hg]
    exact ⟨_, rfl⟩
  obtain ⟨p, hp⟩ := this
  exact ⟨p, h1, hp⟩

/-- A fission of mean yield 2.4 lets at least two particles out. -/
example (p : Particle ℝ) (mass : ℝ) : ∃ n p' extra,
    p.sampleCollision ⟨[], .fission, 2.4⟩ mass = .ok (n, p', extra) ∧ 2 ≤ n := by
  obtain ⟨n, p', extra, h, hn, _⟩ := C31_yield p ⟨[], .fission, 2.4⟩ mass rfl (by norm_num)
    (by have := draw_le_one p.seed; norm_num; linarith)
  refine ⟨n, p', extra, h, ?_⟩
  rw [hn]
  refine Nat.le_floor ?_
  have := draw_nonneg p.seed
  norm_num; linarith
