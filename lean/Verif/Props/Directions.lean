import Verif.Lemmas.Events
import Verif.Props.Rng
import Mathlib.Tactic.LinearCombination
import Mathlib.Tactic.Positivity
/-!
# C20, C21: directions stay normalised, reflection is specular

Over the reals.
-/
set_option linter.unusedSectionVars false
attribute [local irreducible] Rng.lcg Rng.sample Rng.spawn
open FltReal

/-- A vector of length 1. -/
def IsUnit3 (v : Vec3 ℝ) : Prop := v.x ^ 2 + v.y ^ 2 + v.z ^ 2 = 1

/-- Scalar product, written out. -/
def dot3 (u v : Vec3 ℝ) : ℝ := u.x * v.x + u.y * v.y + u.z * v.z

/-- The normal of a plane. -/
def Plane.normal (pl : Plane ℝ) : Vec3 ℝ := ⟨pl.a, pl.b, pl.c⟩

theorem sample_mem (s : BitVec 64) : 0 ≤ (Rng.sample (T := ℝ) s).1 ∧ (Rng.sample (T := ℝ) s).1 ≤ 1 :=
  ⟨(C01_sample_range s).1, (C01_sample_range s).2.1⟩

/-! ## C20 -/

/-- **C20**: isotropic sampling gives a unit direction, from every generator state. -/
theorem C20_isotropic (p : Particle ℝ) : IsUnit3 p.sampleIsotropic.direction := by
  unfold Particle.sampleIsotropic
  have h := sample_mem p.seed
  generalize Rng.sample (T := ℝ) p.seed = r at h
  obtain ⟨u, s⟩ := r
  dsimp only at h ⊢
  generalize Rng.sample (T := ℝ) s = r2
  obtain ⟨u2, s2⟩ := r2
  simp only [IsUnit3, mul_eq, sub_eq, one_eq, two_eq, sqrt_eq, cos_eq, sin_eq, pi_eq]
  have h1 : 0 ≤ 1 - (1 - 2 * u) * (1 - 2 * u) := by nlinarith
  have h2 := Real.sq_sqrt h1
  have h3 := Real.sin_sq_add_cos_sq (Real.pi * (2 * u2 - 1))
  generalize Real.sqrt (1 - (1 - 2 * u) * (1 - 2 * u)) = q at *
  generalize Real.sin (Real.pi * (2 * u2 - 1)) = a at *
  generalize Real.cos (Real.pi * (2 * u2 - 1)) = b at *
  linear_combination h2 + q ^ 2 * h3

theorem IsUnit3.z_sq {d : Vec3 ℝ} (h : IsUnit3 d) : 0 ≤ 1 - d.z * d.z := by
  unfold IsUnit3 at h
  nlinarith [sq_nonneg d.x, sq_nonneg d.y]

/-- **C20**: rotating a unit direction gives a unit direction; away from the poles the angle with the
original direction is exactly the requested one. -/
theorem C20_rotation {d : Vec3 ℝ} (hd : IsUnit3 d) {st ct sp cp : ℝ} (ht : st ^ 2 + ct ^ 2 = 1)
    (hp : sp ^ 2 + cp ^ 2 = 1) :
    IsUnit3 (Particle.rotate d st ct sp cp) ∧
    (1 / 10 ^ 6 ≤ Real.sqrt (d.x ^ 2 + d.y ^ 2) → dot3 d (Particle.rotate d st ct sp cp) = ct) ∧
    |dot3 d (Particle.rotate d st ct sp cp) - ct| ≤ 2 / 10 ^ 6 := by
  have hz := hd.z_sq
  have hs : d.x ^ 2 + d.y ^ 2 = 1 - d.z * d.z := by unfold IsUnit3 at hd; linarith
  rw [hs]
  have hsq := Real.sq_sqrt hz
  have hs0 := Real.sqrt_nonneg (1 - d.z * d.z)
  have hthr : (Flt.lit 1 (-6) : ℝ) = 1 / 10 ^ 6 := by simp [lit_eq]
  unfold Particle.rotate
  simp only [IsUnit3, dot3, mul_eq, sub_eq, add_eq, div_eq, neg_eq, one_eq, zero_eq, sqrt_eq, lt_eq,
    hthr, decide_eq_true_eq]
  generalize Real.sqrt (1 - d.z * d.z) = s0 at *
  by_cases hlt : s0 < 1 / 10 ^ 6
  · simp only [if_pos hlt]
    have hunit : (d.z * 1 * (st * cp) - 0 * (st * sp) + s0 * 1 * ct) ^ 2 +
        (d.z * 0 * (st * cp) + 1 * (st * sp) + s0 * 0 * ct) ^ 2 +
        (-s0 * (st * cp) + 0 + d.z * ct) ^ 2 = 1 := by
      linear_combination (st ^ 2 * cp ^ 2 + ct ^ 2) * hsq + st ^ 2 * hp + ht
    refine ⟨hunit, fun h => absurd hlt (not_lt.2 h), ?_⟩
    have hdot : s0 * (d.z * 1 * (st * cp) - 0 * (st * sp) + s0 * 1 * ct) +
        d.z * (-s0 * (st * cp) + 0 + d.z * ct) = ct := by
      linear_combination ct * hsq
    generalize d.z * 1 * (st * cp) - 0 * (st * sp) + s0 * 1 * ct = rx at *
    generalize d.z * 0 * (st * cp) + 1 * (st * sp) + s0 * 0 * ct = ry at *
    generalize -s0 * (st * cp) + 0 + d.z * ct = rz at *
    have e : d.x * rx + d.y * ry + d.z * rz - ct = (d.x - s0) * rx + d.y * ry := by
      linear_combination hdot
    rw [e]
    have hx : -s0 ≤ d.x := by
      have : d.x ^ 2 ≤ s0 ^ 2 := by nlinarith [sq_nonneg d.y]
      exact (abs_le.1 (abs_le_of_sq_le_sq this hs0)).1
    have h1 : ((d.x - s0) * rx + d.y * ry) ^ 2 ≤ (2 / 10 ^ 6) ^ 2 := by
      have c1 : ((d.x - s0) * rx + d.y * ry) ^ 2 ≤
          ((d.x - s0) ^ 2 + d.y ^ 2) * (rx ^ 2 + ry ^ 2) := by
        nlinarith [sq_nonneg ((d.x - s0) * ry - d.y * rx)]
      have c2 : (d.x - s0) ^ 2 + d.y ^ 2 ≤ (2 * s0) ^ 2 := by nlinarith
      have c3 : rx ^ 2 + ry ^ 2 ≤ 1 := by nlinarith [sq_nonneg rz]
      have c4 : ((d.x - s0) ^ 2 + d.y ^ 2) * (rx ^ 2 + ry ^ 2) ≤ (2 * s0) ^ 2 * 1 :=
        mul_le_mul c2 c3 (by positivity) (by positivity)
      have c5 : (2 * s0) ^ 2 ≤ (2 / 10 ^ 6) ^ 2 := by
        apply pow_le_pow_left₀ (by linarith)
        have := hlt.le
        have h2 : (2 : ℝ) / 10 ^ 6 = 2 * (1 / 10 ^ 6) := by norm_num
        rw [h2]; linarith
      linarith
    exact abs_le_of_sq_le_sq h1 (by positivity)
  · simp only [if_neg hlt]
    have hpos : 0 < s0 := lt_of_lt_of_le (by norm_num) (not_lt.1 hlt)
    have hx : s0 * (d.x / s0) = d.x := by field_simp
    have hy : s0 * (d.y / s0) = d.y := by field_simp
    have hxy : (d.x / s0) ^ 2 + (d.y / s0) ^ 2 = 1 := by
      rw [div_pow, div_pow, ← add_div, hs, ← hsq]
      exact div_self (by positivity)
    generalize d.x / s0 = cx at *
    generalize d.y / s0 = cy at *
    have hdot : d.x * (d.z * cx * (st * cp) - cy * (st * sp) + s0 * cx * ct) +
        d.y * (d.z * cy * (st * cp) + cx * (st * sp) + s0 * cy * ct) +
        d.z * (-s0 * (st * cp) + 0 + d.z * ct) = ct := by
      rw [← hx, ← hy]
      linear_combination s0 * (d.z * (st * cp) + s0 * ct) * hxy + ct * hsq
    refine ⟨?_, fun _ => hdot, ?_⟩
    · linear_combination ((d.z * (st * cp) + s0 * ct) ^ 2 + (st * sp) ^ 2) * hxy +
        ((st * cp) ^ 2 + ct ^ 2) * hsq + st ^ 2 * hp + ht
    · rw [hdot, sub_self, abs_zero]; positivity

theorem sampleNumMfp_direction (p : Particle ℝ) : p.sampleNumMfp.direction = p.direction := by
  unfold Particle.sampleNumMfp
  generalize Rng.sample (T := ℝ) p.seed = r
  rfl

theorem updateTrajectory_direction (p : Particle ℝ) (e c : ℝ) :
    ∃ φ : ℝ, (p.updateTrajectory e c).direction =
      Particle.rotate p.direction (Real.sqrt (1 - c * c)) c (Real.sin φ) (Real.cos φ) := by
  unfold Particle.updateTrajectory
  generalize Rng.sample (T := ℝ) p.seed = r
  obtain ⟨u, s⟩ := r
  refine ⟨2 * Real.pi * u, ?_⟩
  dsimp only
  rw [sampleNumMfp_direction]
  simp only [Particle.rotateDirection, mul_eq, sub_eq, one_eq, two_eq, pi_eq, sin_eq, cos_eq, sqrt_eq]

/-- **C20** at the level of a scattering: for a scattering cosine in `[-1, 1]`, the new direction is a
unit vector and its cosine with the old one is the requested one (within `2e-6` near the poles). -/
theorem C20_scattering (p : Particle ℝ) (hd : IsUnit3 p.direction) (e : ℝ) {c : ℝ} (h1 : -1 ≤ c)
    (h2 : c ≤ 1) :
    IsUnit3 (p.updateTrajectory e c).direction ∧
    (1 / 10 ^ 6 ≤ Real.sqrt (p.direction.x ^ 2 + p.direction.y ^ 2) →
      dot3 p.direction (p.updateTrajectory e c).direction = c) ∧
    |dot3 p.direction (p.updateTrajectory e c).direction - c| ≤ 2 / 10 ^ 6 := by
  have ht : Real.sqrt (1 - c * c) ^ 2 + c ^ 2 = 1 := by
    rw [Real.sq_sqrt (by nlinarith)]; ring
  obtain ⟨φ, hφ⟩ := updateTrajectory_direction p e c
  rw [hφ]
  exact C20_rotation hd ht (Real.sin_sq_add_cos_sq φ)

/-! ## C21 -/

/-- **C21**: what reflection does to a direction, for a plane with unit normal `n`: the normal
component is reversed when it points outside and kept otherwise; the tangential part never changes;
the result never points outside; reflecting twice is reflecting once; the length is kept. -/
theorem C21_specular {d : Vec3 ℝ} {pl : Plane ℝ} (hn : IsUnit3 pl.normal) :
    let n := pl.normal
    let r := reflectDirection d pl
    (0 < dot3 d n → dot3 r n = - dot3 d n) ∧
    (dot3 d n ≤ 0 → r = d) ∧
    (∀ t : Vec3 ℝ, dot3 t n = 0 → dot3 r t = dot3 d t) ∧
    dot3 r n ≤ 0 ∧
    reflectDirection r pl = r ∧
    dot3 r r = dot3 d d := by
  intro n r
  have hn' : pl.a ^ 2 + pl.b ^ 2 + pl.c ^ 2 = 1 := hn
  have key : ∀ d : Vec3 ℝ, dot3 d n ≤ 0 → reflectDirection d pl = d := by
    intro d h
    unfold reflectDirection
    simp only [Vec3.dot, add_eq, mul_eq, two_eq, zero_eq, lt_eq, decide_eq_true_eq]
    rw [if_neg]
    have : d.x * pl.a + d.y * pl.b + d.z * pl.c ≤ 0 := h
    linarith
  by_cases h : 0 < dot3 d n
  · have h' : 0 < d.x * pl.a + d.y * pl.b + d.z * pl.c := h
    have hr : r = ⟨d.x - pl.a * (2 * (d.x * pl.a + d.y * pl.b + d.z * pl.c)),
        d.y - pl.b * (2 * (d.x * pl.a + d.y * pl.b + d.z * pl.c)),
        d.z - pl.c * (2 * (d.x * pl.a + d.y * pl.b + d.z * pl.c))⟩ := by
      simp only [r, reflectDirection, Vec3.dot, Vec3.sub, Vec3.smul, add_eq, mul_eq, sub_eq, two_eq,
        zero_eq, lt_eq, decide_eq_true_eq]
      rw [if_pos (by linarith)]
    have hrn : dot3 r n = - dot3 d n := by
      rw [hr]
      simp only [dot3, n, Plane.normal]
      linear_combination (-2 * (d.x * pl.a + d.y * pl.b + d.z * pl.c)) * hn'
    refine ⟨fun _ => hrn, fun h2 => absurd h (not_lt.2 h2), ?_, by rw [hrn]; linarith,
      key r (by rw [hrn]; linarith), ?_⟩
    · intro t ht
      have ht' : t.x * pl.a + t.y * pl.b + t.z * pl.c = 0 := ht
      rw [hr]
      simp only [dot3]
      linear_combination (-2 * (d.x * pl.a + d.y * pl.b + d.z * pl.c)) * ht'
    · rw [hr]
      simp only [dot3]
      linear_combination (4 * (d.x * pl.a + d.y * pl.b + d.z * pl.c) ^ 2) * hn'
  · have h := not_lt.1 h
    have hr : r = d := key d h
    rw [hr]
    exact ⟨fun h2 => absurd h2 (not_lt.2 h), fun _ => rfl, fun _ _ => rfl, h, hr, rfl⟩

/-- **C21**: reflection changes nothing but the direction, so speed and energy are kept. -/
theorem C21_only_direction (p : Particle ℝ) (pl : Plane ℝ) :
    reflectParticle p pl = { p with direction := (reflectParticle p pl).direction } ∧
    (reflectParticle p pl).kineticEnergy = p.kineticEnergy ∧
    (reflectParticle p pl).getSpeed = p.getSpeed := ⟨rfl, rfl, rfl⟩

/-! ## Whole runs -/

/-- All the facet planes of a mesh have unit normals (established by mesh building, see
`plane_new_unit`). -/
def UnitPlanes (mesh : Mesh ℝ) : Prop :=
  ∀ planes ∈ mesh.cellGeometry, ∀ pl ∈ planes, IsUnit3 pl.normal

/-- A plane built by the program always has a unit normal. -/
theorem plane_new_unit (a b c : Vec3 ℝ) : IsUnit3 (Plane.new a b c).normal := by
  unfold Plane.new
  simp only [add_eq, mul_eq, sub_eq, div_eq, neg_eq, one_eq, zero_eq, sqrt_eq, beq_eq,
    decide_eq_true_eq]
  generalize (b.y - a.y) * (c.z - a.z) - (b.z - a.z) * (c.y - a.y) = A
  generalize (b.z - a.z) * (c.x - a.x) - (b.x - a.x) * (c.z - a.z) = B
  generalize (b.x - a.x) * (c.y - a.y) - (b.y - a.y) * (c.x - a.x) = C
  have h0 : 0 ≤ A * A + B * B + C * C := by nlinarith [sq_nonneg A, sq_nonneg B, sq_nonneg C]
  by_cases h : Real.sqrt (A * A + B * B + C * C) = 0
  · rw [if_pos h]
    rw [Real.sqrt_eq_zero h0] at h
    have hb : B = 0 := by nlinarith [sq_nonneg A, sq_nonneg B, sq_nonneg C]
    have hc : C = 0 := by nlinarith [sq_nonneg A, sq_nonneg B, sq_nonneg C]
    simp [IsUnit3, Plane.normal, hb, hc]
  · rw [if_neg h]
    simp only [IsUnit3, Plane.normal]
    rw [div_pow, div_pow, div_pow, ← add_div, ← add_div, Real.sq_sqrt h0]
    have h1 : A * A + B * B + C * C ≠ 0 := fun e => h (by rw [e, Real.sqrt_zero])
    rw [div_eq_one_iff_eq h1]; ring

theorem sample_angle (s : BitVec 64) :
    -1 ≤ Flt.sub (Flt.mul (Rng.sample (T := ℝ) s).1 Flt.two) Flt.one ∧
    Flt.sub (Flt.mul (Rng.sample (T := ℝ) s).1 Flt.two) Flt.one ≤ 1 := by
  have := sample_mem s
  simp only [sub_eq, mul_eq, one_eq, two_eq]
  constructor <;> linarith

theorem CollisionOut.unit {mass : ℝ} {p q : Particle ℝ} (h : CollisionOut mass p q)
    (hp : IsUnit3 p.direction) : IsUnit3 q.direction := by
  cases h with
  | same => exact hp
  | scatter s id s1 s2 =>
    exact (C20_scattering { p with seed := s, identifier := id } hp _ (sample_angle s2).1
      (sample_angle s2).2).1
  | fission s id s1 s2 =>
    exact (C20_scattering { p with seed := s, identifier := id } hp _ (sample_angle s2).1
      (sample_angle s2).2).1

theorem EventOut.unit {data : Data ℝ} {dom : Domain ℝ} {p q : Particle ℝ} {o : SegOutcome}
    (h : EventOut data dom p o q) (hu : UnitPlanes dom.mesh) (hp : IsUnit3 p.direction) :
    IsUnit3 q.direction := by
  cases h with
  | census => exact hp
  | transit => exact hp
  | escape => exact hp
  | @reflect conn fa planes plane _ _ _ h1 h2 =>
    have hn := hu planes (List.mem_of_getElem? h1) plane (List.mem_of_getElem? h2)
    have := (C21_specular (d := p.direction) hn).2.2.2.2.2
    simp only [dot3] at this
    simp only [reflectParticle, IsUnit3] at hp ⊢
    linarith
  | collide _ _ hc => exact hc.unit hp
  | born _ _ hc => exact hc.unit hp

/-- **C20** for whole runs: every particle that can exist in a simulation, after any number of cycles
and events, has a unit direction. -/
theorem C20_reachable {data : Data ℝ} {dom : Domain ℝ} {fuel : Nat} (hu : UnitPlanes dom.mesh)
    {p : Particle ℝ} (h : Reachable data dom fuel p) : IsUnit3 p.direction := by
  refine h.cases (P := fun p => IsUnit3 p.direction) ?_ ?_ ?_ ?_
  · intro d w i cell p _ _ h
    obtain ⟨q, hq⟩ := h.direction
    rw [hq]
    exact C20_isotropic q
  · intro p q hp hf
    rw [hf.direction]; exact hp
  · intro p q hp h
    simp only [gutsPrepare, bind_ok, pure_ok] at h
    obtain ⟨g, _, rfl⟩ := h
    dsimp only
    split <;> exact hp
  · intro d p tr o q r hd hp ho _ he
    refine he.unit (by rw [mesh_skeleton hd]; exact hu) ?_
    dsimp only
    rw [(outcome_frame ho).direction]
    exact hp

/-- **C20** for whole runs, on the state of a simulation: whatever the schedule, between any two cycles
all the particles of the containers have unit directions. -/
theorem C20_run {data : Data ℝ} {ex : ExecInfo} {o : SyncOpts} {fuel n : Nat} {s0 s : SimState ℝ}
    (h0 : InitialState s0) (hu : UnitPlanes s0.unit.dom.mesh) (h : Cycles data ex o fuel n s0 s) :
    ∀ p ∈ s.container.all, IsUnit3 p.direction :=
  fun p hp => C20_reachable hu ((cycles_reachable h0 h).2 p hp)

/-! Non-vacuity. -/

/-- A direction away from the poles, a right-angle rotation. -/
example : IsUnit3 ⟨1, 0, 0⟩ ∧ (1 / 10 ^ 6 : ℝ) ≤ Real.sqrt ((1 : ℝ) ^ 2 + 0 ^ 2) ∧
    (1 : ℝ) ^ 2 + 0 ^ 2 = 1 := by
  refine ⟨by simp [IsUnit3], ?_, by norm_num⟩
  norm_num

/-- A unit plane hit from inside by a slanted direction: the reflected direction is the mirror image. -/
example : IsUnit3 (Plane.normal ⟨1, 0, 0, -5⟩) ∧ 0 < dot3 ⟨3 / 5, 4 / 5, 0⟩ (Plane.normal ⟨1, 0, 0, -5⟩) ∧
    reflectDirection ⟨3 / 5, 4 / 5, 0⟩ (⟨1, 0, 0, -5⟩ : Plane ℝ) = ⟨-3 / 5, 4 / 5, 0⟩ := by
  refine ⟨by simp [IsUnit3, Plane.normal], by simp [dot3, Plane.normal], ?_⟩
  simp only [reflectDirection, Vec3.dot, Vec3.sub, Vec3.smul, add_eq, mul_eq, sub_eq, two_eq, zero_eq,
    lt_eq, decide_eq_true_eq]
  norm_num
