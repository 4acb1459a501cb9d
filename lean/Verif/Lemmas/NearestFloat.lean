import Verif.Lemmas.IeeeBounds
import Verif.Lemmas.Except
import Verif.Model.Assign
/-!
# The search of the nearest centre, for one centre and with rounding

The search structure of a single centre has one cell, whatever the rounding, and any point that is not too far
away is assigned to that centre.
-/
open Flt Ieee
namespace Ieee
variable {T : Type} [Flt T] [Ieee T]

/-- The coordinates of `v` are finite and of size at most `2^k`. -/
def Vz (v : Vec3 T) (k : ℤ) : Prop := Sz v.x k ∧ Sz v.y k ∧ Sz v.z k

/-- The search structure of one centre. -/
def oneCenter (c : Vec3 T) (lo : Vec3 T) (dx dy dz : T) : Assigner T :=
  { nx := 1, ny := 1, nz := 1, dx := dx, dy := dy, dz := dz, corner := lo, centers := [c]
    grid := [⟨false, [0]⟩], floodQueue := [], wetList := [] }

theorem axis_fin {r corner d : T} {k : ℤ} (hk : 0 ≤ k ∧ k ≤ 50) (hr : Sz r k) (hc : Sz corner k) (hd : IsFin d 1) :
    Assigner.axisIdx r corner d 1 = .ok 0 := by
  obtain ⟨x, hx, x0, x1⟩ := hr.sub hc (by omega) (by omega)
  have h1 : IsFin ((r -. corner) /. d) x := by
    have := hx.div hd one_ne_zero (by rw [div_one]; exact hx.rep)
    rwa [div_one] at this
  have h2 := fin_max (val_floor _ _ h1) (fin_zero (T := T))
  have hlt : Max.max ((⌊x⌋ : ℤ) : ℝ) 0 < 2 ^ 64 := by
    refine max_lt ?_ (by positivity)
    refine lt_of_le_of_lt (Int.floor_le x) (lt_of_le_of_lt x1 ?_)
    have : (2 : ℝ) ^ (k + 1) < 2 ^ (64 : ℤ) := zpow_lt_zpow_right₀ (by norm_num) (by omega)
    exact_mod_cast this
  have h3 := toUsize_eq _ _ h2 (le_max_right _ _) hlt
  unfold Assigner.axisIdx
  rw [h3]
  simp [unwrap, bind, Except.bind, pure, Except.pure]

theorem oneCenter_tuple {c lo r : Vec3 T} {dx dy dz : T} {k : ℤ} (hk : 0 ≤ k ∧ k ≤ 50) (hr : Vz r k) (hlo : Vz lo k)
    (hx : IsFin dx 1) (hy : IsFin dy 1) (hz : IsFin dz 1) (a : Assigner T)
    (ha : a.nx = 1 ∧ a.ny = 1 ∧ a.nz = 1 ∧ a.dx = dx ∧ a.dy = dy ∧ a.dz = dz ∧ a.corner = lo) :
    a.whichCellTuple r = .ok (0, 0, 0) := by
  obtain ⟨h1, h2, h3, h4, h5, h6, h7⟩ := ha
  unfold Assigner.whichCellTuple
  rw [h1, h2, h3, h4, h5, h6, h7, axis_fin hk hr.1 hlo.1 hx, axis_fin hk hr.2.1 hlo.2.1 hy,
    axis_fin hk hr.2.2 hlo.2.2 hz]
  rfl

theorem one_new {c : Vec3 T} {k : ℤ} (hk : 0 ≤ k ∧ k ≤ 50) (hc : Vz c k) :
    ∃ lo dx dy dz, Assigner.new [c] = .ok (oneCenter c lo dx dy dz) ∧ Vz lo k ∧ IsFin dx 1 ∧ IsFin dy 1 ∧
      IsFin dz 1 := by
  obtain ⟨⟨x, hx, bx⟩, ⟨y, hy, by'⟩, ⟨z, hz, bz⟩⟩ := hc
  have len : ∀ {t : T} {v : ℝ}, IsFin t v → IsFin (Flt.max one (Flt.max t t -. Flt.min t t)) 1 := by
    intro t v ht
    have a1 := fin_max ht ht
    have a2 := fin_min ht ht
    rw [max_self] at a1
    rw [min_self] at a2
    have a3 := a1.sub a2 (by rw [sub_self]; exact rep_zero)
    have a4 := fin_max fin_one a3
    rwa [sub_self, max_eq_left zero_le_one] at a4
  have lx := len hx
  have ly := len hy
  have lz := len hz
  have hmul : ∀ {t u : T} {v : ℝ} (_ : IsFin t v) (_ : IsFin u 1), IsFin (t *. u) v := by
    intro t u v ht hu
    have := ht.mul hu (by rw [mul_one]; exact ht.rep)
    rwa [mul_one] at this
  have h5 := hmul (hmul (hmul (fin_ofNat (T := T) (n := 5) (by norm_num)) lx) ly) lz
  obtain ⟨q, hq, q0, q1⟩ := Bd.div (IsFin.bd (fin_one (T := T))) (IsFin.bd h5) rep_zero rep_one (by norm_num)
    (by norm_num) (by norm_num) (by norm_num) le_rfl
  obtain ⟨w, hw, w0, w1⟩ := val_cbrt _ _ hq q0 q1
  have num : ∀ {u : T}, IsFin u 1 → IsFin (Flt.max one (Flt.floor (Flt.cbrt (one /.
      (Flt.ofNat 5 *. Flt.max one (Flt.max c.x c.x -. Flt.min c.x c.x) *.
        Flt.max one (Flt.max c.y c.y -. Flt.min c.y c.y) *.
        Flt.max one (Flt.max c.z c.z -. Flt.min c.z c.z))) *. u))) 1 := by
    intro u hu
    have a1 := fin_max (fin_one (T := T)) (val_floor _ _ (hmul hw hu))
    have : ((⌊w⌋ : ℤ) : ℝ) ≤ 1 := (Int.floor_le w).trans w1
    rwa [max_eq_left this] at a1
  have nx := num lx
  have ny := num ly
  have nz := num lz
  have one' : ∀ {t : T}, IsFin t 1 → Flt.toUsize t = some 1 := by
    intro t ht
    rw [toUsize_eq _ _ ht zero_le_one (by norm_num)]
    simp
  have d1 : ∀ {t u : T}, IsFin t 1 → IsFin u 1 → IsFin (t /. u) 1 := by
    intro t u ht hu
    have := ht.div hu one_ne_zero (by rw [div_one]; exact rep_one)
    rwa [div_one] at this
  have hlo : Vz (⟨Flt.min c.x c.x, Flt.min c.y c.y, Flt.min c.z c.z⟩ : Vec3 T) k := by
    refine ⟨⟨x, ?_, bx⟩, ⟨y, ?_, by'⟩, ⟨z, ?_, bz⟩⟩
    · have := fin_min hx hx; rwa [min_self] at this
    · have := fin_min hy hy; rwa [min_self] at this
    · have := fin_min hz hz; rwa [min_self] at this
  refine ⟨_, _, _, _, ?_, hlo, d1 lx nx, d1 ly ny, d1 lz nz⟩
  unfold Assigner.new
  rw [show idx [c] 0 = .ok c from rfl]
  simp only [bind, Except.bind, List.foldl_cons, List.foldl_nil, List.length_singleton]
  rw [show (Flt.ofNat 1 : T) = one from rfl]
  rw [one' (hmul (hmul nx ny) nz), one' nx, one' ny, one' nz]
  simp only [unwrap, List.zipIdx_cons, List.zipIdx_nil, Assigner.register, bind, Except.bind, Assigner.whichCell]
  rw [oneCenter_tuple (c := c) hk ⟨⟨x, hx, bx⟩, ⟨y, hy, by'⟩, ⟨z, hz, bz⟩⟩ hlo (d1 lx nx) (d1 ly ny) (d1 lz nz) _
    ⟨rfl, rfl, rfl, rfl, rfl, rfl, rfl⟩]
  rfl

theorem one_nearest {c lo r : Vec3 T} {dx dy dz : T} {k : ℤ} (hk : 0 ≤ k ∧ k ≤ 47) (hc : Vz c k) (hr : Vz r k)
    (hlo : Vz lo k) (hx : IsFin dx 1) (hy : IsFin dy 1) (hz : IsFin dz 1) :
    (oneCenter c lo dx dy dz).nearestCenter r = .ok (0, oneCenter c lo dx dy dz) := by
  have ht : ∀ a : Assigner T,
      (a.nx = 1 ∧ a.ny = 1 ∧ a.nz = 1 ∧ a.dx = dx ∧ a.dy = dy ∧ a.dz = dz ∧ a.corner = lo) →
      a.whichCellTuple r = .ok (0, 0, 0) :=
    fun a ha => oneCenter_tuple (c := c) (by omega) hr hlo hx hy hz a ha
  have z1 : ∀ {t : T}, IsFin t 1 → IsFin (t *. Flt.ofNat 0) 0 := by
    intro t ht
    have := ht.mul (fin_zero (T := T)) (by rw [mul_zero]; exact rep_zero)
    rwa [mul_zero] at this
  have zx := z1 hx
  have zy := z1 hy
  have zz := z1 hz
  have sq : ∀ {t : T}, IsFin t 0 → IsFin (t *. t) 0 := by
    intro t ht
    have := ht.mul ht (by rw [mul_zero]; exact rep_zero)
    rwa [mul_zero] at this
  have hd0 : IsFin (dx *. Flt.ofNat 0 *. (dx *. Flt.ofNat 0) +. dy *. Flt.ofNat 0 *. (dy *. Flt.ofNat 0) +.
      dz *. Flt.ofNat 0 *. (dz *. Flt.ofNat 0)) 0 := by
    have a1 := (sq zx).add (sq zy) (by rw [add_zero]; exact rep_zero)
    have a2 := a1.add (sq zz) (by rw [add_zero, add_zero]; exact rep_zero)
    rwa [add_zero, add_zero] at a2
  have hge : ∀ {t : T}, IsFin t 0 → (t >=. zero) = true := fun ht => (le_fin fin_zero ht).2 le_rfl
  -- the squared distance
  obtain ⟨d, hd, _, d1⟩ : Bd ((r.sub c).dot (r.sub c)) 0 (2 ^ (2 * k + 4)) := by
    have s1 := (hr.1.sub hc.1 (by omega) (by omega)).sq_nonneg (by omega) (by omega)
    have s2 := (hr.2.1.sub hc.2.1 (by omega) (by omega)).sq_nonneg (by omega) (by omega)
    have s3 := (hr.2.2.sub hc.2.2 (by omega) (by omega)).sq_nonneg (by omega) (by omega)
    have e1 : (2 : ℝ) ^ (2 * k + 3) = 2 ^ (k + 1 + (k + 1)) + 2 ^ (k + 1 + (k + 1)) := by
      rw [← two_zpow_succ]; congr 1; ring
    have e2 : (2 : ℝ) ^ (2 * k + 4) = 2 ^ (2 * k + 3) + 2 ^ (2 * k + 3) := by
      rw [← two_zpow_succ]; congr 1; ring
    have p : (0 : ℝ) < 2 ^ (k + 1 + (k + 1)) := by positivity
    have s4 := s1.add s2 rep_zero (rep_two_pow (k := 2 * k + 3) (by omega) (by omega)) (by simp) e1.ge
    exact s4.add s3 rep_zero (rep_two_pow (by omega) (by omega)) (by simp) (by rw [e2, e1]; linarith)
  have hfar : ∃ y : EReal, val (Flt.lit 1 300 : T) = some y ∧ ((2 ^ (100 : ℤ) : ℝ) : EReal) ≤ y := by
    refine ⟨_, val_lit 1 300, ?_⟩
    have h := rndLit_exact (T := T) 1 100 (by norm_num) (by norm_num) (by norm_num)
    simp only [Nat.cast_one, one_mul] at h ⊢
    rw [← h]
    refine rndLit_mono (EReal.coe_le_coe_iff.2 ?_)
    have a1 : (2 : ℝ) ^ (100 : ℤ) ≤ 10 ^ (100 : ℤ) := zpow_le_zpow_left₀ (by norm_num) (by norm_num) (by norm_num)
    exact a1.trans (zpow_le_zpow_right₀ (by norm_num) (by norm_num))
  obtain ⟨far, hf, hf1⟩ := hfar
  have hnotgt : ((dx *. Flt.ofNat 0 *. (dx *. Flt.ofNat 0) +. dy *. Flt.ofNat 0 *. (dy *. Flt.ofNat 0) +.
      dz *. Flt.ofNat 0 *. (dz *. Flt.ofNat 0)) >. (Flt.lit 1 300 : T)) = false := by
    rw [← Bool.not_eq_true]
    intro h
    obtain ⟨u, v, hu, hv, huv⟩ := (lt_iff _ _).1 h
    rw [hf] at hu
    rw [hd0] at hv
    cases hu
    cases hv
    have : ((2 ^ (100 : ℤ) : ℝ) : EReal) < ((0 : ℝ) : EReal) := lt_of_le_of_lt hf1 huv
    have := EReal.coe_lt_coe_iff.1 this
    have p : (0 : ℝ) < 2 ^ (100 : ℤ) := by positivity
    linarith
  have hlt : ((r.sub c).dot (r.sub c) <. (Flt.lit 1 300 : T)) = true := by
    refine (lt_iff _ _).2 ⟨_, _, hd, hf, lt_of_lt_of_le ?_ hf1⟩
    rw [EReal.coe_lt_coe_iff]
    have p : (2 : ℝ) ^ (2 * k + 4) < 2 ^ (100 : ℤ) := zpow_lt_zpow_right₀ (by norm_num) (by omega)
    exact lt_of_le_of_lt d1 p
  have hmin : ∀ a : Assigner T,
      (a.nx = 1 ∧ a.ny = 1 ∧ a.nz = 1 ∧ a.dx = dx ∧ a.dy = dy ∧ a.dz = dz ∧ a.corner = lo) →
      a.minDist2 r 0 = .ok (dx *. Flt.ofNat 0 *. (dx *. Flt.ofNat 0) +. dy *. Flt.ofNat 0 *. (dy *. Flt.ofNat 0) +.
      dz *. Flt.ofNat 0 *. (dz *. Flt.ofNat 0)) := by
    intro a ha
    unfold Assigner.minDist2
    rw [ht a ha]
    obtain ⟨h1, h2, h3, h4, h5, h6, _⟩ := ha
    have g0 : Assigner.gap 0 0 = 0 := rfl
    have as : ∀ {t : T}, IsFin t 0 → assertB (t >=. zero) = .ok () := fun ht => by rw [hge ht]; rfl
    simp only [bind, Except.bind, Assigner.indexToTuple, Nat.zero_mod, Nat.zero_div, h4, h5, h6, g0,
      as zx, as zy, as zz, pure, Except.pure]
  unfold Assigner.nearestCenter
  rw [ht _ ⟨rfl, rfl, rfl, rfl, rfl, rfl, rfl⟩]
  have hadd : (oneCenter c lo dx dy dz).addTuple (0, 0, 0) =
      .ok { oneCenter c lo dx dy dz with floodQueue := [0], wetList := [0], grid := [⟨true, [0]⟩] } := rfl
  simp only [bind, Except.bind]
  rw [hadd]
  simp only [bind, Except.bind, List.length_singleton]
  unfold Assigner.searchLoop
  simp only [bind, Except.bind]
  rw [hmin _ ⟨rfl, rfl, rfl, rfl, rfl, rfl, rfl⟩]
  simp only [bind, Except.bind]
  rw [hnotgt]
  have hi : idx [(⟨true, [0]⟩ : GridCell)] 0 = .ok ⟨true, [0]⟩ := rfl
  have hi2 : idx (oneCenter c lo dx dy dz).centers 0 = .ok c := rfl
  simp only [Bool.false_eq_true, if_false, hi, Assigner.scanCenters, bind, Except.bind, hi2, hlt, if_true]
  have hn : ∀ a : Assigner T, a.nx = 1 ∧ a.ny = 1 ∧ a.nz = 1 → a.addNbrs 0 = .ok a := by
    intro a ha
    unfold Assigner.addNbrs
    simp [Assigner.nbrTuples, Assigner.indexToTuple, ha.1, ha.2.1, ha.2.2]
    rfl
  rw [hn _ ⟨rfl, rfl, rfl⟩]
  simp only
  unfold Assigner.searchLoop
  rfl

end Ieee
