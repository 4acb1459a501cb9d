import Verif.Lemmas.StartRounded
import Mathlib.Tactic.IntervalCases
/-!
# The mesh of the built-in problem, with rounding

The sizes of the default mesh are small integers, so nothing is rounded.
-/
open Flt Ieee GridSpec MeshSpec
attribute [local irreducible] Rng.lcg Rng.sample Rng.spawn
set_option linter.unusedSectionVars false

namespace Flooding
variable {T : Type} [Flt T] [Ieee T]

/-- A small integer, exactly. -/
def Ib (a : T) (m p : ℤ) : Prop := IsI a m ∧ |m| ≤ p

theorem Ib.add {a b : T} {m n p q : ℤ} (ha : Ib a m p) (hb : Ib b n q) (h : p + q ≤ 2 ^ 24) :
    Ib (a +. b) (m + n) (p + q) := by
  have := (abs_add_le m n).trans (add_le_add ha.2 hb.2)
  exact ⟨ha.1.add hb.1 (this.trans h), this⟩

theorem Ib.sub {a b : T} {m n p q : ℤ} (ha : Ib a m p) (hb : Ib b n q) (h : p + q ≤ 2 ^ 24) :
    Ib (a -. b) (m - n) (p + q) := by
  have := (abs_sub m n).trans (add_le_add ha.2 hb.2)
  exact ⟨ha.1.sub hb.1 (this.trans h), this⟩

theorem Ib.mul {a b : T} {m n p q : ℤ} (ha : Ib a m p) (hb : Ib b n q) (h : p * q ≤ 2 ^ 24) :
    Ib (a *. b) (m * n) (p * q) := by
  have : |m * n| ≤ p * q := by
    rw [abs_mul]
    exact mul_le_mul ha.2 hb.2 (abs_nonneg _) ((abs_nonneg _).trans ha.2)
  exact ⟨ha.1.mul hb.1 (this.trans h), this⟩

theorem sum_isI {l : List (T × ℤ)} (h : ∀ a ∈ l, IsI a.1 a.2 ∧ 0 ≤ a.2 ∧ a.2 ≤ 1000) (hl : l.length ≤ 1000) :
    IsI (Flt.sum (l.map (·.1))) (l.map (·.2)).sum := by
  have : ∀ (l : List (T × ℤ)) (s : T) (m : ℤ) (n : ℕ), (∀ a ∈ l, IsI a.1 a.2 ∧ 0 ≤ a.2 ∧ a.2 ≤ 1000) →
      IsI s m → 0 ≤ m → m ≤ 1000 * n → n + l.length ≤ 1000 →
      IsI ((l.map (·.1)).foldl Flt.add s) (m + (l.map (·.2)).sum) := by
    intro l
    induction l with
    | nil => intro s m n _ hs _ _ _; simpa using hs
    | cons a l ih =>
      intro s m n h hs h0 h1 hn
      rw [List.length_cons] at hn
      obtain ⟨a1, a2, a3⟩ := h a (by simp)
      have := ih (s +. a.1) (m + a.2) (n + 1) (fun x hx => h x (by simp [hx])) (hs.add a1 (by
        rw [abs_of_nonneg (by omega)]; omega)) (by omega) (by push_cast; omega) (by omega)
      rw [List.map_cons, List.map_cons, List.sum_cons, List.foldl_cons, ← add_assoc]
      exact this
  have := this l zero 0 0 h isI_zero le_rfl (by norm_num) (by omega)
  rw [zero_add] at this
  exact this

/-- A mesh of ten by ten by ten cells of size ten. -/
structure TenGrid (g : Grid T) : Prop where
  counts : g.nx = 10 ∧ g.ny = 10 ∧ g.nz = 10
  dx : IsI g.dx 10
  dy : IsI g.dy 10
  dz : IsI g.dz 10

/-- The position of a point of a cell with respect to the centre of the cell. -/
def relOf (o : Nat × Nat × Nat × Nat) : ℤ × ℤ × ℤ :=
  (10 * o.1 - (if o.2.2.2 = 2 ∨ o.2.2.2 = 3 then 0 else 5), 10 * o.2.1 - (if o.2.2.2 = 1 ∨ o.2.2.2 = 3 then 0 else 5),
    10 * o.2.2.1 - (if o.2.2.2 = 1 ∨ o.2.2.2 = 2 then 0 else 5))

theorem relOf_small : ∀ o ∈ cornerOffset, |(relOf o).1| ≤ 5 ∧ |(relOf o).2.1| ≤ 5 ∧ |(relOf o).2.2| ≤ 5 := by decide

variable {g : Grid T}

theorem ten_half {d : T} (h : IsI d 10) : IsI (d /. two) 5 := h.div isI_two (by norm_num) (by norm_num) (by norm_num)

theorem ten_coord {d : T} {k : ℕ} (h : IsI d 10) (hk : k ≤ 11) : IsI (Flt.ofNat k *. d) (k * 10) := by
  refine (isI_ofNat (by omega)).mul h ?_
  rw [abs_of_nonneg (by omega)]; omega

theorem ten_point {a b : T} {k : ℕ} {m : ℤ} (ha : IsI a (k * 10)) (hb : IsI b m) (hm : |m| ≤ 5) (hk : k ≤ 11) :
    IsI (a +. b) (k * 10 + m) := by
  refine ha.add hb ?_
  rw [abs_le] at hm ⊢
  omega

/-- Three integer coordinates, exactly. -/
def Iv (v : Vec3 T) (x y z : ℤ) : Prop := IsI v.x x ∧ IsI v.y y ∧ IsI v.z z

theorem TenGrid.offset (h : TenGrid g) {k : Nat} (hk : k < 4) :
    Iv (g.basisOffset.getD k Vec3.zero) (if k = 2 ∨ k = 3 then 5 else 0) (if k = 1 ∨ k = 3 then 5 else 0)
      (if k = 1 ∨ k = 2 then 5 else 0) := by
  have hx := ten_half h.dx
  have hy := ten_half h.dy
  have hz := ten_half h.dz
  interval_cases k
  · exact ⟨isI_zero, isI_zero, isI_zero⟩
  · exact ⟨isI_zero, hy, hz⟩
  · exact ⟨hx, isI_zero, hz⟩
  · exact ⟨hx, hy, isI_zero⟩

theorem TenGrid.point (h : TenGrid g) {t : Nat × Nat × Nat} (h1 : t.1 ≤ 10) (h2 : t.2.1 ≤ 10) (h3 : t.2.2 ≤ 10)
    {o : Nat × Nat × Nat × Nat} (ho : o ∈ cornerOffset) :
    Iv (pointOf g t o) (10 * t.1 + 5 + (relOf o).1) (10 * t.2.1 + 5 + (relOf o).2.1) (10 * t.2.2 + 5 + (relOf o).2.2) := by
  have hb : o.1 ≤ 1 ∧ o.2.1 ≤ 1 ∧ o.2.2.1 ≤ 1 ∧ o.2.2.2 < 4 := by revert o; decide
  obtain ⟨b1, b2, b3, b4⟩ := hb
  obtain ⟨x, y, z⟩ := h.offset b4
  have key : ∀ {d b : T} {k j : ℕ} {P : Prop} [Decidable P], IsI d 10 → IsI b (if P then 5 else 0) → k + j ≤ 11 →
      IsI (Flt.ofNat (k + j) *. d +. b) (10 * (k : ℤ) + 5 + (10 * (j : ℤ) - (if P then 0 else 5))) := by
    intro d b k j P _ hd hb hk
    have := ten_point (ten_coord hd hk) hb (by split <;> norm_num) hk
    have e : ((k + j : ℕ) : ℤ) * 10 + (if P then 5 else 0) = 10 * (k : ℤ) + 5 + (10 * (j : ℤ) - (if P then 0 else 5)) := by
      split <;> push_cast <;> ring
    rwa [e] at this
  exact ⟨key h.dx x (by omega), key h.dy y (by omega), key h.dz z (by omega)⟩

theorem TenGrid.tuple (h : TenGrid g) {c : Nat} (hc : c < cells g) : (g.cellIdxToTuple c).1 ≤ 9 ∧
    (g.cellIdxToTuple c).2.1 ≤ 9 ∧ (g.cellIdxToTuple c).2.2 ≤ 9 := by
  obtain ⟨a1, a2, a3⟩ := Grid.idx_inGrid hc
  obtain ⟨n1, n2, n3⟩ := h.counts
  omega

theorem ten_mean {f : Nat × Nat × Nat × Nat → T} {k : ℕ} {r : Nat × Nat × Nat × Nat → ℤ} (hk : k ≤ 9)
    (hf : ∀ o ∈ cornerOffset, IsI (f o) (10 * k + 5 + r o)) (hr : ∀ o ∈ cornerOffset, |r o| ≤ 5)
    (h0 : (cornerOffset.map r).sum = 0) : IsI (Flt.sum (cornerOffset.map f) /. Flt.ofNat 14) (10 * k + 5) := by
  have h1 := sum_isI (l := cornerOffset.map fun o => (f o, 10 * (k : ℤ) + 5 + r o)) (by
    intro a ha
    obtain ⟨o, ho, rfl⟩ := List.mem_map.1 ha
    have := abs_le.1 (hr o ho)
    exact ⟨hf o ho, by dsimp only; omega, by dsimp only; omega⟩) (by rw [List.length_map]; decide)
  rw [List.map_map, List.map_map] at h1
  have e1 : cornerOffset.map ((·.1) ∘ fun o => (f o, 10 * (k : ℤ) + 5 + r o)) = cornerOffset.map f := rfl
  have e2 : (cornerOffset.map ((·.2) ∘ fun o => (f o, 10 * (k : ℤ) + 5 + r o))).sum = (10 * (k : ℤ) + 5) * 14 := by
    have : cornerOffset.map ((·.2) ∘ fun o => (f o, 10 * (k : ℤ) + 5 + r o)) =
        cornerOffset.map fun o => 10 * (k : ℤ) + 5 + r o := rfl
    rw [this, List.sum_map_add, h0]
    simp only [List.map_const', List.sum_replicate]
    show (14 : ℕ) • _ + 0 = _
    simp; ring
  rw [e1, e2] at h1
  exact h1.div (isI_ofNat (n := 14) (by norm_num)) (by norm_num) (by push_cast; ring) (by
    rw [abs_of_nonneg (by omega)]; omega)

/-- The centre of every cell is exact. -/
theorem TenGrid.mean (h : TenGrid g) {c : Nat} (hc : c < cells g) : ∃ r, g.meanPoint c = .ok r ∧
    Iv r (10 * (g.cellIdxToTuple c).1 + 5) (10 * (g.cellIdxToTuple c).2.1 + 5) (10 * (g.cellIdxToTuple c).2.2 + 5) := by
  obtain ⟨t1, t2, t3⟩ := h.tuple hc
  have hp := fun o (ho : o ∈ cornerOffset) =>
    h.point (t := g.cellIdxToTuple c) (by omega) (by omega) (by omega) ho
  rw [meanPoint_eq hc, sdiv_of (fin_ofNat (T := T) (n := 14) (by norm_num)) (by norm_num)]
  refine ⟨_, rfl, ?_, ?_, ?_⟩
  · dsimp only
    rw [(vec_sum_x _).1]
    unfold pointsOf
    rw [List.map_map]
    exact ten_mean t1 (fun o ho => (hp o ho).1) (fun o ho => (relOf_small o ho).1) (by decide)
  · dsimp only
    rw [(vec_sum_x _).2.1]
    unfold pointsOf
    rw [List.map_map]
    exact ten_mean t2 (fun o ho => (hp o ho).2.1) (fun o ho => (relOf_small o ho).2.1) (by decide)
  · dsimp only
    rw [(vec_sum_x _).2.2]
    unfold pointsOf
    rw [List.map_map]
    exact ten_mean t3 (fun o ho => (hp o ho).2.2) (fun o ho => (relOf_small o ho).2.2) (by decide)

/-- Six times the volume of the tetrahedron of three points and the centre. -/
def tripleOf (a b c : ℤ × ℤ × ℤ) : ℤ :=
  a.1 * (b.2.1 * c.2.2 - b.2.2 * c.2.1) + a.2.1 * (b.2.2 * c.1 - b.1 * c.2.2) + a.2.2 * (b.1 * c.2.1 - b.2.1 * c.1)

/-- The volume of every cell is exact. -/
theorem TenGrid.volume (h : TenGrid g) {c : Nat} (hc : c < cells g) {r : Vec3 T} (hr : g.meanPoint c = .ok r) :
    IsI (volumeOf g c r) 1000 := by
  obtain ⟨t1, t2, t3⟩ := h.tuple hc
  obtain ⟨r', hr', m1, m2, m3⟩ := h.mean hc
  rw [hr] at hr'
  cases hr'
  have hrel : ∀ m < 14, Ib ((pointOf g (g.cellIdxToTuple c) (cornerOffset.getD m (0, 0, 0, 0))).sub r).x
        (relOf (cornerOffset.getD m (0, 0, 0, 0))).1 5 ∧
      Ib ((pointOf g (g.cellIdxToTuple c) (cornerOffset.getD m (0, 0, 0, 0))).sub r).y
        (relOf (cornerOffset.getD m (0, 0, 0, 0))).2.1 5 ∧
      Ib ((pointOf g (g.cellIdxToTuple c) (cornerOffset.getD m (0, 0, 0, 0))).sub r).z
        (relOf (cornerOffset.getD m (0, 0, 0, 0))).2.2 5 := by
    intro m hm
    have ho := corner_mem hm
    obtain ⟨p1, p2, p3⟩ := h.point (t := g.cellIdxToTuple c) (by omega) (by omega) (by omega) ho
    obtain ⟨s1, s2, s3⟩ := relOf_small _ ho
    have key : ∀ {a b : T} {k z : ℤ}, IsI a (k + z) → IsI b k → |z| ≤ 5 → Ib (a -. b) z 5 := by
      intro a b k z ha hb hz
      have e : k + z - k = z := by ring
      have := ha.sub hb (by rw [e]; omega)
      rw [e] at this
      exact ⟨this, hz⟩
    exact ⟨key p1 m1 s1, key p2 m2 s2, key p3 m3 s3⟩
  have hfac : ∀ n ∈ nodeIndirect, IsI (Flt.abs (computeVolume
      (pointOf g (g.cellIdxToTuple c) (cornerOffset.getD n.1 (0, 0, 0, 0)))
      (pointOf g (g.cellIdxToTuple c) (cornerOffset.getD n.2.1 (0, 0, 0, 0)))
      (pointOf g (g.cellIdxToTuple c) (cornerOffset.getD n.2.2 (0, 0, 0, 0))) r)) 250 := by
    intro n hn
    have hlt : ∀ n ∈ nodeIndirect, n.1 < 14 ∧ n.2.1 < 14 ∧ n.2.2 < 14 ∧
        |tripleOf (relOf (cornerOffset.getD n.1 (0, 0, 0, 0))) (relOf (cornerOffset.getD n.2.1 (0, 0, 0, 0)))
          (relOf (cornerOffset.getD n.2.2 (0, 0, 0, 0)))| = 250 := by decide
    obtain ⟨l1, l2, l3, l4⟩ := hlt n hn
    obtain ⟨a1, a2, a3⟩ := hrel _ l1
    obtain ⟨b1, b2, b3⟩ := hrel _ l2
    obtain ⟨c1, c2, c3⟩ := hrel _ l3
    rw [← l4]
    refine IsI.abs (Ib.add (Ib.add (a1.mul (Ib.sub (b2.mul c3 ?_) (b3.mul c2 ?_) ?_) ?_)
      (a2.mul (Ib.sub (b3.mul c1 ?_) (b1.mul c3 ?_) ?_) ?_) ?_)
      (a3.mul (Ib.sub (b1.mul c2 ?_) (b2.mul c1 ?_) ?_) ?_) ?_).1 <;> norm_num
  have hs := sum_isI (l := nodeIndirect.map fun n => (Flt.abs (computeVolume
      (pointOf g (g.cellIdxToTuple c) (cornerOffset.getD n.1 (0, 0, 0, 0)))
      (pointOf g (g.cellIdxToTuple c) (cornerOffset.getD n.2.1 (0, 0, 0, 0)))
      (pointOf g (g.cellIdxToTuple c) (cornerOffset.getD n.2.2 (0, 0, 0, 0))) r), (250 : ℤ))) (by
    intro a ha
    obtain ⟨n, hn, rfl⟩ := List.mem_map.1 ha
    exact ⟨hfac n hn, by norm_num, by norm_num⟩) (by rw [List.length_map]; decide)
  rw [List.map_map, List.map_map] at hs
  have e2 : (nodeIndirect.map ((·.2) ∘ fun n => (Flt.abs (computeVolume
      (pointOf g (g.cellIdxToTuple c) (cornerOffset.getD n.1 (0, 0, 0, 0)))
      (pointOf g (g.cellIdxToTuple c) (cornerOffset.getD n.2.1 (0, 0, 0, 0)))
      (pointOf g (g.cellIdxToTuple c) (cornerOffset.getD n.2.2 (0, 0, 0, 0))) r), (250 : ℤ)))).sum = 6000 := by
    have : ∀ l : List (Nat × Nat × Nat), (l.map ((·.2) ∘ fun n => (Flt.abs (computeVolume
      (pointOf g (g.cellIdxToTuple c) (cornerOffset.getD n.1 (0, 0, 0, 0)))
      (pointOf g (g.cellIdxToTuple c) (cornerOffset.getD n.2.1 (0, 0, 0, 0)))
      (pointOf g (g.cellIdxToTuple c) (cornerOffset.getD n.2.2 (0, 0, 0, 0))) r), (250 : ℤ)))).sum = 250 * l.length := by
      intro l
      induction l with
      | nil => rfl
      | cons a l ih => rw [List.map_cons, List.sum_cons, ih]; simp; ring
    rw [this]; rfl
  rw [e2] at hs
  exact IsI.div hs (isI_ofNat (n := 6) (by norm_num)) (by norm_num) (by norm_num) (by norm_num)

/-- The centre drawn from this state of the generator is in the grid. -/
theorem TenGrid.root (h : TenGrid g) {s : BitVec 64} (h1 : (Rng.lcg s).toNat ≤ 15 * 2 ^ 60)
    (h2 : (Rng.lcg (Rng.lcg s)).toNat ≤ 15 * 2 ^ 60) (h3 : (Rng.lcg (Rng.lcg (Rng.lcg s))).toNat ≤ 15 * 2 ^ 60)
    {c0 : Vec3 T} {root : Nat} (hc : initCenters g 1 s = .ok [c0]) (hr : g.whichCell c0 = .ok root) :
    root < cells g := by
  obtain ⟨n1, n2, n3⟩ := h.counts
  have hsam : ∀ s, Rng.sample (T := T) s = (Flt.ofSeed (Rng.lcg s), Rng.lcg s) := fun s => by
    unfold Rng.sample; rfl
  have hdraw : ∀ {w : BitVec 64}, w.toNat ≤ 15 * 2 ^ 60 →
      ∃ k ≤ 9, unwrap (Flt.toUsize (Flt.floor ((Flt.ofSeed w : T) *. Flt.ofNat 10))) = .ok k := by
    intro w hw
    obtain ⟨x, hx, x1⟩ := ofSeed_le (T := T) w (15 * 2 ^ 20) (by norm_num) (hw.trans (by norm_num))
    obtain ⟨x', hx', x0, _⟩ := fin_sample (T := T) w
    have : x' = x := IsFin.inj hx' hx
    subst this
    have hb : Bd (Flt.ofSeed w : T) 0 (15 / 16) := ⟨x', hx', x0, x1.trans (by norm_num)⟩
    have r : Rep T ((75 : ℕ) * (2 : ℝ) ^ (-3 : ℤ)) := rep_scaled (by norm_num) (by norm_num) (by norm_num)
    obtain ⟨z, hz, z0, z1⟩ := hb.mul (IsFin.bd (fin_ofNat (T := T) (n := 10) (by norm_num))) rep_zero r le_rfl
      (by norm_num) (by norm_num) (by norm_num)
    have z2 : z < 10 := lt_of_le_of_lt z1 (by norm_num)
    have hf := val_floor _ _ hz
    have f0 : (0 : ℝ) ≤ ((⌊z⌋ : ℤ) : ℝ) := by exact_mod_cast Int.floor_nonneg.2 z0
    have f1 : ⌊z⌋ < 10 := Int.floor_lt.2 (by exact_mod_cast z2)
    have f2 : ((⌊z⌋ : ℤ) : ℝ) < 10 := by exact_mod_cast f1
    rw [toUsize_eq _ _ hf f0 (lt_trans f2 (by norm_num))]
    refine ⟨_, ?_, rfl⟩
    have : ⌊((⌊z⌋ : ℤ) : ℝ)⌋₊ < 10 := (Nat.floor_lt f0).2 (by exact_mod_cast f1)
    omega
  obtain ⟨x, x9, hx⟩ := hdraw h1
  obtain ⟨y, y9, hy⟩ := hdraw h2
  obtain ⟨z, z9, hz⟩ := hdraw h3
  have hlt : g.cellTupleToIdx (x, y, z) < cells g := by
    unfold Grid.cellTupleToIdx cells
    rw [n1, n2, n3]
    dsimp only
    omega
  generalize hi : g.cellTupleToIdx (x, y, z) = i at hlt
  have hcc : initCenters g 1 s = (do let c ← g.cellCenter i; return [c]) := by
    unfold initCenters randomCenter
    simp only [hsam, n1, n2, n3, hx, hy, hz, hi, bind, Except.bind]
    cases g.cellCenter i <;> rfl
  rw [hcc] at hc
  have hc0 : g.cellCenter i = .ok c0 := by
    obtain ⟨c, e1, e2⟩ := bind_ok.1 hc
    cases pure_ok.1 e2
    exact e1
  obtain ⟨t1, t2, t3⟩ := h.tuple hlt
  have hcen : Iv c0 (10 * (g.cellIdxToTuple i).1 + 5) (10 * (g.cellIdxToTuple i).2.1 + 5)
      (10 * (g.cellIdxToTuple i).2.2 + 5) := by
    have hp := h.point (t := g.cellIdxToTuple i) (by omega) (by omega) (by omega) (o := (0, 0, 0, 0)) (by decide)
    have : g.cellCenter i = .ok ((pointOf g (g.cellIdxToTuple i) (0, 0, 0, 0)).add ⟨g.dx /. two, g.dy /. two, g.dz /. two⟩) := rfl
    rw [this] at hc0
    cases hc0
    have key : ∀ {a d : T} {k : ℕ}, k ≤ 9 → IsI a (10 * k + 5 + (-5)) → IsI d 10 → IsI (a +. d /. two) (10 * k + 5) := by
      intro a d k hk ha hd
      have := ha.add (ten_half hd) (by rw [abs_of_nonneg (by omega)]; omega)
      have e : 10 * (k : ℤ) + 5 + -5 + 5 = 10 * k + 5 := by ring
      rwa [e] at this
    exact ⟨key t1 hp.1 h.dx, key t2 hp.2.1 h.dy, key t3 hp.2.2 h.dz⟩
  have hax : ∀ {a d : T} {k : ℕ}, k ≤ 9 → IsI a (10 * k + 5) → IsI d 10 → unwrap (Flt.toUsize (a /. d)) = .ok k := by
    intro a d k hk ha hd
    have e : (((10 * (k : ℤ) + 5 : ℤ) : ℝ)) / ((10 : ℤ) : ℝ) = ((2 * k + 1 : ℕ) : ℝ) * 2 ^ (-1 : ℤ) := by
      push_cast; norm_num; ring
    have hk' : (k : ℝ) ≤ 9 := by exact_mod_cast hk
    have hq := IsFin.div ha hd (by norm_num) (by
      rw [e]; exact rep_scaled (by omega) (by norm_num) (by norm_num))
    rw [e] at hq
    rw [toUsize_eq _ _ hq (by positivity) (by push_cast; norm_num; linarith)]
    have : ⌊((2 * k + 1 : ℕ) : ℝ) * 2 ^ (-1 : ℤ)⌋₊ = k := by
      rw [Nat.floor_eq_iff (by positivity)]
      push_cast
      norm_num
      constructor <;> linarith
    rw [this]
    rfl
  unfold Grid.whichCell at hr
  rw [hax t1 hcen.1 h.dx, hax t2 hcen.2.1 h.dy, hax t3 hcen.2.2 h.dz] at hr
  have hr := pure_ok.1 hr
  rw [← hr]
  unfold Grid.cellTupleToIdx cells
  rw [n1, n2, n3]
  dsimp only
  omega

end Flooding
