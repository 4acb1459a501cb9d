import Verif.Lemmas.UnitsBuild
import Verif.Props.Locate
import Verif.Props.Nearest
/-!
# Cells met by the units: geometry
-/
open Flt GridSpec Units FltReal
set_option linter.unusedSectionVars false

namespace Units

theorem cellCenter_centre (g : Grid ℝ) (c : Nat) : g.cellCenter c = .ok (centre g c) := cellCenter_eq g c

theorem centre_within {g : Grid ℝ} (hg : BoxGrid g) {L : ℝ} (hx : g.lx ≤ L) (hy : g.ly ≤ L) (hz : g.lz ≤ L) {c d : Nat}
    (hc : c < cells g) (hd : d < cells g) : Within L (centre g c) (centre g d) := by
  have key : ∀ {i j n : Nat} {δ l : ℝ}, i < n → j < n → 0 < δ → δ = l / n → l ≤ L → 0 < n →
      |((i : ℝ) * δ + δ / 2) - (j * δ + δ / 2)| ≤ L := by
    intro i j n δ l hi hj hδ he hl hn
    have hn' : (0 : ℝ) < n := Nat.cast_pos.2 hn
    have hl' : n * δ = l := by rw [he]; field_simp
    have h1 : (i : ℝ) + 1 ≤ n := by exact_mod_cast hi
    have h2 : (j : ℝ) + 1 ≤ n := by exact_mod_cast hj
    have e1 : ((i : ℝ) + 1) * δ ≤ n * δ := mul_le_mul_of_nonneg_right h1 hδ.le
    have e2 : ((j : ℝ) + 1) * δ ≤ n * δ := mul_le_mul_of_nonneg_right h2 hδ.le
    have e3 : 0 ≤ (i : ℝ) * δ := by positivity
    have e4 : 0 ≤ (j : ℝ) * δ := by positivity
    rw [abs_le]
    constructor <;> nlinarith
  obtain ⟨a1, a2, a3⟩ := Grid.idx_inGrid hc
  obtain ⟨b1, b2, b3⟩ := Grid.idx_inGrid hd
  exact ⟨key a1 b1 hg.dx_pos hg.dx hx hg.nx, key a2 b2 hg.dy_pos hg.dy hy hg.ny, key a3 b3 hg.dz_pos hg.dz hz hg.nz⟩

theorem Rooted.setup {g : Grid ℝ} {roots : List Nat} (h : Rooted g roots) :
    ∃ near, (∀ c < cells g, IsNearest (roots.map (centre g)) (centre g c) (near c)) ∧
      Setup g (roots.map (centre g)) near (fun u => roots.getD u 0) := by
  obtain ⟨L, h1, hx, hy, hz, hL⟩ := h.size
  obtain ⟨a, ha, hq⟩ := C44_nearest (centers := roots.map (centre g)) (by simpa using h.nonempty) h1
    (by
      intro c hc c' hc'
      obtain ⟨r, hr, rfl⟩ := List.mem_map.1 hc
      obtain ⟨r', hr', rfl⟩ := List.mem_map.1 hc'
      exact centre_within h.box hx hy hz (h.inside r hr) (h.inside r' hr'))
    (by simpa using hL)
  have hq' : ∀ c : Nat, ∃ k, c < cells g → a.nearestCenter (centre g c) = .ok (k, a) ∧
      IsNearest (roots.map (centre g)) (centre g c) k := by
    intro c
    by_cases hc : c < cells g
    · obtain ⟨k, hk⟩ := hq (centre g c) (by
        intro x hx'
        obtain ⟨r, hr, rfl⟩ := List.mem_map.1 hx'
        exact centre_within h.box hx hy hz hc (h.inside r hr))
      exact ⟨k, fun _ => hk⟩
    · exact ⟨0, fun h => absurd h hc⟩
  choose near hnear using hq'
  refine ⟨near, fun c hc => (hnear c hc).2, ⟨h.box.nx, h.box.ny, h.box.nz⟩, ⟨a, ha, fun c hc =>
    ⟨_, cellCenter_centre g c, (hnear c hc).1⟩⟩, fun c hc => ?_, fun u hu => ?_⟩
  · obtain ⟨x, hx', _⟩ := (hnear c hc).2
    exact (List.getElem?_eq_some_iff.1 hx').1
  · rw [List.length_map] at hu
    have hru : roots[u]? = some (roots.getD u 0) := by
      rw [List.getD_eq_getElem?_getD, List.getElem?_eq_getElem hu]; rfl
    have hin := h.inside _ (List.mem_of_getElem? hru)
    obtain ⟨x, c1, _, c3⟩ := C13_center g h.box h.counts _ hin
    rw [cellCenter_centre] at c1
    cases c1
    exact ⟨_, by rw [List.getElem?_map, hru]; rfl, c3, hin⟩

/-! ### Two units -/

/-- One step towards `p`. -/
def toward (a p : Nat) : Nat := if a < p then a + 1 else a - 1

/-- Part of one direction in the difference between the squared distances to `q` and to `p`. -/
noncomputable def gain (w : ℝ) (a p q : Nat) : ℝ := w * (2 * ((a : ℝ) - p) * ((p : ℝ) - q) + ((p : ℝ) - q) ^ 2)

theorem toward_cast {a p : Nat} (h : a ≠ p) : (a < p ∧ ((toward a p : Nat) : ℝ) = a + 1 ∧ (a : ℝ) + 1 ≤ p) ∨
    (p < a ∧ ((toward a p : Nat) : ℝ) = a - 1 ∧ (p : ℝ) + 1 ≤ a) := by
  unfold toward
  rcases Nat.lt_or_gt_of_ne h with hlt | hgt
  · left
    rw [if_pos hlt]
    exact ⟨hlt, by push_cast; ring, by exact_mod_cast hlt⟩
  · right
    rw [if_neg (by omega)]
    refine ⟨hgt, ?_, by exact_mod_cast hgt⟩
    rw [Nat.cast_sub (by omega)]
    simp

theorem gain_up {w : ℝ} (hw : 0 < w) {a p q : Nat} (h : a ≠ p) (hs : ((a : ℝ) - p) * ((p : ℝ) - q) < 0) :
    gain w a p q < gain w (toward a p) p q := by
  unfold gain
  apply mul_lt_mul_of_pos_left _ hw
  rcases toward_cast h with ⟨_, e, h1⟩ | ⟨_, e, h1⟩ <;> rw [e] <;> nlinarith

theorem gain_nonneg {w : ℝ} (hw : 0 < w) {a p q : Nat} (hs : 0 ≤ ((a : ℝ) - p) * ((p : ℝ) - q)) :
    w * ((p : ℝ) - q) ^ 2 ≤ gain w a p q := by
  unfold gain
  apply mul_le_mul_of_nonneg_left _ hw.le
  nlinarith

theorem toward_sign {a p q : Nat} (h : a ≠ p) (hs : 0 ≤ ((a : ℝ) - p) * ((p : ℝ) - q)) :
    0 ≤ (((toward a p : Nat) : ℝ) - p) * ((p : ℝ) - q) := by
  rcases toward_cast h with ⟨_, e, h1⟩ | ⟨_, e, h1⟩ <;> rw [e]
  · have : ((p : ℝ) - q) ≤ 0 := by
      by_contra hc
      push Not at hc
      nlinarith
    nlinarith
  · have : 0 ≤ ((p : ℝ) - q) := by
      by_contra hc
      push Not at hc
      nlinarith
    nlinarith

/-- From a cell that is not farther from `p` than from `q`, one step towards `p` leads to a cell that is closer to
`p` than to `q`. -/
theorem step_toward {w1 w2 w3 : ℝ} (h1 : 0 < w1) (h2 : 0 < w2) (h3 : 0 < w3) {t p q : Nat × Nat × Nat} (hpq : p ≠ q)
    (htp : t ≠ p) (hf : 0 ≤ gain w1 t.1 p.1 q.1 + gain w2 t.2.1 p.2.1 q.2.1 + gain w3 t.2.2 p.2.2 q.2.2) :
    ∃ y : Nat × Nat × Nat, ((t.1 ≠ p.1 ∧ y = (toward t.1 p.1, t.2.1, t.2.2)) ∨
        (t.2.1 ≠ p.2.1 ∧ y = (t.1, toward t.2.1 p.2.1, t.2.2)) ∨
        (t.2.2 ≠ p.2.2 ∧ y = (t.1, t.2.1, toward t.2.2 p.2.2))) ∧
      0 < gain w1 y.1 p.1 q.1 + gain w2 y.2.1 p.2.1 q.2.1 + gain w3 y.2.2 p.2.2 q.2.2 := by
  obtain ⟨a, b, c⟩ := t
  obtain ⟨p1, p2, p3⟩ := p
  obtain ⟨q1, q2, q3⟩ := q
  simp only at hf ⊢
  have hneg : ∀ {x p q : Nat}, ((x : ℝ) - p) * ((p : ℝ) - q) < 0 → x ≠ p := by
    rintro x p q h rfl
    simp at h
  by_cases g1 : ((a : ℝ) - p1) * ((p1 : ℝ) - q1) < 0
  · exact ⟨_, .inl ⟨hneg g1, rfl⟩, by have := gain_up h1 (hneg g1) g1; dsimp only; linarith⟩
  by_cases g2 : ((b : ℝ) - p2) * ((p2 : ℝ) - q2) < 0
  · exact ⟨_, .inr (.inl ⟨hneg g2, rfl⟩), by have := gain_up h2 (hneg g2) g2; dsimp only; linarith⟩
  by_cases g3 : ((c : ℝ) - p3) * ((p3 : ℝ) - q3) < 0
  · exact ⟨_, .inr (.inr ⟨hneg g3, rfl⟩), by have := gain_up h3 (hneg g3) g3; dsimp only; linarith⟩
  push Not at g1 g2 g3
  have hpos : 0 < w1 * ((p1 : ℝ) - q1) ^ 2 + w2 * ((p2 : ℝ) - q2) ^ 2 + w3 * ((p3 : ℝ) - q3) ^ 2 := by
    have hsq : ∀ {w : ℝ} {p q : Nat}, 0 < w → p ≠ q → 0 < w * ((p : ℝ) - q) ^ 2 := by
      intro w p q hw hne
      have : ((p : ℝ) - q) ≠ 0 := sub_ne_zero.2 (by exact_mod_cast hne)
      positivity
    have k1 : 0 ≤ w1 * ((p1 : ℝ) - q1) ^ 2 := by positivity
    have k2 : 0 ≤ w2 * ((p2 : ℝ) - q2) ^ 2 := by positivity
    have k3 : 0 ≤ w3 * ((p3 : ℝ) - q3) ^ 2 := by positivity
    by_cases e1 : p1 = q1
    · by_cases e2 : p2 = q2
      · have e3 : p3 ≠ q3 := by
          rintro rfl
          exact hpq (by rw [e1, e2])
        have := hsq h3 e3
        linarith
      · have := hsq h2 e2
        linarith
    · have := hsq h1 e1
      linarith
  have m1 := gain_nonneg h1 g1
  have m2 := gain_nonneg h2 g2
  have m3 := gain_nonneg h3 g3
  by_cases e1 : a = p1
  · by_cases e2 : b = p2
    · have e3 : c ≠ p3 := by
        rintro rfl
        exact htp (by rw [e1, e2])
      have := gain_nonneg h3 (toward_sign e3 g3)
      exact ⟨_, .inr (.inr ⟨e3, rfl⟩), by dsimp only; linarith⟩
    · have := gain_nonneg h2 (toward_sign e2 g2)
      exact ⟨_, .inr (.inl ⟨e2, rfl⟩), by dsimp only; linarith⟩
  · have := gain_nonneg h1 (toward_sign e1 g1)
    exact ⟨_, .inl ⟨e1, rfl⟩, by dsimp only; linarith⟩

theorem gain_dist (g : Grid ℝ) (c p q : Nat) : sqDist (centre g c) (centre g q) - sqDist (centre g c) (centre g p) =
    gain (g.dx ^ 2) (g.cellIdxToTuple c).1 (g.cellIdxToTuple p).1 (g.cellIdxToTuple q).1 +
    gain (g.dy ^ 2) (g.cellIdxToTuple c).2.1 (g.cellIdxToTuple p).2.1 (g.cellIdxToTuple q).2.1 +
    gain (g.dz ^ 2) (g.cellIdxToTuple c).2.2 (g.cellIdxToTuple p).2.2 (g.cellIdxToTuple q).2.2 := by
  unfold sqDist gain centre boxCenter
  ring

/-- Steps between two coordinates. -/
def apart (a b : Nat) : Nat := (a - b) + (b - a)

theorem toward_apart {a p n : Nat} (h : a ≠ p) (ha : a < n) (hp : p < n) : apart (toward a p) p + 1 = apart a p ∧
    toward a p < n ∧ a ≤ toward a p + 1 ∧ toward a p ≤ a + 1 ∧ toward a p ≠ a := by
  unfold apart toward
  split <;> omega

/-- All the cells that are nearer to one root than to the only other one are met from it. -/
theorem met_all {g : Grid ℝ} (hg : BoxGrid g) {near root : Nat → Nat} {u r s : Nat} (hr : r < cells g)
    (hrs : r ≠ s) (hroot : root u = r)
    (hnear : ∀ c < cells g, sqDist (centre g c) (centre g r) < sqDist (centre g c) (centre g s) → near c = u)
    (n : Nat) {c : Nat} (hc : c < cells g)
    (hn : apart (g.cellIdxToTuple c).1 (g.cellIdxToTuple r).1 + apart (g.cellIdxToTuple c).2.1 (g.cellIdxToTuple r).2.1 +
      apart (g.cellIdxToTuple c).2.2 (g.cellIdxToTuple r).2.2 = n)
    (hd : sqDist (centre g c) (centre g r) ≤ sqDist (centre g c) (centre g s)) : Met g near root u c := by
  induction n generalizing c with
  | zero =>
    have : g.cellIdxToTuple c = g.cellIdxToTuple r := by
      unfold apart at hn
      refine Prod.ext ?_ (Prod.ext ?_ ?_) <;> omega
    have : c = r := by
      rw [← Grid.idx_tuple (g := g) c, this, Grid.idx_tuple]
    rw [this, ← hroot]
    exact .root
  | succ n ih =>
    have hne : g.cellIdxToTuple c ≠ g.cellIdxToTuple r := by
      intro h
      rw [h] at hn
      unfold apart at hn
      omega
    have hrs' : g.cellIdxToTuple r ≠ g.cellIdxToTuple s := by
      intro h
      apply hrs
      rw [← Grid.idx_tuple (g := g) r, h, Grid.idx_tuple]
    have hge : 0 ≤ sqDist (centre g c) (centre g s) - sqDist (centre g c) (centre g r) := by linarith
    rw [gain_dist] at hge
    have px := hg.dx_pos
    have py := hg.dy_pos
    have pz := hg.dz_pos
    obtain ⟨y, hy, hpos⟩ := step_toward (by positivity) (by positivity) (by positivity) hrs' hne hge
    obtain ⟨c1, c2, c3⟩ := Grid.idx_inGrid hc
    obtain ⟨r1, r2, r3⟩ := Grid.idx_inGrid hr
    have hyy : InGrid g y ∧ apart y.1 (g.cellIdxToTuple r).1 + apart y.2.1 (g.cellIdxToTuple r).2.1 +
        apart y.2.2 (g.cellIdxToTuple r).2.2 = n ∧ y ≠ g.cellIdxToTuple c ∧
        ((y.1 ≤ (g.cellIdxToTuple c).1 + 1 ∧ (g.cellIdxToTuple c).1 ≤ y.1 + 1) ∧
          (y.2.1 ≤ (g.cellIdxToTuple c).2.1 + 1 ∧ (g.cellIdxToTuple c).2.1 ≤ y.2.1 + 1) ∧
          (y.2.2 ≤ (g.cellIdxToTuple c).2.2 + 1 ∧ (g.cellIdxToTuple c).2.2 ≤ y.2.2 + 1)) := by
      generalize g.cellIdxToTuple c = t at *
      generalize g.cellIdxToTuple r = p at *
      obtain ⟨t1, t2, t3⟩ := t
      obtain ⟨p1, p2, p3⟩ := p
      simp only at c1 c2 c3 r1 r2 r3 hn
      rcases hy with ⟨e, rfl⟩ | ⟨e, rfl⟩ | ⟨e, rfl⟩ <;> dsimp only at e
      · obtain ⟨b1, b2, b3, b4, b5⟩ := toward_apart e c1 r1
        refine ⟨⟨b2, c2, c3⟩, ?_, fun h => b5 (Prod.mk.inj h).1, ⟨b4, b3⟩, ⟨?_, ?_⟩, ?_, ?_⟩ <;> dsimp only <;> omega
      · obtain ⟨b1, b2, b3, b4, b5⟩ := toward_apart e c2 r2
        refine ⟨⟨c1, b2, c3⟩, ?_, fun h => b5 (Prod.mk.inj (Prod.mk.inj h).2).1, ⟨?_, ?_⟩, ⟨b4, b3⟩, ?_, ?_⟩ <;> dsimp only <;> omega
      · obtain ⟨b1, b2, b3, b4, b5⟩ := toward_apart e c3 r3
        refine ⟨⟨c1, c2, b2⟩, ?_, fun h => b5 (Prod.mk.inj (Prod.mk.inj h).2).2, ⟨?_, ?_⟩, ⟨?_, ?_⟩, b4, b3⟩ <;> dsimp only <;> omega
    obtain ⟨hyin, hyn, hyc, hycl⟩ := hyy
    have et : g.cellIdxToTuple (g.cellTupleToIdx y) = y := Grid.tuple_idx hyin.1 hyin.2.1
    have hylt := Grid.tuple_lt hyin
    have hstrict : sqDist (centre g (g.cellTupleToIdx y)) (centre g r) <
        sqDist (centre g (g.cellTupleToIdx y)) (centre g s) := by
      rw [← sub_pos, gain_dist, et]
      exact hpos
    refine .grow (ih hylt (by rw [et]; exact hyn) hstrict.le) (hnear _ hylt hstrict) ⟨hylt, hc, ?_, ?_⟩
    · intro h
      apply hyc
      rw [← et, h]
    · rw [et]; exact hycl


/-- With two different root cells every cell of the grid belongs to a unit. -/
theorem owned_two {g : Grid ℝ} (hg : BoxGrid g) {r s : Nat} (hr : r < cells g) (hs : s < cells g) (hrs : r ≠ s)
    {near : Nat → Nat} (hn : ∀ c < cells g, IsNearest ([r, s].map (centre g)) (centre g c) (near c)) {c : Nat}
    (hc : c < cells g) : (near c = 0 ∨ near c = 1) ∧ Owned g near (fun u => [r, s].getD u 0) (near c) c := by
  have hcase : ∀ d < cells g, (near d = 0 ∧ sqDist (centre g d) (centre g r) ≤ sqDist (centre g d) (centre g s)) ∨
      (near d = 1 ∧ sqDist (centre g d) (centre g s) ≤ sqDist (centre g d) (centre g r)) := by
    intro d hd
    obtain ⟨x, hx, hmin⟩ := hn d hd
    have hlt : near d < 2 := (List.getElem?_eq_some_iff.1 hx).1
    have : near d = 0 ∨ near d = 1 := by omega
    rcases this with e | e
    · rw [e] at hx
      cases hx
      exact .inl ⟨e, hmin _ (by simp)⟩
    · rw [e] at hx
      cases hx
      exact .inr ⟨e, hmin _ (by simp)⟩
  rcases hcase c hc with ⟨e, hle⟩ | ⟨e, hle⟩
  · refine ⟨.inl e, ?_, rfl⟩
    rw [e]
    refine met_all hg hr hrs rfl (fun d hd hlt => ?_) _ hc rfl hle
    rcases hcase d hd with ⟨h, _⟩ | ⟨_, h⟩
    · exact h
    · linarith
  · refine ⟨.inr e, ?_, rfl⟩
    rw [e]
    refine met_all hg hs hrs.symm rfl (fun d hd hlt => ?_) _ hc rfl hle
    rcases hcase d hd with ⟨_, h⟩ | ⟨h, _⟩
    · linarith
    · exact h

theorem Knows.holds {g : Grid ℝ} {near root : Nat → Nat} {cellsOf : Nat → List Nat} {n : Nat}
    {parts : List Partition} (hlen : parts.length = n) (hn : ∀ c < cells g, near c < n)
    (hk : ∀ (u : Nat) p, parts[u]? = some p → Knows g near root cellsOf u p)
    {u : Nat} {p : Partition} (hp : parts[u]? = some p) (c : Nat) : Holds p c ↔ Owned g near root u c := by
  have ku := hk u p hp
  constructor
  · rintro ⟨i, hi⟩
    rw [ku.gid] at hi
    have hkey := HMap.get?_isSome.2 ⟨_, hi⟩
    by_contra hno
    have hnear : near c ≠ u := by
      intro e
      rcases ku.only c hkey with h | ⟨h, _⟩
      · exact hno ⟨h, e⟩
      · rw [e] at h; exact hno h
    by_cases hof : Owned g near root (near c) c ∧ Faces g near u c
    · have hof2 := hof.2
      have hc : c < cells g := by
        obtain ⟨j, hj, _⟩ := hof2
        exact hj.1
      have hv : near c < parts.length := by rw [hlen]; exact hn c hc
      have kv := hk _ _ (List.getElem?_eq_getElem hv)
      obtain ⟨m, hm⟩ := List.getElem?_of_mem ((kv.listed c).2 hof.1)
      rw [ku.remote _ m c hnear hm hof.2] at hi
      injection hi with hi
      injection hi with h1
      exact hnear (Option.some.inj h1)
    · rcases ku.only c hkey with h | h
      · rw [ku.other c h hnear hof] at hi
        cases hi
      · exact hof h
  · intro h
    obtain ⟨m, hm⟩ := List.getElem?_of_mem ((ku.listed c).2 h)
    exact ⟨m, by rw [ku.gid]; exact ku.own m c hm⟩

end Units
