import Verif.Spec.GridSpec
import Mathlib.Tactic.Ring
import Mathlib.Tactic.Linarith
/-!
# Numbering of cells and nodes: helper lemmas
-/
open GridSpec

namespace Grid
variable {T : Type} {g : Grid T}

theorem lt_of_digits {a b m n : Nat} (ha : a < m) (hb : b < n) : a + m * b < m * n := by
  have : m * (b + 1) ≤ m * n := Nat.mul_le_mul_left m hb
  rw [Nat.mul_add, Nat.mul_one] at this
  omega

theorem tuple_lt {t : Nat × Nat × Nat} (h : InGrid g t) : g.cellTupleToIdx t < cells g := by
  obtain ⟨h1, h2, h3⟩ := h
  unfold cellTupleToIdx cells
  rw [Nat.mul_assoc]
  exact lt_of_digits h1 (lt_of_digits h2 h3)

theorem tuple_idx {t : Nat × Nat × Nat} (h1 : t.1 < g.nx) (h2 : t.2.1 < g.ny) :
    g.cellIdxToTuple (g.cellTupleToIdx t) = t := by
  unfold cellIdxToTuple cellTupleToIdx
  have hx : 0 < g.nx := by omega
  have hy : 0 < g.ny := by omega
  have e1 : (t.1 + g.nx * (t.2.1 + g.ny * t.2.2)) % g.nx = t.1 := by
    rw [Nat.add_mul_mod_self_left, Nat.mod_eq_of_lt h1]
  have e2 : (t.1 + g.nx * (t.2.1 + g.ny * t.2.2)) / g.nx = t.2.1 + g.ny * t.2.2 := by
    rw [Nat.add_mul_div_left _ _ hx, Nat.div_eq_of_lt h1, Nat.zero_add]
  simp only [e1, e2]
  rw [Nat.add_mul_mod_self_left, Nat.mod_eq_of_lt h2, Nat.add_mul_div_left _ _ hy,
    Nat.div_eq_of_lt h2, Nat.zero_add]

theorem idx_tuple (i : Nat) : g.cellTupleToIdx (g.cellIdxToTuple i) = i := by
  unfold cellIdxToTuple cellTupleToIdx
  simp only [Nat.mod_add_div]

theorem pos_of_lt {i : Nat} (h : i < cells g) : 0 < g.nx ∧ 0 < g.ny ∧ 0 < g.nz := by
  unfold cells at h
  refine ⟨?_, ?_, ?_⟩ <;> apply Nat.pos_of_ne_zero <;> intro h0 <;> simp [h0] at h

theorem idx_inGrid {i : Nat} (h : i < cells g) : InGrid g (g.cellIdxToTuple i) := by
  obtain ⟨hx, hy, hz⟩ := pos_of_lt h
  unfold cells at h
  unfold cellIdxToTuple
  refine ⟨Nat.mod_lt _ hx, Nat.mod_lt _ hy, ?_⟩
  show i / g.nx / g.ny < g.nz
  rw [Nat.div_div_eq_div_mul]
  exact Nat.div_lt_of_lt_mul h

theorem tuple_inj {s t : Nat × Nat × Nat} (hs : InGrid g s) (ht : InGrid g t)
    (h : g.cellTupleToIdx s = g.cellTupleToIdx t) : s = t := by
  rw [← tuple_idx hs.1 hs.2.1, h, tuple_idx ht.1 ht.2.1]

theorem node_tuple_idx {t : Nat × Nat × Nat × Nat} (h1 : t.1 ≤ g.nx) (h2 : t.2.1 ≤ g.ny)
    (h3 : t.2.2.1 ≤ g.nz) : g.nodeIdxToTuple (g.nodeTupleToIdx t) = t := by
  unfold nodeIdxToTuple nodeTupleToIdx
  obtain ⟨a, b, c, d⟩ := t
  simp only at h1 h2 h3 ⊢
  have e1 : (a + (g.nx + 1) * (b + (g.ny + 1) * (c + (g.nz + 1) * d))) % (g.nx + 1) = a := by
    rw [Nat.add_mul_mod_self_left, Nat.mod_eq_of_lt (by omega)]
  have e2 : (a + (g.nx + 1) * (b + (g.ny + 1) * (c + (g.nz + 1) * d))) / (g.nx + 1)
      = b + (g.ny + 1) * (c + (g.nz + 1) * d) := by
    rw [Nat.add_mul_div_left _ _ (Nat.succ_pos _), Nat.div_eq_of_lt (by omega), Nat.zero_add]
  have e3 : (b + (g.ny + 1) * (c + (g.nz + 1) * d)) % (g.ny + 1) = b := by
    rw [Nat.add_mul_mod_self_left, Nat.mod_eq_of_lt (by omega)]
  have e4 : (b + (g.ny + 1) * (c + (g.nz + 1) * d)) / (g.ny + 1) = c + (g.nz + 1) * d := by
    rw [Nat.add_mul_div_left _ _ (Nat.succ_pos _), Nat.div_eq_of_lt (by omega), Nat.zero_add]
  simp only [e1, e2, e3, e4]
  rw [Nat.add_mul_mod_self_left, Nat.mod_eq_of_lt (by omega),
    Nat.add_mul_div_left _ _ (Nat.succ_pos _), Nat.div_eq_of_lt (by omega), Nat.zero_add]

theorem node_idx_tuple (i : Nat) : g.nodeTupleToIdx (g.nodeIdxToTuple i) = i := by
  unfold nodeIdxToTuple nodeTupleToIdx
  simp only [Nat.mod_add_div]

theorem node_tuple_lt {t : Nat × Nat × Nat × Nat} (h : NodeInGrid g t) :
    g.nodeTupleToIdx t < (g.nx + 1) * ((g.ny + 1) * ((g.nz + 1) * 4)) := by
  obtain ⟨h1, h2, h3, h4⟩ := h
  exact lt_of_digits (by omega) (lt_of_digits (by omega) (lt_of_digits (by omega) h4))

theorem node_idx_inGrid {i : Nat} (h : i < (g.nx + 1) * ((g.ny + 1) * ((g.nz + 1) * 4))) :
    NodeInGrid g (g.nodeIdxToTuple i) := by
  unfold nodeIdxToTuple
  refine ⟨?_, ?_, ?_, ?_⟩
  · exact Nat.lt_succ_iff.1 (Nat.mod_lt _ (Nat.succ_pos _))
  · exact Nat.lt_succ_iff.1 (Nat.mod_lt _ (Nat.succ_pos _))
  · exact Nat.lt_succ_iff.1 (Nat.mod_lt _ (Nat.succ_pos _))
  · show i / (g.nx + 1) / (g.ny + 1) / (g.nz + 1) < 4
    exact Nat.div_lt_of_lt_mul (Nat.div_lt_of_lt_mul (Nat.div_lt_of_lt_mul h))

theorem snap1_id {a n : Nat} (h : a < n) : snap1 (a : Int) n = a := by unfold snap1; omega

theorem snap1_lt (a : Int) {n : Nat} (h : 0 < n) : snap1 a n < n := by unfold snap1; omega

theorem snap1_succ {a n : Nat} (h : a < n) :
    snap1 ((a : Int) + 1) n = if a + 1 = n then a else a + 1 := by
  unfold snap1; split <;> omega

theorem snap1_pred {a n : Nat} (h : a < n) : snap1 ((a : Int) + -1) n = a - 1 := by
  unfold snap1; omega

theorem snap_inGrid (t : Int × Int × Int) (h : 0 < g.nx ∧ 0 < g.ny ∧ 0 < g.nz) :
    InGrid g (g.snapTurtle t) := ⟨snap1_lt _ h.1, snap1_lt _ h.2.1, snap1_lt _ h.2.2⟩

theorem shifted_lt {i : Nat} (h : i < cells g) (o : Int × Int × Int) : g.shifted i o < cells g :=
  tuple_lt (snap_inGrid _ (pos_of_lt h))

/-- The neighbour across a face, by coordinates. -/
theorem faceNbr_eq {i : Nat} (h : i < cells g) (f : Face) :
    ∃ t, (g.getFaceNbrGids i)[f.num]? = some (g.cellTupleToIdx t) ∧
      ((OnBorder g (g.cellIdxToTuple i) f → t = g.cellIdxToTuple i) ∧
       (¬ OnBorder g (g.cellIdxToTuple i) f →
          t = across (g.cellIdxToTuple i) f ∧ InGrid g t)) := by
  obtain ⟨h1, h2, h3⟩ := idx_inGrid h
  generalize ht : g.cellIdxToTuple i = t at h1 h2 h3 ⊢
  obtain ⟨x, y, z⟩ := t
  simp only at h1 h2 h3
  cases f <;>
    simp only [getFaceNbrGids, faceOffset, Face.num, List.map, List.getElem?_cons_zero,
      List.getElem?_cons_succ, shifted, ht, snapTurtle, Int.add_zero, snap1_id h1, snap1_id h2,
      snap1_id h3, snap1_succ h1, snap1_succ h2, snap1_succ h3, snap1_pred h1, snap1_pred h2,
      snap1_pred h3, OnBorder, across] <;>
    refine ⟨_, rfl, ?_, ?_⟩ <;> intro hb <;> simp_all [InGrid] <;> omega

end Grid
