import Verif.Model.Assign
import Verif.Model.Real
import Verif.Lemmas.Except
import Mathlib.Tactic.Ring
import Mathlib.Tactic.Linarith
import Mathlib.Tactic.FieldSimp
import Mathlib.Data.List.Nodup
import Mathlib.Data.List.Perm.Subperm
/-!
# Search of the nearest centre: helper lemmas
-/
open FltReal Flt
set_option linter.unusedSectionVars false

namespace Assigner
variable {T : Type} [Flt T]

/-- The structure with a given set of marked cells. -/
def marked (g : Assigner T) (wet queue : List Nat) : Assigner T :=
  { g with
    grid := g.grid.mapIdx fun i c => { c with burned := decide (i ∈ wet) }
    floodQueue := queue
    wetList := wet }

/-- No mark, empty queues. -/
def Clean (g : Assigner T) : Prop :=
  (∀ c ∈ g.grid, c.burned = false) ∧ g.floodQueue = [] ∧ g.wetList = []

theorem marked_nil {g : Assigner T} (h : g.Clean) : g.marked [] [] = g := by
  obtain ⟨h1, h2, h3⟩ := h
  have : g.grid.mapIdx (fun i c => ({ c with burned := decide (i ∈ ([] : List Nat)) } : GridCell))
      = g.grid := by
    apply List.ext_getElem?
    intro i
    rw [List.getElem?_mapIdx]
    cases hi : g.grid[i]? with
    | none => rfl
    | some c =>
      have := h1 c (List.mem_of_getElem? hi)
      obtain ⟨b, m⟩ := c
      simp_all
  unfold marked
  rw [this]
  obtain ⟨nx, ny, nz, dx, dy, dz, co, ce, gr, q, w⟩ := g
  simp only at h2 h3
  rw [h2, h3]

theorem marked_grid_get (g : Assigner T) (wet queue : List Nat) (i : Nat) :
    (g.marked wet queue).grid[i]? =
      (g.grid[i]?).map fun c => { c with burned := decide (i ∈ wet) } := by
  simp [marked, List.getElem?_mapIdx]

@[simp] theorem marked_queue (g : Assigner T) (w q : List Nat) : (g.marked w q).floodQueue = q := rfl
@[simp] theorem marked_wet (g : Assigner T) (w q : List Nat) : (g.marked w q).wetList = w := rfl
@[simp] theorem marked_centers (g : Assigner T) (w q : List Nat) :
    (g.marked w q).centers = g.centers := rfl
@[simp] theorem marked_length (g : Assigner T) (w q : List Nat) :
    (g.marked w q).grid.length = g.grid.length := by simp [marked]
theorem marked_indexToTuple (g : Assigner T) (w q : List Nat) (i : Nat) :
    (g.marked w q).indexToTuple i = g.indexToTuple i := rfl
theorem marked_tupleToIndex (g : Assigner T) (w q : List Nat) (t : Nat × Nat × Nat) :
    (g.marked w q).tupleToIndex t = g.tupleToIndex t := rfl
theorem marked_nbrTuples (g : Assigner T) (w q : List Nat) (t : Nat × Nat × Nat) :
    (g.marked w q).nbrTuples t = g.nbrTuples t := rfl
theorem marked_minDist2 (g : Assigner T) (w q : List Nat) (r : Vec3 T) (i : Nat) :
    (g.marked w q).minDist2 r i = g.minDist2 r i := rfl
theorem marked_whichCellTuple (g : Assigner T) (w q : List Nat) (r : Vec3 T) :
    (g.marked w q).whichCellTuple r = g.whichCellTuple r := rfl
theorem marked_pop (g : Assigner T) (w q q' : List Nat) :
    { g.marked w q with floodQueue := q' } = g.marked w q' := rfl

theorem marked_set {g : Assigner T} {wet : List Nat} {i : Nat} {c : GridCell}
    (hi : g.grid[i]? = some c) :
    (g.grid.mapIdx fun i c => ({ c with burned := decide (i ∈ wet) } : GridCell)).set i
      { c with burned := true } =
    g.grid.mapIdx fun j c => ({ c with burned := decide (j ∈ wet ++ [i]) } : GridCell) := by
  apply List.ext_getElem?
  intro j
  rw [List.getElem?_set, List.getElem?_mapIdx, List.getElem?_mapIdx]
  by_cases hij : i = j
  · subst hij
    have hlt : i < g.grid.length := (List.getElem?_eq_some_iff.1 hi).1
    rw [if_pos rfl, if_pos (by simpa using hlt), hi]
    simp
  · have : j ≠ i := fun h => hij h.symm
    simp [hij, this]

/-- `add_tuple_to_queue` on marked structures. -/
theorem addTuple_marked {g : Assigner T} {wet queue : List Nat} {t : Nat × Nat × Nat}
    (ht : g.tupleToIndex t < g.grid.length) :
    (g.marked wet queue).addTuple t = .ok
      (if g.tupleToIndex t ∈ wet then g.marked wet queue
       else g.marked (wet ++ [g.tupleToIndex t]) (queue ++ [g.tupleToIndex t])) := by
  obtain ⟨c, hc⟩ : ∃ c, g.grid[g.tupleToIndex t]? = some c := ⟨_, List.getElem?_eq_getElem ht⟩
  unfold addTuple
  rw [marked_tupleToIndex]
  have : idx (g.marked wet queue).grid (g.tupleToIndex t)
      = .ok { c with burned := decide (g.tupleToIndex t ∈ wet) } := by
    rw [idx_ok, marked_grid_get, hc]; rfl
  simp only [this]
  by_cases hw : g.tupleToIndex t ∈ wet
  · simp [hw, bind, Except.bind, pure, Except.pure]
  · simp only [hw, decide_false, bind, Except.bind, pure, Except.pure, Bool.false_eq_true, if_false]
    congr 1
    unfold marked
    simp only [Assigner.mk.injEq, true_and, and_true]
    exact marked_set hc

/-- A list of tuples added to the queues: the newly marked cells. -/
theorem addTuples_marked {g : Assigner T} (l : List (Nat × Nat × Nat)) (wet queue : List Nat)
    (hl : ∀ t ∈ l, g.tupleToIndex t < g.grid.length) (hn : wet.Nodup)
    (hw : ∀ i ∈ wet, i < g.grid.length) :
    ∃ new, l.foldlM addTuple (g.marked wet queue) = .ok (g.marked (wet ++ new) (queue ++ new)) ∧
      (wet ++ new).Nodup ∧ (∀ i ∈ wet ++ new, i < g.grid.length) ∧
      (∀ t ∈ l, g.tupleToIndex t ∈ wet ++ new) := by
  induction l generalizing wet queue with
  | nil => exact ⟨[], by simp [pure, Except.pure], by simpa, by simpa, by simp⟩
  | cons t l ih =>
    rw [List.foldlM_cons, addTuple_marked (hl t (by simp))]
    by_cases htw : g.tupleToIndex t ∈ wet
    · obtain ⟨new, h1, h2, h3, h4⟩ := ih wet queue (fun t ht => hl t (by simp [ht])) hn hw
      refine ⟨new, ?_, h2, h3, ?_⟩
      · rw [if_pos htw]; exact h1
      · intro s hs
        rcases List.mem_cons.1 hs with rfl | hs
        · simp [htw]
        · exact h4 s hs
    · obtain ⟨new, h1, h2, h3, h4⟩ := ih (wet ++ [g.tupleToIndex t]) (queue ++ [g.tupleToIndex t])
        (fun t ht => hl t (by simp [ht]))
        (by
          rw [List.nodup_append]
          refine ⟨hn, by simp, ?_⟩
          intro a ha b hb hab
          rw [List.mem_singleton] at hb
          exact htw (by rw [← hb, ← hab]; exact ha))
        (by
          intro i hi
          rcases List.mem_append.1 hi with hi | hi
          · exact hw i hi
          · rw [List.mem_singleton.1 hi]; exact hl t (by simp))
      refine ⟨g.tupleToIndex t :: new, ?_, ?_, ?_, ?_⟩
      · rw [if_neg htw]
        simpa [bind, Except.bind, List.append_assoc] using h1
      · simpa [List.append_assoc] using h2
      · simpa [List.append_assoc] using h3
      · intro s hs
        rcases List.mem_cons.1 hs with rfl | hs
        · simp
        · simpa [List.append_assoc] using h4 s hs

/-- Removing the marks restores the structure. -/
theorem resetWet_marked {g : Assigner T} (g0 : Assigner T) (hclean : ∀ c ∈ g.grid, c.burned = false)
    (l wet : List Nat) (hl : ∀ i ∈ l, i < g.grid.length) (hwl : ∀ i ∈ wet, i ∈ l) :
    resetWet g0 l (g.grid.mapIdx fun i c => ({ c with burned := decide (i ∈ wet) } : GridCell))
      = .ok g.grid := by
  induction l generalizing wet with
  | nil =>
    have : wet = [] := List.eq_nil_iff_forall_not_mem.2 fun i hi => by simpa using hwl i hi
    subst this
    unfold resetWet
    congr 1
    apply List.ext_getElem?
    intro i
    rw [List.getElem?_mapIdx]
    cases hi : g.grid[i]? with
    | none => rfl
    | some c =>
      have := hclean c (List.mem_of_getElem? hi)
      obtain ⟨b, m⟩ := c
      simp_all
  | cons i l ih =>
    obtain ⟨c, hc⟩ : ∃ c, g.grid[i]? = some c := ⟨_, List.getElem?_eq_getElem (hl i (by simp))⟩
    unfold resetWet
    have : idx (g.grid.mapIdx fun i c => ({ c with burned := decide (i ∈ wet) } : GridCell)) i
        = .ok { c with burned := decide (i ∈ wet) } := by
      rw [idx_ok, List.getElem?_mapIdx, hc]; rfl
    rw [this]
    have hset : (g.grid.mapIdx fun i c => ({ c with burned := decide (i ∈ wet) } : GridCell)).set i
        { c with burned := false } =
        g.grid.mapIdx fun j c => ({ c with burned := decide (j ∈ wet.filter (· ≠ i)) } : GridCell) := by
      apply List.ext_getElem?
      intro j
      rw [List.getElem?_set, List.getElem?_mapIdx, List.getElem?_mapIdx]
      by_cases hij : i = j
      · subst hij
        rw [if_pos rfl, if_pos (by simpa using hl i (by simp)), hc]
        simp
      · have : j ≠ i := fun h => hij h.symm
        simp [hij, this]
    show resetWet g0 l (List.set _ i { c with burned := false }) = _
    rw [hset]
    refine ih _ (fun j hj => hl j (by simp [hj])) ?_
    intro j hj
    rw [List.mem_filter] at hj
    have := hwl j hj.1
    rcases List.mem_cons.1 this with rfl | h
    · simp at hj
    · exact h

/-- Squared distance. -/
noncomputable def dist2 (r c : Vec3 ℝ) : ℝ := (r.x - c.x) ^ 2 + (r.y - c.y) ^ 2 + (r.z - c.z) ^ 2

theorem dist2_eq (r c : Vec3 ℝ) : (r.sub c).dot (r.sub c) = dist2 r c := by
  simp [Vec3.sub, Vec3.dot, dist2]; ring

/-- What the search has found so far. -/
def Found (centers : List (Vec3 ℝ)) (r : Vec3 ℝ) (b : Best ℝ) : Prop :=
  (b.center = none ∧ b.r2 = 10 ^ 300) ∨
  ∃ k c, b.center = some k ∧ centers[k]? = some c ∧ b.r2 = dist2 r c ∧ b.r2 < 10 ^ 300

theorem Found.le {centers : List (Vec3 ℝ)} {r : Vec3 ℝ} {b : Best ℝ} (h : Found centers r b) :
    b.r2 ≤ 10 ^ 300 := by
  rcases h with ⟨_, h⟩ | ⟨_, _, _, _, _, h⟩
  · exact h.le
  · exact h.le

theorem scanCenters_spec (g : Assigner ℝ) (r : Vec3 ℝ) (l : List Nat) (b : Best ℝ)
    (hl : ∀ k ∈ l, k < g.centers.length) (hb : Found g.centers r b) :
    ∃ b', g.scanCenters r l b = .ok b' ∧ Found g.centers r b' ∧ b'.r2 ≤ b.r2 ∧
      ∀ k ∈ l, ∀ c, g.centers[k]? = some c → b'.r2 ≤ dist2 r c := by
  induction l generalizing b with
  | nil => exact ⟨b, rfl, hb, le_refl _, by simp⟩
  | cons k l ih =>
    obtain ⟨c, hc⟩ : ∃ c, g.centers[k]? = some c := ⟨_, List.getElem?_eq_getElem (hl k (by simp))⟩
    unfold scanCenters
    rw [idx_ok.2 hc]
    simp only [bind, Except.bind, dist2_eq, lt_eq, decide_eq_true_eq]
    by_cases hlt : dist2 r c < b.r2
    · rw [if_pos hlt]
      obtain ⟨b', h1, h2, h3, h4⟩ := ih { r2 := dist2 r c, center := some k }
        (fun k hk => hl k (by simp [hk])) (Or.inr ⟨k, c, rfl, hc, rfl, lt_of_lt_of_le hlt hb.le⟩)
      refine ⟨b', h1, h2, h3.trans hlt.le, ?_⟩
      intro j hj d hd
      rcases List.mem_cons.1 hj with rfl | hj
      · rw [hc] at hd; cases hd; exact h3
      · exact h4 j hj d hd
    · rw [if_neg hlt]
      obtain ⟨b', h1, h2, h3, h4⟩ := ih b (fun k hk => hl k (by simp [hk])) hb
      refine ⟨b', h1, h2, h3, ?_⟩
      intro j hj d hd
      rcases List.mem_cons.1 hj with rfl | hj
      · rw [hc] at hd; cases hd; exact h3.trans (not_lt.1 hlt)
      · exact h4 j hj d hd

/-! ### Geometry of the auxiliary grid -/

/-- Index of a coordinate along an axis (when it is representable). -/
noncomputable def axis (r corner d : ℝ) (n : Nat) : Nat := min ⌊(r - corner) / d⌋₊ (n - 1)

theorem axisIdx_eq {r corner d : ℝ} {n : Nat} (h : (r - corner) / d < 2 ^ 64) :
    axisIdx r corner d n = .ok (axis r corner d n) := by
  unfold axisIdx axis
  simp only [sub_eq, div_eq, floor_eq, max_eq, zero_eq]
  have h1 : Max.max (⌊(r - corner) / d⌋ : ℝ) 0 < 2 ^ 64 := by
    apply max_lt
    · exact lt_of_le_of_lt (Int.floor_le _) h
    · positivity
  have h2 : (-1 : ℝ) < Max.max (⌊(r - corner) / d⌋ : ℝ) 0 := lt_of_lt_of_le (by norm_num) (le_max_right _ _)
  rw [toUsize_eq, if_pos ⟨h2, h1⟩]
  show Except.ok _ = Except.ok _
  congr 2
  rcases le_total 0 ⌊(r - corner) / d⌋ with h | h
  · rw [max_eq_left (by exact_mod_cast h), ← Int.floor_toNat, Int.floor_intCast, Int.floor_toNat]
  · rw [max_eq_right (by exact_mod_cast h), Nat.floor_zero, ← Int.floor_toNat]
    omega

theorem axis_lt {r corner d : ℝ} {n : Nat} (hn : 0 < n) : axis r corner d n < n := by
  unfold axis; omega

/-- The gap between the indices bounds the distance from below. -/
theorem gap_le {r c corner d : ℝ} {n : Nat} (hd : 0 < d) (hn : 0 < n) (h0 : corner ≤ c)
    (h1 : c ≤ corner + n * d) :
    d * (gap (axis c corner d n) (axis r corner d n) : ℝ) ≤ |r - c| := by
  set u := (r - corner) / d with hu
  set v := (c - corner) / d with hv
  have hv0 : 0 ≤ v := div_nonneg (by linarith) hd.le
  have hvn : v ≤ n := (div_le_iff₀ hd).2 (by linarith)
  have hdist : |r - c| = d * |u - v| := by
    have : r - c = d * (u - v) := by rw [hu, hv]; field_simp; ring
    rw [this, abs_mul, abs_of_pos hd]
  rw [hdist]
  refine mul_le_mul_of_nonneg_left ?_ hd.le
  show (gap (min ⌊v⌋₊ (n - 1)) (min ⌊u⌋₊ (n - 1)) : ℝ) ≤ _
  have hvf := Nat.floor_le hv0
  have hvs := Nat.lt_floor_add_one v
  have hus := Nat.lt_floor_add_one u
  -- bounds of the index of the centre
  have hic0 : ((min ⌊v⌋₊ (n - 1) : Nat) : ℝ) ≤ v := le_trans (by exact_mod_cast min_le_left _ _) hvf
  have hic1 : v ≤ ((min ⌊v⌋₊ (n - 1) : Nat) : ℝ) + 1 := by
    rcases le_total ⌊v⌋₊ (n - 1) with h | h
    · rw [min_eq_left h]; exact hvs.le
    · rw [min_eq_right h]
      have : ((n - 1 : Nat) : ℝ) + 1 = n := by
        have : n - 1 + 1 = n := by omega
        exact_mod_cast this
      rw [this]; exact hvn
  generalize hic : min ⌊v⌋₊ (n - 1) = ic at hic0 hic1 ⊢
  generalize hir : min ⌊u⌋₊ (n - 1) = ir
  rcases lt_trichotomy ir ic with h | h | h
  · -- the query is below the centre
    have hu1 : u < ir + 1 := by
      have : ⌊u⌋₊ = ir := by
        rcases le_total ⌊u⌋₊ (n - 1) with h' | h'
        · rw [min_eq_left h'] at hir; exact hir
        · rw [min_eq_right h'] at hir; omega
      rw [← this]; exact hus
    have hg : (gap ic ir : ℝ) = ic - ir - 1 := by
      have : gap ic ir + ir + 1 = ic := by unfold gap; omega
      have h2 : (gap ic ir : ℝ) + ir + 1 = ic := by exact_mod_cast this
      linarith
    rw [hg, abs_sub_comm]
    exact le_trans (by linarith) (le_abs_self _)
  · subst h
    have : gap ir ir = 0 := by unfold gap; omega
    rw [this]
    simp
  · have hu1 : (ir : ℝ) ≤ u := by
      have h0 : ir ≤ ⌊u⌋₊ := by omega
      have hpos : 0 < ⌊u⌋₊ := by omega
      have : 0 ≤ u := by
        by_contra hneg
        rw [Nat.floor_of_nonpos (by linarith)] at hpos
        omega
      exact le_trans (by exact_mod_cast h0) (Nat.floor_le this)
    have hg : (gap ic ir : ℝ) = ir - ic - 1 := by
      have : gap ic ir + ic + 1 = ir := by unfold gap; omega
      have h2 : (gap ic ir : ℝ) + ic + 1 = ir := by exact_mod_cast this
      linarith
    rw [hg]
    exact le_trans (by linarith) (le_abs_self _)

/-! ### Well-formed structures and the search -/

/-- What `GridAssignmentObject::new` establishes and `nearest_center` relies on. -/
structure Wf (g : Assigner ℝ) : Prop where
  nx : 0 < g.nx
  ny : 0 < g.ny
  nz : 0 < g.nz
  dx : 0 < g.dx
  dy : 0 < g.dy
  dz : 0 < g.dz
  size : g.grid.length = g.nx * (g.ny * g.nz)
  clean : g.Clean
  valid : ∀ c ∈ g.grid, ∀ k ∈ c.myCenters, k < g.centers.length
  lo : ∀ c ∈ g.centers, g.corner.x ≤ c.x ∧ g.corner.y ≤ c.y ∧ g.corner.z ≤ c.z
  hi : ∀ c ∈ g.centers, c.x ≤ g.corner.x + g.nx * g.dx ∧ c.y ≤ g.corner.y + g.ny * g.dy ∧
    c.z ≤ g.corner.z + g.nz * g.dz
  registered : ∀ (k : Nat) (c : Vec3 ℝ), g.centers[k]? = some c →
    ∃ gc, g.grid[g.tupleToIndex (axis c.x g.corner.x g.dx g.nx, axis c.y g.corner.y g.dy g.ny,
      axis c.z g.corner.z g.dz g.nz)]? = some gc ∧ k ∈ gc.myCenters

/-- The tuple of a point. -/
noncomputable def tupleOf (g : Assigner ℝ) (r : Vec3 ℝ) : Nat × Nat × Nat :=
  (axis r.x g.corner.x g.dx g.nx, axis r.y g.corner.y g.dy g.ny, axis r.z g.corner.z g.dz g.nz)

/-- The coordinates of the query are representable. -/
def Representable (g : Assigner ℝ) (r : Vec3 ℝ) : Prop :=
  (r.x - g.corner.x) / g.dx < 2 ^ 64 ∧ (r.y - g.corner.y) / g.dy < 2 ^ 64 ∧
  (r.z - g.corner.z) / g.dz < 2 ^ 64

theorem whichCellTuple_eq {g : Assigner ℝ} {r : Vec3 ℝ} (h : g.Representable r) :
    g.whichCellTuple r = .ok (g.tupleOf r) := by
  unfold whichCellTuple tupleOf
  rw [axisIdx_eq h.1, axisIdx_eq h.2.1, axisIdx_eq h.2.2]
  rfl

/-- Coordinates of the auxiliary grid. -/
def In (g : Assigner ℝ) (t : Nat × Nat × Nat) : Prop := t.1 < g.nx ∧ t.2.1 < g.ny ∧ t.2.2 < g.nz

theorem tupleOf_in {g : Assigner ℝ} (h : g.Wf) (r : Vec3 ℝ) : g.In (g.tupleOf r) :=
  ⟨axis_lt h.nx, axis_lt h.ny, axis_lt h.nz⟩

theorem digits_lt {a b m n : Nat} (ha : a < m) (hb : b < n) : a + m * b < m * n := by
  have : m * (b + 1) ≤ m * n := Nat.mul_le_mul_left m hb
  rw [Nat.mul_add, Nat.mul_one] at this
  omega

theorem index_lt {g : Assigner ℝ} (h : g.Wf) {t : Nat × Nat × Nat} (ht : g.In t) :
    g.tupleToIndex t < g.grid.length := by
  rw [h.size]
  exact digits_lt ht.1 (digits_lt ht.2.1 ht.2.2)

theorem index_tuple {g : Assigner ℝ} {t : Nat × Nat × Nat} (ht : g.In t) :
    g.indexToTuple (g.tupleToIndex t) = t := by
  unfold indexToTuple tupleToIndex
  obtain ⟨h1, h2, _⟩ := ht
  have hx : 0 < g.nx := by omega
  have hy : 0 < g.ny := by omega
  rw [Nat.add_mul_mod_self_left, Nat.mod_eq_of_lt h1, Nat.add_mul_div_left _ _ hx,
    Nat.div_eq_of_lt h1, Nat.zero_add, Nat.add_mul_mod_self_left, Nat.mod_eq_of_lt h2,
    Nat.add_mul_div_left _ _ hy, Nat.div_eq_of_lt h2, Nat.zero_add]

theorem tuple_index (g : Assigner ℝ) (i : Nat) : g.tupleToIndex (g.indexToTuple i) = i := by
  unfold indexToTuple tupleToIndex
  simp only [Nat.mod_add_div]

theorem indexToTuple_in {g : Assigner ℝ} (h : g.Wf) {i : Nat} (hi : i < g.grid.length) :
    g.In (g.indexToTuple i) := by
  rw [h.size] at hi
  refine ⟨Nat.mod_lt _ h.nx, Nat.mod_lt _ h.ny, ?_⟩
  exact Nat.div_lt_of_lt_mul (Nat.div_lt_of_lt_mul hi)

/-- The lower bound used to prune cells. -/
noncomputable def bound (g : Assigner ℝ) (s t : Nat × Nat × Nat) : ℝ :=
  (g.dx * gap s.1 t.1) ^ 2 + (g.dy * gap s.2.1 t.2.1) ^ 2 + (g.dz * gap s.2.2 t.2.2) ^ 2

theorem minDist2_eq {g : Assigner ℝ} (h : g.Wf) {r : Vec3 ℝ} (hr : g.Representable r) (i : Nat) :
    g.minDist2 r i = .ok (g.bound (g.indexToTuple i) (g.tupleOf r)) := by
  unfold minDist2
  rw [whichCellTuple_eq hr]
  have e : ∀ {d : ℝ} {n : Nat}, 0 < d → (d * (n : ℝ) : ℝ) ≥ 0 := fun hd => by positivity
  simp only [bind, Except.bind, mul_eq, ofNat_eq, le_eq, zero_eq, decide_eq_true (e h.dx),
    decide_eq_true (e h.dy), decide_eq_true (e h.dz), assertB, if_true, pure, Except.pure, add_eq]
  unfold bound
  congr 1
  ring

theorem gap_mono {a b t : Nat} (h : (min b t ≤ a ∧ a ≤ max b t)) : gap a t ≤ gap b t := by
  unfold gap; omega

/-- The cell is between the cell of the query and a target, along each axis. -/
def Between (s t u : Nat × Nat × Nat) : Prop :=
  (min u.1 t.1 ≤ s.1 ∧ s.1 ≤ max u.1 t.1) ∧ (min u.2.1 t.2.1 ≤ s.2.1 ∧ s.2.1 ≤ max u.2.1 t.2.1) ∧
  (min u.2.2 t.2.2 ≤ s.2.2 ∧ s.2.2 ≤ max u.2.2 t.2.2)

theorem bound_mono {g : Assigner ℝ} (h : g.Wf) {s t u : Nat × Nat × Nat} (hb : Between s t u) :
    g.bound s t ≤ g.bound u t := by
  unfold bound
  have e : ∀ {d : ℝ} {a b t : Nat}, 0 < d → (min b t ≤ a ∧ a ≤ max b t) →
      (d * (gap a t : ℝ)) ^ 2 ≤ (d * (gap b t : ℝ)) ^ 2 := by
    intro d a b t hd hab
    have : (gap a t : ℝ) ≤ gap b t := by exact_mod_cast gap_mono hab
    have h0 : (0 : ℝ) ≤ gap a t := Nat.cast_nonneg _
    have h1 : d * (gap a t : ℝ) ≤ d * gap b t := mul_le_mul_of_nonneg_left this hd.le
    exact pow_le_pow_left₀ (by positivity) h1 2
  exact add_le_add (add_le_add (e h.dx hb.1) (e h.dy hb.2.1)) (e h.dz hb.2.2)

theorem bound_le_dist2 {g : Assigner ℝ} (h : g.Wf) {c : Vec3 ℝ} (hc : c ∈ g.centers) (r : Vec3 ℝ) :
    g.bound (g.tupleOf c) (g.tupleOf r) ≤ dist2 r c := by
  have e : ∀ {d x y z : ℝ} {n : Nat} {i j : Nat}, 0 < d → 0 < n → z ≤ y → y ≤ z + n * d →
      i = axis y z d n → j = axis x z d n → (d * (gap i j : ℝ)) ^ 2 ≤ (x - y) ^ 2 := by
    intro d x y z n i j hd hn h0 h1 hi hj
    rw [← sq_abs (x - y), hi, hj]
    exact pow_le_pow_left₀ (by positivity) (gap_le hd hn h0 h1) 2
  unfold bound dist2
  exact add_le_add (add_le_add
    (e h.dx h.nx (h.lo c hc).1 (h.hi c hc).1 rfl rfl)
    (e h.dy h.ny (h.lo c hc).2.1 (h.hi c hc).2.1 rfl rfl))
    (e h.dz h.nz (h.lo c hc).2.2 (h.hi c hc).2.2 rfl rfl)

theorem nbrTuples_in {g : Assigner ℝ} {t s : Nat × Nat × Nat} (ht : g.In t)
    (hs : s ∈ g.nbrTuples t) : g.In s := by
  obtain ⟨h1, h2, h3⟩ := ht
  unfold nbrTuples at hs
  simp only [List.mem_append] at hs
  rcases hs with ((((hs | hs) | hs) | hs) | hs) | hs <;> split at hs <;>
    simp only [List.mem_singleton, List.not_mem_nil] at hs <;> subst hs <;>
    refine ⟨?_, ?_, ?_⟩ <;> dsimp only <;> omega

/-- Number of steps between two cells. -/
def gap2 (s u : Nat × Nat × Nat) : Nat :=
  (max s.1 u.1 - min s.1 u.1) + (max s.2.1 u.2.1 - min s.2.1 u.2.1) +
  (max s.2.2 u.2.2 - min s.2.2 u.2.2)

/-- From a cell between the query and a target, one step leads closer to the target. -/
theorem step_closer {g : Assigner ℝ} {s t u : Nat × Nat × Nat} (hu : g.In u)
    (hb : Between s t u) (hne : s ≠ u) :
    ∃ s' ∈ g.nbrTuples s, Between s' t u ∧
      gap2 s' u < gap2 s u := by
  obtain ⟨s1, s2, s3⟩ := s
  obtain ⟨t1, t2, t3⟩ := t
  obtain ⟨u1, u2, u3⟩ := u
  obtain ⟨⟨b1, b1'⟩, ⟨b2, b2'⟩, ⟨b3, b3'⟩⟩ := hb
  obtain ⟨i1, i2, i3⟩ := hu
  simp only at b1 b1' b2 b2' b3 b3' i1 i2 i3
  unfold nbrTuples Between gap2
  by_cases h1 : s1 < u1
  · refine ⟨(s1 + 1, s2, s3), ?_, ?_, ?_⟩
    · simp only [List.mem_append]
      rw [if_pos (show s1 + 1 < g.nx by omega)]; simp
    · dsimp only; omega
    · dsimp only; omega
  by_cases h1' : u1 < s1
  · refine ⟨(s1 - 1, s2, s3), ?_, ?_, ?_⟩
    · simp only [List.mem_append]
      rw [if_pos (show s1 > 0 by omega)]; simp
    · dsimp only; omega
    · dsimp only; omega
  by_cases h2 : s2 < u2
  · refine ⟨(s1, s2 + 1, s3), ?_, ?_, ?_⟩
    · simp only [List.mem_append]
      rw [if_pos (show s2 + 1 < g.ny by omega)]; simp
    · dsimp only; omega
    · dsimp only; omega
  by_cases h2' : u2 < s2
  · refine ⟨(s1, s2 - 1, s3), ?_, ?_, ?_⟩
    · simp only [List.mem_append]
      rw [if_pos (show s2 > 0 by omega)]; simp
    · dsimp only; omega
    · dsimp only; omega
  by_cases h3 : s3 < u3
  · refine ⟨(s1, s2, s3 + 1), ?_, ?_, ?_⟩
    · simp only [List.mem_append]
      rw [if_pos (show s3 + 1 < g.nz by omega)]; simp
    · dsimp only; omega
    · dsimp only; omega
  by_cases h3' : u3 < s3
  · refine ⟨(s1, s2, s3 - 1), ?_, ?_, ?_⟩
    · simp only [List.mem_append]
      rw [if_pos (show s3 > 0 by omega)]; simp
    · dsimp only; omega
    · dsimp only; omega
  exact absurd (by simp only [Prod.mk.injEq]; omega) hne

/-- The search explored enough for the centre `k` at `c`: either it is not better than what was
found, or every popped cell on the way has its neighbours queued and is not the cell of `c`. -/
def Explored (g : Assigner ℝ) (r c : Vec3 ℝ) (popped wet : List Nat) (b : Best ℝ) : Prop :=
  b.r2 ≤ dist2 r c ∨
  ∀ i ∈ popped, Between (g.indexToTuple i) (g.tupleOf r) (g.tupleOf c) →
    g.indexToTuple i ≠ g.tupleOf c ∧ ∀ s ∈ g.nbrTuples (g.indexToTuple i), g.tupleToIndex s ∈ wet

/-- When the queue is empty, no centre is nearer than what was found. -/
theorem Explored.done {g : Assigner ℝ} (h : g.Wf) {r c : Vec3 ℝ} {wet : List Nat} {b : Best ℝ}
    (he : Explored g r c wet wet b) (h0 : g.tupleToIndex (g.tupleOf r) ∈ wet) :
    b.r2 ≤ dist2 r c := by
  rcases he with he | he
  · exact he
  exfalso
  have hall : ∀ (n : Nat) (s : Nat × Nat × Nat), gap2 s (g.tupleOf c) ≤ n → g.In s →
      Between s (g.tupleOf r) (g.tupleOf c) → g.tupleToIndex s ∈ wet → False := by
    intro n
    induction n with
    | zero =>
      intro s hn hs hb hw
      have hx := he _ hw
      rw [index_tuple hs] at hx
      obtain ⟨hne, _⟩ := hx hb
      obtain ⟨s', _, _, hlt⟩ := step_closer (tupleOf_in h c) hb hne
      omega
    | succ n ih =>
      intro s hn hs hb hw
      have hx := he _ hw
      rw [index_tuple hs] at hx
      obtain ⟨hne, hnb⟩ := hx hb
      obtain ⟨s', hs', hb', hlt⟩ := step_closer (tupleOf_in h c) hb hne
      exact ih s' (by omega) (nbrTuples_in hs hs') hb' (hnb s' hs')
  refine hall _ (g.tupleOf r) (le_refl _) (tupleOf_in h r) ?_ h0
  unfold Between
  omega

/-- The search loop ends within its fuel, with the best centre. -/
theorem searchLoop_spec {g : Assigner ℝ} (h : g.Wf) {r : Vec3 ℝ} (hr : g.Representable r)
    (fuel : Nat) (popped queue : List Nat) (b : Best ℝ)
    (hn : (popped ++ queue).Nodup) (hlt : ∀ i ∈ popped ++ queue, i < g.grid.length)
    (hfuel : g.grid.length ≤ popped.length + fuel) (hb : Found g.centers r b)
    (h0 : g.tupleToIndex (g.tupleOf r) ∈ popped ++ queue)
    (hex : ∀ c ∈ g.centers, Explored g r c popped (popped ++ queue) b) :
    ∃ wet b', searchLoop r fuel (g.marked (popped ++ queue) queue) b = .ok (g.marked wet [], b') ∧
      (∀ i ∈ wet, i < g.grid.length) ∧ Found g.centers r b' ∧
      ∀ c ∈ g.centers, b'.r2 ≤ dist2 r c := by
  induction fuel generalizing popped queue b with
  | zero =>
    cases queue with
    | nil =>
      rw [List.append_nil] at hn hlt h0 hex ⊢
      refine ⟨popped, b, ?_, hlt, hb, fun c hc => (hex c hc).done h h0⟩
      unfold searchLoop
      rfl
    | cons i q =>
      exfalso
      have hle : (popped ++ i :: q).length ≤ (List.range g.grid.length).length :=
        (List.subperm_of_subset hn (fun j hj => List.mem_range.2 (hlt j hj))).length_le
      simp at hle
      omega
  | succ fuel ih =>
    cases queue with
    | nil =>
      rw [List.append_nil] at hn hlt h0 hex ⊢
      refine ⟨popped, b, ?_, hlt, hb, fun c hc => (hex c hc).done h h0⟩
      unfold searchLoop
      rfl
    | cons i q =>
      have hi : i < g.grid.length := hlt i (by simp)
      have hiin := indexToTuple_in h hi
      have happ : popped ++ i :: q = (popped ++ [i]) ++ q := by simp
      unfold searchLoop
      simp only [marked_queue, marked_pop, marked_minDist2, minDist2_eq h hr, bind, Except.bind,
        lt_eq, decide_eq_true_eq]
      by_cases hprune : b.r2 < g.bound (g.indexToTuple i) (g.tupleOf r)
      · rw [if_pos hprune, happ]
        rw [happ] at hn hlt h0 hex
        refine ih (popped ++ [i]) q b hn hlt (by simp; omega) hb h0 ?_
        intro c hc
        rcases hex c hc with he | he
        · exact Or.inl he
        by_cases hbt : Between (g.indexToTuple i) (g.tupleOf r) (g.tupleOf c)
        · left
          exact (hprune.trans_le ((bound_mono h hbt).trans (bound_le_dist2 h hc r))).le
        · right
          intro j hj hbj
          rcases List.mem_append.1 hj with hj | hj
          · exact he j hj hbj
          · rw [List.mem_singleton.1 hj] at hbj
            exact absurd hbj hbt
      · rw [if_neg hprune]
        obtain ⟨gc, hgc⟩ : ∃ gc, g.grid[i]? = some gc := ⟨_, List.getElem?_eq_getElem hi⟩
        have hidx : idx (g.marked (popped ++ i :: q) (i :: q)).grid i
            = .ok { gc with burned := decide (i ∈ popped ++ i :: q) } := by
          rw [idx_ok, marked_grid_get, hgc]; rfl
        obtain ⟨b', hs1, hs2, hs3, hs4⟩ := scanCenters_spec g r gc.myCenters b
          (h.valid gc (List.mem_of_getElem? hgc)) hb
        have hscan : (g.marked (popped ++ i :: q) q).scanCenters r gc.myCenters b = .ok b' := by
          rw [← hs1]
          have : ∀ (l : List Nat) (b : Best ℝ),
              (g.marked (popped ++ i :: q) q).scanCenters r l b = g.scanCenters r l b := by
            intro l
            induction l with
            | nil => intro b; rfl
            | cons k l ih =>
              intro b
              unfold scanCenters
              simp only [marked_centers, ih]
          exact this _ _
        obtain ⟨new, ha1, ha2, ha3, ha4⟩ := addTuples_marked (g := g)
          (g.nbrTuples (g.indexToTuple i)) (popped ++ i :: q) q
          (fun t ht => index_lt h (nbrTuples_in hiin ht)) hn hlt
        have hadd : (g.marked (popped ++ i :: q) q).addNbrs i
            = .ok (g.marked (popped ++ i :: q ++ new) (q ++ new)) := ha1
        simp only [hidx, hscan, hadd]
        have happ2 : popped ++ i :: q ++ new = (popped ++ [i]) ++ (q ++ new) := by simp
        rw [happ2]
        rw [happ2] at ha2 ha3 ha4
        refine ih (popped ++ [i]) (q ++ new) b' ha2 ha3 (by simp; omega) hs2 ?_ ?_
        · rw [← happ2]
          exact List.mem_append_left _ h0
        · intro c hc
          rcases hex c hc with he | he
          · exact Or.inl (hs3.trans he)
          by_cases hcell : g.indexToTuple i = g.tupleOf c
          · left
            obtain ⟨k, hk⟩ := List.getElem?_of_mem hc
            obtain ⟨gc', hgc', hmem⟩ := h.registered k c hk
            have : g.tupleToIndex (g.tupleOf c) = i := by rw [← hcell, tuple_index]
            have e : g.grid[i]? = some gc' := by rw [← this]; exact hgc'
            rw [hgc] at e
            cases e
            exact hs4 k hmem c hk
          · right
            intro j hj hbj
            rcases List.mem_append.1 hj with hj | hj
            · obtain ⟨h1, h2⟩ := he j hj hbj
              refine ⟨h1, fun s hs => ?_⟩
              rw [← happ2]
              exact List.mem_append_left _ (h2 s hs)
            · rw [List.mem_singleton.1 hj]
              exact ⟨hcell, fun s hs => ha4 s hs⟩

end Assigner
