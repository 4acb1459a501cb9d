import Verif.Props.Schedule
/-!
# C46: sorting before tracking

`Container.sort` models `sort_processing`, a call to Rust's stable `sort_by`.
-/
open Flt
set_option linter.unusedSectionVars false
attribute [local irreducible] Rng.lcg Rng.sample Rng.spawn
variable {T : Type} [Flt T]

/-! ## Specification -/

/-- `a` may stand before `b`: smaller cell, or same cell and group not larger. -/
def CellGroupOrdered (a b : Particle T) : Prop :=
  a.cell < b.cell ∨ (a.cell = b.cell ∧ a.energyGroup ≤ b.energyGroup)

/-- `l'` is a stable sort of `l` by cell and then group: ordered, and the particles of each cell and
group are the same ones, in the same order. -/
structure StableSortOf (l l' : List (Particle T)) : Prop where
  ordered : l'.Pairwise CellGroupOrdered
  stable : ∀ cell group,
    l'.filter (fun p => p.cell = cell ∧ p.energyGroup = group) =
      l.filter (fun p => p.cell = cell ∧ p.energyGroup = group)

/-! ## Lemmas on stable sorts -/

theorem stableInsert_mem {α : Type} (le : α → α → Bool) (a : α) (l : List α) {b : α}
    (h : b ∈ stableInsert le a l) : b = a ∨ b ∈ l := by
  simpa using (stableInsert_perm le a l).mem_iff.1 h

theorem stableInsert_pairwise {α : Type} {le : α → α → Bool} {R : α → α → Prop}
    (hle : ∀ a b, le a b = true → R a b) (htot : ∀ a b, le a b = false → R b a)
    (htr : ∀ a b c, R a b → R b c → R a c) (a : α) {l : List α} (h : l.Pairwise R) :
    (stableInsert le a l).Pairwise R := by
  induction l with
  | nil => simp [stableInsert]
  | cons b l ih =>
    rw [List.pairwise_cons] at h
    unfold stableInsert
    split
    · next hab =>
      rw [List.pairwise_cons]
      refine ⟨?_, List.pairwise_cons.2 h⟩
      intro c hc
      rcases List.mem_cons.1 hc with rfl | hc
      · exact hle _ _ hab
      · exact htr _ _ _ (hle _ _ hab) (h.1 c hc)
    · next hab =>
      rw [List.pairwise_cons]
      refine ⟨?_, ih h.2⟩
      intro c hc
      rcases stableInsert_mem _ _ _ hc with rfl | hc
      · exact htot _ _ (by simpa using hab)
      · exact h.1 c hc

theorem stableSort_pairwise {α : Type} {le : α → α → Bool} {R : α → α → Prop}
    (hle : ∀ a b, le a b = true → R a b) (htot : ∀ a b, le a b = false → R b a)
    (htr : ∀ a b c, R a b → R b c → R a c) (l : List α) : (stableSort le l).Pairwise R := by
  induction l with
  | nil => exact .nil
  | cons a l ih => exact stableInsert_pairwise hle htot htr a ih

theorem stableInsert_filter {α : Type} {le : α → α → Bool} (q : α → Bool)
    (hq : ∀ a b, q a = true → q b = true → le a b = true) (a : α) (l : List α) :
    (stableInsert le a l).filter q = (a :: l).filter q := by
  induction l with
  | nil => rfl
  | cons b l ih =>
    unfold stableInsert
    split
    · rfl
    · next hab =>
      rw [List.filter_cons, ih, List.filter_cons, List.filter_cons, List.filter_cons]
      cases ha : q a <;> cases hb : q b <;> simp
      exact (hab (hq a b ha hb)).elim

theorem stableSort_filter {α : Type} {le : α → α → Bool} (q : α → Bool)
    (hq : ∀ a b, q a = true → q b = true → le a b = true) (l : List α) :
    (stableSort le l).filter q = l.filter q := by
  induction l with
  | nil => rfl
  | cons a l ih =>
    rw [stableSort, stableInsert_filter q hq, List.filter_cons, ih, List.filter_cons]

theorem cellGroupLe_iff (a b : Particle T) : cellGroupLe a b = true ↔ CellGroupOrdered a b := by
  simp [cellGroupLe, CellGroupOrdered]

theorem cellGroupLe_false {a b : Particle T} (h : cellGroupLe a b = false) : CellGroupOrdered b a := by
  have : ¬ CellGroupOrdered a b := by rw [← cellGroupLe_iff, h]; simp
  simp only [CellGroupOrdered] at this ⊢
  omega

theorem CellGroupOrdered.trans {a b c : Particle T} (h1 : CellGroupOrdered a b)
    (h2 : CellGroupOrdered b c) : CellGroupOrdered a c := by
  simp only [CellGroupOrdered] at *
  omega

/-! ## C46 -/

/-- **C46**, the sort: the result is a permutation and a stable sort by cell and then group. -/
theorem C46_sort_stable (c : Container T) :
    c.sort.processing.Perm c.processing ∧ StableSortOf c.processing c.sort.processing ∧
    c.sort.processed = c.processed ∧ c.sort.extra = c.extra := by
  refine ⟨stableSort_perm _ _, ⟨?_, ?_⟩, rfl, rfl⟩
  · exact stableSort_pairwise (fun a b => (cellGroupLe_iff a b).1) (fun a b => cellGroupLe_false)
      (fun a b c => CellGroupOrdered.trans) _
  · intro cell group
    refine stableSort_filter _ ?_ _
    intro a b ha hb
    simp only [decide_eq_true_eq] at ha hb
    rw [cellGroupLe_iff]
    right
    omega

/-- **C46**, the algorithm is irrelevant: there is only one stable sort of a list, so modelling Rust's
merge sort by an insertion sort loses nothing. -/
theorem stable_sort_unique {l a b : List (Particle T)} (ha : StableSortOf l a) (hb : StableSortOf l b) :
    a = b := by
  have hf : ∀ cell group, a.filter (fun p => p.cell = cell ∧ p.energyGroup = group) =
      b.filter (fun p => p.cell = cell ∧ p.energyGroup = group) :=
    fun cell group => (ha.stable cell group).trans (hb.stable cell group).symm
  have h1 := ha.ordered
  have h2 := hb.ordered
  clear ha hb
  induction a generalizing b with
  | nil =>
    cases b with
    | nil => rfl
    | cons y b =>
      have := hf y.cell y.energyGroup
      simp at this
  | cons x a ih =>
    cases b with
    | nil =>
      have := hf x.cell x.energyGroup
      simp at this
    | cons y b =>
      rw [List.pairwise_cons] at h1 h2
      have hxy : CellGroupOrdered x y := by
        have hm : y ∈ (y :: b).filter (fun p => p.cell = y.cell ∧ p.energyGroup = y.energyGroup) := by
          simp
        rw [← hf] at hm
        rcases List.mem_cons.1 (List.mem_filter.1 hm).1 with rfl | h
        · exact .inr ⟨rfl, Nat.le_refl _⟩
        · exact h1.1 y h
      have hyx : CellGroupOrdered y x := by
        have hm : x ∈ (x :: a).filter (fun p => p.cell = x.cell ∧ p.energyGroup = x.energyGroup) := by
          simp
        rw [hf] at hm
        rcases List.mem_cons.1 (List.mem_filter.1 hm).1 with rfl | h
        · exact .inr ⟨rfl, Nat.le_refl _⟩
        · exact h2.1 x h
      have hk : y.cell = x.cell ∧ y.energyGroup = x.energyGroup := by
        simp only [CellGroupOrdered] at hxy hyx
        omega
      have hxx := hf x.cell x.energyGroup
      rw [List.filter_cons_of_pos (by simp), List.filter_cons_of_pos (by simpa using hk),
        List.cons.injEq] at hxx
      obtain ⟨rfl, _⟩ := hxx
      congr 1
      refine ih ?_ h1.2 h2.2
      intro cell group
      have := hf cell group
      rw [List.filter_cons, List.filter_cons] at this
      split at this
      · exact (List.cons.inj this).2
      · exact this

/-- **C46**, tracking: sorted or not, and under any two policies and schedules, the tracking of the
same particles gives the same particles up to order, the same counters, the same new particles up to
order and the same flux up to the order of the additions. -/
theorem C46_sort_keeps_outcomes (data : Data T) (fuel : Nat) (u : UnitState T) (c : Container T)
    (hz : (zero >. (zero : T)) = false) (ht : StartTables data u)
    (hcache : ∀ v ∈ u.cache, v = zero)
    (hs : List (Hist T)) (hd : c.processing.mapM (directHist data u.dom fuel) = .ok hs)
    (ex ex' : ExecInfo) (u1 u2 : UnitState T) (c1 c2 : Container T)
    (h1 : ProcessParticles data ex fuel u c u1 c1)
    (h2 : ProcessParticles data ex' fuel u c.sort u2 c2) :
    c2.processed.Perm c1.processed ∧ c2.extra.Perm c1.extra ∧ u2.balance = u1.balance ∧
      FluxRel u1.flux u2.flux := by
  have hm : MemOk data u.dom (sharedOf u c) :=
    ⟨ht.cache, ht.flux, fun i v hv => .inl (by rw [hcache v (List.mem_of_getElem? hv)]; exact hz)⟩
  obtain ⟨hs', hd', hp⟩ := mapM_perm_ok (stableSort_perm cellGroupLe c.processing).symm hd
  have hb := processParticles_direct ht.tables.groups hm hd h1
  have hb' := processParticles_direct (c := c.sort) ht.tables.groups hm hd' h2
  obtain ⟨e1, p1, q1⟩ := hb.extra
  obtain ⟨e2, p2, q2⟩ := hb'.extra
  obtain ⟨f1, r1, t1⟩ := hb.flux
  obtain ⟨f2, r2, t2⟩ := hb'.flux
  refine ⟨?_, ?_, ?_, ⟨u.flux, f1, f2, ?_, t1, t2⟩⟩
  · rw [hb.processed, hb'.processed]
    exact ((hp.map _).filter _).symm.append_left _
  · rw [q1, q2]
    exact (p2.trans ((hp.flatMap_right _).symm.trans p1.symm)).append_left _
  · rw [hb.balance, hb'.balance, Balance.sum_perm (hp.map (·.balance))]
  · exact r1.trans ((hp.flatMap_right _).trans r2.symm)

/-- The sort does something: three particles, with two of the same cell and group. -/
example :
    let p : Nat → Nat → BitVec 64 → Particle Toy := fun c g s =>
      { Particle.default with cell := c, energyGroup := g, seed := s }
    ((stableSort cellGroupLe [p 2 0 7, p 1 3 8, p 1 0 9, p 1 3 4]).map
      fun q => (q.cell, q.energyGroup, q.seed)) = [(1, 0, 9), (1, 3, 8), (1, 3, 4), (2, 0, 7)] := by
  decide +kernel

/-- Two particles of the toy problem meet the hypotheses, sequentially and with two workers. -/
example : ∃ u1 c1 u2 c2, ProcessParticles toyData toyExec 20 toyUnit toyBatch u1 c1 ∧
    ProcessParticles toyData ⟨.rayon, 1, 2, 1⟩ 20 toyUnit toyBatch.sort u2 c2 ∧
    c2.processed.Perm c1.processed ∧ u2.balance = u1.balance := by
  obtain ⟨hs, hhs, _⟩ := toyBatch_ok
  have hm : MemOk toyData toyUnit.dom (sharedOf toyUnit toyBatch) :=
    ⟨rfl, rfl, fun i v hv => .inl (by
      have : v = 0 := by simpa [sharedOf, toyUnit] using List.mem_of_getElem? hv
      rw [this]; decide +kernel)⟩
  obtain ⟨hs', hd', hp⟩ := mapM_perm_ok (stableSort_perm cellGroupLe toyBatch.processing).symm hhs
  obtain ⟨u1, c1, h1⟩ := processParticles_exists (ex := toyExec) (.inr (by decide +kernel))
    toy_startTables.tables.groups hm hhs
  obtain ⟨u2, c2, h2⟩ := processParticles_exists (ex := ⟨.rayon, 1, 2, 1⟩) (c := toyBatch.sort)
    (.inr (by decide +kernel)) toy_startTables.tables.groups hm hd'
  have := C46_sort_keeps_outcomes toyData 20 toyUnit toyBatch (by decide +kernel) toy_startTables
    (by decide +kernel) hs hhs _ _ _ _ _ _ h1 h2
  exact ⟨u1, c1, u2, c2, h1, h2, this.1, this.2.2.1⟩
