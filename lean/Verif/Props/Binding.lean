import Verif.Spec.Binding
import Verif.Lemmas.Except
import Mathlib.Data.Int.CardIntervalMod
/-!
# C72: binding of threads
-/

theorem hasAncestor_iff (a o : TopoObject) : hasAncestor a o = true ↔ o.Below a := by
  induction o with
  | root k i => simp [hasAncestor, TopoObject.Below, TopoObject.above]
  | child k i f ih =>
    simp only [hasAncestor, Bool.or_eq_true, Bool.and_eq_true, beq_iff_eq, ih, TopoObject.Below, TopoObject.above,
      List.mem_cons]
    constructor
    · rintro (⟨h1, h2⟩ | ⟨g, h1, h2⟩)
      · exact ⟨f, .inl rfl, h1, h2⟩
      · exact ⟨g, .inr h1, h2⟩
    · rintro ⟨g, rfl | h1, h2⟩
      · exact .inl h2
      · exact .inr ⟨g, h1, h2⟩

theorem sublist_eq_filter {α : Type} {l us : List α} {p : α → Bool} (hn : l.Nodup) (hs : us.Sublist l)
    (h : ∀ x ∈ l, x ∈ us ↔ p x = true) : us = l.filter p := by
  have h1 : us.filter p = us := List.filter_eq_self.2 fun x hx => (h x (hs.subset hx)).1 hx
  have h2 : us.Sublist (l.filter p) := by
    have := hs.filter p
    rwa [h1] at this
  refine h2.eq_of_length_le ?_
  refine ((hn.filter p).subperm fun x hx => ?_).length_le
  rw [List.mem_filter] at hx
  exact (h x hx.1).2 hx.2

variable {topo : Topology} {node : TopoObject} {us : List TopoObject}

/-- **C72** (target).  Thread `k` is bound to the unit number `k mod n` of the `n` units below the first NUMA node. -/
theorem C72_target (hn : topo.processingUnits.Nodup) (hu : UnitsOfFirstNode topo node us) (hne : 0 < us.length)
    (k : Nat) : bindTarget topo k = .ok (us[k % us.length]'(Nat.mod_lt _ hne)) := by
  have he : topo.processingUnits.filter (fun pu => hasAncestor node pu) = us :=
    (sublist_eq_filter hn hu.sub fun x hx => (hu.below x hx).trans (hasAncestor_iff node x).symm).symm
  unfold bindTarget
  rw [hu.first]
  show unwrap (cycleNth _ k) = _
  rw [he]
  unfold cycleNth
  rw [if_neg (by rw [List.isEmpty_iff]; rintro rfl; simp at hne), List.getElem?_eq_getElem (Nat.mod_lt _ hne)]
  rfl

/-- **C72** (spread).  Threads are spread evenly over the units of the first NUMA node: two of these units have the
same number of threads, or one more; no unit has two threads while there are at least as many units as threads; and
no other unit of the machine has a thread. -/
theorem C72_spread (hn : topo.processingUnits.Nodup) (hu : UnitsOfFirstNode topo node us) (hne : 0 < us.length)
    (n : Nat) :
    (∀ (i : Nat) (u : TopoObject), us[i]? = some u →
      threadsOn topo n u = n / us.length + if i < n % us.length then 1 else 0) ∧
    (∀ u ∈ us, ∀ v ∈ us, threadsOn topo n u ≤ threadsOn topo n v + 1) ∧
    (n ≤ us.length → ∀ u, threadsOn topo n u ≤ 1) ∧
    ∀ u, u ∉ us → threadsOn topo n u = 0 := by
  have hus : us.Nodup := hn.sublist hu.sub
  have hcount : ∀ (i : Nat) (u : TopoObject), us[i]? = some u →
      threadsOn topo n u = n / us.length + if i < n % us.length then 1 else 0 := by
    intro i u hi
    obtain ⟨hl, rfl⟩ := List.getElem?_eq_some_iff.1 hi
    have := Nat.count_modEq_card n hne i
    rw [Nat.mod_eq_of_lt hl] at this
    rw [← this, Nat.count_eq_card_filter_range]
    unfold threadsOn
    rw [List.countP_eq_length_filter]
    show _ = ((List.range n).filter _).length
    congr 1
    apply List.filter_congr
    intro k _
    rw [C72_target hn hu hne k]
    dsimp only
    rw [decide_eq_decide]
    constructor
    · intro h
      have := (List.Nodup.getElem_inj_iff hus).1 h
      rw [Nat.ModEq, this, Nat.mod_eq_of_lt hl]
    · intro h
      rw [Nat.ModEq, Nat.mod_eq_of_lt hl] at h
      simp only [h]
  have hzero : ∀ u, u ∉ us → threadsOn topo n u = 0 := by
    intro u hnot
    unfold threadsOn
    rw [List.countP_eq_zero]
    intro k _
    rw [C72_target hn hu hne k]
    dsimp only
    rw [decide_eq_true_eq]
    intro h
    exact hnot (h ▸ List.getElem_mem _)
  refine ⟨hcount, ?_, ?_, hzero⟩
  · intro u h1 v h2
    obtain ⟨i, hi⟩ := List.getElem?_of_mem h1
    obtain ⟨j, hj⟩ := List.getElem?_of_mem h2
    rw [hcount i u hi, hcount j v hj]
    split <;> split <;> omega
  · intro hle u
    by_cases h1 : u ∈ us
    · obtain ⟨i, hi⟩ := List.getElem?_of_mem h1
      rw [hcount i u hi]
      rcases Nat.lt_or_eq_of_le hle with h | h
      · rw [Nat.div_eq_of_lt h]
        split <;> omega
      · rw [h, Nat.div_self hne, Nat.mod_self]
        simp
    · rw [hzero u h1]; omega

/-- **C72** (stops).  The thread stops the program exactly when the machine shows no object at that depth, or no
processing unit below the first one; this is the same for all threads. -/
theorem C72_stops (k : Nat) : (∃ e, bindTarget topo k = .error e) ↔
    topo.objectsAt (topo.numaDepth.getD 0) = [] ∨
    ∃ node, (topo.objectsAt (topo.numaDepth.getD 0)).head? = some node ∧
      ∀ u ∈ topo.processingUnits, ¬ u.Below node := by
  unfold bindTarget
  cases hl : topo.objectsAt (topo.numaDepth.getD 0) with
  | nil =>
    simp only [List.head?_nil, true_or, iff_true]
    exact ⟨_, rfl⟩
  | cons node rest =>
    simp only [List.head?_cons, reduceCtorEq, false_or, Option.some.injEq, exists_eq_left']
    show (∃ e, unwrap (cycleNth _ k) = .error e) ↔ _
    unfold cycleNth
    by_cases hf : topo.processingUnits.filter (fun pu => hasAncestor node pu) = []
    · rw [if_pos (by rw [hf]; rfl)]
      refine iff_of_true ⟨_, rfl⟩ fun u hu hb => ?_
      have : u ∈ topo.processingUnits.filter (fun pu => hasAncestor node pu) :=
        List.mem_filter.2 ⟨hu, (hasAncestor_iff node u).2 hb⟩
      rw [hf] at this
      cases this
    · rw [if_neg (by rw [List.isEmpty_iff]; exact hf)]
      have hpos : 0 < (topo.processingUnits.filter (fun pu => hasAncestor node pu)).length :=
        List.length_pos_iff.2 hf
      rw [List.getElem?_eq_getElem (Nat.mod_lt k hpos)]
      refine iff_of_false (fun ⟨e, he⟩ => by cases he) fun h => ?_
      obtain ⟨u, hu⟩ := List.exists_mem_of_ne_nil _ hf
      rw [List.mem_filter] at hu
      exact h u hu.1 ((hasAncestor_iff node u).1 hu.2)

/-! ### A machine with two NUMA nodes of two cores -/

/-- Types: 0 machine, 1 NUMA node, 2 processing unit. -/
def demoTopology : Topology where
  numaDepth := some 1
  objectsAt d := if d = 1 then [.child 1 0 (.root 0 0), .child 1 1 (.root 0 0)] else [.root 0 0]
  processingUnits := [.child 2 0 (.child 1 0 (.root 0 0)), .child 2 1 (.child 1 1 (.root 0 0)),
    .child 2 2 (.child 1 0 (.root 0 0)), .child 2 3 (.child 1 1 (.root 0 0))]

theorem demo_units : UnitsOfFirstNode demoTopology (.child 1 0 (.root 0 0))
    [.child 2 0 (.child 1 0 (.root 0 0)), .child 2 2 (.child 1 0 (.root 0 0))] := by
  refine ⟨rfl, by decide, fun u hu => ?_⟩
  rw [← hasAncestor_iff]
  revert u
  decide

/-- Five threads: three on the first unit of the node, two on the second, none on the other node. -/
example : demoTopology.processingUnits.map (threadsOn demoTopology 5) = [3, 0, 2, 0] := by decide +kernel

example : threadsOn demoTopology 5 (.child 2 0 (.child 1 0 (.root 0 0))) = 3 :=
  (C72_spread (by decide) demo_units (by decide) 5).1 0 _ rfl

/-- The nodes are not above the units: the program stops. -/
example : ∃ e, bindTarget { demoTopology with processingUnits := [.child 2 0 (.root 0 0)] } 0 = .error e :=
  ⟨_, rfl⟩
