import Verif.Lemmas.Units
/-!
# The partitions of all the units: helper lemmas
-/
open Flt GridSpec
set_option linter.unusedSectionVars false

namespace Units
variable {T : Type} [Flt T] {g : Grid T} {near root : Nat → Nat}

open Classical in
/-- What unit `u` knows of cell `c` when the first `k` units have been built. -/
noncomputable def entry (g : Grid T) (near root : Nat → Nat) (num : Nat → List Nat) (k u c : Nat) : Option CellInfo :=
  if Owned g near root u c then
    if u < k then some ⟨some u, some 0, some u, some ((num u).idxOf c)⟩ else none
  else if near c < k ∧ Owned g near root (near c) c ∧ Faces g near u c then
    some ⟨some (near c), some 0, some (near c), some ((num (near c)).idxOf c)⟩
  else if u < k ∧ Met g near root u c then some (mark near c) else none

/-- The state of the construction when the first `k` units have been built. -/
structure Built (g : Grid T) (near root : Nat → Nat) (num : Nat → List Nat) (n k : Nat) (c : Comm) : Prop where
  length : c.partition.length = n
  gids : c.gidToIdx = List.range n
  lists : ∀ u < k, (num u).Nodup ∧ ∀ d, d ∈ num u ↔ Owned g near root u d
  later : ∀ u, k ≤ u → num u = []
  part : ∀ (u : Nat) p, c.partition[u]? = some p → p.domainGid = u ∧ p.foreman = 0 ∧ p.cellInfoMap.keys.Nodup ∧
    (∀ d, p.cellInfoMap.get? d = entry g near root num k u d) ∧
    (u < k → ∀ v, v ∈ p.nbrDomains ↔ v ≠ u ∧ ∃ d, Met g near root u d ∧ near d = v) ∧
    (k ≤ u → p.nbrDomains = [])

theorem idxOf_of_getElem? {l : List Nat} (hn : l.Nodup) {i c : Nat} (h : l[i]? = some c) : l.idxOf c = i := by
  obtain ⟨hi, rfl⟩ := List.getElem?_eq_some_iff.1 h
  exact hn.idxOf_getElem i hi

/-- What is known of a cell in an unfinished unit comes from a unit that is built. -/
theorem entry_self {num : Nat → List Nat} {k d : Nat} {info : CellInfo}
    (h : entry g near root num k k d = some info) : info.domainGid = some (near d) ∧ near d < k ∧
      Owned g near root (near d) d ∧ Faces g near k d := by
  unfold entry at h
  rw [if_neg (Nat.lt_irrefl k)] at h
  split at h
  · cases h
  · split at h
    · rename_i hc
      cases h
      exact ⟨rfl, hc⟩
    · rw [if_neg (by simp)] at h
      cases h

theorem build_step {order : IterOrder} (ho : ∀ l, (order l).Perm l) {centers : List (Vec3 T)}
    (hs : Setup g centers near root) {num : Nat → List Nat} {k : Nat} (hk : k < centers.length) {c : Comm}
    (hb : Built g near root num centers.length k c) (fuel : Nat) (hfuel : cells g ≤ fuel) :
    ∃ p p' remote c' num', c.partition[k]? = some p ∧
      buildMeshPartition order fuel g centers p = .ok (p', remote) ∧
      sendRemote k remote { c with partition := c.partition.set k p' } = .ok c' ∧
      Built g near root num' centers.length (k + 1) c' ∧ ∀ u < k, num' u = num u := by
  obtain ⟨p, hp⟩ : ∃ p, c.partition[k]? = some p := ⟨_, List.getElem?_eq_getElem (by rw [hb.length]; exact hk)⟩
  obtain ⟨p1, p2, p3, p4, -, p5⟩ := hb.part k p hp
  obtain ⟨l, nb, a1, a2, a3⟩ := assignCells_units hs hk p p1 (p5 le_rfl) fuel hfuel
  set m := marked near p.cellInfoMap l with hm
  have hmn : m.keys.Nodup := nodup_marked near p3 l
  have hmget : ∀ d, m.get? d = (entry g near root num k k d).or (if d ∈ l then some (mark near d) else none) := by
    intro d
    rw [hm, get?_marked, p4]
  have hmgid : ∀ d info, m.get? d = some info → info.domainGid = some (near d) := by
    intro d info hd
    rw [hmget] at hd
    cases he : entry g near root num k k d with
    | some i =>
      rw [he] at hd
      cases hd
      exact (entry_self he).1
    | none =>
      rw [he] at hd
      simp only [Option.none_or] at hd
      split at hd
      · cases hd; rfl
      · cases hd
  have hmown : ∀ d, (∃ info, m.get? d = some info ∧ info.domainGid = some k) ↔ Owned g near root k d := by
    intro d
    constructor
    · rintro ⟨info, h1, h2⟩
      have hd := hmgid d info h1
      rw [h2] at hd
      have hd : near d = k := (Option.some.inj hd).symm
      rw [hmget] at h1
      cases he : entry g near root num k k d with
      | some i => exact absurd (entry_self he).2.1 (by omega)
      | none =>
        rw [he] at h1
        simp only [Option.none_or] at h1
        split at h1
        · rename_i hl
          exact ⟨(a2 d).1 hl, hd⟩
        · cases h1
    · rintro ⟨h1, h2⟩
      have he : entry g near root num k k d = none := by
        cases he : entry g near root num k k d with
        | some i => exact absurd (entry_self he).2.1 (by omega)
        | none => rfl
      exact ⟨mark near d, by rw [hmget, he, if_pos ((a2 d).2 h1)]; rfl, by rw [← h2]; rfl⟩
  have hmlt : ∀ d, d ∈ m.keys → d < cells g := by
    intro d hd
    obtain ⟨info, hi⟩ := HMap.get?_isSome.1 hd
    have hr := (hs.roots k hk).choose_spec.2.2
    rw [hmget] at hi
    cases he : entry g near root num k k d with
    | some i =>
      obtain ⟨-, h1, h2, -⟩ := entry_self he
      obtain ⟨_, _, _, hr'⟩ := hs.roots (near d) (by omega)
      exact h2.1.lt hr'
    | none =>
      rw [he] at hi
      simp only [Option.none_or] at hi
      split at hi
      · rename_i hl
        exact ((a2 d).1 hl).lt hr
      · cases hi
  -- the numbers of the cells
  have hiter := HMap.iter_perm ho hmn
  have hik : ((m.iter order).map (·.1)).Perm m.keys := hiter.map _
  obtain ⟨m', remote, b1, b2, b3, b4, b5⟩ := idxLoop_units (g := g) (near := near) m k 0 (m.iter order) m 0 []
    (hik.nodup_iff.2 hmn)
    (fun e he => hmgid e.1 e.2 (HMap.get?_of_mem hmn (hiter.mem_iff.1 he))) hmn
  set loc := localsOf near k (m.iter order) with hloc
  have hlocn : loc.Nodup := (hik.nodup_iff.2 hmn).filter _
  have hlocm : ∀ d, d ∈ loc ↔ Owned g near root k d := by
    intro d
    rw [hloc, localsOf, List.mem_filter, hik.mem_iff, ← hmown]
    simp only [decide_eq_true_eq]
    constructor
    · rintro ⟨h1, h2⟩
      obtain ⟨info, hi⟩ := HMap.get?_isSome.1 h1
      exact ⟨info, hi, by rw [hmgid d info hi, h2]⟩
    · rintro ⟨info, h1, h2⟩
      refine ⟨HMap.get?_isSome.2 ⟨info, h1⟩, ?_⟩
      rw [hmgid d info h1] at h2
      exact Option.some.inj h2
  -- the cells to send
  have hrem : ∀ v d, (v, d) ∈ remote ↔ v ≠ k ∧ Owned g near root k d ∧ Faces g near v d := by
    intro v d
    rw [b5]
    simp only [List.not_mem_nil, false_or]
    constructor
    · rintro ⟨e, he, h1, h2, h3, h4⟩
      have hown := (hmown d).1 h4
      have hekey : e.1 ∈ m.keys := List.mem_map.2 ⟨e, hiter.mem_iff.1 he, rfl⟩
      have hadj : Adjacent g e.1 d := by
        rcases (mem_faceNbrs (hmlt _ hekey)).1 h3 with h | ⟨h, -⟩
        · exact h
        · rw [h] at hown
          exact absurd hown.2 h1
      exact ⟨by rw [h2]; exact h1, hown, e.1, hadj.symm, h2.symm⟩
    · rintro ⟨hv, hown, j, hj, rfl⟩
      have hjm : j ∈ l := (a2 j).2 (.grow hown.1 hown.2 hj.touch)
      obtain ⟨info, hi⟩ : ∃ info, m.get? j = some info := by
        rw [hmget, if_pos hjm]
        cases entry g near root num k k j <;> exact ⟨_, rfl⟩
      refine ⟨(j, info), hiter.mem_iff.2 (HMap.mem_of_get? hi), hv, rfl, ?_, (hmown d).2 hown⟩
      exact (mem_faceNbrs hj.symm.1).2 (.inl hj.symm)
  set num' : Nat → List Nat := fun u => if u = k then loc else num u with hnum'
  have hnumk : num' k = loc := if_pos rfl
  have hnumne : ∀ u, u ≠ k → num' u = num u := fun u hu => if_neg hu
  have hm'get : ∀ d, m'.get? d = entry g near root num' (k + 1) k d := by
    intro d
    by_cases hd : Owned g near root k d
    · obtain ⟨i, hi⟩ := List.getElem?_of_mem ((hlocm d).2 hd)
      rw [b3 i d hi, entry, if_pos hd, if_pos (Nat.lt_succ_self k), hnumk, idxOf_of_getElem? hlocn hi, Nat.zero_add]
    · rw [b4 d (fun h => hd ((hlocm d).1 h)), hmget]
      unfold entry
      rw [if_neg hd, if_neg hd]
      by_cases hf : near d < k ∧ Owned g near root (near d) d ∧ Faces g near k d
      · have hf' : near d < k + 1 ∧ Owned g near root (near d) d ∧ Faces g near k d := ⟨by omega, hf.2⟩
        simp only [if_pos hf, if_pos hf', hnumne _ (show near d ≠ k by omega)]
        rfl
      · have hf' : ¬ (near d < k + 1 ∧ Owned g near root (near d) d ∧ Faces g near k d) := ?_
        · simp only [if_neg hf, if_neg hf']
          simp only [Nat.lt_irrefl, false_and, if_false, Option.none_or]
          by_cases hl : d ∈ l
          · rw [if_pos hl, if_pos ⟨Nat.lt_succ_self k, (a2 d).1 hl⟩]
          · rw [if_neg hl, if_neg fun h => hl ((a2 d).2 h.2)]
        · rintro ⟨h1, h2, h3⟩
          have : near d = k := by
            by_contra hne
            exact hf ⟨by omega, h2, h3⟩
          rw [this] at h2
          exact hd h2
  set p' : Partition := { p with cellInfoMap := m', nbrDomains := nb } with hp'
  have hbuild : buildMeshPartition order fuel g centers p = .ok (p', remote) := by
    unfold buildMeshPartition buildCellIdxMap
    rw [a1]
    dsimp only [bind, Except.bind]
    rw [hp']
    simp only [p1, p2, b1]
    rfl
  obtain ⟨c', d1, d2, d3, d4, d5⟩ := sendRemote_units (i := k) (p := p') remote
    { c with partition := c.partition.set k p' }
    (by simp [hb.gids, hb.length])
    (by simp [hb.length, hk])
    (by
      rintro ⟨v, d⟩ hx
      obtain ⟨h1, h2, j, hj, rfl⟩ := (hrem v d).1 hx
      refine ⟨?_, h1, ?_⟩
      · simp only [List.length_set, hb.length]
        exact hs.bound j hj.symm.1
      · refine ⟨⟨some k, some 0, some k, some (loc.idxOf d)⟩, ?_, rfl, rfl⟩
        show m'.get? d = _
        rw [hm'get, entry, if_pos h2, if_pos (Nat.lt_succ_self k), hnumk])
    (by
      intro v q hq
      by_cases hv : k = v
      · subst hv
        have : p' = q := by simpa [hb.length, hk] using hq
        subst this
        exact b2
      · simp only [List.getElem?_set, if_neg hv] at hq
        exact (hb.part v q hq).2.2.1)
  refine ⟨p, p', remote, c', num', hp, hbuild, d1, ?_, fun u hu => hnumne u (by omega)⟩
  refine ⟨by rw [d3]; simp [hb.length], by rw [d2]; exact hb.gids, ?_,
    fun u hu => by rw [hnumne u (by omega)]; exact hb.later u (by omega), ?_⟩
  · intro u hu
    by_cases huk : u = k
    · subst huk
      rw [hnumk]
      exact ⟨hlocn, hlocm⟩
    · rw [hnumne u huk]
      exact hb.lists u (by omega)
  · intro u q hq
    by_cases huk : u = k
    · subst huk
      rw [d4] at hq
      cases hq
      exact ⟨p1, p2, b2, hm'get, fun _ => a3, fun h => absurd h (by omega)⟩
    · obtain ⟨q0, hq0⟩ : ∃ q0, c.partition[u]? = some q0 := by
        refine ⟨_, List.getElem?_eq_getElem ?_⟩
        have := (List.getElem?_eq_some_iff.1 hq).1
        rw [d3] at this
        simpa using this
      obtain ⟨q', e1, e2, e3, e4, e5, e6, e7⟩ := d5 u q0 huk (by simp only [List.getElem?_set, if_neg (Ne.symm huk)]; exact hq0)
      rw [hq] at e1
      cases e1
      obtain ⟨r1, r2, r3, r4, r5, r6⟩ := hb.part u q0 hq0
      refine ⟨e3.trans r1, e4.trans r2, e2, ?_, fun h => by rw [e5]; exact r5 (by omega), fun h => by rw [e5]; exact r6 (by omega)⟩
      intro d
      by_cases hx : (u, d) ∈ remote
      · rw [e6 d hx]
        show m'.get? d = _
        obtain ⟨-, h2, h3⟩ := (hrem u d).1 hx
        rw [hm'get]
        unfold entry
        have hnd := h2.2
        rw [if_pos h2, if_pos (Nat.lt_succ_self k), if_neg (fun h => huk (h.2.symm.trans hnd)), hnd,
          if_pos ⟨Nat.lt_succ_self k, h2, h3⟩]
      · rw [e7 d hx, r4]
        unfold entry
        by_cases hd : Owned g near root u d
        · rw [if_pos hd, if_pos hd, hnumne u huk]
          by_cases hlt : u < k
          · rw [if_pos hlt, if_pos (by omega)]
          · rw [if_neg hlt, if_neg (by omega)]
        · rw [if_neg hd, if_neg hd]
          by_cases hf : near d < k ∧ Owned g near root (near d) d ∧ Faces g near u d
          · rw [if_pos hf, if_pos ⟨by omega, hf.2⟩, hnumne _ (by omega)]
          · have hf' : ¬ (near d < k + 1 ∧ Owned g near root (near d) d ∧ Faces g near u d) := by
              rintro ⟨h1, h2, h3⟩
              by_cases hnk : near d = k
              · rw [hnk] at h2
                exact hx ((hrem u d).2 ⟨huk, h2, h3⟩)
              · exact hf ⟨by omega, h2, h3⟩
            rw [if_neg hf, if_neg hf']
            by_cases hlt : u < k ∧ Met g near root u d
            · rw [if_pos hlt, if_pos ⟨by omega, hlt.2⟩]
            · rw [if_neg hlt, if_neg fun h => hlt ⟨by omega, h.2⟩]

theorem build_all {order : IterOrder} (ho : ∀ l, (order l).Perm l) {centers : List (Vec3 T)}
    (hs : Setup g centers near root) (fuel : Nat) (hfuel : cells g ≤ fuel) (r : Nat) {num : Nat → List Nat} {k : Nat}
    {c : Comm} (hr : k + r = centers.length) (hb : Built g near root num centers.length k c) :
    ∃ c' num', buildPartitions order fuel g centers (List.range' k r) c = .ok c' ∧
      Built g near root num' centers.length centers.length c' := by
  induction r generalizing num k c with
  | zero =>
    have : k = centers.length := by omega
    subst this
    exact ⟨c, num, rfl, hb⟩
  | succ r ih =>
    obtain ⟨p, p', remote, c1, num', a1, a2, a3, a4, -⟩ := build_step ho hs (by omega) hb fuel hfuel
    obtain ⟨c', num'', b1, b2⟩ := ih (by omega) a4
    refine ⟨c', num'', ?_, b2⟩
    rw [List.range'_succ]
    unfold buildPartitions
    simp only [idx, a1, a2, a3, bind, Except.bind]
    exact b1

theorem comm_fill (n k r : Nat) (hr : k + r = n) (t : List Nat) (ht : t.length = n)
    (hk : ∀ i < k, t[i]? = some i) :
    ∃ t', Comm.fill n (((List.range' k r).map fun i => Partition.new i 0).zipIdx k) t = .ok t' ∧ t'.length = n ∧
      ∀ i < n, t'[i]? = some i := by
  induction r generalizing k t with
  | zero => exact ⟨t, rfl, ht, fun i hi => hk i (by omega)⟩
  | succ r ih =>
    rw [List.range'_succ, List.map_cons, List.zipIdx_cons]
    unfold Comm.fill
    have hkn : k < n := by omega
    simp only [Partition.new, assertB, hkn, decide_true, if_true, bind, Except.bind]
    refine ih (k + 1) (by omega) (t.set k k) (by simp [ht]) fun i hi => ?_
    by_cases h : k = i
    · subst h
      simp [ht, hkn]
    · rw [List.getElem?_set, if_neg h]
      exact hk i (by omega)

theorem comm_new (n : Nat) : ∃ c, Comm.new ((List.range n).map fun i => Partition.new i 0) = .ok c ∧
    c.partition = (List.range n).map (fun i => Partition.new i 0) ∧ c.gidToIdx = List.range n := by
  obtain ⟨t, a1, a2, a3⟩ := comm_fill n 0 n (by omega) (List.replicate n 0) (by simp) (by simp)
  rw [← List.range_eq_range'] at a1
  refine ⟨⟨_, t⟩, ?_, rfl, ?_⟩
  · unfold Comm.new
    simp only [List.length_map, List.length_range, a1, bind, Except.bind]
    rfl
  · refine List.ext_getElem? fun i => ?_
    by_cases h : i < n
    · rw [a3 i h, List.getElem?_range h]
    · rw [List.getElem?_eq_none (by dsimp only; omega), List.getElem?_eq_none (by simp; omega)]

theorem Built.start (n : Nat) {c : Comm} (h1 : c.partition = (List.range n).map fun i => Partition.new i 0)
    (h2 : c.gidToIdx = List.range n) : Built g near root (fun _ => []) n 0 c where
  length := by simp [h1]
  gids := h2
  lists := fun u hu => absurd hu (by omega)
  later := fun _ _ => rfl
  part := by
    intro u p hp
    rw [h1] at hp
    simp only [List.getElem?_map] at hp
    have hu : u < n := by
      by_contra h
      rw [List.getElem?_eq_none (by simp; omega)] at hp
      cases hp
    rw [List.getElem?_range hu] at hp
    cases hp
    refine ⟨rfl, rfl, List.nodup_nil, fun d => ?_, fun h => absurd h (by omega), fun _ => rfl⟩
    show HMap.get? [] d = _
    rw [HMap.get?_nil]
    unfold entry
    simp

/-- The state at the end, in the terms of the specification. -/
theorem Built.knows {num : Nat → List Nat} {n : Nat} {c : Comm} (h : Built g near root num n n c)
    {u : Nat} {p : Partition} (hp : c.partition[u]? = some p) : Knows g near root num u p := by
  have hu : u < n := by
    have := (List.getElem?_eq_some_iff.1 hp).1
    rwa [h.length] at this
  obtain ⟨p1, p2, p3, p4, p5, -⟩ := h.part u p hp
  refine ⟨p1, (h.lists u hu).1, (h.lists u hu).2, ?_, ?_, ?_, ?_, p5 hu⟩
  · intro i d hd
    have hown := ((h.lists u hu).2 d).1 (List.mem_of_getElem? hd)
    rw [p4, entry, if_pos hown, if_pos hu, idxOf_of_getElem? (h.lists u hu).1 hd]
  · intro v i d hv hd hf
    have hvn : v < n := by
      by_contra hge
      rw [h.later v (by omega)] at hd
      simp at hd
    have hown := ((h.lists v hvn).2 d).1 (List.mem_of_getElem? hd)
    have hnd := hown.2
    rw [p4, entry, if_neg (fun ho => hv (hnd.symm.trans ho.2)), hnd, if_pos ⟨hvn, hown, hf⟩,
      idxOf_of_getElem? (h.lists v hvn).1 hd]
  · intro d hm hne hno
    rw [p4, entry, if_neg (fun h => hne h.2), if_neg (fun h => hno h.2), if_pos ⟨hu, hm⟩]
    rfl
  · intro d hd
    obtain ⟨info, hi⟩ := HMap.get?_isSome.1 hd
    rw [p4] at hi
    unfold entry at hi
    split at hi
    · rename_i ho
      exact .inl ho.1
    · split at hi
      · rename_i hf
        exact .inr hf.2
      · split at hi
        · rename_i hm
          exact .inl hm.2
        · cases hi

end Units
