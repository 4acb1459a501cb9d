import Verif.Lemmas.Flood
import Verif.Spec.Units
import Verif.Model.Domain
/-!
# The partitions of several units: helper lemmas
-/
open Flt GridSpec
set_option linter.unusedSectionVars false

namespace Units
variable {T : Type} [Flt T] {g : Grid T}

theorem mem_nbrCoords {o : Int × Int × Int} : o ∈ nbrCoords ↔
    o ≠ (0, 0, 0) ∧ (-1 ≤ o.1 ∧ o.1 ≤ 1) ∧ (-1 ≤ o.2.1 ∧ o.2.1 ≤ 1) ∧ (-1 ≤ o.2.2 ∧ o.2.2 ≤ 1) := by
  constructor
  · have : ∀ o ∈ nbrCoords, o ≠ (0, 0, 0) ∧ (-1 ≤ o.1 ∧ o.1 ≤ 1) ∧ (-1 ≤ o.2.1 ∧ o.2.1 ≤ 1) ∧
        (-1 ≤ o.2.2 ∧ o.2.2 ≤ 1) := by decide
    exact this o
  · rintro ⟨h, ⟨a1, a2⟩, ⟨b1, b2⟩, c1, c2⟩
    obtain ⟨a, b, c⟩ := o
    simp only at a1 a2 b1 b2 c1 c2
    have ha : a = -1 ∨ a = 0 ∨ a = 1 := by omega
    have hb : b = -1 ∨ b = 0 ∨ b = 1 := by omega
    have hc : c = -1 ∨ c = 0 ∨ c = 1 := by omega
    rcases ha with rfl | rfl | rfl <;> rcases hb with rfl | rfl | rfl <;> rcases hc with rfl | rfl | rfl <;>
      first | (exact absurd rfl h) | decide

theorem touch_of_shifted {c : Nat} (hc : c < cells g) {o : Int × Int × Int} (ho : o ∈ nbrCoords) :
    g.shifted c o = c ∨ Touch g c (g.shifted c o) := by
  obtain ⟨-, ⟨a1, a2⟩, ⟨b1, b2⟩, c1, c2⟩ := mem_nbrCoords.1 ho
  by_cases h : g.shifted c o = c
  · exact .inl h
  · refine .inr ⟨hc, Grid.shifted_lt hc o, Ne.symm h, ?_⟩
    obtain ⟨h1, h2, h3⟩ := Grid.idx_inGrid hc
    have hin := Grid.snap_inGrid (g := g) (((g.cellIdxToTuple c).1 : Int) + o.1, ((g.cellIdxToTuple c).2.1 : Int) + o.2.1,
      ((g.cellIdxToTuple c).2.2 : Int) + o.2.2) (Grid.pos_of_lt hc)
    have e : g.cellIdxToTuple (g.shifted c o) = g.snapTurtle (((g.cellIdxToTuple c).1 : Int) + o.1,
        ((g.cellIdxToTuple c).2.1 : Int) + o.2.1, ((g.cellIdxToTuple c).2.2 : Int) + o.2.2) :=
      Grid.tuple_idx hin.1 hin.2.1
    rw [e]
    simp only [Grid.snapTurtle, Grid.snap1]
    refine ⟨⟨?_, ?_⟩, ⟨?_, ?_⟩, ?_, ?_⟩ <;> omega

theorem shifted_of_touch {c d : Nat} (h : Touch g c d) : ∃ o ∈ nbrCoords, g.shifted c o = d := by
  obtain ⟨hc, hd, hne, ⟨a1, a2⟩, ⟨b1, b2⟩, c1, c2⟩ := h
  obtain ⟨h1, h2, h3⟩ := Grid.idx_inGrid hc
  obtain ⟨k1, k2, k3⟩ := Grid.idx_inGrid hd
  refine ⟨(((g.cellIdxToTuple d).1 : Int) - (g.cellIdxToTuple c).1, ((g.cellIdxToTuple d).2.1 : Int) -
    (g.cellIdxToTuple c).2.1, ((g.cellIdxToTuple d).2.2 : Int) - (g.cellIdxToTuple c).2.2), ?_, ?_⟩
  · refine mem_nbrCoords.2 ⟨?_, ?_, ?_, ?_⟩
    · intro h
      simp only [Prod.mk.injEq] at h
      apply hne
      rw [← Grid.idx_tuple (g := g) c, ← Grid.idx_tuple (g := g) d]
      congr 1
      ext <;> omega
    all_goals dsimp only; omega
  · unfold Grid.shifted
    have e : g.snapTurtle (((g.cellIdxToTuple c).1 : Int) + ((g.cellIdxToTuple d).1 - (g.cellIdxToTuple c).1),
        ((g.cellIdxToTuple c).2.1 : Int) + ((g.cellIdxToTuple d).2.1 - (g.cellIdxToTuple c).2.1),
        ((g.cellIdxToTuple c).2.2 : Int) + ((g.cellIdxToTuple d).2.2 - (g.cellIdxToTuple c).2.2))
        = g.cellIdxToTuple d := by
      generalize g.cellIdxToTuple c = t at *
      generalize g.cellIdxToTuple d = u at *
      obtain ⟨x, y, z⟩ := t
      obtain ⟨x', y', z'⟩ := u
      simp only at k1 k2 k3
      simp only [Grid.snapTurtle, Grid.snap1, Prod.mk.injEq]
      omega
    exact (congrArg _ e).trans (Grid.idx_tuple d)

theorem Touch.symm {c d : Nat} (h : Touch g c d) : Touch g d c := by
  obtain ⟨hc, hd, hne, ⟨a1, a2⟩, ⟨b1, b2⟩, c1, c2⟩ := h
  exact ⟨hd, hc, hne.symm, ⟨a2, a1⟩, ⟨b2, b1⟩, c2, c1⟩

theorem across_inGrid {t : Nat × Nat × Nat} {f : Face} (ht : InGrid g t) (hf : ¬ OnBorder g t f) :
    InGrid g (across t f) := by
  obtain ⟨x, y, z⟩ := t
  obtain ⟨h1, h2, h3⟩ := ht
  simp only at h1 h2 h3
  cases f <;> simp only [OnBorder] at hf <;> simp only [InGrid, across] <;> refine ⟨?_, ?_, ?_⟩ <;> omega

theorem Adjacent.touch {c d : Nat} (h : Adjacent g c d) : Touch g c d := by
  obtain ⟨hc, f, hf, rfl⟩ := h
  have hin := across_inGrid (Grid.idx_inGrid hc) hf
  obtain ⟨h1, h2, h3⟩ := Grid.idx_inGrid hc
  have e := Grid.tuple_idx hin.1 hin.2.1
  have hco : g.cellIdxToTuple c ≠ across (g.cellIdxToTuple c) f ∧
      ((g.cellIdxToTuple c).1 ≤ (across (g.cellIdxToTuple c) f).1 + 1 ∧
        (across (g.cellIdxToTuple c) f).1 ≤ (g.cellIdxToTuple c).1 + 1) ∧
      ((g.cellIdxToTuple c).2.1 ≤ (across (g.cellIdxToTuple c) f).2.1 + 1 ∧
        (across (g.cellIdxToTuple c) f).2.1 ≤ (g.cellIdxToTuple c).2.1 + 1) ∧
      ((g.cellIdxToTuple c).2.2 ≤ (across (g.cellIdxToTuple c) f).2.2 + 1 ∧
        (across (g.cellIdxToTuple c) f).2.2 ≤ (g.cellIdxToTuple c).2.2 + 1) := by
    generalize g.cellIdxToTuple c = t at hf ⊢
    obtain ⟨x, y, z⟩ := t
    cases f <;> simp only [OnBorder] at hf <;> simp only [across, ne_eq, Prod.mk.injEq] <;> omega
  refine ⟨hc, Grid.tuple_lt hin, ?_, ?_⟩
  · intro h
    apply hco.1
    have := congrArg g.cellIdxToTuple h
    rwa [e] at this
  · rw [e]; exact hco.2

theorem Adjacent.symm {c d : Nat} (h : Adjacent g c d) : Adjacent g d c := by
  have ht := h.touch
  obtain ⟨hc, f, hf, rfl⟩ := h
  have hin := across_inGrid (Grid.idx_inGrid hc) hf
  refine ⟨ht.2.1, f.opposite, ?_, ?_⟩
  · rw [Grid.tuple_idx hin.1 hin.2.1]
    obtain ⟨h1, h2, h3⟩ := Grid.idx_inGrid hc
    generalize g.cellIdxToTuple c = t at hf h1 h2 h3 ⊢
    obtain ⟨x, y, z⟩ := t
    simp only at h1 h2 h3
    cases f <;> simp only [OnBorder] at hf <;> simp only [across, OnBorder, Face.opposite] <;> omega
  · rw [Grid.tuple_idx hin.1 hin.2.1]
    conv_lhs => rw [← Grid.idx_tuple (g := g) c]
    congr 1
    generalize g.cellIdxToTuple c = t at hf ⊢
    obtain ⟨x, y, z⟩ := t
    cases f <;> simp only [OnBorder] at hf <;> simp only [across, Face.opposite, Prod.mk.injEq, and_true, true_and] <;> omega

/-- The face neighbours of the code: the cell itself across a border. -/
theorem mem_faceNbrs {c d : Nat} (hc : c < cells g) : d ∈ g.getFaceNbrGids c ↔
    Adjacent g c d ∨ (d = c ∧ ∃ f, OnBorder g (g.cellIdxToTuple c) f) := by
  have hlen : (g.getFaceNbrGids c).length = 6 := rfl
  constructor
  · intro h
    obtain ⟨i, hi⟩ := List.getElem?_of_mem h
    have hi6 : i < 6 := by
      rw [← hlen]; exact (List.getElem?_eq_some_iff.1 hi).1
    obtain ⟨f, rfl⟩ : ∃ f : Face, f.num = i := by
      have : i = 0 ∨ i = 1 ∨ i = 2 ∨ i = 3 ∨ i = 4 ∨ i = 5 := by omega
      rcases this with rfl | rfl | rfl | rfl | rfl | rfl
      exacts [⟨.xp, rfl⟩, ⟨.xm, rfl⟩, ⟨.yp, rfl⟩, ⟨.ym, rfl⟩, ⟨.zp, rfl⟩, ⟨.zm, rfl⟩]
    obtain ⟨t, h1, h2, h3⟩ := Grid.faceNbr_eq hc f
    rw [hi] at h1
    cases h1
    by_cases hb : OnBorder g (g.cellIdxToTuple c) f
    · right
      rw [h2 hb, Grid.idx_tuple]
      exact ⟨rfl, f, hb⟩
    · left
      rw [(h3 hb).1]
      exact ⟨hc, f, hb, rfl⟩
  · rintro (⟨_, f, hf, rfl⟩ | ⟨rfl, f, hf⟩)
    · obtain ⟨t, h1, h2, h3⟩ := Grid.faceNbr_eq hc f
      rw [(h3 hf).1] at h1
      exact List.mem_of_getElem? h1
    · obtain ⟨t, h1, h2, h3⟩ := Grid.faceNbr_eq hc f
      rw [h2 hf, Grid.idx_tuple] at h1
      exact List.mem_of_getElem? h1

/-! ### Maps -/

theorem get?_orInsert (m : HMap Nat CellInfo) (k : Nat) (v : CellInfo) (k' : Nat) :
    (m.orInsert k v).get? k' = (m.get? k').or (if k = k' then some v else none) := by
  by_cases h : k ∈ m.keys
  · rw [HMap.orInsert_old h]
    obtain ⟨w, hw⟩ := HMap.get?_isSome.1 h
    by_cases hk : k = k'
    · subst hk; simp [hw]
    · simp [hk]
  · rw [HMap.orInsert_new h, HMap.get?_append, HMap.get?_cons, HMap.get?_nil]

theorem nodup_orInsert {m : HMap Nat CellInfo} (hn : m.keys.Nodup) (k : Nat) (v : CellInfo) :
    (m.orInsert k v).keys.Nodup := by
  by_cases h : k ∈ m.keys
  · rwa [HMap.orInsert_old h]
  · rw [HMap.orInsert_new h]
    unfold HMap.keys at *
    rw [List.map_append, List.map_cons, List.map_nil]
    rw [List.nodup_append]
    refine ⟨hn, by simp, ?_⟩
    rintro x hx y hy rfl
    rw [List.mem_singleton.1 hy] at hx
    exact h hx

theorem nodup_insert {m : HMap Nat CellInfo} (hn : m.keys.Nodup) (k : Nat) (v : CellInfo) :
    (m.insert k v).keys.Nodup := by
  by_cases h : k ∈ m.keys
  · rwa [HMap.keys_insert_old h]
  · have := nodup_orInsert hn k v
    rwa [HMap.orInsert_new h, ← HMap.insert_new h] at this

/-- What the flood records for a cell. -/
def mark (near : Nat → Nat) (c : Nat) : CellInfo := { domainGid := some (near c) }

/-- A map with the marks of some cells added. -/
def marked (near : Nat → Nat) (m : HMap Nat CellInfo) (l : List Nat) : HMap Nat CellInfo :=
  l.foldl (fun m c => m.orInsert c (mark near c)) m

theorem marked_snoc (near : Nat → Nat) (m : HMap Nat CellInfo) (l : List Nat) (c : Nat) :
    marked near m (l ++ [c]) = (marked near m l).orInsert c (mark near c) := by
  simp [marked]

theorem get?_marked (near : Nat → Nat) (m : HMap Nat CellInfo) (l : List Nat) (c : Nat) :
    (marked near m l).get? c = (m.get? c).or (if c ∈ l then some (mark near c) else none) := by
  induction l generalizing m with
  | nil => simp [marked]
  | cons d l ih =>
    have e : marked near m (d :: l) = marked near (m.orInsert d (mark near d)) l := rfl
    rw [e, ih, get?_orInsert]
    cases m.get? c with
    | some v => rfl
    | none =>
      by_cases h : d = c
      · subst h; simp
      · have : (c ∈ d :: l) ↔ c ∈ l := by simp [Ne.symm h]
        simp [h, Ne.symm h]

theorem nodup_marked (near : Nat → Nat) {m : HMap Nat CellInfo} (hn : m.keys.Nodup) (l : List Nat) :
    (marked near m l).keys.Nodup := by
  induction l generalizing m with
  | nil => exact hn
  | cons d l ih => exact ih (nodup_orInsert hn _ _)

/-! ### The flood -/

section
variable {near root : Nat → Nat} {u : Nat}

theorem Met.lt (hr : root u < cells g) {c : Nat} (h : Met g near root u c) : c < cells g := by
  cases h with
  | root => exact hr
  | around h => exact h.2.1
  | grow _ _ h => exact h.2.1

theorem flood_done {popped nb : List Nat} (a : Assigner T) (p0 : Partition) (m0 : HMap Nat CellInfo) (fuel : Nat)
    (w : List Nat) (hmet : ∀ c ∈ popped, Met g near root u c) (h0 : root u ∈ popped)
    (h1 : ∀ c, Touch g (root u) c → c ∈ popped)
    (h2 : ∀ d ∈ popped, near d = u → ∀ c, Touch g d c → c ∈ popped)
    (hnb : ∀ v, v ∈ nb ↔ v ≠ u ∧ ∃ c ∈ popped, near c = v) :
    ∃ popped' w' nb' : List Nat,
      floodLoop g fuel ⟨{ p0 with cellInfoMap := marked near m0 popped, nbrDomains := nb }, a, [], w⟩
        = .ok ⟨{ p0 with cellInfoMap := marked near m0 popped', nbrDomains := nb' }, a, [], w'⟩ ∧
      (∀ c, c ∈ popped' ↔ Met g near root u c) ∧
      (∀ v, v ∈ nb' ↔ v ≠ u ∧ ∃ c, Met g near root u c ∧ near c = v) := by
  have hall : ∀ c, c ∈ popped ↔ Met g near root u c := by
    refine fun c => ⟨hmet c, fun h => ?_⟩
    induction h with
    | root => exact h0
    | around h => exact h1 _ h
    | grow _ hd ht ih => exact h2 _ ih hd _ ht
  refine ⟨popped, w, nb, ?_, hall, fun v => ?_⟩
  · unfold floodLoop; rfl
  · rw [hnb]
    simp only [hall]

/-- The flood of a unit: it marks the cells the unit meets. -/
theorem floodLoop_units (a : Assigner T) (p0 : Partition) (hgid : p0.domainGid = u) (m0 : HMap Nat CellInfo)
    (hr : root u < cells g)
    (hnear : ∀ c < cells g, ∃ rr, g.cellCenter c = .ok rr ∧ a.nearestCenter rr = .ok (near c, a))
    (fuel : Nat) (popped q w nb : List Nat) (hw : w.Perm (popped ++ q)) (hn : (popped ++ q).Nodup)
    (hmet : ∀ c ∈ popped ++ q, Met g near root u c) (h0 : root u ∈ popped ++ q)
    (h1 : ∀ c, Touch g (root u) c → c ∈ popped ++ q)
    (h2 : ∀ d ∈ popped, near d = u → ∀ c, Touch g d c → c ∈ popped ++ q)
    (hnb : ∀ v, v ∈ nb ↔ v ≠ u ∧ ∃ c ∈ popped, near c = v)
    (hfuel : cells g ≤ popped.length + fuel) :
    ∃ popped' w' nb' : List Nat,
      floodLoop g fuel ⟨{ p0 with cellInfoMap := marked near m0 popped, nbrDomains := nb }, a, q, w⟩
        = .ok ⟨{ p0 with cellInfoMap := marked near m0 popped', nbrDomains := nb' }, a, [], w'⟩ ∧
      (∀ c, c ∈ popped' ↔ Met g near root u c) ∧
      (∀ v, v ∈ nb' ↔ v ≠ u ∧ ∃ c, Met g near root u c ∧ near c = v) := by
  induction fuel generalizing popped q w nb with
  | zero =>
    cases q with
    | nil =>
      rw [List.append_nil] at hmet h0 h1 h2
      exact flood_done a p0 m0 _ w hmet h0 h1 h2 hnb
    | cons c q =>
      exfalso
      have hle : (popped ++ c :: q).length ≤ (List.range (cells g)).length :=
        (List.subperm_of_subset hn fun x hx => List.mem_range.2 ((hmet x hx).lt hr)).length_le
      simp at hle
      omega
  | succ fuel ih =>
    cases q with
    | nil =>
      rw [List.append_nil] at hmet h0 h1 h2
      exact flood_done a p0 m0 _ w hmet h0 h1 h2 hnb
    | cons c q =>
      have hcm : Met g near root u c := hmet c (by simp)
      have hcl := hcm.lt hr
      obtain ⟨rr, e1, e2⟩ := hnear c hcl
      have happ : (popped ++ [c]) ++ q = popped ++ c :: q := by simp
      by_cases hcu : near c = u
      · obtain ⟨new, a1, a2, a3, a4⟩ := Flooding.addWet_foldl (nbrCoords.map (g.shifted c)) q w
        have happ' : (popped ++ [c]) ++ (q ++ new) = (popped ++ c :: q) ++ new := by simp
        have hstep : floodStep g ⟨{ p0 with cellInfoMap := marked near m0 popped, nbrDomains := nb }, a, q, w⟩ c
            = .ok ⟨{ p0 with cellInfoMap := marked near m0 (popped ++ [c]), nbrDomains := nb }, a, q ++ new,
                new.reverse ++ w⟩ := by
          unfold floodStep
          simp only [e1, e2, bind, Except.bind, hgid, hcu, if_true, addNbrsToFlood, a1, pure, Except.pure, marked_snoc,
            mark]
        have hnew : ∀ x ∈ new, Met g near root u x := by
          intro x hx
          obtain ⟨o, ho, rfl⟩ := List.mem_map.1 (a3 x hx).1
          rcases touch_of_shifted hcl ho with h | h
          · rw [h]; exact hcm
          · exact .grow hcm hcu h
        obtain ⟨popped', w', nb', b1, b2, b3⟩ := ih (popped ++ [c]) (q ++ new) (new.reverse ++ w) nb
          (by
            have f1 : (new.reverse ++ w).Perm (w ++ new) :=
              ((List.reverse_perm new).append_right w).trans List.perm_append_comm
            refine f1.trans ((hw.append_right new).trans ?_)
            simp)
          (by
            rw [happ', List.nodup_append]
            refine ⟨hn, a2, ?_⟩
            rintro x hx y hy rfl
            exact (a3 x hy).2 (hw.mem_iff.2 hx))
          (by
            intro x hx
            rw [happ'] at hx
            rcases List.mem_append.1 hx with hx | hx
            · exact hmet x hx
            · exact hnew x hx)
          (by rw [happ']; exact List.mem_append_left _ h0)
          (by intro x hx; rw [happ']; exact List.mem_append_left _ (h1 x hx))
          (by
            intro d hd hdu x hx
            rw [happ']
            rcases List.mem_append.1 hd with hd | hd
            · exact List.mem_append_left _ (h2 d hd hdu x hx)
            · rw [List.mem_singleton.1 hd] at hx
              obtain ⟨o, ho, rfl⟩ := shifted_of_touch hx
              rcases a4 _ (List.mem_map.2 ⟨o, ho, rfl⟩) with h | h
              · exact List.mem_append_right _ h
              · exact List.mem_append_left _ (hw.mem_iff.1 h))
          (by
            intro v
            rw [hnb]
            refine and_congr_right fun hv => ⟨fun ⟨x, hx, e⟩ => ⟨x, List.mem_append_left _ hx, e⟩, ?_⟩
            rintro ⟨x, hx, e⟩
            rcases List.mem_append.1 hx with hx | hx
            · exact ⟨x, hx, e⟩
            · rw [List.mem_singleton.1 hx, hcu] at e
              exact absurd e.symm hv)
          (by simp; omega)
        refine ⟨popped', w', nb', ?_, b2, b3⟩
        unfold floodLoop
        simp only [hstep, bind, Except.bind]
        exact b1
      · set nb1 := if near c ∈ nb then nb else nb ++ [near c] with hnb1
        have hnb1m : ∀ v, v ∈ nb1 ↔ v = near c ∨ v ∈ nb := by
          intro v
          rw [hnb1]
          split
          · rename_i hin
            exact ⟨.inr, fun h => h.elim (fun e => e ▸ hin) id⟩
          · rw [List.mem_append, List.mem_singleton, or_comm]
        have hstep : floodStep g ⟨{ p0 with cellInfoMap := marked near m0 popped, nbrDomains := nb }, a, q, w⟩ c
            = .ok ⟨{ p0 with cellInfoMap := marked near m0 (popped ++ [c]), nbrDomains := nb1 }, a, q, w⟩ := by
          unfold floodStep
          simp only [e1, e2, bind, Except.bind, hgid, hcu, if_false, pure, Except.pure, marked_snoc, mark]
          rfl
        obtain ⟨popped', w', nb', b1, b2, b3⟩ := ih (popped ++ [c]) q w nb1
          (by rw [happ]; exact hw) (by rw [happ]; exact hn) (by rw [happ]; exact hmet) (by rw [happ]; exact h0)
          (by rw [happ]; exact h1)
          (by
            rw [happ]
            intro d hd hdu
            rcases List.mem_append.1 hd with hd | hd
            · exact h2 d hd hdu
            · rw [List.mem_singleton.1 hd] at hdu
              exact absurd hdu hcu)
          (by
            intro v
            rw [hnb1m, hnb]
            constructor
            · rintro (rfl | ⟨hv, x, hx, e⟩)
              · exact ⟨hcu, c, by simp, rfl⟩
              · exact ⟨hv, x, List.mem_append_left _ hx, e⟩
            · rintro ⟨hv, x, hx, e⟩
              rcases List.mem_append.1 hx with hx | hx
              · exact .inr ⟨hv, x, hx, e⟩
              · rw [List.mem_singleton.1 hx] at e
                exact .inl e.symm)
          (by simp; omega)
        refine ⟨popped', w', nb', ?_, b2, b3⟩
        unfold floodLoop
        simp only [hstep, bind, Except.bind]
        exact b1

/-- What the code needs to share the cells between the units: the nearest centre of each cell, and the root cells. -/
structure Setup (g : Grid T) (centers : List (Vec3 T)) (near root : Nat → Nat) : Prop where
  pos : 0 < g.nx ∧ 0 < g.ny ∧ 0 < g.nz
  nearest : ∃ a, Assigner.new centers = .ok a ∧
    ∀ c < cells g, ∃ rr, g.cellCenter c = .ok rr ∧ a.nearestCenter rr = .ok (near c, a)
  bound : ∀ c < cells g, near c < centers.length
  roots : ∀ u < centers.length, ∃ x, centers[u]? = some x ∧ g.whichCell x = .ok (root u) ∧ root u < cells g

theorem assignCells_units {centers : List (Vec3 T)} (hs : Setup g centers near root) (hu : u < centers.length)
    (p0 : Partition) (hgid : p0.domainGid = u) (hnb0 : p0.nbrDomains = []) (fuel : Nat) (hfuel : cells g ≤ fuel) :
    ∃ l nb : List Nat, assignCellsToDomain fuel g centers p0
        = .ok { p0 with cellInfoMap := marked near p0.cellInfoMap l, nbrDomains := nb } ∧
      (∀ c, c ∈ l ↔ Met g near root u c) ∧
      (∀ v, v ∈ nb ↔ v ≠ u ∧ ∃ c, Met g near root u c ∧ near c = v) := by
  obtain ⟨a, ha, hnear⟩ := hs.nearest
  obtain ⟨x, hx, hw, hr⟩ := hs.roots u hu
  obtain ⟨new, a1, a2, a3, a4⟩ := Flooding.addWet_foldl (nbrCoords.map (g.shifted (root u))) [root u] [root u]
  obtain ⟨l, w', nb, b1, b2, b3⟩ := floodLoop_units (g := g) (near := near) (root := root) (u := u) a p0 hgid
    p0.cellInfoMap hr hnear fuel [] ([root u] ++ new) (new.reverse ++ [root u]) []
    (by
      rw [List.nil_append]
      exact ((List.reverse_perm new).append_right _).trans List.perm_append_comm)
    (by
      rw [List.nil_append, List.nodup_append]
      refine ⟨by simp, a2, ?_⟩
      rintro x hx y hy rfl
      exact (a3 x hy).2 hx)
    (by
      intro c hc
      rw [List.nil_append] at hc
      rcases List.mem_append.1 hc with hc | hc
      · rw [List.mem_singleton.1 hc]; exact .root
      · obtain ⟨o, ho, rfl⟩ := List.mem_map.1 (a3 c hc).1
        rcases touch_of_shifted hr ho with h | h
        · rw [h]; exact .root
        · exact .around h)
    (by simp)
    (by
      intro c hc
      rw [List.nil_append]
      obtain ⟨o, ho, rfl⟩ := shifted_of_touch hc
      rcases a4 _ (List.mem_map.2 ⟨o, ho, rfl⟩) with h | h
      · exact List.mem_append_right _ h
      · exact List.mem_append_left _ h)
    (by simp) (by simp) (by simpa using hfuel)
  refine ⟨l, nb, ?_, b2, b3⟩
  unfold assignCellsToDomain
  have hidx : idx centers p0.domainGid = .ok x := by rw [hgid]; simp [idx, hx]
  simp only [ha, hidx, hw, bind, Except.bind, addNbrsToFlood, a1]
  have hp0 : p0 = { p0 with cellInfoMap := marked near p0.cellInfoMap [], nbrDomains := [] } := by
    obtain ⟨d, f, m, n⟩ := p0
    simp only at hnb0
    rw [hnb0]; rfl
  rw [← hp0] at b1
  rw [b1]
  rfl

/-! ### The numbers of the cells -/

theorem mem_remoteOf (rm : HMap Nat CellInfo) (my dom cell : Nat) (acc : List (Nat × Nat)) (x : Nat × Nat) :
    x ∈ remoteOf g rm my dom cell acc ↔ x ∈ acc ∨ (x.1 = dom ∧ x.2 ∈ g.getFaceNbrGids cell ∧
      ∃ ci, rm.get? x.2 = some ci ∧ ci.domainGid = some my) := by
  unfold remoteOf
  generalize g.getFaceNbrGids cell = l
  induction l generalizing acc with
  | nil => simp
  | cons j l ih =>
    rw [List.foldl_cons, ih]
    have key : ∀ acc' : List (Nat × Nat), (x ∈ acc' ↔ x ∈ acc ∨ (x.1 = dom ∧ x.2 = j ∧
        ∃ ci, rm.get? x.2 = some ci ∧ ci.domainGid = some my)) →
        (x ∈ acc' ∨ (x.1 = dom ∧ x.2 ∈ l ∧ ∃ ci, rm.get? x.2 = some ci ∧ ci.domainGid = some my) ↔
        x ∈ acc ∨ (x.1 = dom ∧ x.2 ∈ j :: l ∧ ∃ ci, rm.get? x.2 = some ci ∧ ci.domainGid = some my)) := by
      intro acc' h
      rw [h, List.mem_cons]
      generalize (∃ ci, rm.get? x.2 = some ci ∧ ci.domainGid = some my) = P
      clear ih h
      constructor
      · rintro ((h | ⟨a, b, c⟩) | ⟨a, b, c⟩)
        exacts [.inl h, .inr ⟨a, .inl b, c⟩, .inr ⟨a, .inr b, c⟩]
      · rintro (h | ⟨a, b | b, c⟩)
        exacts [.inl (.inl h), .inl (.inr ⟨a, b, c⟩), .inr ⟨a, b, c⟩]
    apply key
    cases hj : rm.get? j with
    | none =>
      dsimp only
      refine ⟨.inl, ?_⟩
      rintro (h | ⟨_, e, ci, h, _⟩)
      · exact h
      · rw [e, hj] at h; cases h
    | some ci =>
      dsimp only
      split
      · rename_i hne
        refine ⟨.inl, ?_⟩
        rintro (h | ⟨_, e, ci', h, h'⟩)
        · exact h
        · rw [e, hj] at h
          cases h
          exact absurd h' hne
      · rename_i heq
        have heq : ci.domainGid = some my := not_not.1 heq
        split
        · rename_i hin
          refine ⟨.inl, ?_⟩
          rintro (h | ⟨e1, e2, _⟩)
          · exact h
          · rw [show x = (dom, j) from Prod.ext e1 e2]; exact hin
        · rw [List.mem_append, List.mem_singleton]
          refine or_congr_right ⟨?_, ?_⟩
          · rintro rfl
            exact ⟨rfl, rfl, ci, hj, heq⟩
          · rintro ⟨e1, e2, _⟩
            exact Prod.ext e1 e2

/-- The cells of unit `my` in a list of entries. -/
def localsOf (near : Nat → Nat) (my : Nat) (es : List (Nat × CellInfo)) : List Nat :=
  (es.map (·.1)).filter fun c => decide (near c = my)

theorem idxLoop_units (rm : HMap Nat CellInfo) (my fm : Nat) (es : List (Nat × CellInfo)) (m : HMap Nat CellInfo)
    (n : Nat) (remote : List (Nat × Nat)) (hn : (es.map (·.1)).Nodup)
    (hes : ∀ e ∈ es, e.2.domainGid = some (near e.1)) (hm : m.keys.Nodup) :
    ∃ m' remote', idxLoop g rm my fm es m n remote = .ok (m', remote') ∧ m'.keys.Nodup ∧
      (∀ i c, (localsOf near my es)[i]? = some c → m'.get? c = some ⟨some my, some fm, some my, some (n + i)⟩) ∧
      (∀ c, c ∉ localsOf near my es → m'.get? c = m.get? c) ∧
      (∀ x, x ∈ remote' ↔ x ∈ remote ∨ ∃ e ∈ es, near e.1 ≠ my ∧ x.1 = near e.1 ∧ x.2 ∈ g.getFaceNbrGids e.1 ∧
        ∃ ci, rm.get? x.2 = some ci ∧ ci.domainGid = some my) := by
  induction es generalizing m n remote with
  | nil => exact ⟨m, remote, rfl, hm, by simp [localsOf], by simp, by simp⟩
  | cons e es ih =>
    obtain ⟨c, ci⟩ := e
    rw [List.map_cons, List.nodup_cons] at hn
    have hd : ci.domainGid = some (near c) := hes (c, ci) (by simp)
    have ih' := fun m n remote => ih m n remote hn.2 (fun e he => hes e (by simp [he]))
    unfold idxLoop
    simp only [hd, unwrap, bind, Except.bind]
    by_cases hc : near c = my
    · rw [if_pos hc]
      obtain ⟨m', remote', a1, a2, a3, a4, a5⟩ := ih' (m.insert c { ci with cellIndex := some n, domainIndex := some my, foreman := some fm }) (n + 1) remote (nodup_insert hm _ _)
      have hl : localsOf near my ((c, ci) :: es) = c :: localsOf near my es := by
        simp [localsOf, hc]
      have hcl : c ∉ localsOf near my es := fun h => hn.1 (List.mem_of_mem_filter h)
      rw [hd] at a1 a4
      refine ⟨m', remote', a1, a2, ?_, ?_, ?_⟩
      · intro i d hi
        rw [hl] at hi
        cases i with
        | zero =>
          have : c = d := Option.some.inj hi
          subst this
          rw [a4 c hcl, HMap.get?_insert, if_pos rfl]
          simp [hc]
        | succ i =>
          rw [a3 i d hi]
          congr 3
          omega
      · intro d hdn
        rw [hl, List.mem_cons, not_or] at hdn
        rw [a4 d hdn.2, HMap.get?_insert, if_neg (Ne.symm hdn.1)]
      · intro x
        rw [a5]
        refine or_congr_right ⟨fun ⟨e, he, h⟩ => ⟨e, by simp [he], h⟩, ?_⟩
        rintro ⟨e, he, h⟩
        rcases List.mem_cons.1 he with rfl | he
        · exact absurd hc h.1
        · exact ⟨e, he, h⟩
    · rw [if_neg hc]
      obtain ⟨m', remote', a1, a2, a3, a4, a5⟩ := ih' m n (remoteOf g rm my (near c) c remote) hm
      have hl : localsOf near my ((c, ci) :: es) = localsOf near my es := by
        simp [localsOf, hc]
      refine ⟨m', remote', a1, a2, by rw [hl]; exact a3, by rw [hl]; exact a4, ?_⟩
      intro x
      rw [a5, mem_remoteOf, or_assoc]
      refine or_congr_right ⟨?_, ?_⟩
      · rintro (⟨h1, h2, h3⟩ | ⟨e, he, h⟩)
        · exact ⟨(c, ci), by simp, hc, h1, h2, h3⟩
        · exact ⟨e, by simp [he], h⟩
      · rintro ⟨e, he, h⟩
        rcases List.mem_cons.1 he with rfl | he
        · exact .inl h.2
        · exact .inr ⟨e, he, h⟩

/-! ### The exchange -/

theorem sendRemote_units {i : Nat} {p : Partition} (remote : List (Nat × Nat)) (c : Comm)
    (hgid : c.gidToIdx = List.range c.partition.length) (hp : c.partition[i]? = some p)
    (hr : ∀ x ∈ remote, x.1 < c.partition.length ∧ x.1 ≠ i ∧
      ∃ info, p.cellInfoMap.get? x.2 = some info ∧ info.domainIndex.isSome ∧ info.cellIndex.isSome)
    (hn : ∀ (v : Nat) q, c.partition[v]? = some q → q.cellInfoMap.keys.Nodup) :
    ∃ c', sendRemote i remote c = .ok c' ∧ c'.gidToIdx = c.gidToIdx ∧ c'.partition.length = c.partition.length ∧
      c'.partition[i]? = some p ∧
      (∀ (v : Nat) q, v ≠ i → c.partition[v]? = some q → ∃ q', c'.partition[v]? = some q' ∧ q'.cellInfoMap.keys.Nodup ∧
        q'.domainGid = q.domainGid ∧ q'.foreman = q.foreman ∧ q'.nbrDomains = q.nbrDomains ∧
        ((∀ d, (v, d) ∈ remote → q'.cellInfoMap.get? d = p.cellInfoMap.get? d) ∧
         (∀ d, (v, d) ∉ remote → q'.cellInfoMap.get? d = q.cellInfoMap.get? d))) := by
  induction remote generalizing c with
  | nil => exact ⟨c, rfl, rfl, rfl, hp, fun v q _ hq => ⟨q, hq, hn v q hq, rfl, rfl, rfl, by simp, by simp⟩⟩
  | cons x rest ih =>
    obtain ⟨dom, cell⟩ := x
    obtain ⟨h1, h2, info, h3, h4, h5⟩ := hr (dom, cell) (by simp)
    dsimp only at h1 h2 h3
    obtain ⟨tp, htp⟩ : ∃ tp, c.partition[dom]? = some tp := ⟨_, List.getElem?_eq_getElem h1⟩
    have htgt : idx c.gidToIdx dom = .ok dom := by
      rw [hgid]
      simp [idx, List.getElem?_range h1]
    unfold sendRemote
    simp only [idx, hp, h3, unwrap, bind, Except.bind, assertB, h4, h5]
    simp only [idx] at htgt
    cases hg : c.gidToIdx[dom]? with
    | none => rw [hg] at htgt; cases htgt
    | some t =>
      rw [hg] at htgt
      obtain rfl : t = dom := by simpa using htgt
      simp only [htp]
      obtain ⟨c', b1, b2, b3, b4, b5⟩ := ih { c with partition := c.partition.set t { tp with cellInfoMap := HMap.insert tp.cellInfoMap cell info } }
        (by simp [hgid]) (by simp [h2, hp])
        (by
          intro x hx
          have := hr x (by simp [hx])
          simpa using this)
        (by
          intro v q hq
          by_cases hv : t = v
          · subst hv
            simp only [List.getElem?_set, h1, if_true] at hq
            cases hq
            exact nodup_insert (hn t tp htp) _ _
          · simp only [List.getElem?_set, if_neg hv] at hq
            exact hn v q hq)
      refine ⟨c', b1, b2, by rw [b3]; simp, b4, ?_⟩
      intro v q hv hq
      by_cases htv : t = v
      · subst htv
        rw [htp] at hq
        cases hq
        obtain ⟨q', d1, d2, d3, d4, d5, d6, d7⟩ := b5 t { tp with cellInfoMap := HMap.insert tp.cellInfoMap cell info } hv
          (by simp [h1])
        refine ⟨q', d1, d2, d3, d4, d5, ?_, ?_⟩
        · intro d hd
          by_cases hdr : (t, d) ∈ rest
          · exact d6 d hdr
          · rw [d7 d hdr]
            have : d = cell := by
              rcases List.mem_cons.1 hd with h | h
              · exact (Prod.mk.inj h).2
              · exact absurd h hdr
            subst this
            rw [HMap.get?_insert, if_pos rfl, h3]
        · intro d hd
          rw [List.mem_cons, not_or] at hd
          rw [d7 d hd.2, HMap.get?_insert, if_neg]
          rintro rfl
          exact hd.1 rfl
      · obtain ⟨q', d1, d2, d3, d4, d5, d6, d7⟩ := b5 v q hv (by simp only [List.getElem?_set, if_neg htv]; exact hq)
        refine ⟨q', d1, d2, d3, d4, d5, ?_, ?_⟩
        · intro d hd
          rcases List.mem_cons.1 hd with h | h
          · exact absurd (Prod.mk.inj h).1.symm htv
          · exact d6 d h
        · intro d hd
          rw [List.mem_cons, not_or] at hd
          exact d7 d hd.2

end

end Units
