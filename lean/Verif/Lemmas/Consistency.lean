import Verif.Lemmas.Startup
/-!
# The start-up consistency check: helper lemmas
-/
open Flt FltReal GridSpec MeshSpec

namespace Flooding
variable {T : Type} [Flt T] {g : Grid T} {bc : List AdjEvent} {cs : List Nat} {nodeOf : Nat → Nat} {mesh : Mesh T}

theorem forM_ok {α : Type} {f : α → Except Panic Unit} {l : List α} (h : ∀ x ∈ l, f x = .ok ()) :
    l.forM f = .ok () := by
  induction l with
  | nil => rfl
  | cons a l ih =>
    show (do f a; l.forM f) = _
    rw [h a (by simp)]
    exact ih fun x hx => h x (by simp [hx])

theorem across_back {t : Nat × Nat × Nat} {f : Face} (hb : ¬ OnBorder g t f) :
    across (across t f) f.opposite = t := by
  obtain ⟨x, y, z⟩ := t
  cases f <;> simp only [across, OnBorder, Face.opposite] at hb ⊢ <;>
    first | rfl | (congr 1; omega) | (congr 2; omega) | (congr 3; omega)

theorem across_border {t : Nat × Nat × Nat} (ht : InGrid g t) {f : Face} (hb : ¬ OnBorder g t f) :
    ¬ OnBorder g (across t f) f.opposite := by
  obtain ⟨x, y, z⟩ := t
  obtain ⟨h1, h2, h3⟩ := ht
  cases f <;> simp only [across, OnBorder, Face.opposite] at h1 h2 h3 hb ⊢ <;> omega

theorem opposing_twice : ∀ n, n < 24 → opposingFacet.getD n 0 < 24 ∧
    opposingFacet.getD (opposingFacet.getD n 0) 0 = n := by decide

/-- Going through an interior facet and back. -/
theorem nbr_back {c : Nat} (hc : c < cells g) {n : Nat} (hn : n < 24) (hne : nbr g c n ≠ c) :
    nbr g (nbr g c n) (opposingFacet.getD n 0) = c := by
  obtain ⟨f, k, hk, rfl⟩ := face_of_facet hn
  obtain ⟨k', hk', hopp⟩ := opposing_face f hk
  have hin := Grid.idx_inGrid hc
  by_cases hb : OnBorder g (g.cellIdxToTuple c) f
  · exact absurd ((nbr_face hc f hk).1 hb) hne
  obtain ⟨h1, _, h3⟩ := (nbr_face hc f hk).2 hb
  rw [hopp, h1]
  have ht : g.cellIdxToTuple (g.cellTupleToIdx (across (g.cellIdxToTuple c) f))
    = across (g.cellIdxToTuple c) f := Grid.tuple_idx h3.1 h3.2.1
  have h4 := ((nbr_face (Grid.tuple_lt h3) f.opposite hk').2 (by rw [ht]; exact across_border hin hb)).1
  rw [h4, ht, across_back hb, Grid.idx_tuple]

theorem Built.idxOf (h : Built g bc cs nodeOf mesh) {i c : Nat} (hi : cs[i]? = some c) :
    cs.idxOf c = i := by
  have hnd : cs.Nodup := h.perm.nodup_iff.2 List.nodup_range
  obtain ⟨hlt, he⟩ := List.getElem?_eq_some_iff.1 hi
  rw [← he]
  exact hnd.idxOf_getElem i hlt

theorem Built.get_idxOf (h : Built g bc cs nodeOf mesh) {c : Nat} (hc : c < cells g) :
    cs[cs.idxOf c]? = some c := by
  have hm : c ∈ cs := h.perm.mem_iff.2 (List.mem_range.2 hc)
  rw [List.getElem?_eq_getElem (List.idxOf_lt_length_iff.2 hm), List.getElem_idxOf]

theorem Built.consistent (h : Built g bc cs nodeOf mesh) (dom : Domain T) (hd : dom.mesh = mesh) :
    consistencyCheck [dom] = .ok () := by
  unfold consistencyCheck
  refine forM_ok ?_
  rintro ⟨dd, di⟩ hdd
  have : dd = dom ∧ di = 0 := by simpa using hdd
  obtain ⟨rfl, rfl⟩ := this
  refine forM_ok ?_
  rintro ⟨cc, i⟩ hcc
  refine forM_ok ?_
  rintro ⟨ff, n⟩ hff
  rw [List.mem_zipIdx_iff_getElem?] at hcc hff
  simp only at hcc hff ⊢
  rw [hd] at hcc
  obtain ⟨c, hi, rfl⟩ := h.conn_some hcc
  obtain ⟨hn, rfl⟩ := connOf_facet.1 hff
  have hc := h.lt hi
  unfold checkFacet
  have key : ∃ j c' n', (facetOf g bc cs nodeOf i c n).subfacet.adjacent = ⟨some 0, some j, some n'⟩ ∧
      cs[j]? = some c' ∧ n' < 24 ∧
      (facetOf g bc cs nodeOf j c' n').subfacet.adjacent = ⟨some 0, some i, some n⟩ := by
    by_cases hnb : nbr g c n = c
    · refine ⟨i, c, n, ?_, hi, hn, ?_⟩ <;>
      · unfold facetOf; simp only [hnb, if_true, h.idxOf hi]
    · obtain ⟨o1, o2⟩ := opposing_twice n hn
      have hback := nbr_back hc hn hnb
      refine ⟨cs.idxOf (nbr g c n), nbr g c n, opposingFacet.getD n 0, ?_, h.get_idxOf (nbr_lt hc hn),
        o1, ?_⟩
      · unfold facetOf; simp only [hnb, if_false]
      · unfold facetOf; simp only [hback, h.idxOf hi, o2, if_neg (Ne.symm hnb)]
  obtain ⟨j, c', n', e1, e2, e3, e4⟩ := key
  have hcur : (facetOf g bc cs nodeOf i c n).subfacet.current = ⟨some 0, some i, some n⟩ := rfl
  have hu : idx [dd] 0 = .ok dd := rfl
  have hcn : idx dd.mesh.cellConnectivity j = .ok (connOf g bc cs nodeOf j c') := by
    rw [hd]; exact idx_ok.2 (h.conn_get e2)
  have hfc : idx (connOf g bc cs nodeOf j c').facet n' = .ok (facetOf g bc cs nodeOf j c' n') :=
    idx_ok.2 (connOf_facet.2 ⟨e3, rfl⟩)
  simp only [hcur, e1, e4, hu, hcn, hfc, unwrap, bind, Except.bind, assertB, decide_true, Bool.and_self,
    if_true]

end Flooding
