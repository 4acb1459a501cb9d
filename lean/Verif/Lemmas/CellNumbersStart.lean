import Verif.Lemmas.CellNumbers
import Verif.Lemmas.StartFloat
import Verif.Lemmas.Consistency
import Verif.Lemmas.MeshFloat
/-!
Two meshes of the same grid differ only in the numbers of their cells.
-/
set_option linter.unusedSectionVars false
attribute [local irreducible] Rng.lcg Rng.sample Rng.spawn
open Flt GridSpec MeshSpec

namespace Flooding
variable {T : Type} [Flt T] {g : Grid T} {bc : List AdjEvent} {cs cs' : List Nat} {nodeOf nodeOf' : Nat → Nat}
  {mesh mesh' : Mesh T}

theorem Built.coordsOf (h : Built g bc cs nodeOf mesh) {i c : Nat} (hi : cs[i]? = some c) {n : Nat}
    (hn : n < 24) : mesh.getFacetCoords i n = .ok
      (pointCoord g c (nodeIndirect.getD n (0, 0, 0)).1, pointCoord g c (nodeIndirect.getD n (0, 0, 0)).2.1,
       pointCoord g c (nodeIndirect.getD n (0, 0, 0)).2.2) := by
  obtain ⟨l1, l2, l3⟩ := indirect_lt n hn
  have hc := List.mem_of_getElem? hi
  unfold Mesh.getFacetCoords
  rw [idx_ok.2 (h.conn_get hi)]
  show (do let f ← idx (connOf g bc cs nodeOf i c).facet n; _) = _
  rw [idx_ok.2 (connOf_facet.2 ⟨hn, rfl⟩)]
  simp only [facetOf, idx_ok.2 (h.node c hc _ (gid_mem l1)), idx_ok.2 (h.node c hc _ (gid_mem l2)),
    idx_ok.2 (h.node c hc _ (gid_mem l3)), bind, Except.bind, pure, Except.pure]
  rfl

theorem Built.length (h : Built g bc cs nodeOf mesh) : cs.length = cells g := by
  rw [h.perm.length_eq, List.length_range]

/-- The number, in the second mesh, of a cell of the first. -/
def newNumber (g : Grid T) (cs cs' : List Nat) (i : Nat) : Nat :=
  if i < cells g then cs'.idxOf (cs.getD i 0) else i

theorem newNumber_get (h : Built g bc cs nodeOf mesh) (h' : Built g bc cs' nodeOf' mesh') (i : Nat) :
    cs'[newNumber g cs cs' i]? = cs[i]? := by
  unfold newNumber
  by_cases hi : i < cells g
  · rw [if_pos hi]
    have h1 : cs[i]? = some (cs.getD i 0) := by
      rw [List.getD_eq_getElem?_getD, List.getElem?_eq_getElem (by rw [h.length]; exact hi)]; rfl
    rw [h1]
    exact h'.get_idxOf (h.lt h1)
  · have e1 := h.length
    have e2 := h'.length
    rw [if_neg hi, List.getElem?_eq_none (by omega), List.getElem?_eq_none (by omega)]

theorem newNumber_ge {i : Nat}
    (hi : cells g ≤ i) : newNumber g cs cs' i = i := by
  unfold newNumber; rw [if_neg (by omega)]

/-- The cell `c` of the grid has one number in each mesh. -/
theorem newNumber_idxOf (h : Built g bc cs nodeOf mesh) (h' : Built g bc cs' nodeOf' mesh') {c : Nat}
    (hc : c < cells g) : newNumber g cs cs' (cs.idxOf c) = cs'.idxOf c := by
  have e1 := h.get_idxOf hc
  exact (h'.idxOf ((newNumber_get h h' _).trans e1)).symm

theorem Built.conn_none (h : Built g bc cs nodeOf mesh) {i : Nat} (hi : cs[i]? = none) :
    mesh.cellConnectivity[i]? = none := by
  rw [h.conn, List.getElem?_map, List.getElem?_zipIdx, hi]; rfl

theorem built_domNum {a b : Domain T} (h : Built g bc cs nodeOf a.mesh) (h' : Built g bc cs' nodeOf' b.mesh)
    (hd : b.globalDomain = a.globalDomain) (hg : b.numGroups = a.numGroups) (hl : a.cells.length = cells g)
    (hl' : b.cells.length = cells g) {geoms : List (GeometryParams T)} {mats : List (Material T)}
    (hs : ∀ i c, cs[i]? = some c → ∃ st, a.cells[i]? = some st ∧ cellStateOf g geoms mats a.mesh i = .ok st)
    (hs' : ∀ i c, cs'[i]? = some c → ∃ st, b.cells[i]? = some st ∧ cellStateOf g geoms mats b.mesh i = .ok st) :
    DomNum (newNumber g cs cs') a b := by
  have hpos : ∀ i, cellPosition3dg b.mesh (newNumber g cs cs' i) = cellPosition3dg a.mesh i := by
    intro i
    have e := newNumber_get h h' i
    cases hc : cs[i]? with
    | some c =>
      rw [hc] at e
      rw [h.positionOf hc, h'.positionOf e]
    | none =>
      rw [hc] at e
      unfold cellPosition3dg idx
      rw [h.conn_none hc, h'.conn_none e]
      rfl
  have hcell : ∀ i, b.cells[newNumber g cs cs' i]? = a.cells[i]? := by
    intro i
    have e := newNumber_get h h' i
    cases hc : cs[i]? with
    | some c =>
      rw [hc] at e
      obtain ⟨st, e1, e2⟩ := hs i c hc
      obtain ⟨st', e3, e4⟩ := hs' _ c e
      rw [e1, e3]
      unfold cellStateOf at e2 e4
      rw [h.positionOf hc, h.centerOf hc] at e2
      rw [h'.positionOf e, h'.centerOf e] at e4
      cases hr : g.meanPoint c with
      | error x => rw [hr] at e2; cases e2
      | ok r =>
        rw [h.volumeOf hc hr, hr] at e2
        rw [h'.volumeOf e hr, hr] at e4
        rw [e2] at e4
        cases e4
        rfl
    | none =>
      have hi : cells g ≤ i := by
        rw [List.getElem?_eq_none_iff, h.length] at hc; exact hc
      rw [newNumber_ge hi, List.getElem?_eq_none (by omega), List.getElem?_eq_none (by omega)]
  have hinj : ∀ i j, newNumber g cs cs' i = newNumber g cs cs' j → i = j := by
    intro i j hij
    have e1 := newNumber_get h h' i
    have e2 := newNumber_get h h' j
    rw [hij, e2] at e1
    cases hc : cs[i]? with
    | some c => rw [hc] at e1; rw [← h.idxOf hc, ← h.idxOf e1]
    | none =>
      rw [hc] at e1
      rw [List.getElem?_eq_none_iff, h.length] at hc e1
      rwa [newNumber_ge hc, newNumber_ge e1] at hij
  refine ⟨hd, hg, ?_, ?_, ?_, ?_, hpos, ?_⟩
  · have n2 : (b.cells.zipIdx).Nodup := List.Nodup.of_map Prod.snd (by
      rw [List.zipIdx_map_snd]; exact List.nodup_range')
    have n1 : (a.cells.zipIdx).Nodup := List.Nodup.of_map Prod.snd (by
      rw [List.zipIdx_map_snd]; exact List.nodup_range')
    have n3 : (a.cells.zipIdx.map fun e => (e.1, newNumber g cs cs' e.2)).Nodup := by
      refine n1.map fun x y hxy => ?_
      simp only [Prod.mk.injEq] at hxy
      exact Prod.ext hxy.1 (hinj _ _ hxy.2)
    rw [List.perm_ext_iff_of_nodup n3 n2]
    rintro ⟨st, j⟩
    rw [List.mem_map, List.mem_zipIdx_iff_getElem?]
    constructor
    · rintro ⟨⟨st', i⟩, h1, h2⟩
      cases h2
      rw [List.mem_zipIdx_iff_getElem?] at h1
      rw [hcell]; exact h1
    · intro hj
      have hjl : j < cells g := by
        obtain ⟨x, _⟩ := List.getElem?_eq_some_iff.1 hj
        rwa [hl'] at x
      have hc : cs'[j]? = some (cs'[j]'(by rw [h'.length]; exact hjl)) := List.getElem?_eq_getElem _
      refine ⟨(st, cs.idxOf (cs'[j]'(by rw [h'.length]; exact hjl))), ?_, ?_⟩
      · rw [List.mem_zipIdx_iff_getElem?, ← hcell, newNumber_idxOf h h' (h'.lt hc), h'.idxOf hc]
        exact hj
      · simp only [Prod.mk.injEq, true_and]
        rw [newNumber_idxOf h h' (h'.lt hc), h'.idxOf hc]
  · intro i hi
    rw [hl] at hi ⊢
    rw [newNumber_ge hi]; exact hi
  · intro i
    rw [h.geom, h'.geom, List.getElem?_map, List.getElem?_map, newNumber_get h h']
  · intro i f
    have e := newNumber_get h h' i
    cases hc : cs[i]? with
    | some c =>
      rw [hc] at e
      by_cases hf : f < 24
      · rw [h.coordsOf hc hf, h'.coordsOf e hf]
      · unfold Mesh.getFacetCoords
        rw [idx_ok.2 (h.conn_get hc), idx_ok.2 (h'.conn_get e)]
        have k : ∀ (cs : List Nat) (nodeOf : Nat → Nat) (i : Nat),
            idx (connOf g bc cs nodeOf i c).facet f = .error .indexOutOfBounds := by
          intro cs nodeOf i
          unfold idx
          rw [List.getElem?_eq_none (by simp [connOf]; omega)]
        simp only [bind, Except.bind, k]
    | none =>
      rw [hc] at e
      unfold Mesh.getFacetCoords idx
      rw [h.conn_none hc, h'.conn_none e]
      rfl
  · intro i f
    have e := newNumber_get h h' i
    cases hc : cs[i]? with
    | some c =>
      rw [hc] at e
      unfold Mesh.across
      rw [idx_ok.2 (h.conn_get hc), idx_ok.2 (h'.conn_get e)]
      by_cases hf : f < 24
      · simp only [bind, Except.bind]
        rw [idx_ok.2 (connOf_facet.2 ⟨hf, rfl⟩), idx_ok.2 (connOf_facet.2 ⟨hf, rfl⟩)]
        simp only [facetOf, pure, Except.pure, Except.map, Option.map_some]
        rw [newNumber_idxOf h h' (nbr_lt (h.lt hc) hf)]
      · have k : ∀ (cs : List Nat) (nodeOf : Nat → Nat) (i : Nat),
            idx (connOf g bc cs nodeOf i c).facet f = .error .indexOutOfBounds := by
          intro cs nodeOf i
          unfold idx
          rw [List.getElem?_eq_none (by simp [connOf]; omega)]
        simp only [bind, Except.bind, k]
        rfl
    | none =>
      rw [hc] at e
      unfold Mesh.across idx
      rw [h.conn_none hc, h'.conn_none e]
      rfl

end Flooding
