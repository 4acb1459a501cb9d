import Verif.Lemmas.MeshBuild
import Verif.Spec.MeshSpec
/-!
# The cells of the mesh of the only domain: helper lemmas
-/
open Flt GridSpec MeshSpec
set_option linter.unusedSectionVars false

namespace Flooding
variable {T : Type} [Flt T] {g : Grid T}

/-- Grid number of a point of a cell. -/
def gid (g : Grid T) (c m : Nat) : Nat := (g.getNodeGids c).getD m 0

/-- The cell across the face of a facet, or the cell itself. -/
def nbr (g : Grid T) (c n : Nat) : Nat := (g.getFaceNbrGids c).getD (n / 4) 0

/-- Facet `n` of the cell `c` of the grid, at position `i` of the list of cells `cs`. -/
def facetOf (g : Grid T) (bc : List AdjEvent) (cs : List Nat) (nodeOf : Nat → Nat) (i c n : Nat) :
    FacetAdj :=
  { point := (nodeOf (gid g c (nodeIndirect.getD n (0, 0, 0)).1),
              nodeOf (gid g c (nodeIndirect.getD n (0, 0, 0)).2.1),
              nodeOf (gid g c (nodeIndirect.getD n (0, 0, 0)).2.2))
    subfacet :=
      { event := if nbr g c n = c then bc.getD (n / 4) .undefined else .transitOnProcessor
        current := ⟨some 0, some i, some n⟩
        adjacent := ⟨some 0, some (cs.idxOf (nbr g c n)),
          some (if nbr g c n = c then n else opposingFacet.getD n 0)⟩
        neighborIndex := none
        neighborGlobalDomain := some 0
        neighborForeman := some 0 } }

/-- The cell `c` of the grid, at position `i` of the list of cells `cs`. -/
def connOf (g : Grid T) (bc : List AdjEvent) (cs : List Nat) (nodeOf : Nat → Nat) (i c : Nat) :
    CellConn :=
  { facet := (List.range 24).map (facetOf g bc cs nodeOf i c)
    point := (g.getNodeGids c).map nodeOf }

/-- The list of border events is one of those of the code. -/
def GoodBc (bc : List AdjEvent) : Prop :=
  bc.length = 6 ∧ ∀ e ∈ bc, e = .boundaryReflection ∨ e = .boundaryEscape

theorem goodBc {s : String} {bc : List AdjEvent} (h : getBoundaryConditions s = .ok bc) :
    GoodBc bc := by
  unfold getBoundaryConditions at h
  split at h
  · cases h; exact ⟨rfl, by simp⟩
  split at h
  · cases h; exact ⟨rfl, by simp⟩
  split at h
  · cases h; exact ⟨rfl, by simp⟩
  · cases h

theorem getFaceNbrGids_length (c : Nat) : (g.getFaceNbrGids c).length = 6 := by
  unfold Grid.getFaceNbrGids; rw [List.length_map]; rfl

/-- The situation once the cells are numbered. -/
structure Numbered (g : Grid T) (p : Partition) (cs : List Nat) : Prop where
  gid0 : p.domainGid = 0
  nbrs : p.nbrDomains = []
  keys : p.cellInfoMap.keys.Nodup
  cells : cs.Perm (List.range (cells g))
  info : ∀ j c, cs[j]? = some c → p.cellInfoMap.get? c = some (placed j)

theorem Numbered.nodup {p : Partition} {cs : List Nat} (h : Numbered g p cs) : cs.Nodup :=
  h.cells.nodup_iff.2 List.nodup_range

theorem Numbered.lt {p : Partition} {cs : List Nat} (h : Numbered g p cs) {c : Nat} (hc : c ∈ cs) :
    c < GridSpec.cells g := List.mem_range.1 (h.cells.mem_iff.1 hc)

theorem Numbered.info_of_lt {p : Partition} {cs : List Nat} (h : Numbered g p cs) {c : Nat}
    (hc : c < GridSpec.cells g) : p.cellInfoMap.get? c = some (placed (cs.idxOf c)) := by
  have hm : c ∈ cs := h.cells.mem_iff.2 (List.mem_range.2 hc)
  refine h.info _ _ ?_
  rw [List.getElem?_eq_getElem (List.idxOf_lt_length_iff.2 hm), List.getElem_idxOf]

theorem nbr_lt {c : Nat} (hc : c < cells g) {n : Nat} (hn : n < 24) : nbr g c n < cells g := by
  have hlt : n / 4 < (g.getFaceNbrGids c).length := by rw [getFaceNbrGids_length]; omega
  have hm : nbr g c n ∈ g.getFaceNbrGids c := by
    unfold nbr
    rw [List.getD_eq_getElem?_getD, List.getElem?_eq_getElem hlt, Option.getD_some]
    exact List.getElem_mem _
  unfold Grid.getFaceNbrGids at hm
  obtain ⟨o, _, ho⟩ := List.mem_map.1 hm
  rw [← ho]
  exact Grid.shifted_lt hc o

theorem faceInfos_spec {p : Partition} {cs : List Nat} (h : Numbered g p cs) {bc : List AdjEvent}
    (hbc : GoodBc bc) {c i : Nat} (hc : c < cells g) :
    ∃ faces, faceInfos (nbrDomainMap p.domainGid p.nbrDomains) p g bc c (placed i) = .ok faces ∧
      ∀ n, n < 24 → faces[n / 4]? = some
        { event := if nbr g c n = c then bc.getD (n / 4) .undefined else .transitOnProcessor
          cellInfo := placed (cs.idxOf (nbr g c n))
          nbrIdx := none } := by
  have hstep : ∀ k, k < 6 →
      (fun (x : Nat × Nat) => (do
        let fci ← HMap.index p.cellInfoMap x.1
        let dom ← unwrap fci.domainGid
        let nbrIdx ← HMap.index (nbrDomainMap p.domainGid p.nbrDomains) dom
        let event ←
          if x.1 = c then idx bc x.2
          else if fci.foreman = (placed i).foreman then pure .transitOnProcessor
          else pure .transitOffProcessor
        return ({ event := event, cellInfo := fci, nbrIdx := nbrIdx } : FaceInfo) :
          Except Panic FaceInfo)) (nbr g c (4 * k), k)
      = .ok { event := if nbr g c (4 * k) = c then bc.getD k .undefined else .transitOnProcessor
              cellInfo := placed (cs.idxOf (nbr g c (4 * k)))
              nbrIdx := none } := by
    intro k hk
    have hlt := nbr_lt hc (n := 4 * k) (by omega)
    have h1 : HMap.index p.cellInfoMap (nbr g c (4 * k))
        = .ok (placed (cs.idxOf (nbr g c (4 * k)))) := by
      unfold HMap.index; rw [h.info_of_lt hlt]
    have h2 : HMap.index (nbrDomainMap p.domainGid p.nbrDomains) 0 = .ok none := by
      rw [h.gid0, h.nbrs]; rfl
    have h3 : idx bc k = .ok (bc.getD k .undefined) := by
      have : k < bc.length := by rw [hbc.1]; exact hk
      rw [idx_ok, List.getD_eq_getElem?_getD, List.getElem?_eq_getElem this, Option.getD_some]
    simp only [h1, bind, Except.bind, placed, unwrap, h2, pure, Except.pure, if_true]
    by_cases hcc : nbr g c (4 * k) = c
    · simp only [hcc, if_true, h3]
    · simp only [hcc, if_false]
  have hz : ∀ e ∈ (g.getFaceNbrGids c).zipIdx, ∃ k, k < 6 ∧ e = (nbr g c (4 * k), k) := by
    intro e he
    obtain ⟨a, k⟩ := e
    have := List.mem_zipIdx' he
    rw [getFaceNbrGids_length] at this
    refine ⟨k, this.1, ?_⟩
    rw [Prod.mk.injEq]
    refine ⟨?_, rfl⟩
    rw [this.2]
    unfold nbr
    rw [show 4 * k / 4 = k by omega, List.getD_eq_getElem?_getD, List.getElem?_eq_getElem
      (by rw [getFaceNbrGids_length]; exact this.1), Option.getD_some]
  obtain ⟨faces, hf⟩ := mapM_ok_exists (l := (g.getFaceNbrGids c).zipIdx) (f := fun (x : Nat × Nat) => (do
        let fci ← HMap.index p.cellInfoMap x.1
        let dom ← unwrap fci.domainGid
        let nbrIdx ← HMap.index (nbrDomainMap p.domainGid p.nbrDomains) dom
        let event ←
          if x.1 = c then idx bc x.2
          else if fci.foreman = (placed i).foreman then pure .transitOnProcessor
          else pure .transitOffProcessor
        return ({ event := event, cellInfo := fci, nbrIdx := nbrIdx } : FaceInfo) :
          Except Panic FaceInfo)) (by
      intro e he
      obtain ⟨k, hk, rfl⟩ := hz e he
      exact ⟨_, hstep k hk⟩)
  refine ⟨faces, hf, ?_⟩
  intro n hn
  have hk : n / 4 < 6 := by omega
  have hget : (g.getFaceNbrGids c).zipIdx[n / 4]? = some (nbr g c (4 * (n / 4)), n / 4) := by
    rw [List.getElem?_zipIdx, List.getElem?_eq_getElem (by rw [getFaceNbrGids_length]; exact hk)]
    simp only [Option.map_some, Nat.zero_add, Option.some.injEq, Prod.mk.injEq, and_true]
    unfold nbr
    rw [show 4 * (n / 4) / 4 = n / 4 by omega, List.getD_eq_getElem?_getD,
      List.getElem?_eq_getElem (by rw [getFaceNbrGids_length]; exact hk), Option.getD_some]
  obtain ⟨b, hb1, hb2⟩ := mapM_ok_getElem hf _ _ hget
  rw [hb1, ← Except.ok.inj ((hstep _ hk).symm.trans hb2)]
  have : nbr g c (4 * (n / 4)) = nbr g c n := by
    unfold nbr; rw [show 4 * (n / 4) / 4 = n / 4 by omega]
  rw [this]

theorem makeFacet_spec {p : Partition} {cs : List Nat} (h : Numbered g p cs) {bc : List AdjEvent}
    (hbc : GoodBc bc) {nodeOf : Nat → Nat} {faces : List FaceInfo} {i c : Nat}
    (hi : cs[i]? = some c)
    (hfaces : ∀ n, n < 24 → faces[n / 4]? = some
        { event := if nbr g c n = c then bc.getD (n / 4) .undefined else .transitOnProcessor
          cellInfo := placed (cs.idxOf (nbr g c n))
          nbrIdx := none }) {n : Nat} (hn : n < 24) :
    makeFacet (placed i).domainIndex (placed i).cellIndex ((g.getNodeGids c).map nodeOf) faces n
      = .ok (facetOf g bc cs nodeOf i c n) := by
  have hni : ∀ n, n < 24 → idx nodeIndirect n = .ok (nodeIndirect.getD n (0, 0, 0)) ∧
      (nodeIndirect.getD n (0, 0, 0)).1 < 14 ∧ (nodeIndirect.getD n (0, 0, 0)).2.1 < 14 ∧
      (nodeIndirect.getD n (0, 0, 0)).2.2 < 14 ∧
      idx opposingFacet n = .ok (opposingFacet.getD n 0) := by decide
  obtain ⟨h1, h2, h3, h4, h5⟩ := hni n hn
  have hpt : ∀ m, m < 14 → idx ((g.getNodeGids c).map nodeOf) m = .ok (nodeOf (gid g c m)) := by
    intro m hm
    have : m < (g.getNodeGids c).length := by rw [getNodeGids_length]; exact hm
    rw [idx_ok, List.getElem?_map, List.getElem?_eq_getElem this]
    unfold gid
    rw [List.getD_eq_getElem?_getD, List.getElem?_eq_getElem this]
    rfl
  have hface : idx faces (n / 4) = .ok _ := idx_ok.2 (hfaces n hn)
  unfold makeFacet
  generalize htri : nodeIndirect.getD n (0, 0, 0) = tri at h1 h2 h3 h4
  generalize hopp : opposingFacet.getD n 0 = opp at h5
  simp only [h1, hpt _ h2, hpt _ h3, hpt _ h4, hface, h5, bind, Except.bind, pure, Except.pure]
  unfold facetOf
  rw [hopp, htri]
  by_cases hcc : nbr g c n = c
  · have hev : bc.getD (n / 4) .undefined = .boundaryReflection ∨
        bc.getD (n / 4) .undefined = .boundaryEscape := by
      have : n / 4 < bc.length := by rw [hbc.1]; omega
      rw [List.getD_eq_getElem?_getD, List.getElem?_eq_getElem this, Option.getD_some]
      exact hbc.2 _ (List.getElem_mem _)
    simp only [hcc, if_true]
    rcases hev with hev | hev <;> rw [hev] <;> rfl
  · simp only [hcc, if_false]
    rfl

/-- One cell of the mesh. -/
theorem buildCell_spec {p : Partition} {cs : List Nat} (h : Numbered g p cs) {bc : List AdjEvent}
    (hbc : GoodBc bc) {nm : HMap Nat Nat} {nodeOf : Nat → Nat} {i c : Nat} (hi : cs[i]? = some c)
    (hnm : ∀ x ∈ g.getNodeGids c, nm.get? x = some (nodeOf x)) :
    buildCell nm (nbrDomainMap p.domainGid p.nbrDomains) p g bc c (placed i)
      = .ok (connOf g bc cs nodeOf i c) := by
  have hc := h.lt (List.mem_of_getElem? hi)
  have h1 : (g.getNodeGids c).mapM (fun k => HMap.index nm k) = .ok ((g.getNodeGids c).map nodeOf) :=
    mapM_ok_of_forall fun x hx => by unfold HMap.index; rw [hnm x hx]
  obtain ⟨faces, h2, h3⟩ := faceInfos_spec h hbc (i := i) hc
  have h4 : (List.range 24).mapM (fun f => makeFacet (placed i).domainIndex (placed i).cellIndex
      ((g.getNodeGids c).map nodeOf) faces f)
      = .ok ((List.range 24).map (facetOf g bc cs nodeOf i c)) :=
    mapM_ok_of_forall fun n hn => makeFacet_spec h hbc hi h3 (List.mem_range.1 hn)
  unfold buildCell
  simp only [h1, h2, h4, bind, Except.bind, pure, Except.pure]
  rfl

/-- All the cells of the mesh. -/
theorem buildCells_spec {order : IterOrder} {p : Partition} {cs : List Nat} (h : Numbered g p cs)
    (horder : order p.cellInfoMap.keys = cs) {bc : List AdjEvent}
    (hbc : GoodBc bc) {nm : HMap Nat Nat} {nodeOf : Nat → Nat}
    (hnm : ∀ c ∈ cs, ∀ x ∈ g.getNodeGids c, nm.get? x = some (nodeOf x)) :
    buildCells order nm p g bc
      = .ok (cs.zipIdx.map fun e => connOf g bc cs nodeOf e.2 e.1) := by
  unfold buildCells
  have hiter : HMap.iter order p.cellInfoMap = cs.zipIdx.map fun e => (e.1, placed e.2) := by
    rw [iter_eq (fun j _ => placed j), horder]
    rw [horder]
    exact h.info
  have hfilter : (HMap.iter order p.cellInfoMap).filter
      (fun e => decide (e.2.domainGid = some p.domainGid)) = HMap.iter order p.cellInfoMap := by
    rw [List.filter_eq_self]
    intro e he
    rw [hiter] at he
    obtain ⟨x, _, rfl⟩ := List.mem_map.1 he
    simp [placed, h.gid0]
  rw [hfilter, hiter, List.mapM_map]
  refine mapM_ok_of_forall ?_
  rintro ⟨c, i⟩ he
  have := List.mem_zipIdx' he
  have hi : cs[i]? = some c := by rw [this.2]; exact List.getElem?_eq_getElem this.1
  exact buildCell_spec h hbc hi (hnm c (List.mem_of_getElem? hi))

/-! ### The whole mesh -/

/-- Coordinates of a node of the grid. -/
def nodeCoord (g : Grid T) (x : Nat) : Vec3 T :=
  match g.nodeCoordFromIdx x with
  | .ok r => r
  | .error _ => Vec3.zero

/-- Coordinates of a point of a cell of the grid. -/
def pointCoord (g : Grid T) (c m : Nat) : Vec3 T := nodeCoord g (gid g c m)

/-- Plane of a facet of a cell of the grid. -/
def planeOf (g : Grid T) (c n : Nat) : Plane T :=
  Plane.new (pointCoord g c (nodeIndirect.getD n (0, 0, 0)).1)
    (pointCoord g c (nodeIndirect.getD n (0, 0, 0)).2.1)
    (pointCoord g c (nodeIndirect.getD n (0, 0, 0)).2.2)

/-- The mesh made of the cells `cs` of the grid, in this order. -/
structure Built (g : Grid T) (bc : List AdjEvent) (cs : List Nat) (nodeOf : Nat → Nat)
    (mesh : Mesh T) : Prop where
  good : GoodBc bc
  domain : mesh.domainGid = 0
  perm : cs.Perm (List.range (cells g))
  conn : mesh.cellConnectivity = cs.zipIdx.map fun e => connOf g bc cs nodeOf e.2 e.1
  geom : mesh.cellGeometry = cs.map fun c => (List.range 24).map (planeOf g c)
  node : ∀ c ∈ cs, ∀ x ∈ g.getNodeGids c, mesh.node[nodeOf x]? = some (nodeCoord g x)
  inj : ∀ c ∈ cs, ∀ x ∈ g.getNodeGids c, ∀ c' ∈ cs, ∀ x' ∈ g.getNodeGids c',
    nodeOf x = nodeOf x' → x = x'

theorem Built.lt {bc : List AdjEvent} {cs : List Nat} {nodeOf : Nat → Nat} {mesh : Mesh T}
    (h : Built g bc cs nodeOf mesh) {i c : Nat} (hi : cs[i]? = some c) : c < cells g :=
  List.mem_range.1 (h.perm.mem_iff.1 (List.mem_of_getElem? hi))

theorem gid_mem {c m : Nat} (hm : m < 14) : gid g c m ∈ g.getNodeGids c := by
  have : m < (g.getNodeGids c).length := by rw [getNodeGids_length]; exact hm
  unfold gid
  rw [List.getD_eq_getElem?_getD, List.getElem?_eq_getElem this, Option.getD_some]
  exact List.getElem_mem _

theorem indirect_lt : ∀ n, n < 24 → (nodeIndirect.getD n (0, 0, 0)).1 < 14 ∧
    (nodeIndirect.getD n (0, 0, 0)).2.1 < 14 ∧ (nodeIndirect.getD n (0, 0, 0)).2.2 < 14 := by
  decide

theorem meshBuild_spec {order : IterOrder} (ho : ∀ l, (order l).Perm l) {p : Partition}
    {cs : List Nat} (h : Numbered g p cs) (horder : order p.cellInfoMap.keys = cs)
    {bc : List AdjEvent} (hbc : GoodBc bc) (ddc : Decomposition) :
    ∃ mesh nodeOf, Mesh.build order p g ddc bc = .ok mesh ∧ Built g bc cs nodeOf mesh := by
  have hkc : ∀ c, c ∈ p.cellInfoMap.keys ↔ c ∈ cs := fun c => by
    rw [← horder]; exact (ho _).mem_iff.symm
  obtain ⟨nm, b1, b2, b3, b4⟩ := bootstrap_spec (g := g) ho h.gid0 h.keys (by
    intro e he
    have hmem : e.1 ∈ cs := (hkc e.1).1 (List.mem_map.2 ⟨e, he, rfl⟩)
    have hlt := h.lt hmem
    have h1 := HMap.get?_of_mem h.keys (show (e.1, e.2) ∈ p.cellInfoMap from he)
    rw [h.info_of_lt hlt] at h1
    rw [← Option.some.inj h1]
    exact ⟨rfl, hlt⟩)
  set nodeOf : Nat → Nat := fun x => (nm.get? x).getD 0 with hnodeOf
  have hget : ∀ x ∈ nm.keys, nm.get? x = some (nodeOf x) := by
    intro x hx
    obtain ⟨v, hv⟩ := HMap.get?_isSome.1 hx
    rw [hnodeOf]; simp [hv]
  have hmemk : ∀ c ∈ cs, ∀ x ∈ g.getNodeGids c, x ∈ nm.keys := fun c hc x hx =>
    (b4 x).2 ⟨c, (hkc c).2 hc, hx⟩
  have hvn : (nm.map (·.2)).Nodup := b3.nodup_iff.2 List.nodup_range
  have hitp : (HMap.iter order nm).Perm nm := HMap.iter_perm ho b2
  obtain ⟨node, n1, n2, -, n4⟩ := fillNodes_spec (g := g) (HMap.iter order nm)
    (List.replicate nm.length Vec3.zero) ((hitp.map _).nodup_iff.2 hvn)
    (by
      intro e he
      have : e.2 ∈ nm.map (·.2) := List.mem_map.2 ⟨e, hitp.mem_iff.1 he, rfl⟩
      rw [List.length_replicate]
      exact List.mem_range.1 (b3.mem_iff.1 this))
    (by
      intro e he
      have : e.1 ∈ nm.keys := List.mem_map.2 ⟨e, hitp.mem_iff.1 he, rfl⟩
      obtain ⟨c, hc, hx⟩ := (b4 e.1).1 this
      exact gid_coord (h.lt ((hkc c).1 hc)) hx)
  have hnode : ∀ c ∈ cs, ∀ x ∈ g.getNodeGids c, node[nodeOf x]? = some (nodeCoord g x) := by
    intro c hc x hx
    have hm : (x, nodeOf x) ∈ HMap.iter order nm :=
      hitp.mem_iff.2 (HMap.mem_of_get? (hget x (hmemk c hc x hx)))
    obtain ⟨r, hr1, hr2⟩ := n4 _ hm
    rw [hr2]
    unfold nodeCoord
    simp only at hr1
    rw [hr1]
  have hcells := buildCells_spec (order := order) h horder hbc (nm := nm) (nodeOf := nodeOf)
    (fun c hc x hx => hget x (hmemk c hc x hx))
  have hplanes : (cs.zipIdx.map fun e => connOf g bc cs nodeOf e.2 e.1).mapM
      (fun c => c.getPlanes node) = .ok (cs.zipIdx.map fun e => (List.range 24).map (planeOf g e.1)) := by
    rw [List.mapM_map]
    refine mapM_ok_of_forall ?_
    rintro ⟨c, i⟩ he
    have hmz := List.mem_zipIdx' he
    have hc : c ∈ cs := by rw [hmz.2]; exact List.getElem_mem _
    simp only [Function.comp, connOf, CellConn.getPlanes]
    rw [List.mapM_map]
    refine mapM_ok_of_forall ?_
    intro n hn
    obtain ⟨l1, l2, l3⟩ := indirect_lt n (List.mem_range.1 hn)
    simp only [facetOf, Function.comp,
      idx_ok.2 (hnode c hc _ (gid_mem l1)), idx_ok.2 (hnode c hc _ (gid_mem l2)),
      idx_ok.2 (hnode c hc _ (gid_mem l3)), bind, Except.bind, pure, Except.pure]
    rfl
  refine ⟨{ domainGid := p.domainGid, nbrDomainGid := p.nbrDomains, nbrRank := [], node := node,
            cellConnectivity := cs.zipIdx.map fun e => connOf g bc cs nodeOf e.2 e.1,
            cellGeometry := cs.zipIdx.map fun e => (List.range 24).map (planeOf g e.1) },
    nodeOf, ?_, ?_⟩
  · unfold Mesh.build
    have hrank : p.nbrDomains.mapM (idx ddc.rank) = .ok [] := by rw [h.nbrs]; rfl
    simp only [hrank, b1, hcells, n1, hplanes, bind, Except.bind, pure, Except.pure]
  · refine ⟨hbc, h.gid0, h.cells, rfl, ?_, hnode, ?_⟩
    · show cs.zipIdx.map _ = _
      rw [show (fun e : Nat × Nat => (List.range 24).map (planeOf g e.1))
        = (fun c => (List.range 24).map (planeOf g c)) ∘ Prod.fst from rfl, ← List.map_map,
        List.zipIdx_map_fst]
    · intro c hc x hx c' hc' x' hx' heq
      have m1 := HMap.mem_of_get? (hget x (hmemk c hc x hx))
      have m2 := HMap.mem_of_get? (hget x' (hmemk c' hc' x' hx'))
      rw [heq] at m1
      have := List.inj_on_of_nodup_map hvn m1 m2 rfl
      exact congrArg Prod.fst this

/-! ### Consequences -/

theorem Built.conn_get {bc : List AdjEvent} {cs : List Nat} {nodeOf : Nat → Nat} {mesh : Mesh T}
    (h : Built g bc cs nodeOf mesh) {i c : Nat} (hi : cs[i]? = some c) :
    mesh.cellConnectivity[i]? = some (connOf g bc cs nodeOf i c) := by
  rw [h.conn, List.getElem?_map, List.getElem?_zipIdx, hi]
  simp

theorem Built.conn_some {bc : List AdjEvent} {cs : List Nat} {nodeOf : Nat → Nat} {mesh : Mesh T}
    (h : Built g bc cs nodeOf mesh) {i : Nat} {conn : CellConn}
    (hi : mesh.cellConnectivity[i]? = some conn) :
    ∃ c, cs[i]? = some c ∧ conn = connOf g bc cs nodeOf i c := by
  cases hc : cs[i]? with
  | none =>
    rw [h.conn, List.getElem?_map, List.getElem?_zipIdx, hc] at hi
    simp at hi
  | some c =>
    rw [h.conn_get hc] at hi
    exact ⟨c, rfl, (Option.some.inj hi).symm⟩

theorem connOf_facet {bc : List AdjEvent} {cs : List Nat} {nodeOf : Nat → Nat} {i c n : Nat}
    {fa : FacetAdj} : (connOf g bc cs nodeOf i c).facet[n]? = some fa ↔
      n < 24 ∧ fa = facetOf g bc cs nodeOf i c n := by
  unfold connOf
  simp only [List.getElem?_map]
  by_cases hn : n < 24
  · rw [List.getElem?_range hn]
    simp only [Option.map_some, Option.some.injEq, hn, true_and]
    exact eq_comm
  · rw [List.getElem?_eq_none (by simpa using hn)]
    simp [hn]

/-- The cell across a face, by coordinates. -/
theorem nbr_face {c : Nat} (hc : c < cells g) (f : Face) {k : Nat} (hk : k < 4) :
    (OnBorder g (g.cellIdxToTuple c) f → nbr g c (4 * f.num + k) = c) ∧
    (¬ OnBorder g (g.cellIdxToTuple c) f → nbr g c (4 * f.num + k)
        = g.cellTupleToIdx (across (g.cellIdxToTuple c) f) ∧ nbr g c (4 * f.num + k) ≠ c ∧
        InGrid g (across (g.cellIdxToTuple c) f)) := by
  obtain ⟨t, h1, h2, h3⟩ := Grid.faceNbr_eq hc f
  have hdiv : (4 * f.num + k) / 4 = f.num := by omega
  have hnbr : nbr g c (4 * f.num + k) = g.cellTupleToIdx t := by
    unfold nbr
    rw [hdiv, List.getD_eq_getElem?_getD, h1, Option.getD_some]
  rw [hnbr]
  refine ⟨fun hb => by rw [h2 hb, Grid.idx_tuple], fun hb => ?_⟩
  obtain ⟨h4, h5⟩ := h3 hb
  refine ⟨by rw [h4], ?_, by rw [← h4]; exact h5⟩
  intro heq
  have : t = g.cellIdxToTuple c := by
    rw [← heq, Grid.tuple_idx h5.1 h5.2.1]
  rw [this] at h4
  have e1 := congrArg Prod.fst h4
  have e2 := congrArg (fun p => p.2.1) h4
  have e3 := congrArg (fun p => p.2.2) h4
  cases f <;> simp only [across, OnBorder] at e1 e2 e3 hb <;> omega

theorem face_of_facet {n : Nat} (hn : n < 24) : ∃ f k, k < 4 ∧ n = 4 * Face.num f + k := by
  have : ∀ m, m < 6 → ∃ f : Face, f.num = m := by
    intro m hm
    match m, hm with
    | 0, _ => exact ⟨.xp, rfl⟩
    | 1, _ => exact ⟨.xm, rfl⟩
    | 2, _ => exact ⟨.yp, rfl⟩
    | 3, _ => exact ⟨.ym, rfl⟩
    | 4, _ => exact ⟨.zp, rfl⟩
    | 5, _ => exact ⟨.zm, rfl⟩
  obtain ⟨f, hf⟩ := this (n / 4) (by omega)
  exact ⟨f, n % 4, Nat.mod_lt _ (by norm_num), by omega⟩

theorem num_lt (f : Face) : f.num < 6 := by cases f <;> decide

theorem opposing_face (f : Face) {k : Nat} (hk : k < 4) :
    ∃ k', k' < 4 ∧ opposingFacet.getD (4 * f.num + k) 0 = 4 * f.opposite.num + k' := by
  have : ∀ f : Face, ∀ k, k < 4 →
      opposingFacet.getD (4 * f.num + k) 0 / 4 = f.opposite.num := by
    intro f
    cases f <;> decide
  have h := this f k hk
  exact ⟨opposingFacet.getD (4 * f.num + k) 0 % 4, Nat.mod_lt _ (by norm_num), by omega⟩

theorem Built.covers {bc : List AdjEvent} {cs : List Nat} {nodeOf : Nat → Nat} {mesh : Mesh T}
    (h : Built g bc cs nodeOf mesh) {ev : Face → AdjEvent} (hev : ∀ f, bc[Face.num f]? = some (ev f)) :
    Covers g ev cs mesh := by
  have hlen : cs.length = cells g := by rw [h.perm.length_eq, List.length_range]
  refine ⟨h.perm, ?_, ?_, ?_, ?_, ?_, ?_⟩
  · rw [h.conn, List.length_map, List.length_zipIdx, hlen]
  · rw [h.geom, List.length_map, hlen]
  · intro conn hconn
    obtain ⟨i, hi⟩ := List.getElem?_of_mem hconn
    obtain ⟨c, _, rfl⟩ := h.conn_some hi
    unfold connOf; simp
  · intro i conn n fa hi hfa
    obtain ⟨c, _, rfl⟩ := h.conn_some hi
    rw [connOf_facet] at hfa
    rw [hfa.2]; rfl
  · intro i c conn f k fa hi hconn hk hfa hb
    rw [h.conn_get hi] at hconn
    cases hconn
    rw [connOf_facet] at hfa
    have hc : c < cells g := List.mem_range.1 (h.perm.mem_iff.1 (List.mem_of_getElem? hi))
    have hn := (nbr_face hc f hk).1 hb
    have hidx : cs.idxOf c = i := by
      have hnd : cs.Nodup := h.perm.nodup_iff.2 List.nodup_range
      obtain ⟨hlt, he⟩ := List.getElem?_eq_some_iff.1 hi
      rw [← he]
      exact hnd.idxOf_getElem i hlt
    rw [hfa.2]
    unfold facetOf
    rw [hn, if_pos rfl, if_pos rfl, hidx]
    refine ⟨?_, rfl⟩
    have hdiv : (4 * f.num + k) / 4 = f.num := by omega
    show bc.getD ((4 * f.num + k) / 4) .undefined = _
    rw [hdiv, List.getD_eq_getElem?_getD, hev f, Option.getD_some]
  · intro i c conn f k fa hi hconn hk hfa hb
    rw [h.conn_get hi] at hconn
    cases hconn
    rw [connOf_facet] at hfa
    have hc : c < cells g := List.mem_range.1 (h.perm.mem_iff.1 (List.mem_of_getElem? hi))
    obtain ⟨h1, h2, h3⟩ := (nbr_face hc f hk).2 hb
    obtain ⟨k', hk', hopp⟩ := opposing_face f hk
    rw [hfa.2]
    unfold facetOf
    rw [if_neg h2, if_neg h2, hopp, h1]
    refine ⟨rfl, cs.idxOf (g.cellTupleToIdx (across (g.cellIdxToTuple c) f)), k', ?_, hk', rfl⟩
    have hm : g.cellTupleToIdx (across (g.cellIdxToTuple c) f) ∈ cs :=
      h.perm.mem_iff.2 (List.mem_range.2 (Grid.tuple_lt h3))
    rw [List.getElem?_eq_getElem (List.idxOf_lt_length_iff.2 hm), List.getElem_idxOf]

theorem gid_eq {g : Grid T} {c m : Nat} (hm : m < 14) :
    gid g c m = g.nodeTupleToIdx (nodeTuple (g.cellIdxToTuple c) (cornerOffset.getD m (0, 0, 0, 0))) := by
  unfold gid
  rw [getNodeGids_eq, List.getD_eq_getElem?_getD, List.getElem?_map, List.getD_eq_getElem?_getD,
    List.getElem?_eq_getElem (show m < cornerOffset.length from hm)]
  rfl

theorem connOf_point_length {g : Grid T} {bc : List AdjEvent} {cs : List Nat} {nodeOf : Nat → Nat} (i c : Nat) :
    (connOf g bc cs nodeOf i c).point.length = 14 := by
  unfold connOf; simp only [List.length_map]; exact getNodeGids_length c

theorem nodeGids_range {g : Grid T} (c : Nat) : g.getNodeGids c = (List.range 14).map (gid g c) := by
  refine List.ext_getElem? fun m => ?_
  by_cases hm : m < 14
  · rw [List.getElem?_map, List.getElem?_range hm]
    unfold gid
    rw [Option.map_some, List.getD_eq_getElem?_getD,
      List.getElem?_eq_getElem (by rw [getNodeGids_length]; exact hm)]
    rfl
  · rw [List.getElem?_eq_none (by rw [getNodeGids_length]; omega),
      List.getElem?_eq_none (by simp; omega)]

end Flooding
