import Verif.Lemmas.MeshCells
import Verif.Lemmas.Indices
/-!
# The shape of the mesh of a run on one unit, in any arithmetic

Whatever the arithmetic, a start-up that goes through has built the whole mesh: the numbers only decide whether it
goes through.
-/
open Flt GridSpec MeshSpec
attribute [local irreducible] Rng.lcg Rng.sample Rng.spawn
set_option linter.unusedSectionVars false

namespace Flooding
variable {T : Type} [Flt T] {g : Grid T}

/-- Only the first centre is registered. -/
def OneCenter (a : Assigner T) : Prop := ∀ gc ∈ a.grid, ∀ c ∈ gc.myCenters, c = 0

theorem oneCenter_set {grid : List GridCell} (h : ∀ gc ∈ grid, ∀ c ∈ gc.myCenters, c = 0) {i : Nat} {gc : GridCell}
    (hg : ∀ c ∈ gc.myCenters, c = 0) : ∀ x ∈ grid.set i gc, ∀ c ∈ x.myCenters, c = 0 := by
  intro x hx
  rcases List.mem_or_eq_of_mem_set hx with hx | rfl
  · exact h x hx
  · exact hg

theorem new_one {c0 : Vec3 T} {a : Assigner T} (h : Assigner.new [c0] = .ok a) : OneCenter a := by
  unfold Assigner.new at h
  obtain ⟨_, _, h⟩ := bind_ok.1 h
  dsimp only at h
  obtain ⟨n, _, h⟩ := bind_ok.1 h
  obtain ⟨_, _, h⟩ := bind_ok.1 h
  obtain ⟨_, _, h⟩ := bind_ok.1 h
  obtain ⟨_, _, h⟩ := bind_ok.1 h
  have hz : [c0].zipIdx = [(c0, 0)] := rfl
  rw [hz] at h
  unfold Assigner.register at h
  obtain ⟨cell, _, h⟩ := bind_ok.1 h
  obtain ⟨gc, h1, h⟩ := bind_ok.1 h
  unfold Assigner.register at h
  cases h
  have hm : ∀ x ∈ List.replicate n ({ burned := false, myCenters := [] } : GridCell), x.myCenters = [] := by
    intro x hx
    rw [(List.mem_replicate.1 hx).2]
  refine oneCenter_set (fun x hx c hc => ?_) ?_
  · rw [hm x hx] at hc; simp at hc
  · intro c hc
    rw [hm gc (List.mem_of_getElem? (idx_ok.1 h1))] at hc
    simpa using hc

theorem addTuple_one {a b : Assigner T} (ha : OneCenter a) {t : Nat × Nat × Nat} (h : a.addTuple t = .ok b) :
    OneCenter b := by
  unfold Assigner.addTuple at h
  obtain ⟨gc, h1, h⟩ := bind_ok.1 h
  split at h
  · cases h; exact ha
  · cases h
    exact oneCenter_set ha (ha gc (List.mem_of_getElem? (idx_ok.1 h1)))

theorem addNbrs_one {a b : Assigner T} (ha : OneCenter a) {cell : Nat} (h : a.addNbrs cell = .ok b) :
    OneCenter b := by
  unfold Assigner.addNbrs at h
  generalize a.nbrTuples (a.indexToTuple cell) = l at h
  induction l generalizing a with
  | nil => cases h; exact ha
  | cons t l ih =>
    rw [List.foldlM_cons] at h
    obtain ⟨a', h1, h2⟩ := bind_ok.1 h
    exact ih (addTuple_one ha h1) h2

theorem scanCenters_one {a : Assigner T} {r : Vec3 T} {l : List Nat} (hl : ∀ c ∈ l, c = 0) {b b' : Assigner.Best T}
    (hb : ∀ c, b.center = some c → c = 0) (h : a.scanCenters r l b = .ok b') : ∀ c, b'.center = some c → c = 0 := by
  induction l generalizing b with
  | nil => cases h; exact hb
  | cons k l ih =>
    unfold Assigner.scanCenters at h
    obtain ⟨cr, _, h⟩ := bind_ok.1 h
    refine ih (fun c hc => hl c (by simp [hc])) ?_ h
    split
    · intro c hc
      cases hc
      exact hl _ (by simp)
    · exact hb

theorem searchLoop_one {r : Vec3 T} {fuel : Nat} {a a' : Assigner T} {b b' : Assigner.Best T} (ha : OneCenter a)
    (hb : ∀ c, b.center = some c → c = 0) (h : Assigner.searchLoop r fuel a b = .ok (a', b')) :
    OneCenter a' ∧ ∀ c, b'.center = some c → c = 0 := by
  induction fuel generalizing a b with
  | zero =>
    unfold Assigner.searchLoop at h
    split at h
    · cases h; exact ⟨ha, hb⟩
    · cases h
  | succ fuel ih =>
    unfold Assigner.searchLoop at h
    split at h
    · cases h; exact ⟨ha, hb⟩
    · rename_i rest _
      dsimp only at h
      obtain ⟨d, _, h⟩ := bind_ok.1 h
      split at h
      · exact ih (a := { a with floodQueue := rest }) ha hb h
      · obtain ⟨gc, h1, h⟩ := bind_ok.1 h
        obtain ⟨b1, h2, h⟩ := bind_ok.1 h
        obtain ⟨a1, h3, h⟩ := bind_ok.1 h
        refine ih (addNbrs_one (a := { a with floodQueue := rest }) ha h3) ?_ h
        exact scanCenters_one (ha gc (List.mem_of_getElem? (idx_ok.1 h1))) hb h2

theorem resetWet_one {a : Assigner T} {l : List Nat} {grid grid' : List GridCell}
    (hg : ∀ gc ∈ grid, ∀ c ∈ gc.myCenters, c = 0) (h : a.resetWet l grid = .ok grid') :
    ∀ gc ∈ grid', ∀ c ∈ gc.myCenters, c = 0 := by
  induction l generalizing grid with
  | nil => cases h; exact hg
  | cons i l ih =>
    unfold Assigner.resetWet at h
    obtain ⟨gc, h1, h⟩ := bind_ok.1 h
    exact ih (oneCenter_set (gc := { gc with burned := false }) hg (hg gc (List.mem_of_getElem? (idx_ok.1 h1)))) h

/-- With one centre, a query that answers answers with it. -/
theorem nearestCenter_one {a a' : Assigner T} (ha : OneCenter a) {r : Vec3 T} {k : Nat}
    (h : a.nearestCenter r = .ok (k, a')) : k = 0 ∧ OneCenter a' := by
  unfold Assigner.nearestCenter at h
  obtain ⟨t, _, h⟩ := bind_ok.1 h
  obtain ⟨a1, h1, h⟩ := bind_ok.1 h
  obtain ⟨⟨a2, b⟩, h2, h⟩ := bind_ok.1 h
  obtain ⟨o1, o2⟩ := searchLoop_one (addTuple_one ha h1) (by simp) h2
  dsimp only at h
  obtain ⟨grid, h3, h⟩ := bind_ok.1 h
  obtain ⟨_, _, h⟩ := bind_ok.1 h
  obtain ⟨c, h4, h⟩ := bind_ok.1 h
  cases pure_ok.1 h
  exact ⟨o2 _ (unwrap_ok.1 h4), resetWet_one o1 h3⟩

/-- The flood of the only domain, when it goes through. -/
theorem floodLoop_ok (p0 : Partition) (hgid : p0.domainGid = 0)
    {fuel : Nat} {popped q w : List Nat} {a : Assigner T} {f' : Flood T} (ha : OneCenter a)
    (hw : w.Perm (popped ++ q)) (hn : (popped ++ q).Nodup)
    (hcl : ∀ c ∈ popped, ∀ o ∈ nbrCoords, g.shifted c o ∈ w)
    (h : floodLoop g fuel ⟨{ p0 with cellInfoMap := popped.map fun c => (c, found) }, a, q, w⟩ = .ok f') :
    ∃ popped' : List Nat, f'.part = { p0 with cellInfoMap := popped'.map fun c => (c, found) } ∧
      popped'.Nodup ∧ (∀ c ∈ popped ++ q, c ∈ popped') ∧
      (∀ c ∈ popped', c ∈ popped ++ q ∨ ∃ d o, c = g.shifted d o) ∧
      ∀ c ∈ popped', ∀ o ∈ nbrCoords, g.shifted c o ∈ popped' := by
  induction fuel generalizing popped q w a with
  | zero =>
    cases q with
    | nil =>
      rw [List.append_nil] at hw hn
      unfold floodLoop at h
      cases h
      exact ⟨popped, rfl, hn, by simp, by simp; exact fun c hc => .inl hc,
        fun c hc o ho => hw.mem_iff.1 (hcl c hc o ho)⟩
    | cons c q => unfold floodLoop at h; cases h
  | succ fuel ih =>
    cases q with
    | nil =>
      rw [List.append_nil] at hw hn
      unfold floodLoop at h
      cases h
      exact ⟨popped, rfl, hn, by simp, by simp; exact fun c hc => .inl hc,
        fun c hc o ho => hw.mem_iff.1 (hcl c hc o ho)⟩
    | cons c q =>
      unfold floodLoop at h
      dsimp only at h
      obtain ⟨f1, h1, h⟩ := bind_ok.1 h
      unfold floodStep at h1
      obtain ⟨rr, h2, h1⟩ := bind_ok.1 h1
      obtain ⟨⟨k, a'⟩, h3, h1⟩ := bind_ok.1 h1
      obtain ⟨rfl, ha'⟩ := nearestCenter_one ha h3
      obtain ⟨new, a1, a2, a3, a4⟩ := addWet_foldl (nbrCoords.map (g.shifted c)) q w
      have hcnew : c ∉ popped := by
        have := List.nodup_append.1 hn
        intro h
        exact this.2.2 c h c (by simp) rfl
      have hmap : HMap.orInsert (popped.map fun c => (c, found)) c { domainGid := some 0 }
          = (popped ++ [c]).map fun c => (c, found) := by
        rw [HMap.orInsert_new]
        · simp [found]
        · unfold HMap.keys
          rw [List.map_map]
          simpa using hcnew
      have hf1 : f1 = ⟨{ p0 with cellInfoMap := (popped ++ [c]).map fun c => (c, found) }, a', q ++ new,
          new.reverse ++ w⟩ := by
        simp only [hgid, if_true, addNbrsToFlood, a1, hmap, pure, Except.pure] at h1
        rw [hgid]
        exact (Except.ok.inj h1).symm
      subst hf1
      have e : (popped ++ [c]) ++ (q ++ new) = (popped ++ c :: q) ++ new := by simp
      obtain ⟨popped', b1, b2, b3, b4, b5⟩ := ih (popped := popped ++ [c]) (q := q ++ new) (w := new.reverse ++ w)
        ha'
        (by
          have e1 : (new.reverse ++ w).Perm (w ++ new) :=
            ((List.reverse_perm new).append_right w).trans List.perm_append_comm
          refine e1.trans ((hw.append_right new).trans ?_)
          simp)
        (by
          rw [e, List.nodup_append]
          refine ⟨hn, a2, ?_⟩
          rintro x hx y hy rfl
          exact (a3 x hy).2 (hw.mem_iff.2 hx))
        (by
          intro x hx o ho
          rcases List.mem_append.1 hx with hx | hx
          · exact List.mem_append_right _ (hcl x hx o ho)
          · rw [List.mem_singleton.1 hx]
            rcases a4 _ (List.mem_map.2 ⟨o, ho, rfl⟩) with h | h
            · exact List.mem_append_left _ (List.mem_reverse.2 h)
            · exact List.mem_append_right _ h)
        h
      rw [e] at b3 b4
      refine ⟨popped', b1, b2, fun x hx => b3 x (List.mem_append_left _ hx), ?_, b5⟩
      intro x hx
      rcases b4 x hx with h | h
      · rcases List.mem_append.1 h with h | h
        · exact .inl h
        · obtain ⟨o, _, rfl⟩ := List.mem_map.1 (a3 x h).1
          exact .inr ⟨c, o, rfl⟩
      · exact .inr h

theorem assignCells_ok (hpos : 0 < g.nx ∧ 0 < g.ny ∧ 0 < g.nz) {c0 : Vec3 T} {p0 p1 : Partition}
    (hgid : p0.domainGid = 0) (hmap : p0.cellInfoMap = []) {fuel : Nat}
    (h : assignCellsToDomain fuel g [c0] p0 = .ok p1) :
    ∃ (root : Nat) (l : List Nat), g.whichCell c0 = .ok root ∧
      p1 = { p0 with cellInfoMap := l.map fun c => (c, found) } ∧ l.Perm (reached g root) := by
  unfold assignCellsToDomain at h
  obtain ⟨a, ha, h1⟩ := bind_ok.1 h
  obtain ⟨c, hc, h2⟩ := bind_ok.1 h1
  obtain ⟨root, hroot, h3⟩ := bind_ok.1 h2
  clear h h1 h2
  rw [hgid] at hc
  have : c = c0 := by cases hc; rfl
  subst this
  obtain ⟨new, a1, a2, a3, a4⟩ := addWet_foldl (nbrCoords.map (g.shifted root)) [root] [root]
  simp only [addNbrsToFlood, a1] at h3
  obtain ⟨f, hf, h⟩ := bind_ok.1 h3
  have hp0 : p0 = { p0 with cellInfoMap := ([] : List Nat).map fun c => (c, found) } := by
    obtain ⟨d, f, m, n⟩ := p0
    simp only at hmap
    rw [hmap]; rfl
  rw [hp0] at hf
  obtain ⟨l, b1, b2, b3, b4, b5⟩ := floodLoop_ok p0 hgid (popped := []) (new_one ha)
    (by
      rw [List.nil_append]
      exact ((List.reverse_perm new).append_right _).trans List.perm_append_comm)
    (by
      rw [List.nil_append, List.nodup_append]
      refine ⟨by simp, a2, ?_⟩
      rintro x hx y hy rfl
      exact (a3 x hy).2 hx)
    (by simp) hf
  refine ⟨root, l, hroot, ?_, closed_perm hpos b2 ?_ (b3 root (by simp)) b5⟩
  · rw [← pure_ok.1 h, b1]
  · intro c hc
    rcases b4 c hc with h | ⟨d, o, rfl⟩
    · rw [List.nil_append] at h
      rcases List.mem_append.1 h with h | h
      · rw [List.mem_singleton.1 h]; exact root_reached root
      · obtain ⟨o, _, rfl⟩ := List.mem_map.1 (a3 c h).1
        exact lt_reached (shifted_lt_any hpos root o)
    · exact lt_reached (shifted_lt_any hpos d o)

/-- The centre drawn for the only unit, and the cell it falls in, are in the grid.  The draw of a coordinate gives
the number of cells of the axis, which is outside, when the random number is one. -/
def RootInGrid (p : Params T) : Prop :=
  let g := Grid.new p.simulation.nx p.simulation.ny p.simulation.nz p.simulation.lx p.simulation.ly p.simulation.lz
  ∀ c0 root, initCenters g 1 (BitVec.ofNat 64 (p.simulation.seed + 1)) = .ok [c0] → g.whichCell c0 = .ok root →
    root < cells g

/-- What a start-up on one unit that goes through has built. -/
theorem initMesh_shape {order : IterOrder} (ho : ∀ l, (order l).Perm l) {p : Params T} {mats : List (Material T)}
    (hu : p.simulation.nUnits = 1)
    (hpos : 0 < p.simulation.nx ∧ 0 < p.simulation.ny ∧ 0 < p.simulation.nz) (hroot : RootInGrid p)
    {fuel : Nat} {doms : List (Domain T)} (h : initMesh order fuel p mats = .ok doms) :
    ∃ (g : Grid T) (dom : Domain T) (bc : List AdjEvent) (cs : List Nat) (nodeOf : Nat → Nat),
      g = Grid.new p.simulation.nx p.simulation.ny p.simulation.nz p.simulation.lx p.simulation.ly p.simulation.lz ∧
      doms = [dom] ∧ getBoundaryConditions p.simulation.boundaryCondition = .ok bc ∧
      Built g bc cs nodeOf dom.mesh ∧ dom.globalDomain = 0 ∧ dom.numGroups = p.simulation.nGroups ∧
      dom.cells.length = cells g ∧
      ∀ i c, cs[i]? = some c → ∃ st, dom.cells[i]? = some st ∧
        cellStateOf g p.geometries mats dom.mesh i = .ok st := by
  unfold RootInGrid at hroot
  unfold initMesh at h
  obtain ⟨ddc, _, h⟩ := bind_ok.1 h
  dsimp only at h hroot
  generalize hg : Grid.new p.simulation.nx p.simulation.ny p.simulation.nz p.simulation.lx p.simulation.ly
    p.simulation.lz = g at h hroot
  have hgpos : 0 < g.nx ∧ 0 < g.ny ∧ 0 < g.nz := by rw [← hg]; exact hpos
  split at h
  swap
  · cases h
  obtain ⟨centers, hc, h⟩ := bind_ok.1 h
  obtain ⟨comm, hcomm, h⟩ := bind_ok.1 h
  obtain ⟨comm', hparts, h⟩ := bind_ok.1 h
  rw [hu] at hc hcomm h
  have hcomm0 : comm = ⟨[Partition.new 0 0], [0]⟩ := by
    have : Comm.new ((List.range 1).map fun i => Partition.new i 0) = .ok ⟨[Partition.new 0 0], [0]⟩ := rfl
    rw [this] at hcomm
    exact (Except.ok.inj hcomm).symm
  subst hcomm0
  have hc1 : ∃ c0, centers = [c0] := by
    unfold initCenters at hc
    obtain ⟨⟨c0, s⟩, _, hc⟩ := bind_ok.1 hc
    dsimp only at hc
    obtain ⟨l, hl, hc⟩ := bind_ok.1 hc
    unfold initCenters at hl
    cases hl
    exact ⟨c0, (pure_ok.1 hc).symm⟩
  obtain ⟨c0, rfl⟩ := hc1
  have hl1 : (⟨[Partition.new 0 0], [0]⟩ : Comm).partition.length = 1 := rfl
  rw [hl1, show List.range 1 = [0] from rfl] at hparts
  unfold buildPartitions at hparts
  obtain ⟨p0, hp0, hparts⟩ := bind_ok.1 hparts
  have : p0 = Partition.new 0 0 := by cases hp0; rfl
  subst this
  obtain ⟨⟨p1, remote⟩, hb, hparts⟩ := bind_ok.1 hparts
  unfold buildMeshPartition at hb
  obtain ⟨p2, hb1, hb⟩ := bind_ok.1 hb
  obtain ⟨root, l, r1, rfl, r2⟩ := assignCells_ok hgpos rfl rfl hb1
  have hlt := hroot c0 root hc r1
  rw [show reached g root = List.range (cells g) by unfold reached; rw [if_pos hlt]] at r2
  have hl : l.Nodup := r2.nodup_iff.2 List.nodup_range
  obtain ⟨m, m1, m2, m3⟩ := buildCellIdxMap_spec (g := g) ho hl
    (p := { (Partition.new 0 0) with cellInfoMap := l.map fun c => (c, found) }) rfl rfl rfl
  rw [m1] at hb
  cases hb
  unfold sendRemote buildPartitions at hparts
  cases hparts
  generalize hpart : ({ (Partition.new 0 0) with cellInfoMap := m } : Partition) = part at h
  have hget : part.cellInfoMap = m := by rw [← hpart]
  have hdg : part.domainGid = 0 := by rw [← hpart]; rfl
  have hnb : part.nbrDomains = [] := by rw [← hpart]; rfl
  have hnum : Numbered g part (order l) :=
    ⟨hdg, hnb, by rw [hget, m2]; exact hl, (ho l).trans r2, by rw [hget]; exact m3⟩
  rw [show List.range 1 = [0] from rfl, List.mapM_cons, List.mapM_nil] at h
  obtain ⟨dom, hd, h⟩ := bind_ok.1 h
  obtain ⟨_, hd1, hd⟩ := bind_ok.1 hd
  cases hd1
  obtain ⟨ds, hds, h⟩ := bind_ok.1 h
  cases hds
  cases pure_ok.1 h
  unfold Domain.build at hd
  obtain ⟨bc, hbc, hd⟩ := bind_ok.1 hd
  obtain ⟨mesh, hmesh, hd⟩ := bind_ok.1 hd
  obtain ⟨mesh', nodeOf, hmesh', hbuilt⟩ := meshBuild_spec ho hnum (by rw [hget, m2]) (goodBc hbc) ddc
  have hmm : mesh = mesh' := by
    rw [hmesh'] at hmesh
    exact (Except.ok.inj hmesh).symm
  subst hmm
  obtain ⟨states, hst, hd⟩ := bind_ok.1 hd
  cases pure_ok.1 hd
  have hlen : mesh.cellGeometry.length = (order l).length := by rw [hbuilt.geom, List.length_map]
  have hlenc : (order l).length = cells g := by
    rw [((ho l).trans r2).length_eq, List.length_range]
  refine ⟨g, _, bc, order l, nodeOf, rfl, rfl, hbc, hbuilt, hbuilt.domain, rfl, ?_, ?_⟩
  · dsimp only
    rw [mapM_ok_length hst, List.length_range, hlen, hlenc]
  · intro i c hi
    have hi' : i < mesh.cellGeometry.length := by
      rw [hlen]; exact (List.getElem?_eq_some_iff.1 hi).1
    exact mapM_ok_getElem hst i i (by rw [List.getElem?_range hi'])

/-- A mesh that was built is sound. -/
theorem built_sound {bc : List AdjEvent} {cs : List Nat} {nodeOf : Nat → Nat} {dom : Domain T}
    (h : Built g bc cs nodeOf dom.mesh) (h0 : dom.globalDomain = 0) (hlen : dom.cells.length = cells g)
    (hstate : ∀ i c, cs[i]? = some c → ∃ r, cellPosition3dg dom.mesh i = .ok r) : SoundMesh dom := by
  have hcs : cs.length = dom.cells.length := by rw [h.perm.length_eq, List.length_range, hlen]
  have hget : ∀ c, c < dom.cells.length → ∃ k, cs[c]? = some k := fun c hc =>
    ⟨_, List.getElem?_eq_getElem (by rw [hcs]; exact hc)⟩
  constructor
  · intro i hi
    obtain ⟨c, hc⟩ := hget i hi
    refine ⟨_, h.conn_get hc, by unfold connOf; simp, fun fa hfa => ?_⟩
    obtain ⟨n, hn⟩ := List.getElem?_of_mem hfa
    obtain ⟨hn24, rfl⟩ := connOf_facet.1 hn
    have hclt : c < cells g := List.mem_range.1 (h.perm.mem_iff.1 (List.mem_of_getElem? hc))
    by_cases hb : nbr g c n = c
    · right
      have hev : (facetOf g bc cs nodeOf i c n).subfacet.event = bc.getD (n / 4) .undefined := by
        unfold facetOf
        dsimp only
        rw [if_pos hb]
      obtain ⟨g1, g2⟩ := h.good
      have hlt : n / 4 < bc.length := by omega
      have : bc.getD (n / 4) .undefined ∈ bc := by
        rw [List.getD_eq_getElem?_getD, List.getElem?_eq_getElem hlt]
        exact List.getElem_mem _
      rw [hev]
      exact (g2 _ this).symm
    · left
      refine ⟨by unfold facetOf; dsimp only; rw [if_neg hb], cs.idxOf (nbr g c n), opposingFacet.getD n 0, ?_, ?_, ?_⟩
      · unfold facetOf; dsimp only; rw [if_neg hb, h0]
      · rw [← hcs]
        exact List.idxOf_lt_length_iff.2 (h.perm.mem_iff.2 (List.mem_range.2 (nbr_lt hclt hn24)))
      · have : ∀ n, n < 24 → opposingFacet.getD n 0 < 24 := by decide
        exact this n hn24
  · intro c hc
    obtain ⟨k, hk⟩ := hget c hc
    exact ⟨_, by rw [h.geom, List.getElem?_map, hk, Option.map_some], by simp⟩
  · intro i hi n hn
    obtain ⟨c, hc⟩ := hget i hi
    obtain ⟨l1, l2, l3⟩ := indirect_lt n hn
    have hm := List.mem_of_getElem? hc
    unfold Mesh.getFacetCoords
    rw [idx_ok.2 (h.conn_get hc)]
    dsimp only [bind, Except.bind]
    rw [idx_ok.2 (connOf_facet.2 ⟨hn, rfl⟩)]
    simp only [facetOf, idx_ok.2 (h.node c hm _ (gid_mem l1)), idx_ok.2 (h.node c hm _ (gid_mem l2)),
      idx_ok.2 (h.node c hm _ (gid_mem l3)), pure, Except.pure]
    exact ⟨_, rfl⟩
  · intro i hi
    obtain ⟨c, hc⟩ := hget i hi
    exact hstate i c hc

end Flooding
