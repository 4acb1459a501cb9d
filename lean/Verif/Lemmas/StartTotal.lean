import Verif.Lemmas.StartShape
/-!
# When the start-up of a run on one unit goes through, in any arithmetic
-/
open Flt GridSpec MeshSpec
attribute [local irreducible] Rng.lcg Rng.sample Rng.spawn
set_option linter.unusedSectionVars false

namespace Flooding
variable {T : Type} [Flt T]

/-- The conditions on numbers under which the mesh is built: the centre that is drawn falls in the grid, all cells
are assigned to it, and each cell has a state. -/
theorem initMesh_total {order : IterOrder} (ho : ∀ l, (order l).Perm l) {params : Params T}
    {mats : List (Material T)} {g : Grid T}
    (hg : Grid.new params.simulation.nx params.simulation.ny params.simulation.nz params.simulation.lx
      params.simulation.ly params.simulation.lz = g)
    (hu : params.simulation.nUnits = 1) (hseed : params.simulation.seed + 1 < 2 ^ 64)
    (hpos : 0 < g.nx ∧ 0 < g.ny ∧ 0 < g.nz) {bc : List AdjEvent}
    (hbc : getBoundaryConditions params.simulation.boundaryCondition = .ok bc)
    {c0 : Vec3 T} {root : Nat} {a : Assigner T}
    (hcen : initCenters g 1 (BitVec.ofNat 64 (params.simulation.seed + 1)) = .ok [c0])
    (hwhich : g.whichCell c0 = .ok root) (hroot : root < cells g) (ha : Assigner.new [c0] = .ok a)
    (hnear : ∀ c, c < cells g → ∃ r, g.cellCenter c = .ok r ∧ a.nearestCenter r = .ok (0, a))
    (hstate : ∀ mesh cs nodeOf, Built g bc cs nodeOf mesh → ∀ i c, cs[i]? = some c →
      ∃ st, cellStateOf g params.geometries mats mesh i = .ok st)
    (fuel : Nat) (hfuel : cells g ≤ fuel) :
    ∃ (dom : Domain T) (cs : List Nat) (nodeOf : Nat → Nat), initMesh order fuel params mats = .ok [dom] ∧
      Built g bc cs nodeOf dom.mesh ∧ dom.globalDomain = 0 ∧ dom.numGroups = params.simulation.nGroups ∧
      dom.cells.length = cells g ∧
      ∀ i c, cs[i]? = some c → ∃ st, dom.cells[i]? = some st ∧
        cellStateOf g params.geometries mats dom.mesh i = .ok st := by
  have hre : reached g root = List.range (cells g) := by
    unfold reached; rw [if_pos hroot]
  obtain ⟨l, h1, p1⟩ := assignCells_spec (g := g) hpos a c0 (Partition.new 0 0) rfl rfl ha root hwhich
    (by rw [hre]; intro c hc; exact hnear c (List.mem_range.1 hc)) fuel (by rw [hre]; simpa using hfuel)
  rw [hre] at p1
  have hl : l.Nodup := p1.nodup_iff.2 List.nodup_range
  obtain ⟨m, m1, p2, p4⟩ := buildCellIdxMap_spec (g := g) ho hl
    (p := { (Partition.new 0 0) with cellInfoMap := l.map fun c => (c, found) }) rfl rfl rfl
  have p3 : buildMeshPartition order fuel g [c0] (Partition.new 0 0)
      = .ok ({ domainGid := 0, foreman := 0, cellInfoMap := m, nbrDomains := [] }, []) := by
    unfold buildMeshPartition
    simp only [h1, m1, bind, Except.bind]
    rfl
  generalize hp : ({ domainGid := 0, foreman := 0, cellInfoMap := m, nbrDomains := [] } : Partition) = p at p3
  have hnum : Numbered g p (order l) := by
    subst hp
    exact ⟨rfl, rfl, by show m.keys.Nodup; rw [p2]; exact hl, (ho l).trans p1, p4⟩
  obtain ⟨ddc, hddc⟩ : ∃ ddc, Decomposition.new 0 1 4 = .ok ddc := ⟨_, rfl⟩
  obtain ⟨mesh, nodeOf, hmesh, hbuilt⟩ := meshBuild_spec ho hnum
    (by rw [← hp]; show order m.keys = _; rw [p2]) (goodBc hbc) ddc
  have hlen : mesh.cellGeometry.length = (order l).length := by rw [hbuilt.geom, List.length_map]
  have hlenc : (order l).length = cells g := by
    rw [((ho l).trans p1).length_eq, List.length_range]
  obtain ⟨states, hst⟩ : ∃ states, (List.range mesh.cellGeometry.length).mapM
      (cellStateOf g params.geometries mats mesh) = .ok states := by
    refine mapM_ok_exists fun i hi => ?_
    have hi' := List.mem_range.1 hi
    rw [hlen] at hi'
    exact hstate mesh _ nodeOf hbuilt i _ (List.getElem?_eq_getElem hi')
  refine ⟨{ globalDomain := mesh.domainGid, cells := states, mesh := mesh,
            numGroups := params.simulation.nGroups }, order l, nodeOf, ?_, hbuilt, hbuilt.domain,
    rfl, ?_, ?_⟩
  · unfold initMesh
    have hcomm : Comm.new ((List.range 1).map fun i => Partition.new i 0)
      = .ok ⟨[Partition.new 0 0], [0]⟩ := rfl
    have hparts : buildPartitions order fuel g [c0] (List.range 1)
        ⟨[Partition.new 0 0], [0]⟩ = .ok ⟨[p], [0]⟩ := by
      show buildPartitions order fuel g _ [0] _ = _
      unfold buildPartitions
      have h0 : idx [Partition.new 0 0] 0 = .ok (Partition.new 0 0) := rfl
      simp only [h0, p3, bind, Except.bind, sendRemote, buildPartitions]
      rfl
    simp only [hddc, hg, hu, if_pos hseed, hcen, hcomm, bind, Except.bind]
    have hl1 : (⟨[Partition.new 0 0], [0]⟩ : Comm).partition.length = 1 := rfl
    rw [hl1, hparts]
    have hdom : Domain.build order p g ddc params mats
        = .ok (Domain.mk mesh.domainGid states mesh params.simulation.nGroups) := by
      unfold Domain.build
      simp only [hbc, hmesh, hst, bind, Except.bind, pure, Except.pure]
    have h0 : idx [p] 0 = .ok p := rfl
    simp only [List.range_succ, List.range_zero, List.nil_append, List.mapM_cons, List.mapM_nil, h0, hdom,
      bind, Except.bind, pure, Except.pure]
  · rw [mapM_ok_length hst, List.length_range, hlen, hlenc]
  · intro i c hi
    have hi' : i < mesh.cellGeometry.length := by
      rw [hlen]; exact (List.getElem?_eq_some_iff.1 hi).1
    exact mapM_ok_getElem hst i i (by rw [List.getElem?_range hi'])

end Flooding
