import Verif.Lemmas.Fails
/-! The cell and facet indices of particles stay in range. -/
set_option linter.unusedSectionVars false
attribute [local irreducible] Rng.lcg Rng.sample Rng.spawn
open Flt
variable {T : Type} [Flt T]

/-- What tracking needs of a mesh: every cell has 24 facets with their planes and corners, and every facet
leads to an existing facet of an existing cell of the same unit, or reflects, or lets particles out. -/
structure SoundMesh (dom : Domain T) : Prop where
  conn : ∀ c, c < dom.cells.length → ∃ conn, dom.mesh.cellConnectivity[c]? = some conn ∧
    conn.facet.length = 24 ∧ ∀ fa ∈ conn.facet,
      (fa.subfacet.event = .transitOnProcessor ∧
        ∃ c' f', fa.subfacet.adjacent = ⟨some dom.globalDomain, some c', some f'⟩ ∧ c' < dom.cells.length ∧
          f' < 24) ∨
      fa.subfacet.event = .boundaryEscape ∨ fa.subfacet.event = .boundaryReflection
  planes : ∀ c, c < dom.cells.length → ∃ planes, dom.mesh.cellGeometry[c]? = some planes ∧ planes.length = 24
  coords : ∀ c, c < dom.cells.length → ∀ f, f < 24 → ∃ pts, dom.mesh.getFacetCoords c f = .ok pts
  center : ∀ c, c < dom.cells.length → ∃ r, cellPosition3dg dom.mesh c = .ok r

theorem cells_length_skeleton {d d' : Domain T} (h : d.skeleton = d'.skeleton) :
    d.cells.length = d'.cells.length := by
  have := congrArg (fun D => (Domain.cells D).length) h
  simpa [Domain.skeleton] using this

theorem SoundMesh.skeleton {d d' : Domain T} (h : SoundMesh d) (he : d'.skeleton = d.skeleton) : SoundMesh d' := by
  have h1 := mesh_skeleton he
  have h2 := cells_length_skeleton he
  have h3 := globalDomain_skeleton he
  constructor
  · rw [h1, h2, h3]; exact h.conn
  · rw [h1, h2]; exact h.planes
  · rw [h1, h2]; exact h.coords
  · rw [h1, h2]; exact h.center

theorem fold_facet (P : NearestFacet T → T → Bool) (l : List (T × Nat)) (init : NearestFacet T) (n : Nat)
    (hl : ∀ x ∈ l, x.2 < n) (hi : init.facet < n) :
    (l.foldl (fun nf (x : T × Nat) =>
      if P nf x.1 then { nf with distanceToFacet := x.1, facet := x.2 } else nf) init).facet < n := by
  induction l generalizing init with
  | nil => exact hi
  | cons a l ih =>
    rw [List.foldl_cons]
    refine ih _ (fun x hx => hl x (by simp [hx])) ?_
    split
    · exact hl a (by simp)
    · exact hi

theorem computeNearest_facet {dists : List T} (h : 0 < dists.length) :
    (computeNearest dists).facet < dists.length := by
  have hl : ∀ x ∈ dists.zipIdx, x.2 < dists.length := by
    intro x hx
    obtain ⟨a, i⟩ := x
    exact (List.mem_zipIdx' hx).1
  have h1 : (nearestPositive dists.zipIdx (NearestFacet.default : NearestFacet T)).facet < dists.length :=
    fold_facet (fun nf d => (d >. zero) && (d <=. nf.distanceToFacet)) _ _ _ hl h
  have h2 : (nearestNegative dists.zipIdx
      { (NearestFacet.default : NearestFacet T) with distanceToFacet := Flt.neg Flt.huge }).facet
      < dists.length :=
    fold_facet (fun nf d => (d <=. zero) && (d >. nf.distanceToFacet)) _ _ _ hl h
  unfold computeNearest
  dsimp only
  split
  · exact h1
  · split
    · exact h2
    · exact h1

theorem nfLoop_facet {mesh : Mesh T} {planes : List (Plane T)} {coords direction : Vec3 T} {tol : T}
    {fuel it : Nat} {mf : T} {p p' : Particle T} {nf : NearestFacet T} (hpl : 0 < planes.length)
    (h : nfLoop mesh planes coords direction tol fuel it mf p = .ok (nf, p')) :
    nf.facet < planes.length := by
  induction fuel generalizing it mf p with
  | zero => simp [nfLoop] at h
  | succ n ih =>
    simp only [nfLoop, bind_ok] at h
    obtain ⟨dists, hd, h⟩ := h
    have hlen : dists.length = planes.length := by
      have := mapM_ok_length hd
      simpa using this
    have hf := computeNearest_facet (dists := dists) (by omega)
    rw [hlen] at hf
    split at h
    · simp only [bind_ok] at h
      obtain ⟨c, _, h⟩ := h
      split at h
      · exact ih h
      · simp only [pure_ok, Prod.mk.injEq] at h
        rw [← h.1]; exact hf
    · simp only [pure_ok, Prod.mk.injEq] at h
      rw [← h.1]; exact hf

theorem nearestFacet_facet {mesh : Mesh T} {p p' : Particle T} {nf : NearestFacet T} {planes : List (Plane T)}
    (hg : mesh.cellGeometry[p.cell]? = some planes) (hpl : 0 < planes.length)
    (h : nearestFacet mesh p = .ok (nf, p')) : nf.facet < planes.length := by
  simp only [nearestFacet, mctNf3dg, bind_ok, pure_ok, Prod.mk.injEq, Prod.exists, idx_ok] at h
  obtain ⟨nf0, p0, ⟨pl, hpl', h⟩, _, _, rfl, _⟩ := h
  rw [hg] at hpl'
  cases hpl'
  have := nfLoop_facet hpl h
  exact this

theorem applyOutcome_facet {p q : Particle T} {speed : T} {force : Bool} {nf : NearestFacet T} {o : SegOutcome}
    (h : applyOutcome p speed force nf = .ok (o, q)) : q.facet = p.facet ∨ q.facet = nf.facet := by
  simp only [applyOutcome, bind_ok, assertB_ok] at h
  obtain ⟨_, _, h⟩ := h
  generalize (if force = true then _ else _ : DistanceHandler T) = hd at h
  obtain ⟨hc, hf, hce, hm, ho⟩ := hd
  cases ho <;> (dsimp only at h; split at h) <;>
    (simp only [pure_ok, Prod.mk.injEq] at h; obtain ⟨_, rfl⟩ := h;
     first | exact .inl rfl | exact .inr rfl)

theorem prepareXs_facet (p : Particle T) (xs : T) : (prepareXs p xs).facet = p.facet := by
  unfold prepareXs
  dsimp only
  by_cases h : (p.numMeanFreePaths ==. zero) = true
  · rw [if_pos h]; rfl
  · rw [if_neg h]

theorem prepareForced_facet (p : Particle T) : (prepareForced p).2.facet = p.facet := by
  unfold prepareForced
  dsimp only
  split <;> rfl

/-- The indices of a particle are in range. -/
structure IndexOk (dom : Domain T) (p : Particle T) : Prop where
  domain : p.domain = dom.globalDomain
  cell : p.cell < dom.cells.length
  facet : p.facet < 24

theorem outcomeWithXs_index {dom : Domain T} (hm : SoundMesh dom) {p q : Particle T}
    (hp : IndexOk dom p) {speed xs : T} {force : Bool} {o : SegOutcome}
    (h : outcomeWithXs dom speed force p xs = .ok (o, q)) : q.facet < 24 := by
  simp only [outcomeWithXs, bind_ok, Prod.exists] at h
  obtain ⟨nf, r, hr, h⟩ := h
  have hcell : (prepareXs p xs).cell = p.cell := (prepareXs_frame p xs).cell
  obtain ⟨planes, hg, hl⟩ := hm.planes _ hp.cell
  have h1 := nearestFacet_facet (by rw [hcell]; exact hg) (by omega) hr
  have h2 : r.facet = p.facet := by rw [nearestFacet_frame hr]; exact prepareXs_facet p xs
  rcases applyOutcome_facet h with h | h
  · rw [h, h2]; exact hp.facet
  · rw [h]; omega

theorem outcome_index {data : Data T} {dom : Domain T} (hm : SoundMesh dom) {p q : Particle T}
    (hp : IndexOk dom p) {tr : List (Ev T)} {o : SegOutcome} (h : (outcome data dom p).May tr (o, q)) :
    IndexOk dom q := by
  have hf := outcome_frame h
  refine ⟨hf.domain.trans hp.domain, by rw [hf.cell]; exact hp.cell, ?_⟩
  unfold outcome at h
  dsimp only at h
  obtain ⟨t1, t2, xs, _, _, h2⟩ := h.bind_inv
  obtain ⟨_, h2⟩ := h2.ofExcept_inv
  have hpf := prepareForced_frame p
  exact outcomeWithXs_index hm ⟨hpf.domain.trans hp.domain, by rw [hpf.cell]; exact hp.cell,
    by rw [prepareForced_facet]; exact hp.facet⟩ h2

theorem updateTrajectory_index (p : Particle T) (e a : T) :
    (p.updateTrajectory e a).domain = p.domain ∧ (p.updateTrajectory e a).cell = p.cell ∧
    (p.updateTrajectory e a).facet = p.facet := ⟨rfl, rfl, rfl⟩

theorem CollisionOut.index {mass : T} {p q : Particle T} (h : CollisionOut mass p q) :
    q.domain = p.domain ∧ q.cell = p.cell ∧ q.facet = p.facet := by
  cases h with
  | same => exact ⟨rfl, rfl, rfl⟩
  | scatter => exact ⟨rfl, rfl, rfl⟩
  | fission => exact ⟨rfl, rfl, rfl⟩

theorem EventOut.index {data : Data T} {dom : Domain T} (hm : SoundMesh dom) {p q : Particle T}
    {o : SegOutcome} (h : EventOut data dom p o q) (hp : IndexOk dom p) : IndexOk dom q := by
  cases h with
  | census => exact hp
  | escape => exact ⟨hp.1, hp.2, hp.3⟩
  | reflect => exact ⟨hp.1, hp.2, hp.3⟩
  | @transit conn fa d c f hc hf he ha =>
    obtain ⟨conn', hc', _, hall⟩ := hm.conn _ hp.cell
    rw [hc] at hc'
    cases hc'
    rcases hall fa (List.mem_of_getElem? hf) with ⟨_, c', f', ha', h1, h2⟩ | h | h
    · rw [ha] at ha'
      simp only [Location.mk.injEq, Option.some.injEq] at ha'
      obtain ⟨rfl, rfl, rfl⟩ := ha'
      exact ⟨rfl, h1, h2⟩
    · rw [he] at h; cases h
    · rw [he] at h; cases h
  | collide _ _ hc _ =>
    obtain ⟨h1, h2, h3⟩ := hc.index
    exact ⟨h1.trans hp.1, by simp only [h2]; exact hp.2, by simp only [h3]; exact hp.3⟩
  | born _ _ hc =>
    obtain ⟨h1, h2, h3⟩ := hc.index
    exact ⟨h1.trans hp.1, by rw [h2]; exact hp.2, by rw [h3]; exact hp.3⟩

theorem IndexOk.skeleton {d d' : Domain T} {p : Particle T} (h : IndexOk d p) (he : d'.skeleton = d.skeleton) :
    IndexOk d' p :=
  ⟨h.1.trans (globalDomain_skeleton he).symm, by rw [cells_length_skeleton he]; exact h.2, h.3⟩

/-- Every particle of a simulation over a sound mesh has its indices in range. -/
theorem reachable_index {G : Domain T → Nat → T → Prop} {data : Data T} {dom : Domain T} {fuel : Nat} (hm : SoundMesh dom) {p : Particle T}
    (h : ReachableBy G data dom fuel p) : IndexOk dom p := by
  refine h.cases (P := IndexOk dom) ?_ ?_ ?_ ?_
  · intro d w i cell p hd hc h
    refine ⟨h.domain.trans (globalDomain_skeleton hd), ?_, by rw [h.facet]; norm_num⟩
    rw [h.cell, ← cells_length_skeleton hd]
    exact (List.getElem?_eq_some_iff.1 hc).1
  · intro p q hp hf
    exact ⟨hf.domain.trans hp.1, by rw [hf.cell]; exact hp.2, by rw [hf.facet]; exact hp.3⟩
  · intro p q hp h
    simp only [gutsPrepare, bind_ok, pure_ok] at h
    obtain ⟨g, _, rfl⟩ := h
    split
    · exact ⟨hp.1, hp.2, hp.3⟩
    · exact ⟨hp.1, hp.2, hp.3⟩
  · intro d p tr o q r hd hp ho _ hev
    have hmd := hm.skeleton hd
    have h1 := outcome_index hmd (hp.skeleton hd) ho
    have h2 := hev.index hmd ⟨h1.1, h1.2, h1.3⟩
    exact h2.skeleton hd.symm

/-- On a sound mesh, crossing a facet never panics. -/
theorem facetBranch_ok {dom : Domain T} (hm : SoundMesh dom) {st : TrackState T} (hp : IndexOk dom st.particle) :
    ∃ r, facetBranch dom st = .ok r := by
  obtain ⟨conn, hc, hl, hall⟩ := hm.conn _ hp.cell
  obtain ⟨fa, hfa⟩ : ∃ fa, conn.facet[st.particle.facet]? = some fa :=
    ⟨_, List.getElem?_eq_getElem (by rw [hl]; exact hp.facet)⟩
  unfold facetBranch
  rw [idx_ok.2 hc]
  dsimp only [bind, Except.bind]
  rw [idx_ok.2 hfa]
  dsimp only [bind, Except.bind]
  unfold facetCrossingEvent
  rcases hall fa (List.mem_of_getElem? hfa) with ⟨he, c', f', ha, h1, h2⟩ | he | he
  · rw [he, ha]
    exact ⟨_, rfl⟩
  · rw [he]
    exact ⟨_, rfl⟩
  · rw [he]
    obtain ⟨planes, hg, hpl⟩ := hm.planes _ hp.cell
    obtain ⟨pl, hpl'⟩ : ∃ pl, planes[st.particle.facet]? = some pl :=
      ⟨_, List.getElem?_eq_getElem (by rw [hpl]; exact hp.facet)⟩
    dsimp only
    rw [idx_ok.2 hg]
    dsimp only
    rw [idx_ok.2 hpl']
    exact ⟨_, rfl⟩
