import Verif.Lemmas.Reach
/-! What an event can make of a particle, as a closed list of cases. -/
set_option linter.unusedSectionVars false
attribute [local irreducible] Rng.lcg Rng.sample Rng.spawn
open Flt
variable {T : Type} [Flt T]

/-- Particles coming out of a collision of `p` in a material of mass `mass`. -/
inductive CollisionOut (mass : T) (p : Particle T) : Particle T → Prop where
  | same (s) : CollisionOut mass p { p with seed := s }
  | scatter (s id s1 s2) : CollisionOut mass p
      (({ p with seed := s, identifier := id } : Particle T).updateTrajectory
        (p.kineticEnergy *. (one -. (Rng.sample (T := T) s1).1 *. (one /. mass)))
        ((Rng.sample (T := T) s2).1 *. two -. one))
  | fission (s id s1 s2) : CollisionOut mass p
      (({ p with seed := s, identifier := id } : Particle T).updateTrajectory
        (Flt.ofNat 20 *. (((Rng.sample (T := T) s1).1 +. one) /. two) *.
          (((Rng.sample (T := T) s1).1 +. one) /. two))
        ((Rng.sample (T := T) s2).1 *. two -. one))

theorem drawFission_form (s : BitVec 64) : ∃ s1 s2, (Particle.drawFission (T := T) s).1 =
    (Flt.ofNat 20 *. (((Rng.sample (T := T) s1).1 +. one) /. two) *.
      (((Rng.sample (T := T) s1).1 +. one) /. two), (Rng.sample (T := T) s2).1 *. two -. one) := by
  refine ⟨s, (Rng.sample (T := T) s).2, ?_⟩
  unfold Particle.drawFission
  rfl

theorem drawFissions_form (n : Nat) (s : BitVec 64) : ∀ x ∈ (Particle.drawFissions (T := T) n s).1,
    ∃ s', x = (Particle.drawFission (T := T) s').1 := by
  induction n generalizing s with
  | zero => simp [Particle.drawFissions]
  | succ n ih =>
    intro x hx
    unfold Particle.drawFissions at hx
    rcases List.mem_cons.1 hx with rfl | hx
    · exact ⟨s, rfl⟩
    · exact ih _ x hx

theorem sampleCollision_out {p : Particle T} {r : Reaction T} {mass : T} {n : Nat}
    {p' : Particle T} {ex : List (Particle T)} (h : p.sampleCollision r mass = .ok (n, p', ex)) :
    ∀ q ∈ p' :: ex, CollisionOut mass p q := by
  unfold Particle.sampleCollision at h
  split at h
  · simp only [Except.ok.injEq, Prod.mk.injEq] at h
    obtain ⟨_, rfl, rfl⟩ := h
    intro q hq
    simp only [List.mem_singleton] at hq
    subst hq
    exact .scatter _ p.identifier _ _
  · simp only [Except.ok.injEq, Prod.mk.injEq] at h
    obtain ⟨_, rfl, rfl⟩ := h
    intro q hq
    simp only [List.mem_singleton] at hq
    subst hq
    exact .same q.seed
  · have hf : ∀ (s id s' : BitVec 64), CollisionOut mass p
        (({ p with seed := s, identifier := id } : Particle T).updateTrajectory
          (Particle.drawFission (T := T) s').1.1 (Particle.drawFission (T := T) s').1.2) := by
      intro s id s'
      obtain ⟨s1, s2, e⟩ := drawFission_form (T := T) s'
      rw [e]
      exact .fission s id s1 s2
    simp only [bind_ok, unwrap_ok] at h
    obtain ⟨k, _, h⟩ := h
    split at h
    · simp only [pure_ok, Prod.mk.injEq] at h
      obtain ⟨_, rfl, rfl⟩ := h
      intro q hq
      simp only [List.mem_singleton] at hq
      subst hq
      exact .same _
    · split at h
      · simp only [pure_ok, Prod.mk.injEq] at h
        obtain ⟨_, rfl, rfl⟩ := h
        intro q hq
        simp only [List.mem_singleton] at hq
        subst hq
        exact hf _ p.identifier _
      · simp only [bind_ok, pure_ok, Prod.mk.injEq] at h
        obtain ⟨_, _, _, rfl, rfl⟩ := h
        intro q hq
        rcases List.mem_cons.1 hq with rfl | hq
        · exact hf _ p.identifier _
        · obtain ⟨⟨sd, e, a⟩, hz, rfl⟩ := List.mem_map.1 hq
          obtain ⟨s', he⟩ := drawFissions_form _ _ _ (List.of_mem_zip hz).2
          have h1 := congrArg Prod.fst he
          have h2 := congrArg Prod.snd he
          dsimp only at h1 h2 ⊢
          rw [h1, h2]
          exact hf sd sd s'

/-- Particles that exist after the event of a segment: `p` is the particle at the end of the
segment. -/
inductive EventOut (data : Data T) (dom : Domain T) (p : Particle T) :
    SegOutcome → Particle T → Prop where
  /-- nothing happens at census -/
  | census : EventOut data dom p .census p
  /-- the particle goes to the other side of the facet -/
  | transit {conn fa d c f} : dom.mesh.cellConnectivity[p.cell]? = some conn →
      conn.facet[p.facet]? = some fa → fa.subfacet.event = .transitOnProcessor →
      fa.subfacet.adjacent = ⟨some d, some c, some f⟩ →
      EventOut data dom p .facetCrossing
        { p with domain := d, cell := c, facet := f, lastEvent := .facetCrossingTransitExit }
  /-- the particle leaves the problem -/
  | escape {conn fa} : dom.mesh.cellConnectivity[p.cell]? = some conn →
      conn.facet[p.facet]? = some fa → fa.subfacet.event = .boundaryEscape →
      EventOut data dom p .facetCrossing
        { p with lastEvent := .facetCrossingEscape, species := .unknown }
  /-- the particle is reflected -/
  | reflect {conn fa planes plane} : dom.mesh.cellConnectivity[p.cell]? = some conn →
      conn.facet[p.facet]? = some fa → fa.subfacet.event = .boundaryReflection →
      dom.mesh.cellGeometry[p.cell]? = some planes → planes[p.facet]? = some plane →
      EventOut data dom p .facetCrossing
        (reflectParticle { p with lastEvent := .facetCrossingReflection } plane)
  /-- the colliding particle itself -/
  | collide {cs mat q g sp} : dom.cells[p.cell]? = some cs → data.materials[cs.material]? = some mat →
      CollisionOut mat.mass p q → getEnergyGroups data.nuclear.energies q.kineticEnergy = .ok g →
      EventOut data dom p .collision { q with energyGroup := g, species := sp }
  /-- a fission product waiting to be tracked -/
  | born {cs mat q} : dom.cells[p.cell]? = some cs → data.materials[cs.material]? = some mat →
      CollisionOut mat.mass p q → EventOut data dom p .collision q

theorem CollisionOut.reseed {mass : T} {p q : Particle T} {s : BitVec 64}
    (h : CollisionOut mass { p with seed := s } q) : CollisionOut mass p q := by
  cases h with
  | same s => exact .same s
  | scatter s id s1 s2 => exact .scatter s id s1 s2
  | fission s id s1 s2 => exact .fission s id s1 s2

theorem facetCrossingEvent_out {p : Particle T} {adj : SubfacetAdj} {p' : Particle T}
    (h : facetCrossingEvent p adj = .ok p') :
    (adj.event = .transitOnProcessor ∧ ∃ d c f, adj.adjacent = ⟨some d, some c, some f⟩ ∧
      p' = { p with domain := d, cell := c, facet := f, lastEvent := .facetCrossingTransitExit }) ∨
    (adj.event = .boundaryEscape ∧ p' = { p with lastEvent := .facetCrossingEscape }) ∨
    (adj.event = .boundaryReflection ∧ p' = { p with lastEvent := .facetCrossingReflection }) ∨
    (adj.event = .transitOffProcessor ∧ p'.lastEvent = .facetCrossingCommunication) := by
  unfold facetCrossingEvent at h
  split at h
  · next he =>
    simp only [bind_ok, pure_ok, unwrap_ok] at h
    obtain ⟨d, h1, c, h2, f, h3, rfl⟩ := h
    refine .inl ⟨he, d, c, f, ?_, rfl⟩
    rw [← h1, ← h2, ← h3]
  · next he => simp only [Except.ok.injEq] at h; exact .inr (.inl ⟨he, h.symm⟩)
  · next he => simp only [Except.ok.injEq] at h; exact .inr (.inr (.inl ⟨he, h.symm⟩))
  · next he =>
    simp only [bind_ok, pure_ok, unwrap_ok] at h
    obtain ⟨d, h1, c, h2, f, h3, rfl⟩ := h
    exact .inr (.inr (.inr ⟨he, rfl⟩))
  · simp at h

theorem segmentEvent_out {data : Data T} {dom : Domain T} {fuel : Nat} {o : SegOutcome}
    {st st' : TrackState T} {keep : Bool} {new : List (Particle T)}
    (h : segmentEvent data dom fuel o st = .ok (keep, st')) (hn : st'.extra = st.extra ++ new) :
    ∀ q ∈ st'.particle :: new, EventOut data dom st.particle o q := by
  cases o with
  | census =>
    simp only [segmentEvent, Except.ok.injEq, Prod.mk.injEq] at h
    obtain ⟨_, rfl⟩ := h
    have : new = [] := by simpa using hn
    subst this
    simpa using .census
  | facetCrossing =>
    simp only [segmentEvent, facetBranch, bind_ok, idx_ok] at h
    obtain ⟨conn, hconn, fa, hfa, p, hp, h⟩ := h
    have hnil : ∀ {st' : TrackState T}, st'.extra = st.extra → st'.extra = st.extra ++ new → new = [] := by
      intro st' h1 h2
      rw [h1] at h2
      simpa using h2
    rcases facetCrossingEvent_out hp with ⟨he, d, c, f, ha, rfl⟩ | ⟨he, rfl⟩ | ⟨he, rfl⟩ | ⟨he, hl⟩
    · simp only [pure_ok, Prod.mk.injEq] at h
      obtain ⟨_, rfl⟩ := h
      rw [hnil rfl hn]
      simpa using .transit hconn hfa he ha
    · simp only [pure_ok, Prod.mk.injEq] at h
      obtain ⟨_, rfl⟩ := h
      rw [hnil rfl hn]
      simpa using .escape hconn hfa he
    · simp only [bind_ok, idx_ok, pure_ok, Prod.mk.injEq] at h
      obtain ⟨planes, hpl, plane, hpn, _, rfl⟩ := h
      rw [hnil rfl hn]
      simpa using .reflect hconn hfa he hpl hpn
    · rw [hl] at h
      simp at h
  | collision =>
    simp only [segmentEvent, collisionBranch, collisionEvent, bind_ok, pure_ok, Prod.mk.injEq,
      Prod.exists, idx_ok] at h
    obtain ⟨cs, hcs, k, st1, ⟨mat, hmat, ro, _, h1⟩, g, hg, rfl, rfl⟩ := h
    cases ro with
    | none => simp at h1
    | some r =>
      simp only [bind_ok, pure_ok, Prod.mk.injEq, Prod.exists] at h1
      obtain ⟨n, p', ex, hsc, _, rfl⟩ := h1
      dsimp only at hn hg
      have : new = ex := by simpa using hn.symm
      subst this
      have hout := fun q hq => CollisionOut.reseed (sampleCollision_out hsc q hq)
      intro q hq
      rcases List.mem_cons.1 hq with rfl | hq
      · have hc := hout p' (by simp)
        split
        · exact .collide (sp := p'.species) hcs hmat hc hg
        · exact .collide (sp := .unknown) hcs hmat hc hg
      · exact .born hcs hmat (hout q (by simp [hq]))

/-! ### Domains with the same skeleton -/

theorem mesh_skeleton {d d' : Domain T} (h : d.skeleton = d'.skeleton) : d.mesh = d'.mesh :=
  by
  have := congrArg Domain.mesh h
  exact this

theorem numGroups_skeleton {d d' : Domain T} (h : d.skeleton = d'.skeleton) :
    d.numGroups = d'.numGroups := by
  have := congrArg Domain.numGroups h
  exact this

theorem globalDomain_skeleton {d d' : Domain T} (h : d.skeleton = d'.skeleton) :
    d.globalDomain = d'.globalDomain := by
  have := congrArg Domain.globalDomain h
  exact this

theorem cells_skeleton {d d' : Domain T} (h : d.skeleton = d'.skeleton) {i : Nat} {c : CellState T}
    (hc : d.cells[i]? = some c) : ∃ c', d'.cells[i]? = some c' ∧
      { c with sourceTally := 0 } = { c' with sourceTally := 0 } := by
  have h1 := congrArg (fun D => (Domain.cells D)[i]?) h
  simp only [Domain.skeleton, List.getElem?_map, hc, Option.map_some] at h1
  cases hc' : d'.cells[i]? with
  | none => rw [hc'] at h1; simp at h1
  | some c' =>
    rw [hc'] at h1
    simp only [Option.map_some, Option.some.injEq] at h1
    exact ⟨c', rfl, h1⟩

/-! ### Sourced particles -/

/-- The fields of a sourced particle. -/
structure SourcedFields (data : Data T) (dom : Domain T) (w : T) (i : Nat) (cell : CellState T)
    (p : Particle T) : Prop where
  coordinate : ∃ s s', generateCoordinate3dg s dom.mesh i cell.volume = .ok (p.coordinate, s')
  direction : ∃ q : Particle T, p.direction = q.sampleIsotropic.direction
  energy : ∃ s, p.kineticEnergy = (Rng.sample (T := T) s).1 *. (data.eMax -. data.eMin) +. data.eMin
  mfp : ∃ s, p.numMeanFreePaths = Flt.neg one *. Flt.ln (Rng.sample (T := T) s).1
  timeToCensus : ∃ s, p.timeToCensus = data.dt *. (Rng.sample (T := T) s).1
  age : p.age = zero
  cell : p.cell = i
  facet : p.facet = 0
  domain : p.domain = dom.globalDomain
  weight : p.weight = w
  species : p.species = .known
  energyGroup : p.energyGroup = 0
  numSegments : p.numSegments = zero

theorem sourceParticle_fields {data : Data T} {dom : Domain T} {w : T} {i : Nat}
    {cell : CellState T} {s0 : BitVec 64} {p : Particle T}
    (h : sourceParticle data dom w i cell s0 = .ok p) : SourcedFields data dom w i cell p := by
  unfold sourceParticle at h
  generalize Rng.spawn s0 = sp at h
  obtain ⟨s1, s2⟩ := sp
  simp only [bind_ok, pure_ok, Prod.exists] at h
  obtain ⟨coord, s', hg, h⟩ := h
  have hd : ∀ q : Particle T, ∃ d s, q.sampleIsotropic = { q with direction := d, seed := s } := by
    intro q
    unfold Particle.sampleIsotropic
    generalize Rng.sample (T := T) q.seed = r
    obtain ⟨u1, s1⟩ := r
    dsimp only
    generalize Rng.sample (T := T) s1 = r
    obtain ⟨u2, s2⟩ := r
    exact ⟨_, _, rfl⟩
  have hm : ∀ q : Particle T, ∃ m s, m = Flt.neg one *. Flt.ln (Rng.sample (T := T) q.seed).1 ∧
      q.sampleNumMfp = { q with numMeanFreePaths := m, seed := s } := by
    intro q
    unfold Particle.sampleNumMfp
    generalize Rng.sample (T := T) q.seed = r
    obtain ⟨u1, s1⟩ := r
    exact ⟨_, _, rfl, rfl⟩
  generalize hq : Particle.mk coord _ _ _ _ _ _ _ _ _ _ _ _ s' s2 _ dom.globalDomain i _ _ = q0 at h
  obtain ⟨d, s3, hd⟩ := hd q0
  rw [hd] at h
  have hdir : d = q0.sampleIsotropic.direction := by rw [hd]
  dsimp only at h
  generalize hr : Rng.sample (T := T) s3 = r at h
  obtain ⟨u, s4⟩ := r
  dsimp only at h
  generalize hq1 : Particle.mk _ _ _ _ _ _ _ _ _ _ _ _ _ s4 _ _ _ _ _ _ = q1 at h
  obtain ⟨m, s5, hm1, hm⟩ := hm q1
  rw [hm] at h
  dsimp only at h
  generalize hr2 : Rng.sample (T := T) s5 = r at h
  obtain ⟨u2, s6⟩ := r
  dsimp only at h
  subst h
  subst hq1
  subst hq
  refine ⟨⟨s1, s', hg⟩, ⟨_, hdir⟩, ⟨s3, ?_⟩, ⟨s4, hm1⟩, ⟨s5, ?_⟩, rfl, rfl, rfl, rfl, rfl, rfl, rfl, rfl⟩
  · rw [hr]
  · rw [hr2]

/-- Fields that population control never changes. -/
structure PopFrame (p p' : Particle T) : Prop where
  coordinate : p'.coordinate = p.coordinate
  direction : p'.direction = p.direction
  kineticEnergy : p'.kineticEnergy = p.kineticEnergy
  energyGroup : p'.energyGroup = p.energyGroup
  timeToCensus : p'.timeToCensus = p.timeToCensus
  age : p'.age = p.age
  numMeanFreePaths : p'.numMeanFreePaths = p.numMeanFreePaths
  meanFreePath : p'.meanFreePath = p.meanFreePath
  totalCrossSection : p'.totalCrossSection = p.totalCrossSection
  cell : p'.cell = p.cell
  facet : p'.facet = p.facet
  domain : p'.domain = p.domain
  species : p'.species = p.species
  numSegments : p'.numSegments = p.numSegments

theorem PopFrame.refl (p : Particle T) : PopFrame p p := by constructor <;> rfl

theorem overPopulatedRr_frame (p : Particle T) (f : T) : PopFrame p (p.overPopulatedRr f).1 := by
  unfold Particle.overPopulatedRr
  generalize Rng.sample (T := T) p.seed = r
  obtain ⟨v, s⟩ := r
  dsimp only
  split <;> constructor <;> rfl

theorem lowWeightRr_frame (p : Particle T) (c w : T) : PopFrame p (p.lowWeightRr c w).1 := by
  unfold Particle.lowWeightRr
  generalize Rng.sample (T := T) p.seed = r
  obtain ⟨v, s⟩ := r
  dsimp only
  split
  · split <;> constructor <;> rfl
  · constructor <;> rfl

theorem underPopulatedSplit_frame {p p' : Particle T} {f : T} {cs : List (Particle T)}
    (h : p.underPopulatedSplit f = .ok (p', cs)) : ∀ q ∈ p' :: cs, PopFrame p q := by
  unfold Particle.underPopulatedSplit at h
  generalize Rng.sample (T := T) p.seed = r at h
  obtain ⟨v, s⟩ := r
  simp only [bind_ok, pure_ok, Prod.mk.injEq] at h
  obtain ⟨n, _, rfl, rfl⟩ := h
  intro q hq
  rcases List.mem_cons.1 hq with rfl | hq
  · constructor <;> rfl
  · obtain ⟨sd, _, rfl⟩ := List.mem_map.1 hq
    constructor <;> rfl

/-- Induction over the life of particles with fewer cases: sourced, population control, preparation,
segment and event. -/
theorem ReachableBy.cases {G : Domain T → Nat → T → Prop} {data : Data T} {dom : Domain T} {fuel : Nat} {P : Particle T → Prop}
    (hsrc : ∀ d w i cell p, d.skeleton = dom.skeleton → d.cells[i]? = some cell →
      SourcedFields data d w i cell p → P p)
    (hpop : ∀ p q, P p → PopFrame p q → P q)
    (hprep : ∀ p q, P p → gutsPrepare data p = .ok q → P q)
    (hev : ∀ d p tr o q r, d.skeleton = dom.skeleton → P p → (outcome data d p).May tr (o, q) →
      Ev.LoadsIn (G d) tr →
      EventOut data d { q with numSegments := q.numSegments +. one } o r → P r)
    {p : Particle T} (h : ReachableBy G data dom fuel p) : P p := by
  induction h with
  | sourced hd hc h => exact hsrc _ _ _ _ _ hd hc (sourceParticle_fields h)
  | overRr _ ih => exact hpop _ _ ih (overPopulatedRr_frame _ _)
  | lowRr _ ih => exact hpop _ _ ih (lowWeightRr_frame _ _ _)
  | split _ h hq ih => exact hpop _ _ ih (underPopulatedSplit_frame h _ hq)
  | prepared _ h ih => exact hprep _ _ ih h
  | event hd _ ho hl hev' hn hr ih => exact hev _ _ _ _ _ _ hd ih ho hl (segmentEvent_out hev' hn _ hr)
