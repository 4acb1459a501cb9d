import Verif.Lemmas.RunEquiv
import Verif.Lemmas.Renumber
import Verif.Props.Flux
/-!
Runs on meshes that differ only in the numbers of the cells.
-/
set_option linter.unusedSectionVars false
attribute [local irreducible] Rng.lcg Rng.sample Rng.spawn
open Flt
variable {T : Type} [Flt T]

/-- The particle, with another number for its cell. -/
def Particle.renum (σ : Nat → Nat) (p : Particle T) : Particle T := { p with cell := σ p.cell }

/-- Where a facet leads. -/
def Mesh.across (mesh : Mesh T) (cell facet : Nat) : Except Panic (AdjEvent × Location) := do
  let conn ← idx mesh.cellConnectivity cell
  let fa ← idx conn.facet facet
  return (fa.subfacet.event, fa.subfacet.adjacent)

/-- Domains that differ only in the numbers of the cells: `σ` gives the new number. -/
structure DomNum (σ : Nat → Nat) (a b : Domain T) : Prop where
  domain : b.globalDomain = a.globalDomain
  groups : b.numGroups = a.numGroups
  cells : (a.cells.zipIdx.map fun e => (e.1, σ e.2)).Perm b.cells.zipIdx
  outside : ∀ i, a.cells.length ≤ i → a.cells.length ≤ σ i
  geom : ∀ i, b.mesh.cellGeometry[σ i]? = a.mesh.cellGeometry[i]?
  coords : ∀ i f, b.mesh.getFacetCoords (σ i) f = a.mesh.getFacetCoords i f
  position : ∀ i, cellPosition3dg b.mesh (σ i) = cellPosition3dg a.mesh i
  facet : ∀ i f, b.mesh.across (σ i) f =
    (a.mesh.across i f).map fun x => (x.1, { x.2 with cell := x.2.cell.map σ })

section
variable {σ : Nat → Nat} {a b : Domain T}

theorem idx_congr {α : Type} {l l' : List α} {i j : Nat} (h : l'[j]? = l[i]?) : idx l' j = idx l i := by
  unfold idx; rw [h]

theorem DomNum.cell (h : DomNum σ a b) (i : Nat) : b.cells[σ i]? = a.cells[i]? := by
  have hl : b.cells.length = a.cells.length := by
    have := h.cells.length_eq
    simpa using this.symm
  by_cases hi : i < a.cells.length
  · rw [List.getElem?_eq_getElem hi]
    have h1 : (a.cells[i], σ i) ∈ b.cells.zipIdx := by
      refine h.cells.mem_iff.1 (List.mem_map.2 ⟨(a.cells[i], i), ?_, rfl⟩)
      rw [List.mem_zipIdx_iff_getElem?]
      exact List.getElem?_eq_getElem hi
    exact List.mem_zipIdx_iff_getElem?.1 h1
  · have h1 := h.outside i (by omega)
    rw [List.getElem?_eq_none (by omega), List.getElem?_eq_none (by omega)]

/-! ### Segments -/

theorem facetDistances_num (h : DomNum σ a b) (i : Nat) (r d : Vec3 T) (tol : T) (planes : List (Plane T)) :
    facetDistances b.mesh (σ i) r d tol planes = facetDistances a.mesh i r d tol planes := by
  unfold facetDistances facetDistance
  simp only [h.coords]

theorem nfLoop_num (h : DomNum σ a b) (planes : List (Plane T)) (r d : Vec3 T) (tol : T) (fuel : Nat) :
    ∀ it mf (p : Particle T), nfLoop b.mesh planes r d tol fuel it mf (p.renum σ) =
      (nfLoop a.mesh planes r d tol fuel it mf p).map fun x => (x.1, x.2.renum σ) := by
  induction fuel with
  | zero => intro it mf p; rfl
  | succ n ih =>
    intro it mf p
    unfold nfLoop
    have e1 : facetDistances b.mesh (p.renum σ).cell r d tol planes = facetDistances a.mesh p.cell r d tol planes :=
      facetDistances_num h p.cell r d tol planes
    have e2 : cellPosition3dg b.mesh (p.renum σ).cell = cellPosition3dg a.mesh p.cell := h.position p.cell
    rw [e1, e2]
    cases facetDistances a.mesh p.cell r d tol planes with
    | error e => rfl
    | ok ds =>
      simp only [bind, Except.bind]
      have e3 : (p.renum σ).numSegments = p.numSegments := rfl
      rw [e3]
      split
      · cases cellPosition3dg a.mesh p.cell with
        | error e => rfl
        | ok m =>
          simp only
          split
          · exact ih _ _ { p with coordinate := p.coordinate.add ((m.sub p.coordinate).smul mf) }
          · rfl
      · rfl

theorem nearestFacet_num (h : DomNum σ a b) (p : Particle T) :
    nearestFacet b.mesh (p.renum σ) = (nearestFacet a.mesh p).map fun x => (x.1, x.2.renum σ) := by
  unfold nearestFacet mctNf3dg
  have e1 : idx b.mesh.cellGeometry (p.renum σ).cell = idx a.mesh.cellGeometry p.cell := idx_congr (h.geom p.cell)
  rw [e1]
  cases idx a.mesh.cellGeometry p.cell with
  | error e => rfl
  | ok planes =>
    simp only [bind, Except.bind]
    have e2 : (p.renum σ).coordinate = p.coordinate := rfl
    have e3 : (p.renum σ).direction = p.direction := rfl
    rw [e2, e3, nfLoop_num h]
    cases nfLoop a.mesh planes p.coordinate p.direction _ 1000 0 _ p with
    | error e => rfl
    | ok x =>
      simp only [Except.map]
      cases assertB (Flt.max x.1.distanceToFacet zero <=. Flt.huge) <;> rfl

theorem prepareXs_num (p : Particle T) (xs : T) : prepareXs (p.renum σ) xs = (prepareXs p xs).renum σ := by
  unfold prepareXs
  dsimp only
  have e : (p.renum σ).numMeanFreePaths = p.numMeanFreePaths := rfl
  rw [e]
  split <;> rfl

theorem applyOutcome_num (p : Particle T) (speed : T) (force : Bool) (nf : NearestFacet T) :
    applyOutcome (p.renum σ) speed force nf =
      (applyOutcome p speed force nf).map fun x => (x.1, x.2.renum σ) := by
  unfold applyOutcome
  dsimp only
  have e1 : (p.renum σ).numMeanFreePaths = p.numMeanFreePaths := rfl
  have e2 : (p.renum σ).meanFreePath = p.meanFreePath := rfl
  have e3 : (p.renum σ).timeToCensus = p.timeToCensus := rfl
  rw [e1, e2, e3]
  generalize (if force = true then _ else _ : DistanceHandler T) = hd
  cases assertB (hd.minDist >=. zero) with
  | error e => rfl
  | ok _ =>
    simp only [bind, Except.bind]
    cases hd.outcome <;> dsimp only <;> split <;> rfl

theorem outcomeWithXs_num (h : DomNum σ a b) (speed : T) (force : Bool) (p : Particle T) (xs : T) :
    outcomeWithXs b speed force (p.renum σ) xs =
      (outcomeWithXs a speed force p xs).map fun x => (x.1, x.2.renum σ) := by
  unfold outcomeWithXs
  dsimp only
  rw [prepareXs_num, nearestFacet_num h]
  cases nearestFacet a.mesh (prepareXs p xs) with
  | error e => rfl
  | ok x => exact applyOutcome_num _ _ _ _

theorem directXs_num (h : DomNum σ a b) (data : Data T) (i group : Nat) :
    directXs data b (σ i) group = directXs data a i group := by
  unfold directXs
  rw [idx_congr (h.cell i)]

theorem directOutcome_num (h : DomNum σ a b) (data : Data T) (p : Particle T) :
    directOutcome data b (p.renum σ) = (directOutcome data a p).map fun x => (x.1, x.2.renum σ) := by
  unfold directOutcome
  have e : prepareForced (p.renum σ) = ((prepareForced p).1, (prepareForced p).2.renum σ) := by
    unfold prepareForced
    have e : (p.renum σ).numMeanFreePaths = p.numMeanFreePaths := rfl
    dsimp only
    rw [e]
    split <;> rfl
  rw [e]
  dsimp only
  have e1 : ((prepareForced p).2.renum σ).cell = σ (prepareForced p).2.cell := rfl
  have e2 : ((prepareForced p).2.renum σ).energyGroup = (prepareForced p).2.energyGroup := rfl
  rw [e1, e2, directXs_num h]
  cases directXs data a (prepareForced p).2.cell (prepareForced p).2.energyGroup with
  | error e => rfl
  | ok xs => exact outcomeWithXs_num h _ _ _ _

/-! ### Events -/

def TrackState.renum (σ : Nat → Nat) (st : TrackState T) : TrackState T :=
  { st with particle := st.particle.renum σ, extra := st.extra.map (Particle.renum σ) }

theorem updateTrajectory_num (p : Particle T) (e m : T) :
    (p.renum σ).updateTrajectory e m = (p.updateTrajectory e m).renum σ := by
  simp only [Particle.renum, Particle.updateTrajectory, Particle.rotateDirection, Particle.sampleNumMfp]

theorem sampleCollision_num (p : Particle T) (r : Reaction T) (m : T) :
    (p.renum σ).sampleCollision r m =
      (p.sampleCollision r m).map fun x => (x.1, x.2.1.renum σ, x.2.2.map (Particle.renum σ)) := by
  have key := updateTrajectory_num (T := T) (σ := σ)
  have e : (p.renum σ).seed = p.seed := rfl
  have e' : (p.renum σ).kineticEnergy = p.kineticEnergy := rfl
  unfold Particle.sampleCollision
  generalize Particle.updateTrajectory (T := T) = U at key ⊢
  cases r.rtype with
  | scatter =>
    dsimp only
    rw [e, e']
    generalize Rng.sample (T := T) p.seed = x
    generalize Rng.sample (T := T) x.2 = y
    simp only [Except.map, List.map_nil]
    rw [← key]
    rfl
  | absorption => rfl
  | fission =>
    dsimp only
    rw [e]
    generalize Rng.sample (T := T) p.seed = x
    obtain ⟨u, s0⟩ := x
    dsimp only
    generalize Particle.drawFission (T := T) s0 = d
    cases unwrap (Flt.toUsize (r.nuBar +. u)) with
    | error e => rfl
    | ok n =>
      generalize Particle.drawFissions (T := T) (n - 1) d.2 = ds
      generalize Particle.spawnSeeds (n - 1) ds.2 = sd
      simp only [bind, Except.bind]
      split
      · rfl
      · split
        · simp only [pure, Except.pure, Except.map, List.map_nil]
          rw [← key]
          rfl
        · cases assertB (decide (n < 5)) with
          | error e => rfl
          | ok _ =>
            simp only [pure, Except.pure, Except.map, List.map_map]
            rw [← key]
            refine congrArg Except.ok (congrArg (Prod.mk n) (Prod.ext rfl (List.map_congr_left fun x _ => ?_)))
            exact key { p with seed := x.1, identifier := x.1 } _ _

theorem getCurrentXs_eq (q : Particle T) : q.getCurrentXs =
    (q.totalCrossSection *. (Rng.sample (T := T) q.seed).1, { q with seed := (Rng.sample (T := T) q.seed).2 }) := by
  unfold Particle.getCurrentXs
  generalize Rng.sample (T := T) q.seed = x
  obtain ⟨u, s⟩ := x
  rfl

theorem renum_seed (p : Particle T) : (p.renum σ).seed = p.seed := rfl

theorem getCurrentXs_aux (p : Particle T) (x : T × BitVec 64) :
    ((p.renum σ).totalCrossSection *. x.1, { p.renum σ with seed := x.2 }) =
      ((p.totalCrossSection *. x.1, { p with seed := x.2 }).1,
        (p.totalCrossSection *. x.1, { p with seed := x.2 }).2.renum σ) := rfl

theorem getCurrentXs_num (p : Particle T) :
    (p.renum σ).getCurrentXs = (p.getCurrentXs.1, p.getCurrentXs.2.renum σ) := by
  rw [getCurrentXs_eq, getCurrentXs_eq, renum_seed]
  exact getCurrentXs_aux p _

theorem collisionEvent_num (data : Data T) (fuel matGid : Nat) (density : T) (st : TrackState T) :
    collisionEvent data fuel matGid density (st.renum σ) =
      (collisionEvent data fuel matGid density st).map fun x => (x.1, x.2.renum σ) := by
  unfold collisionEvent
  have e3 : (st.renum σ).particle.getCurrentXs = _ := getCurrentXs_num st.particle
  rw [e3]
  generalize st.particle.getCurrentXs = gx
  obtain ⟨gx, p⟩ := gx
  dsimp only
  cases idx data.materials matGid with
  | error e => rfl
  | ok mat =>
    simp only [bind, Except.bind]
    have e4 : (p.renum σ).energyGroup = p.energyGroup := rfl
    rw [e4]
    cases pickReaction data mat density p.energyGroup fuel gx none with
    | error e => rfl
    | ok r =>
      cases r with
      | none => rfl
      | some r =>
        simp only
        rw [sampleCollision_num]
        generalize p.sampleCollision r mat.mass = y
        cases y with
        | error e => rfl
        | ok x =>
          simp only [Except.map, pure, Except.pure, TrackState.renum, List.map_append]

theorem collisionBranch_num (h : DomNum σ a b) (data : Data T) (fuel : Nat) (st : TrackState T) :
    collisionBranch data b fuel (st.renum σ) =
      (collisionBranch data a fuel st).map fun x => (x.1, x.2.renum σ) := by
  unfold collisionBranch
  have e1 : idx b.cells (st.renum σ).particle.cell = idx a.cells st.particle.cell := idx_congr (h.cell _)
  rw [e1]
  cases idx a.cells st.particle.cell with
  | error e => rfl
  | ok cs =>
    simp only [bind, Except.bind]
    rw [collisionEvent_num]
    generalize collisionEvent data fuel cs.material cs.cellNumberDensity st = y
    cases y with
    | error e => rfl
    | ok x =>
      simp only [Except.map]
      have e5 : (x.2.renum σ).particle.kineticEnergy = x.2.particle.kineticEnergy := rfl
      rw [e5]
      generalize getEnergyGroups data.nuclear.energies x.2.particle.kineticEnergy = z
      cases z with
      | error e => rfl
      | ok g =>
        simp only [pure, Except.pure]
        split <;> rfl

theorem facetBranch_across (dom : Domain T) (st : TrackState T) : facetBranch dom st = (do
    let x ← dom.mesh.across st.particle.cell st.particle.facet
    let p ← facetCrossingEvent st.particle { event := x.1, adjacent := x.2 }
    match p.lastEvent with
    | .facetCrossingTransitExit => return (true, { st with particle := p })
    | .facetCrossingReflection =>
      let planes ← idx dom.mesh.cellGeometry p.cell
      let plane ← idx planes p.facet
      return (true, { st with particle := reflectParticle p plane })
    | .facetCrossingCommunication => .error .unimplemented
    | .facetCrossingEscape =>
      return (false, { st with
        particle := { p with lastEvent := .facetCrossingEscape, species := .unknown }
        balance := { st.balance with escape := st.balance.escape + 1 } })
    | _ => .error .unreachable) := by
  unfold facetBranch Mesh.across
  cases idx dom.mesh.cellConnectivity st.particle.cell with
  | error e => rfl
  | ok conn =>
    simp only [bind, Except.bind]
    cases idx conn.facet st.particle.facet with
    | error e => rfl
    | ok fa => rfl

theorem facetCrossingEvent_num (p : Particle T) (e : AdjEvent) (l : Location) :
    facetCrossingEvent (p.renum σ) { event := e, adjacent := { l with cell := l.cell.map σ } } =
      match e with
      | .boundaryEscape | .boundaryReflection =>
        (facetCrossingEvent p { event := e, adjacent := l }).map (Particle.renum σ)
      | _ => (facetCrossingEvent p { event := e, adjacent := l }).map (Particle.renum σ) := by
  obtain ⟨d, c, f⟩ := l
  unfold facetCrossingEvent
  cases e <;> cases d <;> cases c <;> cases f <;> rfl

theorem facetBranch_num (h : DomNum σ a b) (st : TrackState T) :
    facetBranch b (st.renum σ) = (facetBranch a st).map fun x => (x.1, x.2.renum σ) := by
  rw [facetBranch_across, facetBranch_across]
  have e1 : b.mesh.across (st.renum σ).particle.cell (st.renum σ).particle.facet = _ :=
    h.facet st.particle.cell st.particle.facet
  rw [e1]
  cases a.mesh.across st.particle.cell st.particle.facet with
  | error e => rfl
  | ok x =>
    simp only [Except.map, bind, Except.bind]
    have e2 : facetCrossingEvent (st.renum σ).particle { event := x.1, adjacent := { x.2 with cell := x.2.cell.map σ } } =
        (facetCrossingEvent st.particle { event := x.1, adjacent := x.2 }).map (Particle.renum σ) := by
      have := facetCrossingEvent_num (σ := σ) st.particle x.1 x.2
      revert this
      cases x.1 <;> exact id
    rw [e2]
    cases facetCrossingEvent st.particle { event := x.1, adjacent := x.2 } with
    | error e => rfl
    | ok p =>
      simp only [Except.map]
      have e3 : (p.renum σ).lastEvent = p.lastEvent := rfl
      rw [e3]
      cases p.lastEvent <;> simp only [pure, Except.pure]
      case facetCrossingTransitExit => rfl
      case facetCrossingEscape => rfl
      case facetCrossingReflection =>
        have e4 : idx b.mesh.cellGeometry (p.renum σ).cell = idx a.mesh.cellGeometry p.cell := idx_congr (h.geom _)
        rw [e4]
        cases idx a.mesh.cellGeometry p.cell with
        | error e => rfl
        | ok planes =>
          simp only
          have e5 : (p.renum σ).facet = p.facet := rfl
          rw [e5]
          cases idx planes p.facet with
          | error e => rfl
          | ok plane => rfl

theorem segmentEvent_num (h : DomNum σ a b) (data : Data T) (fuel : Nat) (o : SegOutcome) (st : TrackState T) :
    segmentEvent data b fuel o (st.renum σ) =
      (segmentEvent data a fuel o st).map fun x => (x.1, x.2.renum σ) := by
  unfold segmentEvent
  cases o with
  | collision => exact collisionBranch_num h data fuel st
  | facetCrossing => exact facetBranch_num h st
  | census => rfl

/-! ### Histories -/

/-- Histories that differ only in the numbers of the cells. -/
structure HistNum (σ : Nat → Nat) (h h' : Hist T) : Prop where
  particle : h'.particle = h.particle.renum σ
  balance : h'.balance = h.balance
  extra : h'.extra = h.extra.map (Particle.renum σ)
  contribs : h'.contribs.map (·.2) = h.contribs.map (·.2)

theorem directLoop_num (h : DomNum σ a b) (data : Data T) (cfuel fuel : Nat) :
    ∀ (p : Particle T) hist, directLoop data a cfuel fuel p = .ok hist →
      ∃ hist', directLoop data b cfuel fuel (p.renum σ) = .ok hist' ∧ HistNum σ hist hist' := by
  induction fuel with
  | zero => intro p hist hh; cases hh
  | succ n ih =>
    intro p hist hh
    unfold directLoop at hh ⊢
    obtain ⟨⟨o, q⟩, h1, hh⟩ := bind_ok.1 hh
    obtain ⟨⟨keep, st⟩, h2, hh⟩ := bind_ok.1 hh
    rw [directOutcome_num h, h1]
    simp only [Except.map, bind, Except.bind]
    dsimp only at h2 hh
    have e := segmentEvent_num h data cfuel o
      { particle := { q with numSegments := q.numSegments +. one }, balance := { numSegments := 1 }, extra := [] }
    rw [h2] at e
    have e' : segmentEvent data b cfuel o
      { particle := { q.renum σ with numSegments := (q.renum σ).numSegments +. one },
        balance := { numSegments := 1 }, extra := [] } = .ok (keep, st.renum σ) := e
    rw [e']
    simp only
    split at hh
    · rename_i hk
      obtain ⟨h3, h4, hh⟩ := bind_ok.1 hh
      cases pure_ok.1 hh
      obtain ⟨h3', h5, h6⟩ := ih _ _ h4
      rw [if_pos hk]
      have h5' : directLoop data b cfuel n (st.renum σ).particle = .ok h3' := h5
      rw [h5']
      refine ⟨_, rfl, h6.particle, ?_, ?_, ?_⟩
      · show (st.renum σ).balance.add h3'.balance = _
        rw [h6.balance]; rfl
      · show (st.renum σ).extra ++ h3'.extra = _
        rw [h6.extra, List.map_append]; rfl
      · simp only [List.map_cons, h6.contribs]
        rfl
    · rename_i hk
      cases pure_ok.1 hh
      rw [if_neg hk]
      exact ⟨_, rfl, rfl, rfl, rfl, rfl⟩

theorem directHist_num (h : DomNum σ a b) (data : Data T) (fuel : Nat) (p : Particle T) {hist : Hist T}
    (hh : directHist data a fuel p = .ok hist) :
    ∃ hist', directHist data b fuel (p.renum σ) = .ok hist' ∧ HistNum σ hist hist' := by
  unfold directHist at hh ⊢
  obtain ⟨q, h1, hh⟩ := bind_ok.1 hh
  have e : gutsPrepare data (p.renum σ) = (gutsPrepare data p).map (Particle.renum σ) := by
    unfold gutsPrepare
    have e1 : (p.renum σ).timeToCensus = p.timeToCensus := rfl
    rw [e1]
    split
    · simp only [show (p.renum σ).kineticEnergy = p.kineticEnergy from rfl]
      cases getEnergyGroups data.nuclear.energies p.kineticEnergy <;> rfl
    · simp only [show (p.renum σ).kineticEnergy = p.kineticEnergy from rfl]
      cases getEnergyGroups data.nuclear.energies p.kineticEnergy <;> rfl
  rw [e, h1]
  exact directLoop_num h data fuel fuel q hist hh

theorem directHists_num (h : DomNum σ a b) (data : Data T) (fuel : Nat) :
    ∀ (ps : List (Particle T)) hs, ps.mapM (directHist data a fuel) = .ok hs →
      ∃ hs', (ps.map (Particle.renum σ)).mapM (directHist data b fuel) = .ok hs' ∧
        List.Forall₂ (HistNum σ) hs hs' := by
  intro ps
  induction ps with
  | nil => intro hs hh; cases pure_ok.1 hh; exact ⟨[], rfl, .nil⟩
  | cons p ps ih =>
    intro hs hh
    rw [List.mapM_cons] at hh
    obtain ⟨x, h1, hh⟩ := bind_ok.1 hh
    obtain ⟨xs, h2, hh⟩ := bind_ok.1 hh
    cases pure_ok.1 hh
    obtain ⟨x', g1, g2⟩ := directHist_num h data fuel p h1
    obtain ⟨xs', g3, g4⟩ := ih _ h2
    refine ⟨x' :: xs', ?_, .cons g2 g4⟩
    rw [List.map_cons, List.mapM_cons, g1, g3]
    rfl

theorem generations_num (h : DomNum σ a b) {data : Data T} {fuel : Nat} {ps : List (Particle T)} {bal : Balance}
    {surv : List (Particle T)} {cs : List (Nat × T)} (hg : Generations data a fuel ps bal surv cs) :
    ∃ cs', Generations data b fuel (ps.map (Particle.renum σ)) bal (surv.map (Particle.renum σ)) cs' ∧
      cs'.map (·.2) = cs.map (·.2) := by
  induction hg with
  | done => exact ⟨[], .done, rfl⟩
  | next hne hm hrest ih =>
    obtain ⟨cs1, g1, g2⟩ := ih
    obtain ⟨hs', g3, g4⟩ := directHists_num h data fuel _ _ hm
    rename_i hs _ _ _
    have k : (hs'.map (·.balance)) = hs.map (·.balance) ∧
        (hs'.map (·.particle)).filter (fun p => p.species ≠ .unknown) =
          ((hs.map (·.particle)).filter (fun p => p.species ≠ .unknown)).map (Particle.renum σ) ∧
        hs'.flatMap (·.extra) = (hs.flatMap (·.extra)).map (Particle.renum σ) ∧
        (hs'.flatMap (·.contribs)).map (·.2) = (hs.flatMap (·.contribs)).map (·.2) := by
      clear hm g3 hne g1 hrest
      induction g4 with
      | nil => exact ⟨rfl, rfl, rfl, rfl⟩
      | @cons x0 _ _ _ hx _ ihx =>
        obtain ⟨i1, i2, i3, i4⟩ := ihx
        refine ⟨?_, ?_, ?_, ?_⟩
        · rw [List.map_cons, List.map_cons, i1, hx.balance]
        · rw [List.map_cons, List.map_cons, List.filter_cons, List.filter_cons, i2, hx.particle]
          have e : (Particle.renum σ x0.particle).species = x0.particle.species := rfl
          rw [e]
          split <;> rfl
        · rw [List.flatMap_cons, List.flatMap_cons, i3, hx.extra, List.map_append]
        · rw [List.flatMap_cons, List.flatMap_cons, List.map_append, List.map_append, i4, hx.contribs]
    obtain ⟨k1, k2, k3, k4⟩ := k
    rw [← k3] at g1
    have := Generations.next (by simpa using hne) g3 g1
    rw [k1, k2, ← List.map_append] at this
    exact ⟨_, this, by rw [List.map_append, List.map_append, k4, g2]⟩

/-! ### Sources -/

/-- Sourcing in one cell. -/
def sourceOne (data : Data T) (dom : Domain T) (rates : List T) (w : T) (e : CellState T × Nat) :
    Except Panic (CellState T × Nat × List (Particle T)) := do
  let n ← cellSourceCount data rates w e.1
  let ps ← (cellSeeds e.1.sourceTally e.1.id n).mapM (sourceParticle data dom w e.2 e.1)
  return ({ e.1 with sourceTally := e.1.sourceTally + n }, e.2, ps)

theorem sourceCells_one {data : Data T} {dom : Domain T} {rates : List T} {w : T} :
    ∀ (cells : List (CellState T)) (k : Nat) {cells' ps}, sourceCells data dom rates w cells k = .ok (cells', ps) →
      ∃ rs, (cells.zipIdx k).mapM (sourceOne data dom rates w) = .ok rs ∧
        cells'.zipIdx k = rs.map (fun r => (r.1, r.2.1)) ∧ ps = rs.flatMap (·.2.2) := by
  intro cells
  induction cells with
  | nil => intro k cells' ps h; cases h; exact ⟨[], rfl, rfl, rfl⟩
  | cons c cells ih =>
    intro k cells' ps h
    simp only [sourceCells, bind_ok, pure_ok, Prod.exists, Prod.mk.injEq] at h
    obtain ⟨n, h1, qs, h2, cs, ps', h3, rfl, rfl⟩ := h
    obtain ⟨rs, g1, g2, g3⟩ := ih (k + 1) h3
    refine ⟨({ c with sourceTally := c.sourceTally + n }, k, qs) :: rs, ?_, ?_, ?_⟩
    · rw [List.zipIdx_cons, List.mapM_cons]
      have : sourceOne data dom rates w (c, k) = .ok ({ c with sourceTally := c.sourceTally + n }, k, qs) := by
        unfold sourceOne
        dsimp only
        rw [h1]
        simp only [bind, Except.bind]
        rw [h2]
        rfl
      rw [this, g1]
      rfl
    · rw [List.zipIdx_cons, g2]
      rfl
    · rw [List.flatMap_cons, g3]

theorem sourceOne_cells {data : Data T} {dom : Domain T} {rates : List T} {w : T} :
    ∀ (cells : List (CellState T)) (k : Nat) {rs}, (cells.zipIdx k).mapM (sourceOne data dom rates w) = .ok rs →
      ∃ cells' ps, sourceCells data dom rates w cells k = .ok (cells', ps) := by
  intro cells
  induction cells with
  | nil => intro k rs _; exact ⟨[], [], rfl⟩
  | cons c cells ih =>
    intro k rs h
    rw [List.zipIdx_cons, List.mapM_cons] at h
    obtain ⟨x, h1, h⟩ := bind_ok.1 h
    obtain ⟨xs, h2, _⟩ := bind_ok.1 h
    obtain ⟨cs, ps, h3⟩ := ih _ h2
    unfold sourceOne at h1
    obtain ⟨n, g1, h1⟩ := bind_ok.1 h1
    obtain ⟨qs, g2, _⟩ := bind_ok.1 h1
    simp only [sourceCells, bind_ok, pure_ok, Prod.exists]
    exact ⟨_, _, n, g1, qs, g2, cs, ps, h3, rfl⟩

theorem generateCoordinate_num (h : DomNum σ a b) (s : BitVec 64) (i : Nat) (v : T) :
    generateCoordinate3dg s b.mesh (σ i) v = generateCoordinate3dg s a.mesh i v := by
  have e : ∀ c w l cur last, findFacet b.mesh (σ i) c w l cur last = findFacet a.mesh i c w l cur last := by
    intro c w l
    induction l with
    | nil => intro cur last; rfl
    | cons f l ih =>
      intro cur last
      unfold findFacet
      rw [h.coords]
      simp only [ih]
  unfold generateCoordinate3dg
  rw [h.position]
  simp only [e]

theorem sourceParticle_num (h : DomNum σ a b) (data : Data T) (w : T) (i : Nat) (c : CellState T) (s : BitVec 64) :
    sourceParticle data b w (σ i) c s = (sourceParticle data a w i c s).map (Particle.renum σ) := by
  unfold sourceParticle
  generalize Rng.spawn s = sp
  obtain ⟨s1, s2⟩ := sp
  dsimp only
  rw [generateCoordinate_num h]
  generalize generateCoordinate3dg s1 a.mesh i c.volume = r
  cases r with
  | error e => rfl
  | ok x =>
    obtain ⟨x, s3⟩ := x
    simp only [bind, Except.bind]
    rw [h.domain]
    simp only [Particle.renum, Particle.sampleIsotropic, Particle.sampleNumMfp, pure, Except.pure, Except.map]

theorem sourceOne_num (h : DomNum σ a b) (data : Data T) (rates : List T) (w : T) (e : CellState T × Nat) :
    sourceOne data b rates w (e.1, σ e.2) =
      (sourceOne data a rates w e).map fun x => (x.1, σ x.2.1, x.2.2.map (Particle.renum σ)) := by
  unfold sourceOne
  dsimp only
  cases cellSourceCount data rates w e.1 with
  | error e => rfl
  | ok n =>
    simp only [bind, Except.bind]
    have k : ∀ l : List (BitVec 64), l.mapM (sourceParticle data b w (σ e.2) e.1) =
        (l.mapM (sourceParticle data a w e.2 e.1)).map (List.map (Particle.renum σ)) := by
      intro l
      induction l with
      | nil => rfl
      | cons s l ih =>
        rw [List.mapM_cons, List.mapM_cons, sourceParticle_num h, ih]
        cases sourceParticle data a w e.2 e.1 s with
        | error e => rfl
        | ok p =>
          cases l.mapM (sourceParticle data a w e.2 e.1) <;> rfl
    rw [k]
    cases (cellSeeds e.1.sourceTally e.1.id n).mapM (sourceParticle data a w e.2 e.1) <;> rfl

theorem sourceCells_num (h : DomNum σ a b) {data : Data T} {rates : List T} {w : T} {cells ps}
    (hs : sourceCells data a rates w a.cells 0 = .ok (cells, ps)) :
    ∃ cells' ps', sourceCells data b rates w b.cells 0 = .ok (cells', ps') ∧
      (ps.map (Particle.renum σ)).Perm ps' ∧ DomNum σ { a with cells := cells } { b with cells := cells' } := by
  obtain ⟨rs, h1, h2, h3⟩ := sourceCells_one _ _ hs
  have h4 : (a.cells.zipIdx.map fun e => (e.1, σ e.2)).mapM (sourceOne data b rates w) =
      .ok (rs.map fun x => (x.1, σ x.2.1, x.2.2.map (Particle.renum σ))) := by
    revert h1
    generalize a.cells.zipIdx = l
    clear h2 h3 hs
    induction l generalizing rs with
    | nil => intro h1; cases pure_ok.1 h1; rfl
    | cons e l ih =>
      intro h1
      rw [List.mapM_cons] at h1
      obtain ⟨x, g1, h1⟩ := bind_ok.1 h1
      obtain ⟨xs, g2, h1⟩ := bind_ok.1 h1
      cases pure_ok.1 h1
      rw [List.map_cons, List.mapM_cons, sourceOne_num h, g1, ih _ g2]
      rfl
  obtain ⟨rs', h5, h6⟩ := mapM_perm_ok h.cells h4
  obtain ⟨cells', ps', h7⟩ := sourceOne_cells _ _ h5
  obtain ⟨rs2, g1, g2, g3⟩ := sourceCells_one _ _ h7
  rw [h5] at g1
  cases g1
  have hlen : cells.length = a.cells.length := by
    have e1 := congrArg List.length h2
    have e2 := mapM_ok_length h1
    simp only [List.length_zipIdx, List.length_map] at e1 e2
    omega
  refine ⟨cells', ps', h7, ?_, h.domain, h.groups, ?_, ?_, h.geom, h.coords, h.position, h.facet⟩
  · rw [g3, h3, List.map_flatMap]
    have := h6.flatMap_right (·.2.2)
    rw [List.flatMap_map] at this
    exact this
  · show (cells.zipIdx.map fun e => (e.1, σ e.2)).Perm cells'.zipIdx
    rw [h2, g2, List.map_map]
    have := h6.map (fun r => (r.1, r.2.1))
    rw [List.map_map] at this
    exact this
  · intro i hi
    show cells.length ≤ σ i
    rw [hlen]
    exact h.outside i (by rw [← hlen]; exact hi)

/-! ### States -/

structure ContNum (σ : Nat → Nat) (c c' : Container T) : Prop where
  processing : (c.processing.map (Particle.renum σ)).Perm c'.processing
  processed : (c.processed.map (Particle.renum σ)).Perm c'.processed
  extra : c.extra = []
  extra' : c'.extra = []

/-- Flux tables that received the same contributions, in any order and in any entries. -/
def FluxNum (n : Nat) (f f' : List T) : Prop :=
  ∃ cs cs', f = addContribs (List.replicate n zero) cs ∧ f' = addContribs (List.replicate n zero) cs' ∧
    (∀ d ∈ cs, d.1 < n) ∧ (∀ d ∈ cs', d.1 < n) ∧ (cs.map (·.2)).Perm (cs'.map (·.2))

structure UnitNum (σ : Nat → Nat) (data : Data T) (u u' : UnitState T) : Prop where
  dom : DomNum σ u.dom u'.dom
  weights : ∀ w, unitWeightOf data u.dom.cells = .ok w → unitWeightOf data u'.dom.cells = .ok w
  balance : u'.balance = u.balance
  flux : FluxNum (tableSize u.dom) u.flux u'.flux
  checked : GroupsChecked data u.dom
  checked' : GroupsChecked data u'.dom

theorem DomNum.tableSize_eq (h : DomNum σ a b) : tableSize b = tableSize a := by
  have := h.cells.length_eq
  simp only [List.length_map, List.length_zipIdx] at this
  unfold tableSize
  rw [this, h.groups]

/-- Reports of a cycle: same step, same counters, total flux of the same contributions. -/
def ReportNum (r r' : Nat × Balance × T) : Prop :=
  r'.1 = r.1 ∧ r'.2.1 = r.2.1 ∧ ∃ (n : Nat) (f f' : List T), FluxNum n f f' ∧ r.2.2 = scalarFluxSum f ∧ r'.2.2 = scalarFluxSum f'

structure SimNum (σ : Nat → Nat) (data : Data T) (s s' : SimState T) : Prop where
  unit : UnitNum σ data s.unit s'.unit
  cont : ContNum σ s.container s'.container
  srcWeight : s'.srcWeight = s.srcWeight
  globalN : s'.globalN = s.globalN
  cumulative : s'.cumulative = s.cumulative
  spectrum : s'.spectrum = s.spectrum
  reports : List.Forall₂ ReportNum s.reports s'.reports

theorem countSpectrum_num : ∀ (l : List (Particle T)) (s : List Nat),
    countSpectrum (l.map (Particle.renum σ)) s = countSpectrum l s := by
  intro l
  induction l with
  | nil => intro s; rfl
  | cons p l ih =>
    intro s
    simp only [List.map_cons, countSpectrum, ih]
    rfl

theorem swap_num {c c' : Container T} (h : ContNum σ c c') : ContNum σ c.swap c'.swap :=
  ⟨by
    show ((c.processing ++ c.processed).map _).Perm (c'.processing ++ c'.processed)
    rw [List.map_append]
    exact h.processing.append h.processed, .refl _, h.extra, h.extra'⟩

theorem syncPrepare_num {data : Data T} {s s' s1 : SimState T} (hr : SimNum σ data s s')
    (h : syncPrepare data s = .ok s1) : ∃ s1', syncPrepare data s' = .ok s1' ∧ SimNum σ data s1 s1' := by
  simp only [syncPrepare, bind_ok, pure_ok] at h
  obtain ⟨w, hw, k, hk, rfl⟩ := h
  have hsw := swap_num hr.cont
  have hlen := hsw.processing.length_eq
  rw [List.length_map] at hlen
  refine ⟨{ s' with
    unit := { s'.unit with
      unitWeight := w
      cache := s'.unit.cache.map fun _ => zero
      balance := { s'.unit.balance with start := s'.container.swap.processing.length } }
    container := s'.container.swap
    srcWeight := (zero +. w) /. (Flt.lit 1 (-1) *. Flt.ofNat data.nParticles)
    globalN := s'.container.swap.processing.length + k }, ?_, ?_⟩
  · simp only [syncPrepare, bind_ok, pure_ok]
    refine ⟨w, ?_, k, hk, rfl⟩
    exact hr.unit.weights w hw
  · refine ⟨⟨hr.unit.dom, hr.unit.weights, ?_, hr.unit.flux, hr.unit.checked, hr.unit.checked'⟩, hsw, rfl, ?_, hr.cumulative, hr.spectrum, hr.reports⟩
    · dsimp only
      rw [hr.unit.balance, hlen]
    · dsimp only
      rw [hlen]

theorem syncFinalize_num {data : Data T} {o : SyncOpts} {n : Nat} {s s' s1 : SimState T} (hr : SimNum σ data s s')
    (h : syncFinalize o n s = .ok s1) : ∃ s1', syncFinalize o n s' = .ok s1' ∧ SimNum σ data s1 s1' := by
  simp only [syncFinalize, bind_ok, pure_ok] at h
  obtain ⟨sp, hsp, rfl⟩ := h
  have hlen := hr.cont.processed.length_eq
  rw [List.length_map] at hlen
  have hbal : ({ s'.unit.balance with end_ := s'.container.processed.length } : Balance) =
      { s.unit.balance with end_ := s.container.processed.length } := by
    rw [hr.unit.balance, hlen]
  have hsp' : updateSpectrum o.spectrumOn s'.container s'.spectrum = .ok sp := by
    rw [hr.spectrum]
    unfold updateSpectrum at hsp ⊢
    split at hsp
    · next hon =>
      rw [if_pos hon]
      rw [bind_ok] at hsp ⊢
      obtain ⟨t, h1, h2⟩ := hsp
      rw [← countSpectrum_num (σ := σ)] at h1 h2
      exact ⟨t, countSpectrum_perm hr.cont.processing h1, countSpectrum_perm hr.cont.processed h2⟩
    · next hon => rw [if_neg hon]; exact hsp
  have hok : ∃ s1', syncFinalize o n s' = .ok s1' := by
    simp only [syncFinalize, hsp']; exact ⟨_, rfl⟩
  obtain ⟨s1', h'⟩ := hok
  refine ⟨s1', h', ?_⟩
  simp only [syncFinalize, bind_ok, pure_ok] at h'
  obtain ⟨sp2, hsp2, rfl⟩ := h'
  rw [hsp'] at hsp2
  cases hsp2
  refine ⟨⟨hr.unit.dom, hr.unit.weights, ?_, ?_, hr.unit.checked, hr.unit.checked'⟩, hr.cont, hr.srcWeight, hr.globalN, ?_, rfl, ?_⟩
  · simp only [cycleFinalize]; rw [hlen]
  · obtain ⟨cs, cs', e1, e2, _⟩ := hr.unit.flux
    refine ⟨[], [], ?_, ?_, by simp, by simp, .refl _⟩
    · show s.unit.flux.map (fun _ => zero) = _
      rw [e1, List.map_const', addContribs_length, List.length_replicate]
      rfl
    · show s'.unit.flux.map (fun _ => zero) = _
      rw [e2, List.map_const', addContribs_length, List.length_replicate]
      rfl
  · dsimp only
    rw [hbal, hr.cumulative]
  · dsimp only
    exact List.rel_append hr.reports (.cons ⟨rfl, hbal, _, _, _, hr.unit.flux, rfl, rfl⟩ .nil)

theorem cycleSync_num {data : Data T} {o : SyncOpts} {n : Nat} {s s' s1 : SimState T} (hr : SimNum σ data s s')
    (h : cycleSync data o n s = .ok s1) : ∃ s1', cycleSync data o n s' = .ok s1' ∧ SimNum σ data s1 s1' := by
  unfold cycleSync at h ⊢
  split at h
  · next hn =>
    rw [if_pos hn]
    rw [bind_ok] at h
    obtain ⟨s2, h2, h⟩ := h
    obtain ⟨s2', h2', hr2⟩ := syncFinalize_num hr h2
    rw [h2']
    simp only [bind, Except.bind]
    split at h
    · next he =>
      rw [if_pos he]
      rw [pure_ok] at h
      subst h
      exact ⟨s2', rfl, hr2⟩
    · next he => rw [if_neg he]; exact syncPrepare_num hr2 h
  · next hn => rw [if_neg hn]; exact syncPrepare_num hr h

/-! ### Population control -/

theorem retainMut_num {f : Particle T → Particle T × Bool}
    (hf : ∀ p, f (p.renum σ) = ((f p).1.renum σ, (f p).2)) (l : List (Particle T)) :
    retainMut f (l.map (Particle.renum σ)) = (retainMut f l).map (Particle.renum σ) := by
  unfold retainMut
  rw [List.filterMap_map, List.map_filterMap]
  refine List.filterMap_congr fun p _ => ?_
  simp only [Function.comp, hf]
  split <;> rfl

theorem overPopulatedRr_num (p : Particle T) (f : T) :
    (p.renum σ).overPopulatedRr f = ((p.overPopulatedRr f).1.renum σ, (p.overPopulatedRr f).2) := by
  unfold Particle.overPopulatedRr
  rw [renum_seed]
  generalize Rng.sample (T := T) p.seed = x
  obtain ⟨u, s⟩ := x
  dsimp only
  split <;> rfl

theorem lowWeightRr_num (p : Particle T) (c w : T) :
    (p.renum σ).lowWeightRr c w = ((p.lowWeightRr c w).1.renum σ, (p.lowWeightRr c w).2) := by
  unfold Particle.lowWeightRr
  rw [renum_seed, show (p.renum σ).weight = p.weight from rfl]
  generalize Rng.sample (T := T) p.seed = x
  obtain ⟨u, s⟩ := x
  dsimp only
  split
  · split <;> rfl
  · rfl

theorem regulateOne_num (f c w : T) (p : Particle T) :
    regulateOne f c w (p.renum σ) = ((regulateOne f c w p).1.renum σ, (regulateOne f c w p).2) := by
  unfold regulateOne
  rw [overPopulatedRr_num]
  generalize p.overPopulatedRr f = x
  obtain ⟨q, b1⟩ := x
  dsimp only
  rw [lowWeightRr_num]

theorem underPopulatedSplit_num (p : Particle T) (f : T) :
    (p.renum σ).underPopulatedSplit f =
      (p.underPopulatedSplit f).map fun x => (x.1.renum σ, x.2.map (Particle.renum σ)) := by
  unfold Particle.underPopulatedSplit
  rw [renum_seed]
  generalize Rng.sample (T := T) p.seed = x
  obtain ⟨u, s⟩ := x
  dsimp only
  generalize unwrap (Flt.toUsize (T := T) _) = y
  cases y with
  | error e => rfl
  | ok n =>
    simp only [bind, Except.bind]
    generalize Particle.spawnSeeds n s = z
    obtain ⟨l, s'⟩ := z
    simp only [pure, Except.pure, Except.map, List.map_map]
    rfl

theorem splitAll_num (f : T) : ∀ (l : List (Particle T)) {ps cs}, splitAll f l = .ok (ps, cs) →
    splitAll f (l.map (Particle.renum σ)) = .ok (ps.map (Particle.renum σ), cs.map (Particle.renum σ)) := by
  intro l
  induction l with
  | nil => intro ps cs h; cases h; rfl
  | cons p l ih =>
    intro ps cs h
    simp only [splitAll, bind_ok, pure_ok, Prod.exists, Prod.mk.injEq] at h
    obtain ⟨q, c1, hq, ps1, cs1, h1, rfl, rfl⟩ := h
    rw [List.map_cons]
    unfold splitAll
    rw [underPopulatedSplit_num, hq, ih h1, List.map_append]
    rfl

theorem regulateOrSplit_num {data : Data T} {f w : T} {u u' u1 : UnitState T} {c c' c1 : Container T}
    (hu : UnitNum σ data u u') (hc : ContNum σ c c') (h : regulateOrSplit data f w u c = .ok (u1, c1)) :
    ∃ u1' c1', regulateOrSplit data f w u' c' = .ok (u1', c1') ∧ UnitNum σ data u1 u1' ∧ ContNum σ c1 c1' := by
  unfold regulateOrSplit at h ⊢
  have hl := hc.processing.length_eq
  rw [List.length_map] at hl
  split at h
  · next h1 =>
    rw [if_pos h1]
    simp only [Container.regulate, Except.ok.injEq, Prod.mk.injEq] at h ⊢
    obtain ⟨rfl, rfl⟩ := h
    have hp := retainMut_perm (regulateOne f data.lowWeightCutoff w) hc.processing
    rw [retainMut_num (regulateOne_num f data.lowWeightCutoff w)] at hp
    have hpl := hp.length_eq
    rw [List.length_map] at hpl
    refine ⟨_, _, ⟨rfl, rfl⟩, ⟨hu.dom, hu.weights, ?_, hu.flux, hu.checked, hu.checked'⟩, ⟨hp, hc.processed, hc.extra, hc.extra'⟩⟩
    dsimp only
    rw [hu.balance, hl, hpl]
  · next h1 =>
    rw [if_neg h1]
    split at h
    · next h2 =>
      rw [if_pos h2]
      simp only [Container.split, Container.cleanExtra, bind_ok, pure_ok, Prod.exists,
        Prod.mk.injEq] at h ⊢
      obtain ⟨c2, b2, ⟨ps, cs, hs, rfl, rfl⟩, rfl, rfl⟩ := h
      obtain ⟨ps', cs', hs', hp1, hp2⟩ := splitAll_perm hc.processing (splitAll_num f _ hs)
      have hall : ((ps ++ (c.extra ++ cs)).map (Particle.renum σ)).Perm (ps' ++ (c'.extra ++ cs')) := by
        rw [hc.extra, hc.extra', List.nil_append, List.nil_append, List.map_append]
        exact hp1.append hp2
      have hp := retainMut_perm (fun p : Particle T => p.lowWeightRr data.lowWeightCutoff w) hall
      rw [retainMut_num (fun p => lowWeightRr_num p data.lowWeightCutoff w)] at hp
      have hpl := hp.length_eq
      have hal := hall.length_eq
      rw [List.length_map] at hpl hal
      refine ⟨_, _, ⟨_, _, ⟨ps', cs', hs', rfl, rfl⟩, rfl, rfl⟩, ⟨hu.dom, hu.weights, ?_, hu.flux, hu.checked, hu.checked'⟩,
        ⟨hp, hc.processed, rfl, rfl⟩⟩
      dsimp only
      rw [hu.balance, hl, hpl, hal]
    · next h2 =>
      rw [if_neg h2]
      simp only [Except.ok.injEq, Prod.mk.injEq] at h ⊢
      obtain ⟨rfl, rfl⟩ := h
      exact ⟨_, _, ⟨rfl, rfl⟩, hu, hc⟩

theorem unitWeightOf_skeleton {data : Data T} {l l' : List (CellState T)}
    (h : l'.map (fun c => { c with sourceTally := 0 }) = l.map (fun c => { c with sourceTally := 0 })) :
    unitWeightOf data l' = unitWeightOf data l := by
  have k : ∀ m : List (CellState T), unitWeightOf data (m.map (fun c => { c with sourceTally := 0 })) =
      unitWeightOf data m := by
    intro m
    unfold unitWeightOf
    simp only [List.mapM_map]
    rfl
  rw [← k l', h, k]

theorem populationControl_num {data : Data T} {n : Nat} {w : T} {u u' u1 : UnitState T}
    {c c' c1 : Container T} (hu : UnitNum σ data u u') (hc : ContNum σ c c')
    (h : populationControl data n w u c = .ok (u1, c1)) :
    ∃ u1' c1', populationControl data n w u' c' = .ok (u1', c1') ∧ UnitNum σ data u1 u1' ∧ ContNum σ c1 c1' := by
  simp only [populationControl, sourceNow, bind_ok, pure_ok, Prod.exists, Prod.mk.injEq] at h
  obtain ⟨u2, c2, ⟨rates, hrates, cells, ps, hcells, rfl, rfl⟩, f, hf, h⟩ := h
  obtain ⟨cells', ps', hcells', hps, hdom⟩ := sourceCells_num hu.dom hcells
  have hpl := hps.length_eq
  rw [List.length_map] at hpl
  have hu2 : UnitNum σ data
      ⟨{ u.dom with cells := cells }, { u.balance with source := u.balance.source + ps.length },
        u.flux, u.cache, u.unitWeight⟩
      ⟨{ u'.dom with cells := cells' }, { u'.balance with source := u'.balance.source + ps'.length },
        u'.flux, u'.cache, u'.unitWeight⟩ := by
    have k1 : ({ u.dom with cells := cells } : Domain T).skeleton = u.dom.skeleton := by
      simp only [Domain.skeleton, sourceCells_skeleton hcells]
    have k2 : ({ u'.dom with cells := cells' } : Domain T).skeleton = u'.dom.skeleton := by
      simp only [Domain.skeleton, sourceCells_skeleton hcells']
    refine ⟨hdom, ?_, ?_, ?_, groupsChecked_skeleton k1 hu.checked, groupsChecked_skeleton k2 hu.checked'⟩
    rotate_left 2
    · dsimp only; rw [tableSize_skeleton k1]; exact hu.flux
    · dsimp only
      rw [unitWeightOf_skeleton (sourceCells_skeleton hcells), unitWeightOf_skeleton (sourceCells_skeleton hcells')]
      exact hu.weights
    · dsimp only; rw [hu.balance, hpl]
  have hc2 : ContNum σ { c with processing := c.processing ++ ps } { c' with processing := c'.processing ++ ps' } :=
    ⟨by
      show ((c.processing ++ ps).map _).Perm _
      rw [List.map_append]
      exact hc.processing.append hps, hc.processed, hc.extra, hc.extra'⟩
  obtain ⟨u1', c1', h1, h2, h3⟩ := regulateOrSplit_num hu2 hc2 h
  refine ⟨u1', c1', ?_, h2, h3⟩
  simp only [populationControl, sourceNow, bind_ok, pure_ok, Prod.exists, Prod.mk.injEq]
  refine ⟨_, _, ⟨rates, hrates, cells', ps', hcells', rfl, rfl⟩, f, ?_, h1⟩
  have := hc2.processing.length_eq
  rw [List.length_map] at this
  dsimp only at this hf ⊢
  rw [← this]; exact hf

/-! ### Runs -/

theorem directCycle_num {data : Data T} {fuel n : Nat} {w : T} {u u' u1 : UnitState T} {c c' c1 : Container T}
    (hu : UnitNum σ data u u') (hc : ContNum σ c c') (hd : DirectCycle data fuel n w u c u1 c1) :
    ∃ u1' c1', DirectCycle data fuel n w u' c' u1' c1' ∧ UnitNum σ data u1 u1' ∧ ContNum σ c1 c1' := by
  obtain ⟨u2, c2, b, surv, cs, hpc, hgen, rfl, rfl⟩ := hd
  obtain ⟨u2', c2', hpc', hu2, hc2⟩ := populationControl_num hu hc hpc
  obtain ⟨cs1, g1, g2⟩ := generations_num hu2.dom hgen
  obtain ⟨surv', cs', g3, g4, g5⟩ := g1.perm hc2.processing
  refine ⟨_, _, ⟨u2', c2', b, surv', cs', hpc', g5, rfl, rfl⟩, ⟨hu2.dom, hu2.weights, ?_, ?_, hu2.checked, hu2.checked'⟩, .refl _, ?_, rfl, rfl⟩
  · dsimp only; rw [hu2.balance]
  · obtain ⟨ds, ds', e1, e2, e4, e5, e3⟩ := hu2.flux
    have k1 := (generations_contribs hu2.checked hgen).2
    have k2 := (generations_contribs hu2.checked' g5).2
    rw [hu2.dom.tableSize_eq] at k2
    refine ⟨ds ++ cs, ds' ++ cs', ?_, ?_, ?_, ?_, ?_⟩
    rotate_left 2
    · exact fun d hd => (List.mem_append.1 hd).elim (e4 d) (k1 d)
    · exact fun d hd => (List.mem_append.1 hd).elim (e5 d) (k2 d)
    rotate_left 1
    · dsimp only; rw [e1, addContribs_append]
    · dsimp only; rw [e2, addContribs_append]
    · rw [List.map_append, List.map_append, ← g2]
      exact e3.append (g4.map _)
  · dsimp only
    rw [List.map_append]
    exact hc2.processed.append g3

theorem directCycles_num {data : Data T} {o : SyncOpts} {fuel n : Nat} {s0 t0 s : SimState T}
    (h0 : SimNum σ data s0 t0) (hd : DirectCycles data o fuel n s0 s) :
    ∃ t, DirectCycles data o fuel n t0 t ∧ SimNum σ data s t := by
  induction hd with
  | zero => exact ⟨t0, .zero, h0⟩
  | succ _ hsync hdc ih =>
    obtain ⟨t1, g1, g2⟩ := ih h0
    obtain ⟨t2, g3, g4⟩ := cycleSync_num g2 hsync
    obtain ⟨u', c', g5, g6, g7⟩ := directCycle_num g4.unit g4.cont hdc
    rw [← g4.globalN, ← g4.srcWeight] at g5
    exact ⟨_, .succ g1 g3 g5, g6, g7, g4.srcWeight, g4.globalN, g4.cumulative, g4.spectrum, g4.reports⟩

/-- The run of the one is, up to the numbers of the cells, a run of the other. -/
theorem directRun_num {data : Data T} {o : SyncOpts} {fuel : Nat} {s0 t0 s : SimState T}
    (h0 : SimNum σ data s0 t0) (hd : DirectRun data o fuel s0 s) :
    ∃ t, DirectRun data o fuel t0 t ∧ SimNum σ data s t := by
  obtain ⟨s1, h1, h2⟩ := hd
  obtain ⟨t1, g1, g2⟩ := directCycles_num h0 h1
  obtain ⟨t, g3, g4⟩ := cycleSync_num g2 h2
  exact ⟨t, ⟨t1, g1, g3⟩, g4⟩

end
