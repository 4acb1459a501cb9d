import Verif.Spec.SameProblem
import Verif.Spec.Fails
import Verif.Props.NuclearData
/-!
Runs on problems that differ only in the numbers of the materials and isotopes.
-/
set_option linter.unusedSectionVars false
attribute [local irreducible] Rng.lcg Rng.sample Rng.spawn
open Flt
variable {T : Type} [Flt T]

/-- Materials that the transport cannot tell apart. -/
structure MatRel (d d' : Data T) (i j : Nat) : Prop where
  ex : ∃ a b, d.materials[i]? = some a ∧ d'.materials[j]? = some b ∧ b.name = a.name ∧ b.mass = a.mass ∧
    isotopeView d'.nuclear b = isotopeView d.nuclear a

/-- Data that differ only in the numbers of the materials. -/
structure DataRel (d d' : Data T) : Prop where
  dt : d'.dt = d.dt
  eMin : d'.eMin = d.eMin
  eMax : d'.eMax = d.eMax
  nParticles : d'.nParticles = d.nParticles
  nSteps : d'.nSteps = d.nSteps
  lowWeightCutoff : d'.lowWeightCutoff = d.lowWeightCutoff
  loadBalance : d'.loadBalance = d.loadBalance
  nUnits : d'.nUnits = d.nUnits
  energies : d'.nuclear.energies = d.nuclear.energies
  lookup : ∀ n, d'.sourceRates.lookup n = d.sourceRates.lookup n
  rates : ∃ r, sourceRateList d = .ok r
  rates' : ∃ r, sourceRateList d' = .ok r

def CellRel (d d' : Data T) (c c' : CellState T) : Prop :=
  c' = { c with material := c'.material } ∧ MatRel d d' c.material c'.material

structure DomRel (d d' : Data T) (a b : Domain T) : Prop where
  globalDomain : b.globalDomain = a.globalDomain
  mesh : b.mesh = a.mesh
  numGroups : b.numGroups = a.numGroups
  cells : List.Forall₂ (CellRel d d') a.cells b.cells

variable {d d' : Data T} {a b : Domain T}

theorem forall₂_getElem? {α β : Type} {R : α → β → Prop} {l : List α} {l' : List β} (h : List.Forall₂ R l l')
    (i : Nat) : (l[i]? = none ∧ l'[i]? = none) ∨ ∃ x y, l[i]? = some x ∧ l'[i]? = some y ∧ R x y := by
  induction h generalizing i with
  | nil => simp
  | cons h _ ih =>
    cases i with
    | zero => exact .inr ⟨_, _, rfl, rfl, h⟩
    | succ i => simpa using ih i

theorem idx_none {α : Type} {l : List α} {i : Nat} (h : l[i]? = none) : idx l i = .error .indexOutOfBounds := by
  unfold idx; rw [h]

theorem directXs_rel (hr : DomRel d d' a b) (cell group : Nat) :
    directXs d' b cell group = directXs d a cell group := by
  unfold directXs
  rcases forall₂_getElem? hr.cells cell with ⟨h1, h2⟩ | ⟨x, y, h1, h2, h3, m1, m2, e1, e2, _, _, e3⟩
  · rw [idx_none h1, idx_none h2]; rfl
  · rw [idx_ok.2 h1, idx_ok.2 h2]
    show weightedMacroXs d' y.material y.cellNumberDensity group = _
    rw [h3]
    exact weightedMacroXs_view e2 e1 e3 _ _

theorem scanIsotopes_rel (density : T) (group : Nat) :
    ∀ (l l' : List (Isotope T)), l'.map (fun i => (i.atomFraction, d'.nuclear.isotopes[i.gid]?)) =
        l.map (fun i => (i.atomFraction, d.nuclear.isotopes[i.gid]?)) →
      ∀ xs r, scanIsotopes d' density group l' xs r = scanIsotopes d density group l xs r := by
  intro l
  induction l with
  | nil =>
    intro l' h xs r
    cases l' with
    | nil => rfl
    | cons => cases h
  | cons i l ih =>
    intro l' h xs r
    cases l' with
    | nil => cases h
    | cons i' l' =>
      simp only [List.map_cons, List.cons.injEq, Prod.mk.injEq] at h
      obtain ⟨⟨h1, h2⟩, h3⟩ := h
      unfold scanIsotopes idx
      rw [h1, h2]
      simp only [ih l' h3]

theorem pickReaction_rel {m m' : Material T} (h : isotopeView d'.nuclear m' = isotopeView d.nuclear m) (density : T)
    (group : Nat) : ∀ fuel xs r, pickReaction d' m' density group fuel xs r = pickReaction d m density group fuel xs r := by
  intro fuel
  induction fuel with
  | zero => intro xs r; rfl
  | succ n ih =>
    intro xs r
    unfold pickReaction
    rw [scanIsotopes_rel density group _ _ h]
    simp only [ih]

theorem collisionBranch_rel (hd : DataRel d d') (hr : DomRel d d' a b) (fuel : Nat) (st : TrackState T) :
    collisionBranch d' b fuel st = collisionBranch d a fuel st := by
  unfold collisionBranch
  rcases forall₂_getElem? hr.cells st.particle.cell with ⟨h1, h2⟩ | ⟨x, y, h1, h2, h3, m1, m2, e1, e2, _, e4, e3⟩
  · rw [idx_none h1, idx_none h2]; rfl
  · rw [idx_ok.2 h1, idx_ok.2 h2, hd.energies]
    have : collisionEvent d' fuel y.material y.cellNumberDensity st =
        collisionEvent d fuel x.material x.cellNumberDensity st := by
      unfold collisionEvent
      rw [idx_ok.2 e1, idx_ok.2 e2]
      dsimp only [bind, Except.bind]
      rw [pickReaction_rel e3, e4, h3]
    dsimp only [bind, Except.bind]
    rw [this]

theorem segmentEvent_rel (hd : DataRel d d') (hr : DomRel d d' a b) (fuel : Nat) (o : SegOutcome) (st : TrackState T) :
    segmentEvent d' b fuel o st = segmentEvent d a fuel o st := by
  unfold segmentEvent
  rw [collisionBranch_rel hd hr]
  unfold facetBranch
  rw [hr.mesh]

theorem trackStep_rel (hd : DataRel d d') (hr : DomRel d d' a b) (fuel : Nat) (st : TrackState T) :
    trackStep d' b fuel st = trackStep d a fuel st := by
  unfold trackStep outcome cachedXs outcomeWithXs
  simp only [directXs_rel hr, segmentEvent_rel hd hr, hr.mesh, hr.numGroups]

theorem trackLoop_rel (hd : DataRel d d') (hr : DomRel d d' a b) (cfuel fuel : Nat) (st : TrackState T) :
    trackLoop d' b cfuel fuel st = trackLoop d a cfuel fuel st := by
  induction fuel generalizing st with
  | zero => rfl
  | succ n ih =>
    unfold trackLoop
    simp only [trackStep_rel hd hr, ih]

theorem chunkProg_rel (hd : DataRel d d') (hr : DomRel d d' a b) (fuel : Nat) :
    chunkProg d' b fuel = chunkProg d a fuel := by
  have h1 : ∀ st, trackGuts d' b fuel st = trackGuts d a fuel st := by
    intro st
    unfold trackGuts gutsPrepare
    simp only [trackLoop_rel hd hr, hd.energies, hd.dt]
  have h2 : ∀ ps bal ex, trackAll d' b fuel ps bal ex = trackAll d a fuel ps bal ex := by
    intro ps
    induction ps with
    | nil => intro bal ex; rfl
    | cons p ps ih =>
      intro bal ex
      unfold trackAll
      simp only [h1, ih]
  funext ps
  unfold chunkProg
  rw [h2]

/-! ### States -/

structure UnitRen (d d' : Data T) (u v : UnitState T) : Prop where
  dom : DomRel d d' u.dom v.dom
  balance : v.balance = u.balance
  flux : v.flux = u.flux
  cache : v.cache = u.cache
  weight : v.unitWeight = u.unitWeight

theorem UnitRen.shared {u v : UnitState T} (h : UnitRen d d' u v) (c : Container T) : sharedOf v c = sharedOf u c := by
  unfold sharedOf; rw [h.cache, h.flux]

theorem UnitRen.finish {u v : UnitState T} (h : UnitRen d d' u v) (c : Container T) (m : Shared T)
    (ps : List (Particle T)) (bal : Balance) :
    UnitRen d d' (finishProcess u c m ps bal).1 (finishProcess v c m ps bal).1 ∧
      (finishProcess v c m ps bal).2 = (finishProcess u c m ps bal).2 :=
  ⟨⟨h.dom, by show v.balance.add bal = u.balance.add bal; rw [h.balance], rfl, rfl, h.weight⟩, rfl⟩

theorem processSeq_ren (hd : DataRel d d') {fuel : Nat} {u v : UnitState T} (h : UnitRen d d' u v) (c : Container T) :
    (∀ e, processSeq d fuel u c = .error e → processSeq d' fuel v c = .error e) ∧
    ∀ u1 c1, processSeq d fuel u c = .ok (u1, c1) →
      ∃ v1, processSeq d' fuel v c = .ok (v1, c1) ∧ UnitRen d d' u1 v1 := by
  unfold processSeq
  rw [chunkProg_rel hd h.dom, h.shared]
  cases hrun : (chunkProg d u.dom fuel c.processing).run (sharedOf u c) with
  | error e => exact ⟨fun e he => (by cases he; rfl), fun _ _ he => (by cases he)⟩
  | ok r =>
    obtain ⟨⟨ps, bal⟩, m⟩ := r
    refine ⟨fun e he => (by cases he), ?_⟩
    intro u1 c1 he
    cases pure_ok.1 he
    exact ⟨_, rfl, (h.finish c m ps bal).1⟩

theorem processParticles_ren (hd : DataRel d d') {ex : ExecInfo} {fuel : Nat} {u v u1 : UnitState T} {c c1 : Container T}
    (h : UnitRen d d' u v) (hp : ProcessParticles d ex fuel u c u1 c1) :
    ∃ v1, ProcessParticles d' ex fuel v c v1 c1 ∧ UnitRen d d' u1 v1 := by
  cases hp with
  | seq hx hs =>
    obtain ⟨v1, h1, h2⟩ := (processSeq_ren hd h c).2 _ _ hs
    exact ⟨v1, .seq hx h1, h2⟩
  | par hx hk hst hres h1 h2 h3 =>
    rw [← chunkProg_rel hd h.dom, ← h.shared] at hst
    exact ⟨_, .par hx hk hst hres h1 h2 h3, (h.finish _ _ _ _).1⟩

theorem processFails_ren (hd : DataRel d d') {ex : ExecInfo} {fuel : Nat} {u v : UnitState T} {c : Container T} {e : Panic}
    (h : UnitRen d d' u v) (hp : ProcessFails d ex fuel u c e) : ProcessFails d' ex fuel v c e := by
  cases hp with
  | seq hx hs => exact .seq hx ((processSeq_ren hd h c).1 _ hs)
  | chunkSize hx hk => exact .chunkSize hx hk
  | worker hx hk hst hj =>
    rw [← chunkProg_rel hd h.dom, ← h.shared] at hst
    exact .worker hx hk hst hj
  | tally hx hk hst hn =>
    rw [← chunkProg_rel hd h.dom, ← h.shared] at hst
    exact .tally hx hk hst hn

theorem processLoop_ren (hd : DataRel d d') {ex : ExecInfo} {fuel : Nat} {u u1 : UnitState T} {c c1 : Container T}
    (hp : ProcessLoop d ex fuel u c u1 c1) : ∀ {v : UnitState T}, UnitRen d d' u v →
    ∃ v1, ProcessLoop d' ex fuel v c v1 c1 ∧ UnitRen d d' u1 v1 := by
  induction hp with
  | done hdone => exact fun h => ⟨_, .done hdone, h⟩
  | iter hn hp _ ih =>
    intro v h
    obtain ⟨v1, h1, h2⟩ := processParticles_ren hd h hp
    obtain ⟨v2, h3, h4⟩ := ih h2
    exact ⟨v2, .iter hn h1 h3, h4⟩

theorem loopFails_ren (hd : DataRel d d') {ex : ExecInfo} {fuel : Nat} {u : UnitState T} {c : Container T} {e : Panic}
    (hp : LoopFails d ex fuel u c e) : ∀ {v : UnitState T}, UnitRen d d' u v → LoopFails d' ex fuel v c e := by
  induction hp with
  | now hn hf => exact fun h => .now hn (processFails_ren hd h hf)
  | later hn hp _ ih =>
    intro v h
    obtain ⟨v1, h1, h2⟩ := processParticles_ren hd h hp
    exact .later hn h1 (ih h2)

/-! ### Population control -/

theorem rate_rel (hd : DataRel d d') {r r' : List T} (h : sourceRateList d = .ok r) (h' : sourceRateList d' = .ok r')
    {i j : Nat} (hm : MatRel d d' i j) : idx r' j = idx r i := by
  obtain ⟨m, m', e, e', en, _, _⟩ := hm
  unfold sourceRateList at h h'
  obtain ⟨x, hx, hl⟩ := mapM_ok_getElem h i m e
  obtain ⟨x', hx', hl'⟩ := mapM_ok_getElem h' j m' e'
  rw [en, hd.lookup, hl] at hl'
  cases hl'
  rw [idx_ok.2 hx, idx_ok.2 hx']


theorem cellSourceCount_rel (hd : DataRel d d') {r r' : List T} (h : sourceRateList d = .ok r)
    (h' : sourceRateList d' = .ok r') (w : T) {c c' : CellState T} (hc : CellRel d d' c c') :
    cellSourceCount d' r' w c' = cellSourceCount d r w c := by
  unfold cellSourceCount
  rw [rate_rel hd h h' hc.2, hd.dt, hc.1]

theorem sourceParticle_rel (hd : DataRel d d') (hr : DomRel d d' a b) (w : T) (i : Nat) {c c' : CellState T}
    (hc : CellRel d d' c c') : sourceParticle d' b w i c' = sourceParticle d a w i c := by
  funext seed
  unfold sourceParticle
  rw [hr.mesh, hr.globalDomain, hd.dt, hd.eMin, hd.eMax, hc.1]

theorem sourceCells_rel (hd : DataRel d d') (hr : DomRel d d' a b) {r r' : List T} (h : sourceRateList d = .ok r)
    (h' : sourceRateList d' = .ok r') (w : T) {l l' : List (CellState T)} (hl : List.Forall₂ (CellRel d d') l l') :
    ∀ i, (∀ e, sourceCells d a r w l i = .error e → sourceCells d' b r' w l' i = .error e) ∧
      ∀ m ps, sourceCells d a r w l i = .ok (m, ps) →
        ∃ m', sourceCells d' b r' w l' i = .ok (m', ps) ∧ List.Forall₂ (CellRel d d') m m' := by
  induction hl with
  | nil =>
    intro i
    refine ⟨fun e he => (by cases he), fun m ps he => ?_⟩
    cases he
    exact ⟨[], rfl, .nil⟩
  | @cons c c' l l' hc _ ih =>
    intro i
    unfold sourceCells
    rw [cellSourceCount_rel hd h h' w hc, sourceParticle_rel hd hr w i hc,
      show cellSeeds c'.sourceTally c'.id = cellSeeds c.sourceTally c.id by rw [hc.1]]
    dsimp only [bind, Except.bind]
    cases cellSourceCount d r w c with
    | error e => exact ⟨fun e he => (by cases he; rfl), fun _ _ he => (by cases he)⟩
    | ok n =>
      dsimp only
      cases (cellSeeds c.sourceTally c.id n).mapM (sourceParticle d a w i c) with
      | error e => exact ⟨fun e he => (by cases he; rfl), fun _ _ he => (by cases he)⟩
      | ok ps0 =>
        dsimp only
        cases hs : sourceCells d a r w l (i + 1) with
        | error e =>
          rw [(ih (i + 1)).1 e hs]
          exact ⟨fun e he => (by cases he; rfl), fun _ _ he => (by cases he)⟩
        | ok res =>
          obtain ⟨m, ps⟩ := res
          obtain ⟨m', h1, h2⟩ := (ih (i + 1)).2 m ps hs
          rw [h1]
          refine ⟨fun e he => (by cases he), ?_⟩
          intro _ _ he
          cases pure_ok.1 he
          refine ⟨_, rfl, .cons ⟨?_, hc.2⟩ h2⟩
          show ({ c' with sourceTally := c'.sourceTally + n } : CellState T) = _
          rw [hc.1]

theorem sourceNow_ren (hd : DataRel d d') {u v : UnitState T} (h : UnitRen d d' u v) (w : T) (c : Container T) :
    (∀ e, sourceNow d w u c = .error e → sourceNow d' w v c = .error e) ∧
    ∀ u1 c1, sourceNow d w u c = .ok (u1, c1) → ∃ v1, sourceNow d' w v c = .ok (v1, c1) ∧ UnitRen d d' u1 v1 := by
  obtain ⟨r, hr⟩ := hd.rates
  obtain ⟨r', hr'⟩ := hd.rates'
  unfold sourceNow
  rw [hr, hr']
  dsimp only [bind, Except.bind]
  obtain ⟨h1, h2⟩ := sourceCells_rel hd h.dom hr hr' w h.dom.cells 0
  cases hs : sourceCells d u.dom r w u.dom.cells 0 with
  | error e =>
    rw [h1 e hs]
    exact ⟨fun e he => (by cases he; rfl), fun _ _ he => (by cases he)⟩
  | ok res =>
    obtain ⟨m, ps⟩ := res
    obtain ⟨m', h3, h4⟩ := h2 m ps hs
    rw [h3]
    refine ⟨fun e he => (by cases he), ?_⟩
    intro _ _ he
    cases pure_ok.1 he
    refine ⟨_, rfl, ⟨h.dom.globalDomain, h.dom.mesh, h.dom.numGroups, h4⟩, ?_, h.flux, h.cache, h.weight⟩
    show ({ v.balance with source := v.balance.source + ps.length } : Balance) = _
    rw [h.balance]

theorem regulateOrSplit_ren (hd : DataRel d d') {u v : UnitState T} (h : UnitRen d d' u v) (f w : T) (c : Container T) :
    (∀ e, regulateOrSplit d f w u c = .error e → regulateOrSplit d' f w v c = .error e) ∧
    ∀ u1 c1, regulateOrSplit d f w u c = .ok (u1, c1) →
      ∃ v1, regulateOrSplit d' f w v c = .ok (v1, c1) ∧ UnitRen d d' u1 v1 := by
  unfold regulateOrSplit
  rw [hd.lowWeightCutoff, h.balance]
  split
  · refine ⟨fun e he => (by cases he), ?_⟩
    intro _ _ he
    cases he
    exact ⟨_, rfl, h.dom, rfl, h.flux, h.cache, h.weight⟩
  split
  · dsimp only [bind, Except.bind]
    cases c.split f d.lowWeightCutoff w u.balance with
    | error e => exact ⟨fun e he => (by cases he; rfl), fun _ _ he => (by cases he)⟩
    | ok res =>
      obtain ⟨c', bal⟩ := res
      refine ⟨fun e he => (by cases he), ?_⟩
      intro _ _ he
      cases pure_ok.1 he
      exact ⟨_, rfl, h.dom, rfl, h.flux, h.cache, h.weight⟩
  · refine ⟨fun e he => (by cases he), ?_⟩
    intro _ _ he
    cases he
    exact ⟨_, rfl, h⟩

theorem populationControl_ren (hd : DataRel d d') {u v : UnitState T} (h : UnitRen d d' u v) (n : Nat) (w : T)
    (c : Container T) :
    (∀ e, populationControl d n w u c = .error e → populationControl d' n w v c = .error e) ∧
    ∀ u1 c1, populationControl d n w u c = .ok (u1, c1) →
      ∃ v1, populationControl d' n w v c = .ok (v1, c1) ∧ UnitRen d d' u1 v1 := by
  unfold populationControl
  rw [hd.nParticles, hd.nUnits, hd.loadBalance]
  obtain ⟨h1, h2⟩ := sourceNow_ren hd h w c
  dsimp only [bind, Except.bind]
  cases hs : sourceNow d w u c with
  | error e =>
    rw [h1 e hs]
    exact ⟨fun e he => (by cases he; rfl), fun _ _ he => (by cases he)⟩
  | ok res =>
    obtain ⟨u1, c1⟩ := res
    obtain ⟨v1, h3, h4⟩ := h2 _ _ hs
    rw [h3]
    dsimp only
    cases (computeSplitFactor d.nParticles n c1.processing.length d.nUnits d.loadBalance : Except Panic T) with
    | error e => exact ⟨fun e he => (by cases he; rfl), fun _ _ he => (by cases he)⟩
    | ok f => exact regulateOrSplit_ren hd h4 f w c1

/-! ### Synchronisation and cycles -/

structure SimRen (d d' : Data T) (s s' : SimState T) : Prop where
  unit : UnitRen d d' s.unit s'.unit
  container : s'.container = s.container
  srcWeight : s'.srcWeight = s.srcWeight
  globalN : s'.globalN = s.globalN
  cumulative : s'.cumulative = s.cumulative
  fluence : s'.fluence = s.fluence
  spectrum : s'.spectrum = s.spectrum
  reports : s'.reports = s.reports

theorem unitWeightOf_rel (hd : DataRel d d') {l l' : List (CellState T)} (hl : List.Forall₂ (CellRel d d') l l') :
    unitWeightOf d' l' = unitWeightOf d l := by
  obtain ⟨r, hr⟩ := hd.rates
  obtain ⟨r', hr'⟩ := hd.rates'
  unfold unitWeightOf
  rw [hr, hr']
  have : (l'.mapM fun cell => do
      let x ← idx r' cell.material
      return cell.volume *. x *. d'.dt) = (l.mapM fun cell => do
      let x ← idx r cell.material
      return cell.volume *. x *. d.dt : Except Panic (List T)) := by
    induction hl with
    | nil => rfl
    | @cons c c' l l' hc _ ih =>
      rw [List.mapM_cons, List.mapM_cons, ih, rate_rel hd hr hr' hc.2, hd.dt, hc.1]
  dsimp only [bind, Except.bind] at this ⊢
  rw [this]

theorem syncFinalize_ren (o : SyncOpts) (step : Nat) {s s' : SimState T} (h : SimRen d d' s s') :
    (∀ e, syncFinalize o step s = .error e → syncFinalize o step s' = .error e) ∧
    ∀ s1, syncFinalize o step s = .ok s1 → ∃ s1', syncFinalize o step s' = .ok s1' ∧ SimRen d d' s1 s1' := by
  unfold syncFinalize
  dsimp only [bind, Except.bind]
  rw [h.container, h.spectrum]
  cases updateSpectrum o.spectrumOn s.container s.spectrum with
  | error e => exact ⟨fun e he => (by cases he; rfl), fun _ he => (by cases he)⟩
  | ok sp =>
    refine ⟨fun e he => (by cases he), ?_⟩
    intro _ he
    cases pure_ok.1 he
    refine ⟨_, rfl, ⟨h.unit.dom, ?_, ?_, h.unit.cache, h.unit.weight⟩, rfl, h.srcWeight, h.globalN, ?_, ?_, rfl, ?_⟩
    · rfl
    · show s'.unit.flux.map _ = s.unit.flux.map _
      rw [h.unit.flux]
    · show s'.cumulative.add _ = s.cumulative.add _
      rw [h.cumulative, h.unit.balance]
    · show (if o.bench then fluenceCompute s'.fluence s'.unit.dom.numGroups s'.unit.flux else s'.fluence) = _
      rw [h.fluence, h.unit.flux, h.unit.dom.numGroups]
    · simp only [h.reports, h.unit.flux, h.unit.balance]

theorem syncPrepare_ren (hd : DataRel d d') {s s' : SimState T} (h : SimRen d d' s s') :
    (∀ e, syncPrepare d s = .error e → syncPrepare d' s' = .error e) ∧
    ∀ s1, syncPrepare d s = .ok s1 → ∃ s1', syncPrepare d' s' = .ok s1' ∧ SimRen d d' s1 s1' := by
  unfold syncPrepare
  dsimp only [bind, Except.bind]
  rw [unitWeightOf_rel hd h.unit.dom.cells, h.container, hd.nParticles]
  cases unitWeightOf d s.unit.dom.cells with
  | error e => exact ⟨fun e he => (by cases he; rfl), fun _ he => (by cases he)⟩
  | ok w =>
    dsimp only
    cases (unwrap (Flt.toUsize (Flt.lit 1 (-1) *. Flt.ofNat d.nParticles : T)) : Except Panic Nat) with
    | error e => exact ⟨fun e he => (by cases he; rfl), fun _ he => (by cases he)⟩
    | ok k =>
      refine ⟨fun e he => (by cases he), ?_⟩
      intro _ he
      cases pure_ok.1 he
      refine ⟨_, rfl, ⟨h.unit.dom, ?_, h.unit.flux, ?_, rfl⟩, rfl, rfl, rfl, h.cumulative, h.fluence, h.spectrum, h.reports⟩
      · show ({ s'.unit.balance with start := _ } : Balance) = _
        rw [h.unit.balance]
      · show s'.unit.cache.map _ = s.unit.cache.map _
        rw [h.unit.cache]

theorem cycleSync_ren (hd : DataRel d d') (o : SyncOpts) (step : Nat) {s s' : SimState T} (h : SimRen d d' s s') :
    (∀ e, cycleSync d o step s = .error e → cycleSync d' o step s' = .error e) ∧
    ∀ s1, cycleSync d o step s = .ok s1 → ∃ s1', cycleSync d' o step s' = .ok s1' ∧ SimRen d d' s1 s1' := by
  unfold cycleSync
  split
  · obtain ⟨h1, h2⟩ := syncFinalize_ren o step h
    dsimp only [bind, Except.bind]
    cases hs : syncFinalize o step s with
    | error e =>
      rw [h1 e hs]
      exact ⟨fun e he => (by cases he; rfl), fun _ he => (by cases he)⟩
    | ok s1 =>
      obtain ⟨s1', h3, h4⟩ := h2 _ hs
      rw [h3, hd.nSteps]
      dsimp only
      split
      · refine ⟨fun e he => (by cases he), ?_⟩
        intro _ he
        cases pure_ok.1 he
        exact ⟨_, rfl, h4⟩
      · exact syncPrepare_ren hd h4
  · exact syncPrepare_ren hd h

theorem cycles_ren (hd : DataRel d d') {ex : ExecInfo} {o : SyncOpts} {fuel n : Nat} {s s' t : SimState T}
    (h : SimRen d d' s s') (hc : Cycles d ex o fuel n s t) :
    ∃ t', Cycles d' ex o fuel n s' t' ∧ SimRen d d' t t' := by
  induction hc with
  | zero => exact ⟨_, .zero, h⟩
  | succ _ hsync hproc ih =>
    obtain ⟨t', h1, h2⟩ := ih h
    obtain ⟨t2, h3, h4⟩ := (cycleSync_ren hd o _ h2).2 _ hsync
    obtain ⟨u1, c1, hp, hl⟩ := hproc
    obtain ⟨v1, h5, h6⟩ := (populationControl_ren hd h4.unit _ _ _).2 _ _ hp
    obtain ⟨v2, h7, h8⟩ := processLoop_ren hd hl h6
    refine ⟨_, .succ h1 h3 ⟨v1, c1, ?_, h7⟩, h8, rfl, h4.srcWeight, h4.globalN, h4.cumulative, h4.fluence, h4.spectrum,
      h4.reports⟩
    rw [h4.globalN, h4.srcWeight, h4.container]
    exact h5

theorem runCore_ren (hd : DataRel d d') {ex : ExecInfo} {o : SyncOpts} {fuel : Nat} {s s' t : SimState T}
    (h : SimRen d d' s s') (hc : RunCore d ex o fuel s t) : ∃ t', RunCore d' ex o fuel s' t' ∧ SimRen d d' t t' := by
  obtain ⟨s1, h1, h2⟩ := hc
  obtain ⟨s1', h3, h4⟩ := cycles_ren hd h h1
  obtain ⟨t', h5, h6⟩ := (cycleSync_ren hd o _ h4).2 _ h2
  exact ⟨t', ⟨s1', hd.nSteps ▸ h3, hd.nSteps ▸ h5⟩, h6⟩

theorem runFails_ren (hd : DataRel d d') {ex : ExecInfo} {o : SyncOpts} {fuel : Nat} {s s' : SimState T} {e : Panic}
    (h : SimRen d d' s s') (hf : RunFails d ex o fuel s e) : RunFails d' ex o fuel s' e := by
  cases hf with
  | sync hn hc hs =>
    obtain ⟨t', h1, h2⟩ := cycles_ren hd h hc
    exact .sync (hd.nSteps.symm ▸ hn) h1 ((cycleSync_ren hd o _ h2).1 _ hs)
  | population hn hc hs hp =>
    obtain ⟨t', h1, h2⟩ := cycles_ren hd h hc
    obtain ⟨t2, h3, h4⟩ := (cycleSync_ren hd o _ h2).2 _ hs
    refine .population (hd.nSteps.symm ▸ hn) h1 h3 ?_
    rw [h4.globalN, h4.srcWeight, h4.container]
    exact (populationControl_ren hd h4.unit _ _ _).1 _ hp
  | tracking hn hc hs hp hl =>
    obtain ⟨t', h1, h2⟩ := cycles_ren hd h hc
    obtain ⟨t2, h3, h4⟩ := (cycleSync_ren hd o _ h2).2 _ hs
    obtain ⟨v1, h5, h6⟩ := (populationControl_ren hd h4.unit _ _ _).2 _ _ hp
    refine .tracking (hd.nSteps.symm ▸ hn) h1 h3 ?_ (loopFails_ren hd hl h6)
    rw [h4.globalN, h4.srcWeight, h4.container]
    exact h5

/-! ### The relation is symmetric -/

theorem MatRel.symm {i j : Nat} (h : MatRel d d' i j) : MatRel d' d j i := by
  obtain ⟨m, m', e, e', h1, h2, h3⟩ := h
  exact ⟨m', m, e', e, h1.symm, h2.symm, h3.symm⟩

theorem CellRel.symm {c c' : CellState T} (h : CellRel d d' c c') : CellRel d' d c' c :=
  ⟨by rw [h.1], h.2.symm⟩

theorem DataRel.symm (h : DataRel d d') : DataRel d' d :=
  ⟨h.dt.symm, h.eMin.symm, h.eMax.symm, h.nParticles.symm, h.nSteps.symm, h.lowWeightCutoff.symm, h.loadBalance.symm,
    h.nUnits.symm, h.energies.symm, fun n => (h.lookup n).symm, h.rates', h.rates⟩

theorem DomRel.symm (h : DomRel d d' a b) : DomRel d' d b a :=
  ⟨h.globalDomain.symm, h.mesh.symm, h.numGroups.symm, by
    have := h.cells
    generalize a.cells = l at this
    generalize b.cells = l' at this
    induction this with
    | nil => exact .nil
    | cons h _ ih => exact .cons h.symm ih⟩

theorem SimRen.symm {s s' : SimState T} (h : SimRen d d' s s') : SimRen d' d s' s :=
  ⟨⟨h.unit.dom.symm, h.unit.balance.symm, h.unit.flux.symm, h.unit.cache.symm, h.unit.weight.symm⟩, h.container.symm,
    h.srcWeight.symm, h.globalN.symm, h.cumulative.symm, h.fluence.symm, h.spectrum.symm, h.reports.symm⟩
