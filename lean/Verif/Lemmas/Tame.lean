import Verif.Lemmas.Indices
/-! The computations that never reach an `unreachable!`, `unimplemented!` or undefined-adjacency panic. -/
set_option linter.unusedSectionVars false
attribute [local irreducible] Rng.lcg Rng.sample Rng.spawn
open Flt

/-- The panics of code that is supposed to be impossible to reach. -/
def Impossible (e : Panic) : Prop := e = .unreachable ∨ e = .unimplemented ∨ e = .adjacencyUndefined

/-- The computation does not end in one of these panics. -/
def Tame {α : Type} (x : Except Panic α) : Prop := ∀ e, x = .error e → ¬ Impossible e

namespace Tame
variable {α β : Type}

theorem bind {x : Except Panic α} {f : α → Except Panic β} (hx : Tame x) (hf : ∀ a, Tame (f a)) :
    Tame (x >>= f) := by
  intro e he
  rcases bind_error.1 he with h | ⟨a, _, h⟩
  · exact hx e h
  · exact hf a e h

theorem ok (a : α) : Tame (.ok a : Except Panic α) := fun e he => by cases he
theorem pure (a : α) : Tame (Pure.pure a : Except Panic α) := fun e he => by cases he
theorem idx (l : List α) (i : Nat) : Tame (_root_.idx l i) := fun e he => by
  obtain ⟨_, rfl⟩ := idx_error.1 he; rintro (h | h | h) <;> cases h
theorem unwrap (o : Option α) : Tame (_root_.unwrap o) := fun e he => by
  obtain ⟨_, rfl⟩ := unwrap_error.1 he; rintro (h | h | h) <;> cases h
theorem assertB (b : Bool) : Tame (_root_.assertB b) := fun e he => by
  obtain ⟨_, rfl⟩ := assertB_error.1 he; rintro (h | h | h) <;> cases h
theorem oob : Tame (.error .indexOutOfBounds : Except Panic α) := fun e he => by
  cases he; rintro (h | h | h) <;> cases h
theorem failed : Tame (.error .assertFailed : Except Panic α) := fun e he => by
  cases he; rintro (h | h | h) <;> cases h
theorem fuel : Tame (.error .outOfFuel : Except Panic α) := fun e he => by
  cases he; rintro (h | h | h) <;> cases h
theorem mapM {f : α → Except Panic β} {l : List α} (h : ∀ a ∈ l, Tame (f a)) : Tame (l.mapM f) := fun e he => by
  obtain ⟨a, ha, h'⟩ := mapM_error he
  exact h a ha e h'
end Tame

/-- Goes through a computation. -/
macro "tame" : tactic => `(tactic| repeat' (first
  | dsimp only | exact Tame.idx _ _ | exact Tame.unwrap _ | exact Tame.assertB _ | exact Tame.ok _ | exact Tame.pure _
  | exact Tame.oob | exact Tame.failed | exact Tame.fuel | assumption
  | refine Tame.bind ?_ fun _ => ?_ | refine Tame.mapM fun _ _ => ?_ | split))

variable {T : Type} [Flt T]

theorem bisect_tame (l : List T) (e : T) (fuel a b : Nat) : Tame (bisect l e fuel a b) := by
  induction fuel generalizing a b with
  | zero => exact .fuel
  | succ n ih => unfold bisect; have h1 := ih a ((b + a) / 2); have h2 := ih ((b + a) / 2) b; tame

theorem getEnergyGroups_tame (l : List T) (e : T) : Tame (getEnergyGroups l e) := by
  unfold getEnergyGroups
  have := bisect_tame l e l.length 0 (l.length - 1)
  tame

theorem gutsPrepare_tame (data : Data T) (p : Particle T) : Tame (gutsPrepare data p) := by
  unfold gutsPrepare
  have := getEnergyGroups_tame data.nuclear.energies
  refine Tame.bind ?_ fun _ => Tame.pure _
  exact getEnergyGroups_tame _ _

theorem sdiv_tame (u : Vec3 T) (f : T) : Tame (u.sdiv f) := by unfold Vec3.sdiv; tame

theorem cellPosition_tame (mesh : Mesh T) (c : Nat) : Tame (cellPosition3dg mesh c) := by
  unfold cellPosition3dg idxAll
  have := fun u : Vec3 T => sdiv_tame u (Flt.ofNat 14)
  tame
  apply this

theorem getFacetCoords_tame (mesh : Mesh T) (c f : Nat) : Tame (mesh.getFacetCoords c f) := by
  unfold Mesh.getFacetCoords
  tame

theorem facetDistance_tame (mesh : Mesh T) (c : Nat) (r d : Vec3 T) (tol : T) (i : Nat) (pl : Plane T) :
    Tame (facetDistance mesh c r d tol i pl) := by
  unfold facetDistance
  have := getFacetCoords_tame mesh c i
  tame

theorem nfLoop_tame (mesh : Mesh T) (planes : List (Plane T)) (r d : Vec3 T) (tol : T) (fuel it : Nat) (mf : T)
    (p : Particle T) : Tame (nfLoop mesh planes r d tol fuel it mf p) := by
  induction fuel generalizing it mf p with
  | zero => exact .fuel
  | succ n ih =>
    unfold nfLoop facetDistances
    refine Tame.bind (Tame.mapM fun x _ => facetDistance_tame mesh p.cell r d tol x.2 x.1) fun dists => ?_
    dsimp only
    split
    · refine Tame.bind (cellPosition_tame mesh p.cell) fun c => ?_
      split
      · exact ih _ _ _
      · exact .pure _
    · exact .pure _

theorem nearestFacet_tame (mesh : Mesh T) (p : Particle T) : Tame (nearestFacet mesh p) := by
  unfold nearestFacet mctNf3dg
  refine Tame.bind (Tame.bind (Tame.idx _ _) fun planes => nfLoop_tame _ _ _ _ _ _ _ _ _) fun x => ?_
  obtain ⟨nf, p⟩ := x
  exact Tame.bind (Tame.assertB _) fun _ => Tame.pure _

theorem applyOutcome_tame (p : Particle T) (speed : T) (force : Bool) (nf : NearestFacet T) :
    Tame (applyOutcome p speed force nf) := by
  intro e he
  simp only [applyOutcome, bind_error, assertB_error] at he
  rcases he with ⟨_, rfl⟩ | ⟨_, _, he⟩
  · rintro (h | h | h) <;> cases h
  · generalize (if force = true then _ else _ : DistanceHandler T) = hd at he
    obtain ⟨hc, hf, hce, hm, ho⟩ := hd
    cases ho <;> (dsimp only at he; split at he <;> cases he)

theorem outcomeWithXs_tame (dom : Domain T) (speed : T) (force : Bool) (p : Particle T) (xs : T) :
    Tame (outcomeWithXs dom speed force p xs) := by
  unfold outcomeWithXs
  refine Tame.bind (nearestFacet_tame _ _) fun x => ?_
  obtain ⟨nf, p⟩ := x
  exact applyOutcome_tame _ _ _ _

theorem directXs_tame (data : Data T) (dom : Domain T) (c g : Nat) : Tame (directXs data dom c g) := by
  unfold directXs weightedMacroXs macroscopicTotalXs NuclearData.getTotalCrossSection groupCrossSections
  tame

theorem outcome_tame {data : Data T} {dom : Domain T} {p : Particle T} {G : Nat → T → Prop} {nc nf : Nat}
    {e : Panic} (h : (outcome data dom p).MayFail G nc nf e) : ¬ Impossible e := by
  unfold outcome at h
  dsimp only at h
  rcases h.bind_inv with h | ⟨tr, xs, _, _, h⟩
  · unfold cachedXs at h
    cases h with
    | loadOob => rintro (h | h | h) <;> cases h
    | load _ _ h =>
      dsimp only at h
      split at h
      · exact (Prog.MayFail.ret_inv h).elim
      · split at h
        · next e' he => cases h; exact directXs_tame _ _ _ _ _ he
        · cases h with
          | storeOob => rintro (h | h | h) <;> cases h
          | store _ h => exact (Prog.MayFail.ret_inv h).elim
  · exact outcomeWithXs_tame _ _ _ _ _ e h.ofExcept_inv

theorem scanReactions_tame (f d : T) (g : Nat) (l : List (Reaction T)) (xs : T) (r : Option (Reaction T)) :
    Tame (scanReactions f d g l xs r) := by
  induction l generalizing xs r with
  | nil => exact .ok _
  | cons a l ih =>
    unfold scanReactions
    tame
    all_goals apply ih

theorem scanIsotopes_tame (data : Data T) (d : T) (g : Nat) (l : List (Isotope T)) (xs : T)
    (r : Option (Reaction T)) : Tame (scanIsotopes data d g l xs r) := by
  induction l generalizing xs r with
  | nil => exact .ok _
  | cons a l ih =>
    unfold scanIsotopes
    tame
    · apply scanReactions_tame
    · apply ih

theorem pickReaction_tame (data : Data T) (m : Material T) (d : T) (g fuel : Nat) (xs : T)
    (r : Option (Reaction T)) : Tame (pickReaction data m d g fuel xs r) := by
  induction fuel generalizing xs r with
  | zero => exact .fuel
  | succ n ih =>
    unfold pickReaction
    tame
    · apply scanIsotopes_tame
    · apply ih

theorem sampleCollision_tame (p : Particle T) (r : Reaction T) (m : T) : Tame (p.sampleCollision r m) := by
  intro e he
  unfold Particle.sampleCollision at he
  split at he
  · cases he
  · cases he
  · generalize Rng.sample (T := T) p.seed = q at he
    obtain ⟨u, s⟩ := q
    simp only [bind_error, unwrap_error] at he
    rcases he with ⟨_, rfl⟩ | ⟨n, _, he⟩
    · rintro (h | h | h) <;> cases h
    · split at he
      · cases he
      · split at he
        · cases he
        · simp only [bind_error, assertB_error] at he
          rcases he with ⟨_, rfl⟩ | ⟨_, _, he⟩
          · rintro (h | h | h) <;> cases h
          · cases he

theorem collisionBranch_tame (data : Data T) (dom : Domain T) (fuel : Nat) (st : TrackState T) :
    Tame (collisionBranch data dom fuel st) := by
  unfold collisionBranch
  refine Tame.bind (Tame.idx _ _) fun cs => ?_
  refine Tame.bind ?_ fun x => ?_
  · unfold collisionEvent
    generalize st.particle.getCurrentXs = q
    obtain ⟨xs, p⟩ := q
    dsimp only
    refine Tame.bind (Tame.idx _ _) fun m => Tame.bind (pickReaction_tame _ _ _ _ _ _ _) fun r => ?_
    cases r with
    | none => exact .failed
    | some r =>
      refine Tame.bind (sampleCollision_tame _ _ _) fun x => ?_
      obtain ⟨n, p, ex⟩ := x
      exact .pure _
  · obtain ⟨k, st⟩ := x
    exact Tame.bind (getEnergyGroups_tame _ _) fun _ => Tame.pure _

/-! ### Population control and synchronisation -/

theorem findFacet_tame (mesh : Mesh T) (c : Nat) (r : Vec3 T) (w : T) (l : List Nat) (a : T)
    (last : Vec3 T × Vec3 T × Vec3 T) : Tame (findFacet mesh c r w l a last) := by
  induction l generalizing a last with
  | nil => exact .ok _
  | cons f l ih =>
    unfold findFacet
    refine Tame.bind (getFacetCoords_tame _ _ _) fun pts => ?_
    dsimp only
    split
    · exact .pure _
    · exact ih _ _

theorem generateCoordinate_tame (s : BitVec 64) (mesh : Mesh T) (c : Nat) (v : T) :
    Tame (generateCoordinate3dg s mesh c v) := by
  unfold generateCoordinate3dg
  refine Tame.bind (cellPosition_tame _ _) fun r => ?_
  generalize Rng.sample (T := T) s = q
  obtain ⟨u, s⟩ := q
  refine Tame.bind (findFacet_tame _ _ _ _ _ _ _) fun x => ?_
  obtain ⟨p0, p1, p2⟩ := x
  exact .pure _

theorem sourceParticle_tame (data : Data T) (dom : Domain T) (w : T) (i : Nat) (cell : CellState T)
    (s : BitVec 64) : Tame (sourceParticle data dom w i cell s) := by
  unfold sourceParticle
  generalize Rng.spawn s = q
  obtain ⟨a, b⟩ := q
  refine Tame.bind (generateCoordinate_tame _ _ _ _) fun x => ?_
  obtain ⟨r, s'⟩ := x
  exact .pure _

theorem sourceCells_tame (data : Data T) (dom : Domain T) (rates : List T) (w : T) (l : List (CellState T))
    (i : Nat) : Tame (sourceCells data dom rates w l i) := by
  induction l generalizing i with
  | nil => exact .ok _
  | cons c l ih =>
    unfold sourceCells cellSourceCount
    refine Tame.bind (Tame.bind (Tame.idx _ _) fun _ => Tame.unwrap _) fun n => ?_
    refine Tame.bind (Tame.mapM fun _ _ => sourceParticle_tame _ _ _ _ _ _) fun ps => ?_
    refine Tame.bind (ih _) fun x => ?_
    exact .pure _

theorem sourceRateList_tame (data : Data T) : Tame (sourceRateList data) := by
  unfold sourceRateList
  tame

theorem splitAll_tame (f : T) (l : List (Particle T)) : Tame (splitAll f l) := by
  induction l with
  | nil => exact .ok _
  | cons p l ih =>
    unfold splitAll
    refine Tame.bind ?_ fun x => Tame.bind ih fun y => Tame.pure _
    unfold Particle.underPopulatedSplit
    generalize Rng.sample (T := T) p.seed = q
    obtain ⟨u, s⟩ := q
    exact Tame.bind (Tame.unwrap _) fun n => Tame.pure _

theorem populationControl_tame (data : Data T) (n : Nat) (w : T) (u : UnitState T) (c : Container T) :
    Tame (populationControl data n w u c) := by
  unfold populationControl
  refine Tame.bind ?_ fun x => ?_
  · unfold sourceNow
    exact Tame.bind (sourceRateList_tame _) fun _ => Tame.bind (sourceCells_tame _ _ _ _ _ _) fun _ => Tame.pure _
  · obtain ⟨u, c⟩ := x
    refine Tame.bind ?_ fun f => ?_
    · unfold computeSplitFactor
      tame
    · unfold regulateOrSplit
      split
      · exact .ok _
      · split
        · unfold Container.split
          exact Tame.bind (Tame.bind (splitAll_tame _ _) fun _ => Tame.pure _) fun _ => Tame.pure _
        · exact .ok _

theorem countSpectrum_tame (l : List (Particle T)) (s : List Nat) : Tame (countSpectrum l s) := by
  induction l generalizing s with
  | nil => exact .ok _
  | cons p l ih => unfold countSpectrum; exact Tame.bind (Tame.idx _ _) fun _ => ih _

theorem cycleSync_tame (data : Data T) (o : SyncOpts) (n : Nat) (s : SimState T) :
    Tame (cycleSync data o n s) := by
  have hprep : ∀ s, Tame (syncPrepare data s) := by
    intro s
    unfold syncPrepare unitWeightOf
    have := sourceRateList_tame data
    tame
  unfold cycleSync
  split
  · refine Tame.bind ?_ fun s => ?_
    · unfold syncFinalize updateSpectrum
      refine Tame.bind ?_ fun s => Tame.pure _
      split
      · exact Tame.bind (countSpectrum_tame _ _) fun _ => countSpectrum_tame _ _
      · exact .ok _
    · split
      · exact .pure _
      · exact hprep _
  · exact hprep _
