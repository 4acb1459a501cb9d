import Verif.Lemmas.RunEquiv
/-!
# The reference and its bound on loops

The loops of the code have no bound; those of the model have one (`fuel`).  A reference run that finishes within a bound
finishes in the same way within every larger bound, and the reference has one result only.
-/
set_option linter.unusedSectionVars false
attribute [local irreducible] Rng.lcg Rng.sample Rng.spawn
open Flt
variable {T : Type} [Flt T] {data : Data T} {dom : Domain T} {fuel fuel' : Nat}

theorem pickReaction_mono {mat : Material T} {density : T} {group : Nat} (hf : fuel ≤ fuel') {xs : T}
    {r r' : Option (Reaction T)} (h : pickReaction data mat density group fuel xs r = .ok r') :
    pickReaction data mat density group fuel' xs r = .ok r' := by
  induction fuel generalizing fuel' xs r with
  | zero => simp [pickReaction] at h
  | succ n ih =>
    obtain ⟨m, rfl⟩ : ∃ m, fuel' = m + 1 := ⟨fuel' - 1, by omega⟩
    unfold pickReaction at h ⊢
    split at h
    · next hx =>
      rw [if_pos hx]
      rw [bind_ok] at h ⊢
      obtain ⟨y, hy, h⟩ := h
      exact ⟨y, hy, ih (by omega) h⟩
    · next hx =>
      rw [if_neg hx]
      exact h

theorem collisionEvent_mono (hf : fuel ≤ fuel') {mat : Nat} {d : T} {st : TrackState T} {x : Bool × TrackState T}
    (h : collisionEvent data fuel mat d st = .ok x) : collisionEvent data fuel' mat d st = .ok x := by
  unfold collisionEvent at h ⊢
  dsimp only at h ⊢
  rw [bind_ok] at h ⊢
  obtain ⟨m, hm, h⟩ := h
  refine ⟨m, hm, ?_⟩
  rw [bind_ok] at h ⊢
  obtain ⟨r, hr, h⟩ := h
  exact ⟨r, pickReaction_mono hf hr, h⟩

theorem segmentEvent_mono (hf : fuel ≤ fuel') {o : SegOutcome} {st : TrackState T} {x : Bool × TrackState T}
    (h : segmentEvent data dom fuel o st = .ok x) : segmentEvent data dom fuel' o st = .ok x := by
  cases o with
  | collision =>
    simp only [segmentEvent, collisionBranch] at h ⊢
    rw [bind_ok] at h ⊢
    obtain ⟨cs, hcs, h⟩ := h
    refine ⟨cs, hcs, ?_⟩
    rw [bind_ok] at h ⊢
    obtain ⟨y, hy, h⟩ := h
    exact ⟨y, collisionEvent_mono hf hy, h⟩
  | facetCrossing => exact h
  | census => exact h

theorem directLoop_mono {n n' : Nat} (hf : fuel ≤ fuel') (hn : n ≤ n') {p : Particle T} {x : Hist T}
    (h : directLoop data dom fuel n p = .ok x) : directLoop data dom fuel' n' p = .ok x := by
  induction n generalizing n' p x with
  | zero => simp [directLoop] at h
  | succ n ih =>
    obtain ⟨m, rfl⟩ : ∃ m, n' = m + 1 := ⟨n' - 1, by omega⟩
    unfold directLoop at h ⊢
    rw [bind_ok] at h ⊢
    obtain ⟨⟨o, q⟩, ho, h⟩ := h
    refine ⟨(o, q), ho, ?_⟩
    dsimp only at h ⊢
    rw [bind_ok] at h ⊢
    obtain ⟨⟨keep, st⟩, he, h⟩ := h
    refine ⟨(keep, st), segmentEvent_mono hf he, ?_⟩
    dsimp only at h ⊢
    cases keep with
    | false => exact h
    | true =>
      rw [if_pos rfl, bind_ok] at h ⊢
      obtain ⟨y, hy, h⟩ := h
      exact ⟨y, ih (by omega) hy, h⟩

theorem directHist_mono (hf : fuel ≤ fuel') {p : Particle T} {x : Hist T}
    (h : directHist data dom fuel p = .ok x) : directHist data dom fuel' p = .ok x := by
  unfold directHist at h ⊢
  rw [bind_ok] at h ⊢
  obtain ⟨q, hq, h⟩ := h
  exact ⟨q, hq, directLoop_mono hf hf h⟩

theorem directHists_mono (hf : fuel ≤ fuel') {ps : List (Particle T)} {hs : List (Hist T)}
    (h : ps.mapM (directHist data dom fuel) = .ok hs) : ps.mapM (directHist data dom fuel') = .ok hs := by
  induction ps generalizing hs with
  | nil => exact h
  | cons p ps ih =>
    rw [List.mapM_cons, bind_ok] at h ⊢
    obtain ⟨x, hx, h⟩ := h
    refine ⟨x, directHist_mono hf hx, ?_⟩
    rw [bind_ok] at h ⊢
    obtain ⟨xs, hxs, h⟩ := h
    exact ⟨xs, ih hxs, h⟩

theorem Generations.mono (hf : fuel ≤ fuel') {ps b surv cs} (h : Generations data dom fuel ps b surv cs) :
    Generations data dom fuel' ps b surv cs := by
  induction h with
  | done => exact .done
  | next hne hd _ ih => exact .next hne (directHists_mono hf hd) ih

theorem DirectCycles.mono (hf : fuel ≤ fuel') {o : SyncOpts} {n : Nat} {s0 s : SimState T}
    (h : DirectCycles data o fuel n s0 s) : DirectCycles data o fuel' n s0 s := by
  induction h with
  | zero => exact .zero
  | succ _ hsync hd ih =>
    obtain ⟨u1, c1, b, surv, cs, hpc, hg, hu, hc⟩ := hd
    exact .succ ih hsync ⟨u1, c1, b, surv, cs, hpc, hg.mono hf, hu, hc⟩

theorem DirectRun.mono (hf : fuel ≤ fuel') {o : SyncOpts} {s0 s : SimState T}
    (h : DirectRun data o fuel s0 s) : DirectRun data o fuel' s0 s := by
  obtain ⟨s1, hc, hs⟩ := h
  exact ⟨s1, hc.mono hf, hs⟩

theorem Generations.unique {ps b surv cs b' surv' cs'} (h : Generations data dom fuel ps b surv cs)
    (h' : Generations data dom fuel ps b' surv' cs') : b' = b ∧ surv' = surv ∧ cs' = cs := by
  induction h generalizing b' surv' cs' with
  | done =>
    cases h' with
    | done => exact ⟨rfl, rfl, rfl⟩
    | next hne => exact (hne rfl).elim
  | next hne hd _ ih =>
    cases h' with
    | done => exact (hne rfl).elim
    | next _ hd' hg' =>
      rw [hd] at hd'
      cases hd'
      obtain ⟨rfl, rfl, rfl⟩ := ih hg'
      exact ⟨rfl, rfl, rfl⟩

theorem DirectCycles.unique {o : SyncOpts} {n : Nat} {s0 s s' : SimState T} (h : DirectCycles data o fuel n s0 s)
    (h' : DirectCycles data o fuel n s0 s') : s' = s := by
  induction h generalizing s' with
  | zero => cases h'; rfl
  | succ _ hsync hd ih =>
    cases h' with
    | succ h1 hsync' hd' =>
      cases ih h1
      rw [hsync] at hsync'
      cases hsync'
      obtain ⟨u1, c1, b, surv, cs, hpc, hg, rfl, rfl⟩ := hd
      obtain ⟨u1', c1', b', surv', cs', hpc', hg', rfl, rfl⟩ := hd'
      rw [hpc] at hpc'
      cases hpc'
      obtain ⟨rfl, rfl, rfl⟩ := hg.unique hg'
      rfl

theorem DirectRun.unique {o : SyncOpts} {s0 s s' : SimState T} (h : DirectRun data o fuel s0 s)
    (h' : DirectRun data o fuel' s0 s') : s' = s := by
  obtain ⟨s1, hc, hs⟩ := h.mono (Nat.le_max_left fuel fuel')
  obtain ⟨s1', hc', hs'⟩ := h'.mono (Nat.le_max_right fuel fuel')
  cases hc.unique hc'
  rw [hs] at hs'
  cases hs'
  rfl
