import Verif.Props.Schedule
import Verif.Model.Real
/-!
# C11: the scalar flux tally

`Generations` (`Verif/Spec/Direct.lean`) lists the flux contributions of a tracking phase: one pair
(entry, path length times weight) per segment.
-/
open Flt
set_option linter.unusedSectionVars false
attribute [local irreducible] Rng.lcg Rng.sample Rng.spawn
variable {T : Type} [Flt T]

/-! ## Specification -/

/-- The values contributed to entry `i`, in order. -/
def contribsAt (cs : List (Nat × T)) (i : Nat) : List T := (cs.filter (fun c => c.1 = i)).map (·.2)

/-- Additions can be exchanged: true of exact arithmetic, false of floating-point numbers. -/
def AddExchange (T : Type) [Flt T] : Prop := ∀ a b c : T, (a +. b) +. c = (a +. c) +. b

/-! ## Lemmas -/

theorem addContribs_getElem (flux : List T) (cs : List (Nat × T)) (i : Nat) (x : T)
    (hx : flux[i]? = some x) :
    (addContribs flux cs)[i]? = some ((contribsAt cs i).foldl Flt.add x) := by
  induction cs generalizing flux x with
  | nil => exact hx
  | cons c cs ih =>
    have hstep : addContribs flux (c :: cs) = addContribs (flux.modify c.1 (fun x => x +. c.2)) cs := rfl
    rw [hstep]
    by_cases h : c.1 = i
    · rw [ih _ (x +. c.2) (by rw [List.getElem?_modify, hx]; simp [h])]
      simp [contribsAt, h]
    · rw [ih _ x (by rw [List.getElem?_modify, hx]; simp [h])]
      simp [contribsAt, h]

theorem contribsAt_perm {cs cs' : List (Nat × T)} (h : cs.Perm cs') (i : Nat) :
    (contribsAt cs i).Perm (contribsAt cs' i) := (h.filter _).map _

theorem foldl_perm (hex : AddExchange T) {l l' : List T} (h : l.Perm l') (x : T) :
    l.foldl Flt.add x = l'.foldl Flt.add x := by
  induction h generalizing x with
  | nil => rfl
  | cons a _ ih => exact ih _
  | swap a b l =>
    change l.foldl Flt.add ((x +. b) +. a) = l.foldl Flt.add ((x +. a) +. b)
    rw [hex]
  | trans _ _ h1 h2 => rw [h1, h2]

theorem FluxRel.eq (hex : AddExchange T) {f f' : List T} (h : FluxRel f f') : f' = f := by
  obtain ⟨base, cs, cs', hp, rfl, rfl⟩ := h
  apply List.ext_getElem?
  intro i
  cases hb : base[i]? with
  | none =>
    rw [List.getElem?_eq_none_iff] at hb
    rw [List.getElem?_eq_none (by rw [addContribs_length]; exact hb),
      List.getElem?_eq_none (by rw [addContribs_length]; exact hb)]
  | some x =>
    rw [addContribs_getElem _ _ _ _ hb, addContribs_getElem _ _ _ _ hb,
      foldl_perm hex (contribsAt_perm hp i)]

/-- One contribution per segment, each within the table. -/
theorem directLoop_contribs {data : Data T} {dom : Domain T} (hgc : GroupsChecked data dom)
    {cfuel fuel : Nat} {p : Particle T} {h : Hist T} (hd : directLoop data dom cfuel fuel p = .ok h) :
    h.contribs.length = h.balance.numSegments ∧ ∀ c ∈ h.contribs, c.1 < tableSize dom := by
  have hev : ∀ {o : SegOutcome} {st st' : TrackState T} {keep : Bool},
      segmentEvent data dom cfuel o st = .ok (keep, st') →
      st'.balance.numSegments = st.balance.numSegments := by
    intro o st st' keep h
    cases o with
    | census =>
      simp only [segmentEvent, Except.ok.injEq, Prod.mk.injEq] at h
      obtain ⟨_, rfl⟩ := h
      rfl
    | collision =>
      simp only [segmentEvent, collisionBranch, bind_ok, pure_ok, Prod.exists, Prod.mk.injEq] at h
      obtain ⟨cs, hcs, k, st1, hce, g, hg, rfl, rfl⟩ := h
      unfold collisionEvent at hce
      generalize st.particle.getCurrentXs = xp at hce
      obtain ⟨xs, p⟩ := xp
      dsimp only at hce
      rw [bind_ok] at hce
      obtain ⟨m, hm, hce⟩ := hce
      simp only [bind_ok] at hce
      obtain ⟨r, hr, hce⟩ := hce
      cases r with
      | none => simp at hce
      | some r =>
        simp only [bind_ok, Prod.exists, pure_ok, Prod.mk.injEq] at hce
        obtain ⟨n, p', e, hs, rfl, rfl⟩ := hce
        dsimp only
        unfold tallyCollision
        cases r.rtype <;> rfl
    | facetCrossing =>
      simp only [segmentEvent, facetBranch, bind_ok] at h
      obtain ⟨conn, hconn, fa, hfa, p, hp, h⟩ := h
      split at h
      · simp only [pure_ok, Prod.mk.injEq] at h
        obtain ⟨_, rfl⟩ := h
        rfl
      · simp only [bind_ok, pure_ok, Prod.mk.injEq] at h
        obtain ⟨pls, hpls, pl, hpl, rfl, rfl⟩ := h
        rfl
      · cases h
      · simp only [pure_ok, Prod.mk.injEq] at h
        obtain ⟨_, rfl⟩ := h
        rfl
      · cases h
  induction fuel generalizing p h with
  | zero => simp [directLoop] at hd
  | succ n ih =>
    unfold directLoop at hd
    rw [bind_ok] at hd
    obtain ⟨⟨o, q⟩, ho, hd⟩ := hd
    have hi := directOutcome_index hgc ho
    dsimp only at hd
    rw [bind_ok] at hd
    obtain ⟨⟨keep, st⟩, he, hd⟩ := hd
    dsimp only at hd
    have e1 := hev he
    dsimp only at e1
    cases keep with
    | false =>
      simp only [Bool.false_eq_true, if_false, pure_ok] at hd
      subst hd
      refine ⟨e1.symm, ?_⟩
      intro c hc
      rw [List.mem_singleton] at hc
      subst hc
      exact hi
    | true =>
      simp only [if_true, bind_ok, pure_ok] at hd
      obtain ⟨h2, hd2, rfl⟩ := hd
      obtain ⟨f1, f2⟩ := ih hd2
      refine ⟨?_, ?_⟩
      · simp only [Balance.add, List.length_cons, f1, e1]; omega
      · intro c hc
        rcases List.mem_cons.1 hc with rfl | hc
        · exact hi
        · exact f2 c hc

theorem generations_contribs {data : Data T} {dom : Domain T} (hgc : GroupsChecked data dom)
    {fuel : Nat} {ps b surv cs} (h : Generations data dom fuel ps b surv cs) :
    cs.length = b.numSegments ∧ ∀ c ∈ cs, c.1 < tableSize dom := by
  induction h with
  | done => exact ⟨rfl, by simp⟩
  | @next ps hs b surv cs _ hd _ ih =>
    have hall : ∀ {ps : List (Particle T)} {hs : List (Hist T)},
        ps.mapM (directHist data dom fuel) = .ok hs →
        (hs.flatMap (·.contribs)).length = (Balance.sum (hs.map (·.balance))).numSegments ∧
        ∀ c ∈ hs.flatMap (·.contribs), c.1 < tableSize dom := by
      intro ps
      induction ps with
      | nil =>
        intro hs hd
        simp only [List.mapM_nil, pure_ok] at hd
        subst hd
        exact ⟨rfl, by simp⟩
      | cons p ps ih =>
        intro hs hd
        simp only [List.mapM_cons, bind_ok, pure_ok] at hd
        obtain ⟨h, hp, hs', hps, rfl⟩ := hd
        obtain ⟨e1, e2⟩ := ih hps
        unfold directHist at hp
        rw [bind_ok] at hp
        obtain ⟨q, _, hp⟩ := hp
        obtain ⟨f1, f2⟩ := directLoop_contribs hgc hp
        rw [List.map_cons, Balance.sum_cons, List.flatMap_cons, List.length_append, e1, f1]
        refine ⟨rfl, ?_⟩
        intro c hc
        rcases List.mem_append.1 hc with hc | hc
        · exact f2 c hc
        · exact e2 c hc
    obtain ⟨e1, e2⟩ := hall hd
    obtain ⟨f1, f2⟩ := ih
    refine ⟨by rw [List.length_append, e1, f1]; rfl, ?_⟩
    intro c hc
    rcases List.mem_append.1 hc with hc | hc
    · exact e2 c hc
    · exact f2 c hc

/-! ## C11 -/

/-- **C11.** For every float type, policy and schedule: after the tracking phase of a cycle each flux
entry is its initial value to which exactly the contributions of the segments tallied there have been
added one after the other, in some order.  There is one contribution per counted segment and each
falls on an existing entry, so none is lost. -/
theorem C11_flux_is_sum (data : Data T) (ex : ExecInfo) (fuel : Nat) (u u' : UnitState T)
    (c c' : Container T) (b : Balance) (surv : List (Particle T)) (cs : List (Nat × T))
    (hz : (zero >. (zero : T)) = false) (ht : StartTables data u) (hcache : ∀ v ∈ u.cache, v = zero)
    (hx : c.extra = []) (hg : Generations data u.dom fuel c.processing b surv cs)
    (h : ProcessLoop data ex fuel u c u' c') :
    u'.balance = u.balance.add b ∧ cs.length = b.numSegments ∧ (∀ d ∈ cs, d.1 < u.flux.length) ∧
    u'.flux.length = u.flux.length ∧
    ∃ cs', cs'.Perm cs ∧ ∀ (i : Nat) (x : T), u.flux[i]? = some x →
      u'.flux[i]? = some ((contribsAt cs' i).foldl Flt.add x) := by
  have hm : MemOk data u.dom (sharedOf u c) :=
    ⟨ht.cache, ht.flux, fun i v hv => .inl (by rw [hcache v (List.mem_of_getElem? hv)]; exact hz)⟩
  have hph := processLoop_direct ht.tables.groups hg rfl hm hx (.refl _) h
  obtain ⟨g1, g2⟩ := generations_contribs ht.tables.groups hg
  obtain ⟨cs', hp, hf⟩ := hph.flux
  refine ⟨hph.balance, g1, fun d hd => by rw [ht.flux]; exact g2 d hd, ?_, cs', hp, ?_⟩
  · rw [hf, addContribs_length]
  · intro i x hx
    rw [hf]
    exact addContribs_getElem _ _ _ _ hx

/-- **C11** in exact arithmetic: each entry is its initial value plus the sum of the contributions,
so it does not depend on the schedule. -/
theorem C11_flux_is_sum_exact (data : Data ℝ) (ex : ExecInfo) (fuel : Nat) (u u' : UnitState ℝ)
    (c c' : Container ℝ) (b : Balance) (surv : List (Particle ℝ)) (cs : List (Nat × ℝ))
    (ht : StartTables data u) (hcache : ∀ v ∈ u.cache, v = 0)
    (hx : c.extra = []) (hg : Generations data u.dom fuel c.processing b surv cs)
    (h : ProcessLoop data ex fuel u c u' c') (i : Nat) (x : ℝ) (hi : u.flux[i]? = some x) :
    u'.flux[i]? = some (x + (contribsAt cs i).sum) := by
  obtain ⟨_, _, _, _, cs', hp, hf⟩ := C11_flux_is_sum data ex fuel u u' c c' b surv cs (by simp) ht
    (by simpa using hcache) hx hg h
  rw [hf i x hi]
  have hsum : ∀ (l : List ℝ) (y : ℝ), l.foldl Flt.add y = y + l.sum := by
    intro l
    induction l with
    | nil => intro y; simp
    | cons a l ih => intro y; rw [List.foldl_cons, ih]; simp [add_assoc]
  rw [hsum, (contribsAt_perm hp i).sum_eq]

/-- **C11** for whole runs: when additions can be exchanged, every run under every policy and schedule
reports exactly the total fluxes of the reference. -/
theorem C11_reports_schedule_independent (data : Data T) (o : SyncOpts) (fuel : Nat)
    (s0 s : SimState T) (hex : AddExchange T) (hz : (zero >. (zero : T)) = false)
    (ht : StartTables data s0.unit) (hx : s0.container.extra = []) (hr : s0.reports = [])
    (hd : DirectRun data o fuel s0 s) (ex : ExecInfo) (s' : SimState T)
    (h : RunCore data ex o fuel s0 s') : s'.reports = s.reports ∧ s'.unit.flux = s.unit.flux := by
  have hrel := (runCore_rel hz ht.sized hx hr hd ex).1 s' h
  refine ⟨?_, hrel.unit.flux.eq hex⟩
  have hrr := hrel.reports
  generalize s.reports = a at hrr ⊢
  generalize s'.reports = b at hrr ⊢
  induction hrr with
  | nil => rfl
  | @cons r r' _ _ h1 _ ih =>
    obtain ⟨e1, e2, f, f', hf, e3, e4⟩ := h1
    rw [ih]
    congr 1
    refine Prod.ext e1.symm (Prod.ext e2.symm ?_)
    rw [e3, e4, hf.eq hex]

/-! ## The hypotheses are met -/

theorem addExchange_real : AddExchange ℝ := fun a b c => by simp only [FltReal.add_eq]; ring

theorem addExchange_toy : AddExchange Toy := fun a b c => by
  change Int.add (Int.add a b) c = Int.add (Int.add a c) b
  have := Int.add_right_comm a b c
  exact this

/-- The toy run with threads reports the fluxes of the reference. -/
example : ∃ s s', DirectRun toyData toyOpts 20 toySim s ∧
    RunCore toyData ⟨.rayon, 1, 4, 1⟩ toyOpts 20 toySim s' ∧ s'.reports = s.reports ∧
    s.reports.length = 2 := by
  obtain ⟨s, hd, hrep⟩ := toyDirect_run
  obtain ⟨_, h2⟩ := C09_run_schedule_independent toyData toyOpts 20 toySim s (by decide)
    toy_startTables rfl rfl hd
  obtain ⟨s', hs'⟩ := h2 ⟨.rayon, 1, 4, 1⟩ (.inl (by decide))
  have := C11_reports_schedule_independent toyData toyOpts 20 toySim s addExchange_toy (by decide)
    toy_startTables rfl rfl hd _ s' hs'
  refine ⟨s, s', hd, hs', this.1, ?_⟩
  have := congrArg List.length hrep
  simpa [toyReports] using this

/-- Evaluated by the kernel: the flux contributions of the toy batch. -/
def toyFluxCheck : Bool :=
  match generationsFn toyData toyUnit.dom 20 8 toyBatch.processing with
  | .ok (_, _, cs) => decide (0 < cs.length)
  | .error _ => false

theorem toyFluxCheck_true : toyFluxCheck = true := by decide +kernel

/-- The hypotheses of `C11_flux_is_sum` are met by a batch with contributions. -/
example : ∃ b surv cs u' c', Generations toyData toyUnit.dom 20 toyBatch.processing b surv cs ∧
    0 < cs.length ∧ ProcessLoop toyData ⟨.rayon, 1, 4, 1⟩ 20 toyUnit toyBatch u' c' := by
  have h := toyFluxCheck_true
  unfold toyFluxCheck at h
  split at h
  · next b surv cs hcs =>
    have hg := generationsFn_sound hcs
    have hm : MemOk toyData toyUnit.dom (sharedOf toyUnit toyBatch) :=
      ⟨toy_startTables.cache, toy_startTables.flux, fun i v hv => .inl (by
        have : v ∈ toyUnit.cache := List.mem_of_getElem? hv
        have : v = 0 := by simpa [toyUnit] using this
        rw [this]; decide)⟩
    obtain ⟨u', c', hl⟩ := processLoop_exists (ex := ⟨.rayon, 1, 4, 1⟩) (.inl (by decide))
      toy_startTables.tables.groups hg (u := toyUnit) (c := toyBatch) rfl hm rfl (.refl _)
    exact ⟨b, surv, cs, u', c', hg, by simpa using h, hl⟩
  · cases h
