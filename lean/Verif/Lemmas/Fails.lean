import Verif.Spec.Fails
import Verif.Lemmas.Events
/-! Where a panic of a run can come from. -/
set_option linter.unusedSectionVars false
attribute [local irreducible] Rng.lcg Rng.sample Rng.spawn
open Flt

theorem bind_error {ε α β : Type} {x : Except ε α} {f : α → Except ε β} {e : ε} :
    (x >>= f) = .error e ↔ x = .error e ∨ ∃ a, x = .ok a ∧ f a = .error e := by
  cases x with
  | error e => simp [bind, Except.bind]
  | ok a => simp [bind, Except.bind]

theorem pure_error {ε α : Type} {a : α} {e : ε} : (pure a : Except ε α) = .error e ↔ False := by
  simp [pure, Except.pure]

theorem idx_error {α : Type} {l : List α} {i : Nat} {e : Panic} :
    idx l i = .error e ↔ l.length ≤ i ∧ e = .indexOutOfBounds := by
  unfold idx
  cases h : l[i]? with
  | none =>
    have := List.getElem?_eq_none_iff.1 h
    simp only [Except.error.injEq, this, true_and]; exact eq_comm
  | some b =>
    have := (List.getElem?_eq_some_iff.1 h).1
    simp; omega

theorem unwrap_error {α : Type} {o : Option α} {e : Panic} :
    unwrap o = .error e ↔ o = none ∧ e = .unwrapNone := by
  cases o with
  | none => simp [unwrap, eq_comm]
  | some a => simp [unwrap]

theorem assertB_error {b : Bool} {e : Panic} : assertB b = .error e ↔ b = false ∧ e = .assertFailed := by
  cases b with
  | false => simp [assertB, eq_comm]
  | true => simp [assertB]

theorem mapM_error {ε α β : Type} {f : α → Except ε β} {l : List α} {e : ε}
    (h : l.mapM f = .error e) : ∃ a ∈ l, f a = .error e := by
  induction l with
  | nil => simp [List.mapM_nil, pure_error] at h
  | cons a l ih =>
    simp only [List.mapM_cons, bind_error, pure_error, and_false, exists_false, or_false] at h
    rcases h with h | ⟨b, _, h⟩
    · exact ⟨a, by simp, h⟩
    · obtain ⟨c, hc, h'⟩ := ih h
      exact ⟨c, by simp [hc], h'⟩

/-- `Prog.MayFail G nc nf p e`: with some answers to its loads, allowed by `G`, program `p` ends in the panic `e`,
when the cache has `nc` entries and the flux tally `nf`. -/
inductive Prog.MayFail {T α : Type} (G : Nat → T → Prop) (nc nf : Nat) : Prog T α → Panic → Prop where
  | fail {e} : MayFail G nc nf (.fail e) e
  | load {i k v e} : i < nc → G i v → MayFail G nc nf (k v) e → MayFail G nc nf (.load i k) e
  | loadOob {i k} : ¬ i < nc → MayFail G nc nf (.load i k) .indexOutOfBounds
  | store {i v k e} : i < nc → MayFail G nc nf (k ()) e → MayFail G nc nf (.store i v k) e
  | storeOob {i v k} : ¬ i < nc → MayFail G nc nf (.store i v k) .indexOutOfBounds
  | addFlux {i v k e} : i < nf → MayFail G nc nf (k ()) e → MayFail G nc nf (.addFlux i v k) e
  | addFluxOob {i v k} : ¬ i < nf → MayFail G nc nf (.addFlux i v k) .assertFailed
  | pushExtra {ps k e} : MayFail G nc nf (k ()) e → MayFail G nc nf (.pushExtra ps k) e

namespace Prog
variable {T α β : Type} {G : Nat → T → Prop} {nc nf : Nat}

theorem MayFail.bind_inv {p : Prog T α} {f : α → Prog T β} {e : Panic}
    (h : MayFail G nc nf (p.bind f) e) :
    MayFail G nc nf p e ∨ ∃ tr a, May p tr a ∧ Ev.LoadsIn G tr ∧ MayFail G nc nf (f a) e := by
  induction p with
  | ret a => exact .inr ⟨[], a, .ret, fun _ _ h => (by cases h), h⟩
  | fail e' => cases h; exact .inl .fail
  | load i k ih =>
    simp only [Prog.bind] at h
    cases h with
    | load hi hv h =>
      rcases ih _ h with h | ⟨tr, a, h1, hl, h2⟩
      · exact .inl (.load hi hv h)
      · refine .inr ⟨_, a, .load h1, fun i v hm => ?_, h2⟩
        rcases List.mem_cons.1 hm with hm | hm
        · cases hm; exact hv
        · exact hl i v hm
    | loadOob hi => exact .inl (.loadOob hi)
  | store i v k ih =>
    simp only [Prog.bind] at h
    cases h with
    | store hi h =>
      rcases ih _ h with h | ⟨tr, a, h1, hl, h2⟩
      · exact .inl (.store hi h)
      · refine .inr ⟨_, a, .store h1, fun i v hm => ?_, h2⟩
        rcases List.mem_cons.1 hm with hm | hm
        · cases hm
        · exact hl i v hm
    | storeOob hi => exact .inl (.storeOob hi)
  | addFlux i v k ih =>
    simp only [Prog.bind] at h
    cases h with
    | addFlux hi h =>
      rcases ih _ h with h | ⟨tr, a, h1, hl, h2⟩
      · exact .inl (.addFlux hi h)
      · refine .inr ⟨_, a, .addFlux h1, fun i v hm => ?_, h2⟩
        rcases List.mem_cons.1 hm with hm | hm
        · cases hm
        · exact hl i v hm
    | addFluxOob hi => exact .inl (.addFluxOob hi)
  | pushExtra ps k ih =>
    simp only [Prog.bind] at h
    cases h with
    | pushExtra h =>
      rcases ih _ h with h | ⟨tr, a, h1, hl, h2⟩
      · exact .inl (.pushExtra h)
      · refine .inr ⟨_, a, .pushExtra h1, fun i v hm => ?_, h2⟩
        rcases List.mem_cons.1 hm with hm | hm
        · cases hm
        · exact hl i v hm

theorem MayFail.ret_inv {a : α} {e : Panic} (h : MayFail (T := T) G nc nf (.ret a) e) : False := by
  cases h

theorem MayFail.ofExcept_inv {x : Except Panic α} {e : Panic}
    (h : MayFail (T := T) G nc nf (Prog.ofExcept x) e) : x = .error e := by
  cases x with
  | error e' => cases h; rfl
  | ok a => exact (MayFail.ret_inv h).elim

variable [Flt T]

theorem run_mayFail {p : Prog T α} {m : Shared T} {e : Panic} (h : p.run m = .error e) (hp : Stores G p)
    (hm : CacheIn G m.cache) : MayFail G m.cache.length m.flux.length p e := by
  induction p generalizing m with
  | ret b => simp [run] at h
  | fail e' => simp only [run, Except.error.injEq] at h; subst h; exact .fail
  | load i k ih =>
    simp only [run] at h
    split at h
    · next v hv => exact .load (List.getElem?_eq_some_iff.1 hv).1 (hm _ _ hv) (ih _ h (hp _) hm)
    · next hv =>
      cases h
      exact .loadOob (by rw [List.getElem?_eq_none_iff] at hv; omega)
  | store i v k ih =>
    simp only [run] at h
    split at h
    · next hi =>
      have := ih _ h hp.2 (hm.set hp.1); simp only [List.length_set] at this; exact .store hi this
    · next hi => cases h; exact .storeOob hi
  | addFlux i v k ih =>
    simp only [run] at h
    split at h
    · next x hx =>
      have := ih _ h hp hm; simp only [List.length_set] at this
      exact .addFlux (List.getElem?_eq_some_iff.1 hx).1 this
    · next hx =>
      cases h
      exact .addFluxOob (by rw [List.getElem?_eq_none_iff] at hx; omega)
  | pushExtra ps k ih => simp only [run] at h; have := ih _ h hp hm; exact .pushExtra this

theorem Step.lengths {p p' : Prog T α} {m m' : Shared T} (h : Step p m p' m') :
    m'.cache.length = m.cache.length ∧ m'.flux.length = m.flux.length := by
  cases h <;> simp

theorem Step.mayFail {p p' : Prog T α} {m m' : Shared T} (h : Step p m p' m') (hm : CacheIn G m.cache) {e : Panic}
    (hf : MayFail G m.cache.length m.flux.length p' e) : MayFail G m.cache.length m.flux.length p e := by
  cases h with
  | load h => exact .load (List.getElem?_eq_some_iff.1 h).1 (hm _ _ h) hf
  | loadOob h => cases hf; exact .loadOob (by rw [List.getElem?_eq_none_iff] at h; omega)
  | store h => exact .store h hf
  | storeOob h => cases hf; exact .storeOob h
  | addFlux h => exact .addFlux (List.getElem?_eq_some_iff.1 h).1 hf
  | addFluxOob h => cases hf; exact .addFluxOob (by rw [List.getElem?_eq_none_iff] at h; omega)
  | pushExtra => exact .pushExtra hf

theorem _root_.PoolSteps.mayFail {pool pool' : List (Prog T α)} {m m' : Shared T} {e : Panic} {j : Nat}
    (h : PoolSteps pool m pool' m') (hp : ∀ p ∈ pool, Stores G p) (hm : CacheIn G m.cache)
    (hj : pool'[j]? = some (.fail e)) :
    ∃ p ∈ pool, MayFail G m.cache.length m.flux.length p e := by
  obtain ⟨n, hn⟩ := h.toRun
  clear h
  have main : ∃ p, pool[j]? = some p ∧ MayFail G m.cache.length m.flux.length p e := by
    induction hn with
    | refl => exact ⟨_, hj, .fail⟩
    | @head n a m b m1 c m2 hs _ ih =>
      cases hs with
      | @mk i p p' _ hi hstep =>
        obtain ⟨s1, s2⟩ := hstep.stores (hp p (List.mem_of_getElem? hi)) hm
        obtain ⟨q, hq, hf⟩ := ih (fun r hr => by
          rcases List.mem_or_eq_of_mem_set hr with hr | rfl
          · exact hp r hr
          · exact s1) s2 hj
        obtain ⟨l1, l2⟩ := hstep.lengths
        rw [l1, l2] at hf
        by_cases hij : i = j
        · subst hij
          rw [List.getElem?_set_self (List.getElem?_eq_some_iff.1 hi).1] at hq
          cases hq
          exact ⟨p, hi, hstep.mayFail hm hf⟩
        · rw [List.getElem?_set_ne hij] at hq
          exact ⟨q, hq, hf⟩
  obtain ⟨p, hp, hf⟩ := main
  exact ⟨p, List.mem_of_getElem? hp, hf⟩

end Prog

variable {T : Type} [Flt T]
section
variable {data : Data T} {dom0 dom : Domain T} {fuel : Nat} {G : Domain T → Nat → T → Prop} {nc nf : Nat}

/-- The ways in which the processing of a particle `p` between two events can panic. -/
inductive ParticleFails (G : Nat → T → Prop) (data : Data T) (dom : Domain T) (fuel nc nf : Nat) (p : Particle T) :
    Panic → Prop where
  | prepare {e} : gutsPrepare data p = .error e → ParticleFails G data dom fuel nc nf p e
  | segment {e} : (outcome data dom p).MayFail G nc nf e → ParticleFails G data dom fuel nc nf p e
  | flux {tr o q} : (outcome data dom p).May tr (o, q) → Ev.LoadsIn G tr → ¬ fluxIndex dom.numGroups q.cell q.energyGroup < nf →
      ParticleFails G data dom fuel nc nf p .assertFailed
  | event {tr o q b ex e} : (outcome data dom p).May tr (o, q) → Ev.LoadsIn G tr →
      segmentEvent data dom fuel o
        { particle := { q with numSegments := q.numSegments +. one }, balance := b, extra := ex } = .error e →
      ParticleFails G data dom fuel nc nf p e

theorem trackStep_fails {G : Nat → T → Prop} {st : TrackState T} {e : Panic} (h : (trackStep data dom fuel st).MayFail G nc nf e) :
    ParticleFails G data dom fuel nc nf st.particle e := by
  unfold trackStep at h
  rcases h.bind_inv with h | ⟨tr, ⟨o, p⟩, h1, hl, h2⟩
  · exact .segment h
  · dsimp only at h2
    cases h2 with
    | addFlux hi h2 => exact .event h1 hl h2.ofExcept_inv
    | addFluxOob hi => exact .flux h1 hl hi

theorem trackLoop_fails (hd : dom.skeleton = dom0.skeleton) {n : Nat} {st : TrackState T} {e : Panic}
    (hs : ReachableBy G data dom0 fuel st.particle) (h : (trackLoop data dom fuel n st).MayFail (G dom) nc nf e) :
    e = .outOfFuel ∨ ∃ p, ReachableBy G data dom0 fuel p ∧ ParticleFails (G dom) data dom fuel nc nf p e := by
  induction n generalizing st with
  | zero => cases h; exact .inl rfl
  | succ n ih =>
    unfold trackLoop at h
    rcases h.bind_inv with h | ⟨tr, ⟨keep, st2⟩, h1, hl, h2⟩
    · exact .inr ⟨_, hs, trackStep_fails h⟩
    · obtain ⟨tr1, o, p, st1, ho, hst1, rfl, hev⟩ := trackStep_inv h1
      cases keep with
      | false => exact (Prog.MayFail.ret_inv (by simpa using h2)).elim
      | true =>
        obtain ⟨new, hnew⟩ := segmentEvent_extra hev
        subst hst1
        have hr : ReachableBy G data dom0 fuel st2.particle := .event hd hs ho hl.left hev hnew List.mem_cons_self
        exact ih hr (by simpa using h2)

theorem trackGuts_fails (hd : dom.skeleton = dom0.skeleton) {st : TrackState T} {e : Panic}
    (hs : ReachableBy G data dom0 fuel st.particle) (h : (trackGuts data dom fuel st).MayFail (G dom) nc nf e) :
    e = .outOfFuel ∨ ∃ p, ReachableBy G data dom0 fuel p ∧ ParticleFails (G dom) data dom fuel nc nf p e := by
  unfold trackGuts at h
  rcases h.bind_inv with h | ⟨tr, q, h1, _, h2⟩
  · exact .inr ⟨_, hs, .prepare h.ofExcept_inv⟩
  · obtain ⟨_, hq⟩ := h1.ofExcept_inv
    exact trackLoop_fails (st := { st with particle := q }) hd (.prepared hs hq) h2

theorem trackAll_fails (hd : dom.skeleton = dom0.skeleton) {ps : List (Particle T)}
    {b : Balance} {ex : List (Particle T)} {e : Panic} (hk : ∀ p ∈ ps, ReachableBy G data dom0 fuel p)
    (h : (trackAll data dom fuel ps b ex).MayFail (G dom) nc nf e) :
    e = .outOfFuel ∨ ∃ p, ReachableBy G data dom0 fuel p ∧ ParticleFails (G dom) data dom fuel nc nf p e := by
  induction ps generalizing b ex with
  | nil => exact (Prog.MayFail.ret_inv h).elim
  | cons p ps ih =>
    unfold trackAll at h
    rcases h.bind_inv with h | ⟨tr, st, h1, _, h2⟩
    · exact trackGuts_fails (st := { particle := p, balance := b, extra := ex }) hd (hk p (by simp)) h
    · rcases h2.bind_inv with h | ⟨tr, ⟨l, b2, ex2⟩, h1, _, h2⟩
      · exact ih (fun p hp => hk p (by simp [hp])) h
      · exact (Prog.MayFail.ret_inv h2).elim

theorem chunkProg_fails (hd : dom.skeleton = dom0.skeleton) {ps : List (Particle T)} {e : Panic}
    (hk : ∀ p ∈ ps, ReachableBy G data dom0 fuel p) (h : (chunkProg data dom fuel ps).MayFail (G dom) nc nf e) :
    e = .outOfFuel ∨ ∃ p, ReachableBy G data dom0 fuel p ∧ ParticleFails (G dom) data dom fuel nc nf p e := by
  unfold chunkProg at h
  rcases h.bind_inv with h | ⟨tr, ⟨l, b2, ex2⟩, h1, _, h2⟩
  · exact trackAll_fails hd hk h
  · cases h2 with
    | pushExtra h => exact (Prog.MayFail.ret_inv h).elim

/-! ### The counters that tracking leaves at zero -/

theorem tallyCollision_zero (b : Balance) (t : ReactionType) (n : Nat) :
    (tallyCollision b t n).start = b.start ∧ (tallyCollision b t n).end_ = b.end_ ∧
      (tallyCollision b t n).source = b.source := by
  cases t <;> simp [tallyCollision]

theorem segmentEvent_zero {o : SegOutcome} {st st' : TrackState T} {keep : Bool}
    (h : segmentEvent data dom fuel o st = .ok (keep, st')) :
    st'.balance.start = st.balance.start ∧ st'.balance.end_ = st.balance.end_ ∧
      st'.balance.source = st.balance.source := by
  cases o with
  | census =>
    simp only [segmentEvent, Except.ok.injEq, Prod.mk.injEq] at h
    obtain ⟨_, rfl⟩ := h
    exact ⟨rfl, rfl, rfl⟩
  | facetCrossing =>
    simp only [segmentEvent, facetBranch, bind_ok] at h
    obtain ⟨conn, _, fa, _, p, hp, h⟩ := h
    split at h
    all_goals first
      | (simp only [pure_ok, Prod.mk.injEq] at h; obtain ⟨_, rfl⟩ := h; exact ⟨rfl, rfl, rfl⟩)
      | (simp only [bind_ok, pure_ok, Prod.mk.injEq] at h
         obtain ⟨_, _, _, _, _, rfl⟩ := h; exact ⟨rfl, rfl, rfl⟩)
      | simp at h
  | collision =>
    simp only [segmentEvent, collisionBranch, collisionEvent, bind_ok, pure_ok, Prod.mk.injEq,
      Prod.exists] at h
    obtain ⟨cs, _, k, st1, ⟨mat, _, ro, _, h1⟩, g, _, rfl, rfl⟩ := h
    cases ro with
    | none => simp at h1
    | some r =>
      simp only [bind_ok, pure_ok, Prod.mk.injEq, Prod.exists] at h1
      obtain ⟨n, p', ex, _, _, rfl⟩ := h1
      exact tallyCollision_zero _ _ _

theorem TrackRun.zero {os : List SegOutcome} {st st' : TrackState T} (h : TrackRun data dom fuel os st st') :
    st'.balance.start = st.balance.start ∧ st'.balance.end_ = st.balance.end_ ∧
      st'.balance.source = st.balance.source := by
  induction h with
  | last ho hst1 hev => have := segmentEvent_zero hev; subst hst1; exact this
  | more ho hst1 hev _ ih =>
    have := segmentEvent_zero hev
    subst hst1
    exact ⟨ih.1.trans this.1, ih.2.1.trans this.2.1, ih.2.2.trans this.2.2⟩

theorem trackAll_zero {ps : List (Particle T)} {b b' : Balance} {ex ex' ps' : List (Particle T)}
    {tr : List (Ev T)} (h : (trackAll data dom fuel ps b ex).May tr (ps', b', ex')) :
    b'.start = b.start ∧ b'.end_ = b.end_ ∧ b'.source = b.source := by
  induction ps generalizing b ex tr ps' b' ex' with
  | nil =>
    have := (Prog.May.ret_inv h).2
    simp only [Prod.mk.injEq] at this
    obtain ⟨rfl, rfl, rfl⟩ := this
    exact ⟨rfl, rfl, rfl⟩
  | cons p ps ih =>
    unfold trackAll at h
    obtain ⟨t1, t2, st, rfl, h1, h2⟩ := h.bind_inv
    obtain ⟨t3, t4, ⟨l, b2, ex2⟩, rfl, h3, h4⟩ := h2.bind_inv
    have := (Prog.May.ret_inv h4).2
    simp only [Prod.mk.injEq] at this
    obtain ⟨rfl, rfl, rfl⟩ := this
    unfold trackGuts at h1
    obtain ⟨t5, t6, q, rfl, h5, h6⟩ := h1.bind_inv
    obtain ⟨os, hrun⟩ := trackLoop_run h6
    have h7 := hrun.zero
    have h8 := ih h3
    exact ⟨h8.1.trans h7.1, h8.2.1.trans h7.2.1, h8.2.2.trans h7.2.2⟩

theorem chunkProg_zero {ps : List (Particle T)} {tr : List (Ev T)} {ps' : List (Particle T)} {b' : Balance}
    (h : (chunkProg data dom fuel ps).May tr (ps', b')) : b'.start = 0 ∧ b'.end_ = 0 ∧ b'.source = 0 := by
  unfold chunkProg at h
  obtain ⟨t1, t2, ⟨l, b, ex⟩, rfl, h1, h2⟩ := h.bind_inv
  dsimp only at h2
  cases h2 with
  | pushExtra h2 =>
    obtain ⟨rfl, h3⟩ := Prog.May.ret_inv h2
    simp only [Prod.mk.injEq] at h3
    obtain ⟨rfl, rfl⟩ := h3
    exact trackAll_zero h1

theorem Balance.sum_zero {l : List Balance} (h : ∀ b ∈ l, b.start = 0 ∧ b.end_ = 0 ∧ b.source = 0) :
    (Balance.sum l).start = 0 ∧ (Balance.sum l).end_ = 0 ∧ (Balance.sum l).source = 0 := by
  have main : ∀ (l : List Balance) (a : Balance), (∀ b ∈ l, b.start = 0 ∧ b.end_ = 0 ∧ b.source = 0) →
      (a.start = 0 ∧ a.end_ = 0 ∧ a.source = 0) →
      (l.foldl Balance.add a).start = 0 ∧ (l.foldl Balance.add a).end_ = 0 ∧
        (l.foldl Balance.add a).source = 0 := by
    intro l
    induction l with
    | nil => exact fun a _ ha => ha
    | cons c l ih =>
      intro a hl ha
      refine ih _ (fun b hb => hl b (by simp [hb])) ?_
      have := hl c (by simp)
      simp only [Balance.add]; omega
  exact main l {} h ⟨rfl, rfl, rfl⟩

/-! ### Calls of `process_particles` and loops -/

/-- A panic of the tracking of a batch of particles comes from one particle, or from a zero number of threads
with an automatic chunk size. -/
theorem processFails_inv {ex : ExecInfo} {u : UnitState T} {c : Container T} {e : Panic}
    (hd : u.dom.skeleton = dom0.skeleton) (hk : ∀ p ∈ c.all, ReachableBy G data dom0 fuel p)
    (hG : StoresIn data u.dom (G u.dom)) (hcache : CacheIn (G u.dom) u.cache)
    (h : ProcessFails data ex fuel u c e) :
    e = .outOfFuel ∨ (e = .divByZero ∧ ex.chunkSize = 0 ∧ ex.nRayonThreads = 0) ∨
    ∃ p, ReachableBy G data dom0 fuel p ∧ ParticleFails (G u.dom) data u.dom fuel u.cache.length u.flux.length p e := by
  have hk1 : ∀ p ∈ c.processing, ReachableBy G data dom0 fuel p := fun p hp => hk p (by simp [Container.all, hp])
  cases h with
  | seq _ h =>
    simp only [processSeq, bind_error, pure_error, and_false, exists_false, or_false] at h
    have h := Prog.run_mayFail h (chunkProg_stores hG _) hcache
    rcases chunkProg_fails hd hk1 h with h | h
    · exact .inl h
    · exact .inr (.inr h)
  | chunkSize _ h =>
    unfold chunkSizeFor at h
    split at h
    · split at h
      · cases h; exact .inr (.inl ⟨rfl, by assumption, by assumption⟩)
      · simp at h
    · simp at h
  | @worker k pool' m' j _ _ hks hsteps hj =>
    obtain ⟨p, hp, hf⟩ := hsteps.mayFail (G := G u.dom) (fun p hp => by
      obtain ⟨ch, _, rfl⟩ := List.mem_map.1 hp
      exact chunkProg_stores hG _) hcache hj
    obtain ⟨ch, hch, rfl⟩ := List.mem_map.1 hp
    have hflat := chunks_flatten k c.processing (chunkSizeFor_pos hks)
    rcases chunkProg_fails hd (fun p hp => hk1 p (by
      rw [← hflat]; exact List.mem_flatten.2 ⟨_, hch, hp⟩)) hf with h | h
    · exact .inl h
    · exact .inr (.inr h)
  | @tally k m' results _ hks hsteps hne =>
    refine (hne ?_).elim
    obtain ⟨hlen, g, heff, hlt, hmay⟩ := Prog.pool_trace hsteps
    apply Balance.sum_zero
    intro b hb
    obtain ⟨r, hr, rfl⟩ := List.mem_map.1 hb
    obtain ⟨j, hj, rfl⟩ := List.mem_iff_getElem.1 hr
    have hj' : j < (chunks k c.processing).length := by
      rw [List.length_map] at hlen; omega
    exact chunkProg_zero (ps' := results[j].1) (hmay j _ results[j]
      (by rw [List.getElem?_map, List.getElem?_eq_getElem hj']; rfl) (List.getElem?_eq_getElem hj))

theorem Ev.Effects.lengths {es : List (Ev T)} {m m' : Shared T} (h : Ev.Effects es m m') :
    m'.cache.length = m.cache.length ∧ m'.flux.length = m.flux.length := by
  induction h with
  | nil => exact ⟨rfl, rfl⟩
  | cons h _ ih => cases h <;> simpa using ih

theorem processParticles_lengths {ex : ExecInfo} {u u' : UnitState T} {c c' : Container T}
    (h : ProcessParticles data ex fuel u c u' c') :
    u'.cache.length = u.cache.length ∧ u'.flux.length = u.flux.length := by
  cases h with
  | seq _ h =>
    simp only [processSeq, bind_ok, pure_ok, Prod.exists] at h
    obtain ⟨ps, b, m, hrun, hfin⟩ := h
    obtain ⟨tr, hmay, heff⟩ := Prog.run_may hrun
    simp only [finishProcess, Prod.mk.injEq] at hfin
    obtain ⟨rfl, rfl⟩ := hfin
    exact heff.lengths
  | @par k pool' m' results _ hks hsteps hpool _ _ _ =>
    subst hpool
    obtain ⟨hlen, g, heff, hlt, hmay⟩ := Prog.pool_trace hsteps
    exact heff.lengths

theorem Container.sort_all {c : Container T} {p : Particle T} : p ∈ c.sort.all ↔ p ∈ c.all := by
  simp only [Container.all, Container.sort, List.mem_append, (stableSort_perm _ _).mem_iff]

theorem Container.cleanExtra_all {c : Container T} {p : Particle T} : p ∈ c.cleanExtra.all → p ∈ c.all := by
  intro hp
  simp only [Container.all, Container.cleanExtra, List.mem_append] at hp ⊢
  rcases hp with ((h | h) | h) | h
  · exact .inl (.inl h)
  · exact .inr h
  · exact .inl (.inr h)
  · simp at h

/-- A panic in a tracking loop comes from one particle. -/
theorem loopFails_inv {ex : ExecInfo} {u : UnitState T} {c : Container T} {e : Panic}
    (hd : u.dom.skeleton = dom0.skeleton) (hk : ∀ p ∈ c.all, ReachableBy G data dom0 fuel p)
    (hG : StoresIn data u.dom (G u.dom)) (hcache : CacheIn (G u.dom) u.cache)
    (h : LoopFails data ex fuel u c e) :
    e = .outOfFuel ∨ (e = .divByZero ∧ ex.chunkSize = 0 ∧ ex.nRayonThreads = 0) ∨
    ∃ p, ReachableBy G data dom0 fuel p ∧ ParticleFails (G u.dom) data u.dom fuel u.cache.length u.flux.length p e := by
  induction h with
  | now _ h => exact processFails_inv hd (fun p hp => hk p (Container.sort_all.1 hp)) hG hcache h
  | @later u c u1 c1 e _ hp _ ih =>
    have hdom := processParticles_dom hp
    obtain ⟨l1, l2⟩ := processParticles_lengths hp
    obtain ⟨hr, hc⟩ := processParticles_reachBy hd (fun p hp => hk p (Container.sort_all.1 hp)) hG hcache hp
    have := ih (by rw [hdom]; exact hd) (fun p hp => hr p (Container.cleanExtra_all hp)) (by rw [hdom]; exact hG)
      (by rw [hdom]; exact hc)
    rw [hdom, l1, l2] at this
    exact this
end
