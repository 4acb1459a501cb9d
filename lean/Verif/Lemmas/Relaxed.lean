import Verif.Model.Relaxed
import Verif.Lemmas.RunEquiv
/-!
Workers on a memory with stale loads and exchange loops do what workers on the memory of
`Verif/Model/Prog.lean` do.
-/
set_option linter.unusedSectionVars false
set_option linter.unnecessarySeqFocus false
attribute [local irreducible] Rng.lcg Rng.sample Rng.spawn
open Flt
variable {T : Type} [Flt T]

theorem XsAt.unique {data : Data T} {dom : Domain T} {i : Nat} {x y : T} (hx : XsAt data dom i x)
    (hy : XsAt data dom i y) : x = y := by
  obtain ⟨c, g, hg, _, rfl, h⟩ := hx
  obtain ⟨c', g', hg', _, he, h'⟩ := hy
  obtain ⟨rfl, rfl⟩ := index_inj hg hg' he
  rw [h] at h'
  exact Except.ok.inj h'

theorem GoodEntry.pos {data : Data T} {dom : Domain T} {i : Nat} {x : T} (h : GoodEntry data dom i x)
    (hp : (x >. zero) = true) : XsAt data dom i x := by
  rcases h with h | h
  · rw [hp] at h; cases h
  · exact h

/-- The memory is consistent and a positive value never leaves its entry. -/
structure HistOk (data : Data T) (dom : Domain T) (m : History T) : Prop where
  now : MemOk data dom m.now
  past : ∀ c ∈ m.past, ∀ (i : Nat) (v : T), c[i]? = some v → GoodEntry data dom i v ∧
    ((v >. zero) = true → m.now.cache[i]? = some v)

theorem HistOk.held {data : Data T} {dom : Domain T} {m : History T} (h : HistOk data dom m) {i : Nat}
    {v : T} (hv : m.held i v) : GoodEntry data dom i v ∧ ((v >. zero) = true → m.now.cache[i]? = some v) := by
  obtain ⟨c, hc, hi⟩ := hv
  rcases List.mem_cons.1 hc with rfl | hc
  · exact ⟨h.now.cache _ _ hi, fun _ => hi⟩
  · exact h.past c hc i v hi

/-- Worker `w` and program `q` have the same things left to do; `w` may still have to store a value
that is already there. -/
def Trails (data : Data T) (dom : Domain T) {α : Type} (m : Shared T) (w : Worker T α) (q : Prog T α) :
    Prop :=
  (∃ n cs ps a, Conforms data dom n q cs ps a) ∧
    ((w.prog = q ∧ (w.expected = none ∨ ∃ i v k, q = .addFlux i v k)) ∨
      ∃ i x, w = ⟨.store i x (fun _ => q), none⟩ ∧ XsAt data dom i x ∧ (x >. zero) = true ∧
        m.cache[i]? = some x)

/-- Values stay in the cache. -/
def Keeps (data : Data T) (dom : Domain T) (m m' : Shared T) : Prop :=
  ∀ (i : Nat) (x : T), XsAt data dom i x → m.cache[i]? = some x → m'.cache[i]? = some x

theorem Trails.keep {data : Data T} {dom : Domain T} {α : Type} {m m' : Shared T} {w : Worker T α}
    {q : Prog T α} (h : Trails data dom m w q) (hk : Keeps data dom m m') :
    Trails data dom m' w q := by
  obtain ⟨h1, h2 | ⟨i, x, h2, h3, h4, h5⟩⟩ := h
  · exact ⟨h1, .inl h2⟩
  · exact ⟨h1, .inr ⟨i, x, h2, h3, h4, hk i x h3 h5⟩⟩

theorem Keeps.set {data : Data T} {dom : Domain T} {m : Shared T} {i : Nat} {x : T}
    (hx : XsAt data dom i x) : Keeps data dom m { m with cache := m.cache.set i x } := by
  intro j y hy hj
  dsimp only
  rw [List.getElem?_set]
  split
  · next hij =>
    subst hij
    rw [if_pos (List.getElem?_eq_some_iff.1 hj).1, hx.unique hy]
  · exact hj

theorem HistOk.store {data : Data T} {dom : Domain T} {m : History T} (h : HistOk data dom m) {i : Nat}
    {x : T} (hx : XsAt data dom i x) :
    HistOk data dom ⟨{ m.now with cache := m.now.cache.set i x }, m.now.cache :: m.past⟩ := by
  refine ⟨⟨by simpa using h.now.cacheLen, h.now.fluxLen, ?_⟩, ?_⟩
  · intro j w hw
    dsimp only at hw
    rw [List.getElem?_set] at hw
    split at hw
    · next hij =>
      split at hw
      · cases hw; subst hij; exact .inr hx
      · cases hw
    · exact h.now.cache j w hw
  · intro c hc j v hv
    have key : GoodEntry data dom j v ∧ ((v >. zero) = true → m.now.cache[j]? = some v) := by
      rcases List.mem_cons.1 hc with rfl | hc
      · exact ⟨h.now.cache _ _ hv, fun _ => hv⟩
      · exact h.past c hc j v hv
    exact ⟨key.1, fun hp => Keeps.set hx j v (key.1.pos hp) (key.2 hp)⟩

theorem set_self {α : Type} (l : List α) (i : Nat) (x : α) (h : l[i]? = some x) : l.set i x = l := by
  apply List.ext_getElem?
  intro j
  rw [List.getElem?_set]
  split
  · next hij => subst hij; rw [if_pos (List.getElem?_eq_some_iff.1 h).1, h]
  · rfl

/-- An instruction of a worker is an access of the program it follows, or changes nothing. -/
theorem Trails.step {data : Data T} {dom : Domain T} {α : Type} {m m' : History T} {w w' : Worker T α}
    {q : Prog T α} (hf : Trails data dom m.now w q) (hm : HistOk data dom m)
    (hs : Worker.Step w m w' m') :
    HistOk data dom m' ∧ Keeps data dom m.now m'.now ∧ ∃ q', Trails data dom m'.now w' q' ∧
      (Prog.Step q m.now q' m'.now ∨ (q' = q ∧ m'.now = m.now)) := by
  obtain ⟨⟨n, cs, ps, a, hc⟩, ⟨rfl, he⟩ | ⟨i, x, rfl, hx, hpos, hix⟩⟩ := hf
  · cases hs with
    | @load i k _ v hv =>
      refine ⟨hm, fun _ _ _ h => h, ?_⟩
      obtain ⟨hgood, hcur⟩ := hm.held hv
      dsimp only at hc
      cases hc with
      | @load n _ _ cs ps a hi hz hk =>
        obtain ⟨x, K, hx, h1, h2⟩ := hz
        cases hvp : (v >. zero) with
        | true =>
          exact ⟨k v, ⟨⟨_, _, _, _, hk v hgood⟩, .inl ⟨rfl, .inl rfl⟩⟩, .inl (.load (hcur hvp))⟩
        | false =>
          have hi' := hi
          rw [← hm.now.cacheLen] at hi'
          have hcv := List.getElem?_eq_getElem hi'
          generalize m.now.cache[i] = vc at hcv
          have hgc := hm.now.cache _ _ hcv
          cases hcp : (vc >. zero) with
          | true =>
            obtain rfl := (hgc.pos hcp).unique hx
            have hK := hk vc hgc
            rw [h1 vc hcp] at hK
            refine ⟨K vc, ⟨⟨_, _, _, _, hK⟩, .inr ⟨i, vc, ?_, hx, hcp, hcv⟩⟩, .inl ?_⟩
            · rw [h2 v hvp]
            · have := Prog.Step.load (k := k) hcv
              rw [h1 vc hcp] at this
              exact this
          | false =>
            refine ⟨k vc, ⟨⟨_, _, _, _, hk vc hgc⟩, .inl ⟨?_, .inl rfl⟩⟩, .inl (.load hcv)⟩
            dsimp only
            rw [h2 v hvp, h2 vc hcp]
    | @loadOob i k _ hv =>
      dsimp only at hc
      cases hc with
      | load hi _ _ =>
        rw [List.getElem?_eq_none_iff, hm.now.cacheLen] at hv
        omega
    | @store i v k _ hv =>
      dsimp only at hc
      cases hc with
      | store hi hx hk =>
        exact ⟨hm.store hx, Keeps.set hx, _, ⟨⟨_, _, _, _, hk⟩, .inl ⟨rfl, .inl rfl⟩⟩, .inl (.store hv)⟩
    | storeOob hv =>
      dsimp only at hc
      cases hc with
      | store hi hx hk => rw [hm.now.cacheLen] at hv; omega
    | @fluxRead i v k _ x hi =>
      exact ⟨hm, fun _ _ _ h => h, _, ⟨⟨n, cs, ps, a, hc⟩, .inl ⟨rfl, .inr ⟨_, _, _, rfl⟩⟩⟩, .inr ⟨rfl, rfl⟩⟩
    | @fluxRetry i v k _ x y =>
      exact ⟨hm, fun _ _ _ h => h, _, ⟨⟨n, cs, ps, a, hc⟩, .inl ⟨rfl, .inr ⟨_, _, _, rfl⟩⟩⟩, .inr ⟨rfl, rfl⟩⟩
    | @fluxSwap i v k _ x hx =>
      dsimp only at hc
      cases hc with
      | addFlux hi hk =>
        refine ⟨⟨⟨hm.now.cacheLen, by simpa using hm.now.fluxLen, hm.now.cache⟩, hm.past⟩,
          fun _ _ _ h => h, _, ⟨⟨_, _, _, _, hk⟩, .inl ⟨rfl, .inl rfl⟩⟩, .inl (.addFlux hx)⟩
    | fluxOob hv =>
      dsimp only at hc
      cases hc with
      | addFlux hi hk => rw [hm.now.fluxLen] at hv; omega
    | pushExtra =>
      dsimp only at hc
      cases hc with
      | pushExtra hk =>
        exact ⟨⟨⟨hm.now.cacheLen, hm.now.fluxLen, hm.now.cache⟩, hm.past⟩, fun _ _ _ h => h, _,
          ⟨⟨_, _, _, _, hk⟩, .inl ⟨rfl, .inl rfl⟩⟩, .inl .pushExtra⟩
  · cases hs with
    | store hv =>
      refine ⟨hm.store hx, Keeps.set hx, q, ⟨⟨_, _, _, _, hc⟩, .inl ⟨rfl, .inl rfl⟩⟩, .inr ⟨rfl, ?_⟩⟩
      dsimp only
      rw [set_self _ _ _ hix]
    | storeOob hv => exact (hv (List.getElem?_eq_some_iff.1 hix).1).elim

/-- Every worker follows its program. -/
def PoolTrails (data : Data T) (dom : Domain T) {α : Type} (m : Shared T) (pool : List (Worker T α))
    (progs : List (Prog T α)) : Prop :=
  List.Forall₂ (Trails data dom m) pool progs

theorem forall₂_set {α β : Type} {R : α → β → Prop} {l : List α} {l' : List β} {j : Nat} {a : α} {b : β}
    (h : List.Forall₂ R l l') (hab : R a b) : List.Forall₂ R (l.set j a) (l'.set j b) := by
  induction h generalizing j with
  | nil => exact .nil
  | cons h1 h2 ih =>
    cases j with
    | zero => exact .cons hab h2
    | succ j => exact .cons h1 ih

theorem forall₂_get {α β : Type} {R : α → β → Prop} {l : List α} {l' : List β} {j : Nat} {a : α}
    (h : List.Forall₂ R l l') (ha : l[j]? = some a) : ∃ b, l'[j]? = some b ∧ R a b := by
  induction h generalizing j with
  | nil => cases ha
  | cons h1 h2 ih =>
    cases j with
    | zero => cases ha; exact ⟨_, rfl, h1⟩
    | succ j => exact ih ha

theorem PoolTrails.steps {data : Data T} {dom : Domain T} {α : Type} {m m' : History T}
    {pool pool' : List (Worker T α)} {progs : List (Prog T α)}
    (hf : PoolTrails data dom m.now pool progs) (hm : HistOk data dom m)
    (hs : WorkersSteps pool m pool' m') :
    HistOk data dom m' ∧ ∃ progs', PoolTrails data dom m'.now pool' progs' ∧
      PoolSteps progs m.now progs' m'.now := by
  induction hs with
  | refl => exact ⟨hm, progs, hf, .refl⟩
  | tail _ hst ih =>
    obtain ⟨hm1, progs1, hf1, hs1⟩ := ih
    cases hst with
    | mk hj hw =>
      obtain ⟨q, hq, hfj⟩ := forall₂_get hf1 hj
      obtain ⟨hm2, hk, q', hf2, hcase⟩ := hfj.step hm1 hw
      have hf1' := hf1.imp (fun _ _ h => Trails.keep h hk)
      refine ⟨hm2, progs1.set _ q', forall₂_set hf1' hf2, ?_⟩
      rcases hcase with hstep | ⟨rfl, he⟩
      · exact hs1.tail (.mk hq hstep)
      · rw [set_self _ _ _ hq, he]
        exact hs1

/-- Workers that are finished follow finished programs. -/
theorem PoolTrails.finished {data : Data T} {dom : Domain T} {α : Type} {m : Shared T}
    {results : List α} {progs : List (Prog T α)}
    (h : PoolTrails data dom m (results.map fun r => ⟨.ret r, none⟩) progs) :
    progs = results.map Prog.ret := by
  induction results generalizing progs with
  | nil => cases h; rfl
  | cons r rs ih =>
    cases h with
    | cons h1 h2 =>
      rw [ih h2]
      obtain ⟨_, ⟨h3, _⟩ | ⟨i, x, h3, _⟩⟩ := h1
      · rw [← h3]; rfl
      · cases h3

/-! ### Conversely -/

theorem WorkersSteps.trans {α : Type} {a b c : List (Worker T α)} {m m' m'' : History T}
    (h1 : WorkersSteps a m b m') (h2 : WorkersSteps b m' c m'') : WorkersSteps a m c m'' := by
  induction h2 with
  | refl => exact h1
  | tail _ hst ih => exact ih.tail hst

/-- Workers that run the given programs, outside of any exchange loop but where they have to be. -/
def Runs {α : Type} (w : Worker T α) (p : Prog T α) : Prop :=
  w.prog = p ∧ (w.expected = none ∨ ∃ i v k, p = .addFlux i v k)

theorem step_realised {α : Type} {p p' : Prog T α} {s s' : Shared T} {pool : List (Worker T α)} {j : Nat}
    {w : Worker T α} {m : History T} (hm : m.now = s) (hj : pool[j]? = some w) (hw : Runs w p)
    (h : Prog.Step p s p' s') (hlen : ∀ i v k, p = .addFlux i v k → i < s.flux.length) :
    ∃ m', m'.now = s' ∧ WorkersSteps pool m (pool.set j ⟨p', none⟩) m' := by
  subst hm
  obtain ⟨w, e⟩ := w
  obtain ⟨rfl, he⟩ := hw
  dsimp only at he h hlen
  have hjlt := (List.getElem?_eq_some_iff.1 hj).1
  have one : ∀ m', Worker.Step ⟨w, e⟩ m ⟨p', none⟩ m' → WorkersSteps pool m (pool.set j ⟨p', none⟩) m' :=
    fun m' hs => .tail .refl (.mk hj hs)
  cases h with
  | load hv =>
    obtain rfl : e = none := by
      rcases he with he | ⟨_, _, _, he⟩
      · exact he
      · cases he
    exact ⟨_, rfl, one _ (.load ⟨_, List.mem_cons_self, hv⟩)⟩
  | loadOob hv =>
    obtain rfl : e = none := by
      rcases he with he | ⟨_, _, _, he⟩
      · exact he
      · cases he
    exact ⟨_, rfl, one _ (.loadOob hv)⟩
  | store hv =>
    obtain rfl : e = none := by
      rcases he with he | ⟨_, _, _, he⟩
      · exact he
      · cases he
    exact ⟨_, rfl, one _ (.store hv)⟩
  | storeOob hv =>
    obtain rfl : e = none := by
      rcases he with he | ⟨_, _, _, he⟩
      · exact he
      · cases he
    exact ⟨_, rfl, one _ (.storeOob hv)⟩
  | @addFlux i v k _ x hv =>
    have hi := (List.getElem?_eq_some_iff.1 hv).1
    have hread : Worker.Step (α := α) ⟨.addFlux i v k, e⟩ m ⟨.addFlux i v k, some x⟩ m := by
      cases e with
      | none => exact .fluxRead x hi
      | some y => exact .fluxRetry x
    refine ⟨⟨{ m.now with flux := m.now.flux.set i (Flt.add x v) }, m.past⟩, rfl, ?_⟩
    have h2 := WorkersStep.mk (pool := pool.set j ⟨.addFlux i v k, some x⟩) (j := j)
      (by rw [List.getElem?_set, if_pos rfl, if_pos hjlt]) (Worker.Step.fluxSwap (k := k) (v := v) hv)
    rw [List.set_set] at h2
    exact .tail (.tail .refl (.mk hj hread)) h2
  | @addFluxOob i v k _ hv =>
    rw [List.getElem?_eq_none_iff] at hv
    have := hlen i v k rfl
    omega
  | pushExtra =>
    obtain rfl : e = none := by
      rcases he with he | ⟨_, _, _, he⟩
      · exact he
      · cases he
    exact ⟨_, rfl, one _ .pushExtra⟩

/-- Every execution of the programs is an execution of the workers. -/
theorem steps_realised {data : Data T} {dom : Domain T} {α : Type} {pool : List (Worker T α)}
    {progs progs' : List (Prog T α)} {jobs : List (Job T α)} {m : History T} {s' : Shared T}
    (hp : List.Forall₂ Runs pool progs) (hc : PoolConforms data dom progs jobs)
    (hm : MemOk data dom m.now) (hs : PoolSteps progs m.now progs' s') :
    ∃ pool' m', m'.now = s' ∧ List.Forall₂ Runs pool' progs' ∧ WorkersSteps pool m pool' m' := by
  induction hs with
  | refl => exact ⟨pool, m, rfl, hp, .refl⟩
  | @tail progs1 s1 _ _ hs1 hst ih =>
    obtain ⟨pool1, m1, he, hp1, hw1⟩ := ih
    obtain ⟨hm1, jobs1, _, _, hc1, _⟩ := hc.steps hm hs1
    cases hst with
    | @mk j p p' _ hj hstep =>
      obtain ⟨w, hw, hrun⟩ := forall₂_get (R := fun (p : Prog T α) w => Runs w p) hp1.flip hj
      have hjlt := (List.getElem?_eq_some_iff.1 hj).1
      have hjl : j < jobs1.length := by rw [← hc1.1]; exact hjlt
      have hcj := hc1.2 j p _ hj (List.getElem?_eq_getElem hjl)
      obtain ⟨m2, he2, hw2⟩ := step_realised he hw hrun hstep (by
        rintro i v k rfl
        generalize jobs1[j].steps = a1 at hcj
        generalize jobs1[j].contribs = a2 at hcj
        generalize jobs1[j].pushes = a3 at hcj
        generalize jobs1[j].result = a4 at hcj
        cases hcj with
        | addFlux hi _ => rw [hm1.fluxLen]; exact hi)
      exact ⟨_, m2, he2, forall₂_set hp1 ⟨rfl, .inl rfl⟩, hw1.trans hw2⟩

/-! ### Batches, cycles and runs -/

theorem PoolConforms.follows {data : Data T} {dom : Domain T} {α : Type} {progs : List (Prog T α)}
    {jobs : List (Job T α)} (h : PoolConforms data dom progs jobs) (m : Shared T) :
    PoolTrails data dom m (progs.map fun p => ⟨p, none⟩) progs := by
  have : ∀ p ∈ progs, ∃ n cs ps a, Conforms data dom n p cs ps a := by
    intro p hp
    obtain ⟨j, hj⟩ := List.mem_iff_getElem?.1 hp
    have hjl : j < jobs.length := by rw [← h.1]; exact (List.getElem?_eq_some_iff.1 hj).1
    exact ⟨_, _, _, _, h.2 j p _ hj (List.getElem?_eq_getElem hjl)⟩
  clear h
  induction progs with
  | nil => exact .nil
  | cons p progs ih =>
    exact .cons ⟨this p List.mem_cons_self, .inl ⟨rfl, .inl rfl⟩⟩
      (ih fun q hq => this q (List.mem_cons_of_mem _ hq))

theorem runs_start {α : Type} (progs : List (Prog T α)) :
    List.Forall₂ Runs (progs.map fun p => (⟨p, none⟩ : Worker T α)) progs := by
  induction progs with
  | nil => exact .nil
  | cons p progs ih => exact .cons ⟨rfl, .inl rfl⟩ ih

theorem runs_finished {α : Type} {pool : List (Worker T α)} {results : List α}
    (h : List.Forall₂ Runs pool (results.map Prog.ret)) :
    pool = results.map fun r => ⟨.ret r, none⟩ := by
  induction results generalizing pool with
  | nil => cases h; rfl
  | cons r rs ih =>
    cases h with
    | @cons w _ _ _ h1 h2 =>
      rw [ih h2]
      obtain ⟨w, e⟩ := w
      obtain ⟨rfl, rfl | ⟨_, _, _, h3⟩⟩ := h1
      · rfl
      · cases h3

theorem startWorkers_eq (data : Data T) (dom : Domain T) (fuel k : Nat) (ps : List (Particle T)) :
    startWorkers data dom fuel k ps =
      ((chunks k ps).map (chunkProg data dom fuel)).map fun p => ⟨p, none⟩ := by
  rw [startWorkers, List.map_map]; rfl

theorem histOk_start {data : Data T} {dom : Domain T} {m : Shared T} (h : MemOk data dom m) :
    HistOk data dom ⟨m, []⟩ :=
  ⟨h, fun _ hc => by cases hc⟩

theorem relaxedParticles_iff {data : Data T} {ex : ExecInfo} {fuel : Nat} {u u' : UnitState T}
    {c c' : Container T} (hgc : GroupsChecked data u.dom) (hm : MemOk data u.dom (sharedOf u c))
    {hs : List (Hist T)} (hd : c.processing.mapM (directHist data u.dom fuel) = .ok hs) :
    RelaxedParticles data ex fuel u c u' c' ↔ ProcessParticles data ex fuel u c u' c' := by
  constructor
  · intro h
    cases h with
    | seq hp h => exact .seq hp h
    | @par k m' results hpol hk hsteps h1 h2 h3 =>
      obtain ⟨hss, hfl, hpc⟩ := chunkPool_conforms hgc (chunkSizeFor_pos hk) hd
      rw [startWorkers_eq] at hsteps
      obtain ⟨_, progs', hf, hst⟩ := (hpc.follows (sharedOf u c)).steps (histOk_start hm) hsteps
      exact .par hpol hk hst hf.finished h1 h2 h3
  · intro h
    cases h with
    | seq hp h => exact .seq hp h
    | @par k pool' m' results hpol hk hsteps hpool h1 h2 h3 =>
      subst hpool
      obtain ⟨hss, hfl, hpc⟩ := chunkPool_conforms hgc (chunkSizeFor_pos hk) hd
      obtain ⟨pool', m1, rfl, hr, hst⟩ := steps_realised (m := ⟨sharedOf u c, []⟩)
        (runs_start _) hpc hm hsteps
      rw [runs_finished hr, ← startWorkers_eq] at hst
      exact .par hpol hk hst h1 h2 h3

theorem relaxedLoop_iff {data : Data T} {ex : ExecInfo} {fuel : Nat} {dom : Domain T}
    (hgc : GroupsChecked data dom) {ps b surv cs} (hg : Generations data dom fuel ps b surv cs) :
    ∀ {u u' : UnitState T} {c c' : Container T}, u.dom = dom → MemOk data dom (sharedOf u c) →
      c.extra = [] → ps.Perm c.processing →
      (RelaxedLoop data ex fuel u c u' c' ↔ ProcessLoop data ex fuel u c u' c') := by
  induction hg with
  | done =>
    intro u u' c c' hdom hm hex hp
    rw [List.nil_perm] at hp
    have hdone := (isDone_iff c).2 ⟨hex, hp⟩
    constructor
    · intro hl
      cases hl with
      | done h => exact .done h
      | iter hnd => rw [hdone] at hnd; cases hnd
    · intro hl
      cases hl with
      | done h => exact .done h
      | iter hnd => rw [hdone] at hnd; cases hnd
  | @next ps hs b surv cs hne hd hgen ih =>
    intro u u' c c' hdom hm hex hp
    subst hdom
    have hsort : ps.Perm c.sort.processing := hp.trans (stableSort_perm _ _).symm
    obtain ⟨hs', hd', hph⟩ := mapM_perm_ok hsort hd
    have hone : ∀ {u1 c1}, RelaxedParticles data ex fuel u c.sort u1 c1 ↔
        ProcessParticles data ex fuel u c.sort u1 c1 :=
      relaxedParticles_iff hgc (c := c.sort) hm hd'
    have hrest : ∀ {u1 c1}, ProcessParticles data ex fuel u c.sort u1 c1 →
        (RelaxedLoop data ex fuel u1 c1.cleanExtra u' c' ↔
          ProcessLoop data ex fuel u1 c1.cleanExtra u' c') := by
      intro u1 c1 hpp
      have hb := processParticles_direct hgc (c := c.sort) hm hd' hpp
      obtain ⟨ex1, hex1, hext⟩ := hb.extra
      have hsx : c.sort.extra = [] := hex
      rw [hsx, List.nil_append] at hext
      have hcl : c1.cleanExtra.processing = ex1 := by
        rw [Container.cleanExtra, hb.processing, hext]; rfl
      exact ih (u := u1) (c := c1.cleanExtra) hb.dom
        ⟨hb.mem.cacheLen, hb.mem.fluxLen, hb.mem.cache⟩ rfl
        (by rw [hcl]; exact (hph.flatMap_right (fun h : Hist T => h.extra)).trans hex1.symm)
    constructor
    · intro hl
      cases hl with
      | done h => exact .done h
      | iter hnd hpp hl => exact .iter hnd (hone.1 hpp) ((hrest (hone.1 hpp)).1 hl)
    · intro hl
      cases hl with
      | done h => exact .done h
      | iter hnd hpp hl => exact .iter hnd (hone.2 hpp) ((hrest hpp).2 hl)

/-- The tables before the tracking loop of a cycle. -/
theorem populationControl_memOk {data : Data T} {n : Nat} {w : T}
    (hz : (zero >. (zero : T)) = false) {u u1 : UnitState T} {c c1 : Container T}
    (hs : Sized data u) (hcache : ∀ (i : Nat) v, u.cache[i]? = some v → v = zero)
    (h : populationControl data n w u c = .ok (u1, c1)) :
    GroupsChecked data u1.dom ∧ MemOk data u1.dom (sharedOf u1 c1) := by
  have hsk := populationControl_skeleton h
  obtain ⟨hf, hc⟩ : u1.flux = u.flux ∧ u1.cache = u.cache := by
    simp only [populationControl, sourceNow, bind_ok, pure_ok, Prod.exists, Prod.mk.injEq] at h
    obtain ⟨u3, c3, ⟨_, _, _, _, _, rfl, rfl⟩, f, _, h⟩ := h
    unfold regulateOrSplit at h
    split at h
    · simp only [Except.ok.injEq, Prod.mk.injEq] at h; rw [← h.1]; exact ⟨rfl, rfl⟩
    · split at h
      · simp only [bind_ok, pure_ok, Prod.exists, Prod.mk.injEq] at h
        obtain ⟨_, _, _, rfl, _⟩ := h
        exact ⟨rfl, rfl⟩
      · simp only [Except.ok.injEq, Prod.mk.injEq] at h; rw [← h.1]; exact ⟨rfl, rfl⟩
  refine ⟨groupsChecked_skeleton hsk hs.groups, ?_, ?_, ?_⟩
  · rw [tableSize_skeleton hsk, sharedOf, hc]; exact hs.cacheLen
  · rw [tableSize_skeleton hsk, sharedOf, hf]; exact hs.fluxLen
  · intro i v hv
    left
    rw [sharedOf, hc] at hv
    rw [hcache i v hv]
    exact hz

theorem relaxedProcess_iff {data : Data T} {ex : ExecInfo} {fuel n : Nat} {w : T}
    (hz : (zero >. (zero : T)) = false) {u u' u1 u1' : UnitState T} {c c' c1 c1' : Container T}
    (hu : UnitRel u u') (hc : ContRel c c') (hs : Sized data u')
    (hcache : ∀ (i : Nat) v, u'.cache[i]? = some v → v = zero)
    (hd : DirectCycle data fuel n w u c u1 c1) :
    RelaxedProcess data ex fuel n w u' c' u1' c1' ↔ CycleProcess data ex fuel n w u' c' u1' c1' := by
  obtain ⟨u2, c2, b, surv, cs, hpc, hgen, rfl, rfl⟩ := hd
  obtain ⟨u2', c2', hpc', hu2, hc2, hcache2⟩ := populationControl_rel hu hc hpc
  obtain ⟨hgc, hm⟩ := populationControl_memOk hz hs hcache hpc'
  rw [← hu2.dom] at hgen
  have key := @relaxedLoop_iff T _ data ex fuel _ hgc _ _ _ _ hgen u2' u1' c2' c1' rfl hm hc2.extra'
    hc2.processing
  constructor
  · rintro ⟨u3, c3, hpc3, hl⟩
    rw [hpc'] at hpc3
    simp only [Except.ok.injEq, Prod.mk.injEq] at hpc3
    obtain ⟨rfl, rfl⟩ := hpc3
    exact ⟨_, _, hpc', key.1 hl⟩
  · rintro ⟨u3, c3, hpc3, hl⟩
    rw [hpc'] at hpc3
    simp only [Except.ok.injEq, Prod.mk.injEq] at hpc3
    obtain ⟨rfl, rfl⟩ := hpc3
    exact ⟨_, _, hpc', key.2 hl⟩

theorem relaxedCycles_iff {data : Data T} {ex : ExecInfo} {o : SyncOpts} {fuel n : Nat}
    (hz : (zero >. (zero : T)) = false) (hn : n ≤ data.nSteps) {s0 s : SimState T}
    (hs0 : Sized data s0.unit) (hx0 : s0.container.extra = []) (hr0 : s0.reports = [])
    (hd : DirectCycles data o fuel n s0 s) :
    ∀ s', RelaxedCycles data ex o fuel n s0 s' ↔ Cycles data ex o fuel n s0 s' := by
  induction hd with
  | zero =>
    intro s'
    constructor
    · intro h; cases h; exact .zero
    · intro h; cases h; exact .zero
  | @succ n s00 s1 s2 u c hdn hsync hdc ih =>
    have ih := ih (by omega) hs0 hx0 hr0
    have rel := (cycles_rel (ex := ex) (n := n) hz (by omega) hs0 hx0 hr0 hdn).1
    have main : ∀ s1' s2', Cycles data ex o fuel n s00 s1' → cycleSync data o n s1' = .ok s2' →
        ∀ u' c', RelaxedProcess data ex fuel s2'.globalN s2'.srcWeight s2'.unit s2'.container u' c' ↔
          CycleProcess data ex fuel s2'.globalN s2'.srcWeight s2'.unit s2'.container u' c' := by
      intro s1' s2'' hcy hsync'' u' c'
      obtain ⟨hr, hsz⟩ := rel s1' hcy
      obtain ⟨s2', hsync', hr2⟩ := cycleSync_rel hr hsync
      rw [hsync'] at hsync''
      cases hsync''
      obtain ⟨hsz2, hc0⟩ := cycleSync_sized (by omega) hsz hsync'
      rw [hr2.globalN, hr2.srcWeight]
      exact relaxedProcess_iff hz hr2.unit hr2.cont hsz2 hc0 hdc
    intro s'
    constructor
    · intro h
      cases h with
      | succ hcy hsy hp =>
        have hcy' := (ih _).1 hcy
        exact .succ hcy' hsy ((main _ _ hcy' hsy _ _).1 hp)
    · intro h
      cases h with
      | succ hcy hsy hp => exact .succ ((ih _).2 hcy) hsy ((main _ _ hcy hsy _ _).2 hp)

theorem Trails.conforms {data : Data T} {dom : Domain T} {α : Type} {m : Shared T} {w : Worker T α}
    {q : Prog T α} (h : Trails data dom m w q) (hm : MemOk data dom m) :
    (∃ n cs ps a, Conforms data dom n w.prog cs ps a) ∧ Runs w w.prog := by
  obtain ⟨⟨n, cs, ps, a, hc⟩, ⟨rfl, he⟩ | ⟨i, x, rfl, hx, _, hi⟩⟩ := h
  · exact ⟨⟨_, _, _, _, hc⟩, rfl, he⟩
  · have := (List.getElem?_eq_some_iff.1 hi).1
    exact ⟨⟨_, _, _, _, .store (by rw [← hm.cacheLen]; exact this) hx hc⟩, rfl, .inl rfl⟩

theorem PoolTrails.conforms {data : Data T} {dom : Domain T} {α : Type} {m : Shared T}
    {pool : List (Worker T α)} {progs : List (Prog T α)} (h : PoolTrails data dom m pool progs)
    (hm : MemOk data dom m) :
    (∃ jobs, PoolConforms data dom (pool.map (·.prog)) jobs) ∧
      List.Forall₂ Runs pool (pool.map (·.prog)) := by
  unfold PoolTrails at h
  induction h with
  | nil => exact ⟨⟨[], rfl, fun _ _ _ h => by cases h⟩, .nil⟩
  | cons h1 _ ih =>
    obtain ⟨⟨n, cs, ps, a, hc⟩, hr⟩ := h1.conforms hm
    obtain ⟨⟨jobs, hl, hj⟩, hrs⟩ := ih
    refine ⟨⟨⟨n, cs, ps, a⟩ :: jobs, by simp [hl], ?_⟩, .cons hr hrs⟩
    intro j p w hp hw
    cases j with
    | zero => cases hp; cases hw; exact hc
    | succ j => exact hj j p w hp hw
