import Mathlib.Data.List.Perm.Basic
import Mathlib.Data.List.Perm.Lattice
import Verif.Model.Coral
import Verif.Lemmas.Tracking
/-! Counting lemmas for lists of particles, the pool of workers, cycles and runs. -/
set_option linter.unusedSectionVars false
attribute [local irreducible] Rng.lcg Rng.sample Rng.spawn
open Flt
variable {T : Type} [Flt T]

/-! ### Extra particles of a trace -/

/-- The particles pushed on the shared list by a trace. -/
def Ev.pushes : List (Ev T) → List (Particle T)
  | [] => []
  | .push ps :: es => ps ++ Ev.pushes es
  | .load _ _ :: es => Ev.pushes es
  | .store _ _ :: es => Ev.pushes es
  | .add _ _ :: es => Ev.pushes es

/-- The particles pushed by one event. -/
def Ev.pushed : Ev T → List (Particle T)
  | .push ps => ps
  | _ => []

theorem Ev.pushes_eq (es : List (Ev T)) : Ev.pushes es = es.flatMap Ev.pushed := by
  induction es with
  | nil => rfl
  | cons e es ih => cases e <;> simp [Ev.pushes, Ev.pushed, ih]

theorem Ev.pushes_append (a b : List (Ev T)) : Ev.pushes (a ++ b) = Ev.pushes a ++ Ev.pushes b := by
  simp [Ev.pushes_eq]

theorem Ev.Effects.extra {es : List (Ev T)} {m m' : Shared T} (h : Ev.Effects es m m') :
    m'.extra = m.extra ++ Ev.pushes es := by
  induction h with
  | nil => simp [Ev.pushes]
  | cons he _ ih =>
    cases he <;> simp_all [Ev.pushes]

/-- A list of numbered items is a permutation of the concatenation of its classes. -/
theorem perm_flatMap_filter {β : Type} (g : List (Nat × β)) (n : Nat) :
    (g.filter (fun x => decide (x.1 < n))).Perm
      ((List.range n).flatMap fun j => g.filter (fun x => x.1 == j)) := by
  induction n with
  | zero => simp
  | succ n ih =>
    rw [List.range_succ, List.flatMap_append]
    simp only [List.flatMap_cons, List.flatMap_nil, List.append_nil]
    have h1 := List.filter_append_perm (fun x : Nat × β => decide (x.1 < n))
      (g.filter (fun x => decide (x.1 < n + 1)))
    refine h1.symm.trans ?_
    rw [List.filter_filter, List.filter_filter]
    have e1 : (fun x : Nat × β => decide (x.1 < n) && decide (x.1 < n + 1)) =
        fun x => decide (x.1 < n) := by
      funext x; by_cases h : x.1 < n <;> simp [h]; omega
    have e2 : (fun x : Nat × β => (!decide (x.1 < n)) && decide (x.1 < n + 1)) =
        fun x => x.1 == n := by
      funext x
      by_cases h : x.1 = n
      · simp [h]
      · have : (x.1 == n) = false := by simp [h]
        rw [this]
        by_cases h2 : x.1 < n <;> simp [h2]
        omega
    rw [e1, e2]
    exact ih.append_right _

/-- The global trace of a pool is a permutation of the concatenation of the workers' traces. -/
theorem Ev.perm_proj (g : List (Nat × Ev T)) (n : Nat) (h : ∀ x ∈ g, x.1 < n) :
    (g.map Prod.snd).Perm ((List.range n).flatMap fun j => Ev.proj g j) := by
  have h1 := perm_flatMap_filter g n
  rw [List.filter_eq_self.2 (by simpa using h)] at h1
  have h2 := h1.map Prod.snd
  rw [List.map_flatMap] at h2
  exact h2

/-! ### Lists of particles -/

/-- `Tracked data dom fuel ps oss ps'`: the particles `ps`, prepared for the cycle and tracked, have
segments with outcomes `oss` (one list per particle) and become `ps'`. -/
inductive Tracked (data : Data T) (dom : Domain T) (fuel : Nat) :
    List (Particle T) → List (List SegOutcome) → List (Particle T) → Prop where
  | nil : Tracked data dom fuel [] [] []
  | cons {p q ps os oss ps' b ex st'} : gutsPrepare data p = .ok q →
      TrackRun data dom fuel os { particle := q, balance := b, extra := ex } st' →
      Tracked data dom fuel ps oss ps' →
      Tracked data dom fuel (p :: ps) (os :: oss) (st'.particle :: ps')

theorem Tracked.append {data : Data T} {dom : Domain T} {fuel : Nat} {a b a' b' oa ob}
    (h1 : Tracked data dom fuel a oa a') (h2 : Tracked data dom fuel b ob b') :
    Tracked data dom fuel (a ++ b) (oa ++ ob) (a' ++ b') := by
  induction h1 with
  | nil => exact h2
  | cons hg hr _ ih => exact .cons hg hr ih

/-- Counting facts of the tracking of a list of particles, from zero counters. -/
structure Counts (data : Data T) (dom : Domain T) (fuel : Nat) (ps : List (Particle T))
    (oss : List (List SegOutcome)) (ps' : List (Particle T)) (d : Balance)
    (ex : List (Particle T)) : Prop where
  runs : Tracked data dom fuel ps oss ps'
  particles : ps.length + d.produce = d.absorb + d.escape + d.census + d.fission + ex.length
  collisions : d.collision = d.scatter + d.absorb + d.fission
  collision : d.collision = oss.flatten.count .collision
  census : d.census = oss.flatten.count .census
  segments : d.numSegments = oss.flatten.length
  start : d.start = 0
  end_ : d.end_ = 0
  source : d.source = 0
  overRr : d.overRr = 0
  weightRr : d.weightRr = 0
  split : d.split = 0
  survive : (ps'.filter (fun p => p.species ≠ .unknown)).length = d.census
  extraKnown : ∀ q ∈ ex, q.species = .known

theorem Counts.zero (data : Data T) (dom : Domain T) (fuel : Nat) :
    Counts data dom fuel [] [] [] {} [] := by
  refine ⟨.nil, ?_, ?_, ?_, ?_, ?_, rfl, rfl, rfl, rfl, rfl, rfl, ?_, ?_⟩ <;> simp

theorem Counts.append {data : Data T} {dom : Domain T} {fuel : Nat} {a b a' b' oa ob da db ea eb}
    (h1 : Counts data dom fuel a oa a' da ea) (h2 : Counts data dom fuel b ob b' db eb) :
    Counts data dom fuel (a ++ b) (oa ++ ob) (a' ++ b') (da.add db) (ea ++ eb) := by
  obtain ⟨a1, a2, a3, a4, a5, a6, a7, a8, a9, a10, a11, a12, a13, a14⟩ := h1
  obtain ⟨b1, b2, b3, b4, b5, b6, b7, b8, b9, b10, b11, b12, b13, b14⟩ := h2
  constructor
  · exact a1.append b1
  · simp only [Balance.add, List.length_append]; omega
  · simp only [Balance.add]; omega
  · simp [Balance.add, a4, b4]
  · simp [Balance.add, a5, b5]
  · simp only [Balance.add, a6, b6, List.flatten_append, List.length_append]
  · simp only [Balance.add]; omega
  · simp only [Balance.add]; omega
  · simp only [Balance.add]; omega
  · simp only [Balance.add]; omega
  · simp only [Balance.add]; omega
  · simp only [Balance.add]; omega
  · rw [List.filter_append, List.length_append, a13, b13]; simp [Balance.add]
  · intro q hq
    rcases List.mem_append.1 hq with h | h
    · exact a14 q h
    · exact b14 q h

theorem gutsPrepare_species {data : Data T} {p q : Particle T} (h : gutsPrepare data p = .ok q) :
    q.species = p.species := by
  simp only [gutsPrepare, bind_ok, pure_ok] at h
  obtain ⟨g, _, rfl⟩ := h
  dsimp only
  split <;> rfl

theorem trackAll_counts {data : Data T} {dom : Domain T} {fuel : Nat} {ps : List (Particle T)}
    {b : Balance} {ex : List (Particle T)} {tr : List (Ev T)} {ps' : List (Particle T)}
    {b' : Balance} {ex' : List (Particle T)} (hk : ∀ p ∈ ps, p.species = .known)
    (h : (trackAll data dom fuel ps b ex).May tr (ps', b', ex')) :
    ∃ oss d dex, b' = b.add d ∧ ex' = ex ++ dex ∧ Counts data dom fuel ps oss ps' d dex := by
  induction ps generalizing b ex tr ps' b' ex' with
  | nil =>
    have := (Prog.May.ret_inv h).2
    simp only [Prod.mk.injEq] at this
    obtain ⟨rfl, rfl, rfl⟩ := this
    exact ⟨[], {}, [], (Balance.add_zero _).symm, by simp, Counts.zero _ _ _⟩
  | cons p ps ih =>
    unfold trackAll at h
    obtain ⟨t1, t2, st, rfl, h1, h2⟩ := h.bind_inv
    obtain ⟨t3, t4, ⟨l, b2, ex2⟩, rfl, h3, h4⟩ := h2.bind_inv
    have := (Prog.May.ret_inv h4).2
    simp only [Prod.mk.injEq] at this
    obtain ⟨rfl, rfl, rfl⟩ := this
    obtain ⟨oss, d, dex, hb, hex, hc⟩ := ih (fun p hp => hk p (by simp [hp])) h3
    unfold trackGuts at h1
    obtain ⟨t5, t6, q, rfl, h5, h6⟩ := h1.bind_inv
    obtain ⟨_, hq⟩ := h5.ofExcept_inv
    obtain ⟨os, hrun⟩ := trackLoop_run h6
    have hqk : q.species = .known := (gutsPrepare_species hq).trans (hk p (by simp))
    obtain ⟨d1, ex1, hcount⟩ := hrun.count hqk
    have hone : Counts data dom fuel [p] [os] [st.particle] d1 ex1 := by
      obtain ⟨e1, e2, e3, e4, e5, e6, e7, e8, e9, e10, e11, e12, e13, e14, e15⟩ := hcount
      refine ⟨.cons hq hrun .nil, ?_, e4, ?_, ?_, ?_, e8, e9, e10, e11, e12, e13, ?_, e15⟩
      · simpa using e3
      · simpa using e5
      · simpa using e6
      · simpa using e7
      · rw [e14]
        cases hsp : st.particle.species <;> simp [hsp]
    have hb1 := hcount.balance
    have he1 := hcount.extra
    dsimp only at hb1 he1
    refine ⟨_, _, _, ?_, ?_, hone.append hc⟩
    · rw [hb, hb1, Balance.add_assoc]
    · rw [hex, he1, List.append_assoc]

/-- The trace of a cross-section look-up. -/
theorem cachedXs_inv {data : Data T} {dom : Domain T} {cell group : Nat} {tr : List (Ev T)} {xs : T}
    (h : (cachedXs data dom cell group).May tr xs) :
    (∃ v, tr = [.load (cell * dom.numGroups + group) v] ∧ (v >. zero) = true ∧ xs = v) ∨
    (∃ v, tr = [.load (cell * dom.numGroups + group) v, .store (cell * dom.numGroups + group) xs] ∧
      (v >. zero) = false ∧ directXs data dom cell group = .ok xs) := by
  unfold cachedXs at h
  cases h with
  | @load _ _ v tr _ h =>
    dsimp only at h
    split at h
    · next hv =>
      obtain ⟨rfl, rfl⟩ := Prog.May.ret_inv h
      exact .inl ⟨_, rfl, hv, rfl⟩
    · next hv =>
      split at h
      · exact (Prog.May.fail_inv h).elim
      · next x hx =>
        cases h with
        | store h =>
          obtain ⟨rfl, rfl⟩ := Prog.May.ret_inv h
          exact .inr ⟨v, rfl, by simpa using hv, hx⟩

theorem outcome_pushes {data : Data T} {dom : Domain T} {p : Particle T} {tr : List (Ev T)}
    {r : SegOutcome × Particle T} (h : (outcome data dom p).May tr r) : Ev.pushes tr = [] := by
  unfold outcome at h
  dsimp only at h
  obtain ⟨t1, t2, xs, rfl, h1, h2⟩ := h.bind_inv
  obtain ⟨rfl, _⟩ := h2.ofExcept_inv
  rcases cachedXs_inv h1 with ⟨v, rfl, _⟩ | ⟨v, rfl, _⟩ <;> simp [Ev.pushes]

theorem trackLoop_pushes {data : Data T} {dom : Domain T} {cfuel fuel : Nat} {st st' : TrackState T}
    {tr : List (Ev T)} (h : (trackLoop data dom cfuel fuel st).May tr st') : Ev.pushes tr = [] := by
  induction fuel generalizing st tr with
  | zero => exact (Prog.May.fail_inv h).elim
  | succ n ih =>
    unfold trackLoop at h
    obtain ⟨t1, t2, ⟨keep, st2⟩, rfl, h1, h2⟩ := h.bind_inv
    obtain ⟨tr1, o, p, st1, ho, hst1, rfl, hev⟩ := trackStep_inv h1
    rw [Ev.pushes_append, Ev.pushes_append, outcome_pushes ho]
    cases keep with
    | true => simpa [Ev.pushes] using ih (by simpa using h2)
    | false =>
      have := (Prog.May.ret_inv (by simpa using h2)).1
      subst this
      rfl

theorem trackAll_pushes {data : Data T} {dom : Domain T} {fuel : Nat} {ps : List (Particle T)}
    {b : Balance} {ex : List (Particle T)} {tr : List (Ev T)}
    {r : List (Particle T) × Balance × List (Particle T)}
    (h : (trackAll data dom fuel ps b ex).May tr r) : Ev.pushes tr = [] := by
  induction ps generalizing b ex tr r with
  | nil => rw [(Prog.May.ret_inv h).1]; rfl
  | cons p ps ih =>
    unfold trackAll at h
    obtain ⟨t1, t2, st, rfl, h1, h2⟩ := h.bind_inv
    obtain ⟨t3, t4, ⟨l, b2, ex2⟩, rfl, h3, h4⟩ := h2.bind_inv
    unfold trackGuts at h1
    obtain ⟨t5, t6, q, rfl, h5, h6⟩ := h1.bind_inv
    obtain ⟨rfl, hq⟩ := h5.ofExcept_inv
    rw [Ev.pushes_append, Ev.pushes_append, Ev.pushes_append, trackLoop_pushes h6, ih h3,
      (Prog.May.ret_inv h4).1]
    rfl

theorem chunkProg_counts {data : Data T} {dom : Domain T} {fuel : Nat} {ps : List (Particle T)}
    {tr : List (Ev T)} {ps' : List (Particle T)} {b' : Balance}
    (hk : ∀ p ∈ ps, p.species = .known)
    (h : (chunkProg data dom fuel ps).May tr (ps', b')) :
    ∃ oss, Counts data dom fuel ps oss ps' b' (Ev.pushes tr) := by
  unfold chunkProg at h
  obtain ⟨t1, t2, ⟨l, b, ex⟩, rfl, h1, h2⟩ := h.bind_inv
  dsimp only at h2
  cases h2 with
  | pushExtra h2 =>
    obtain ⟨rfl, h3⟩ := Prog.May.ret_inv h2
    simp only [Prod.mk.injEq] at h3
    obtain ⟨rfl, rfl⟩ := h3
    obtain ⟨oss, d, dex, hb, hex, hc⟩ := trackAll_counts hk h1
    rw [Balance.zero_add] at hb
    rw [List.nil_append] at hex
    subst hb hex
    have : Ev.pushes t1 = [] := trackAll_pushes h1
    rw [Ev.pushes_append, this]
    simpa [Ev.pushes] using ⟨oss, hc⟩

/-! ### Chunks -/

theorem chunksAux_flatten {α : Type} (k n : Nat) (l : List α) (hk : 0 < k) (hn : l.length ≤ n) :
    (chunksAux k n l).flatten = l := by
  induction n generalizing l with
  | zero => simp at hn; subst hn; rfl
  | succ n ih =>
    cases l with
    | nil => rfl
    | cons a l =>
      rw [chunksAux, List.flatten_cons, ih _ (by simp at hn ⊢; omega)]
      · exact List.take_append_drop k (a :: l)
      · simp

theorem chunks_flatten {α : Type} (k : Nat) (l : List α) (hk : 0 < k) :
    (chunks k l).flatten = l := chunksAux_flatten k _ l hk (Nat.le_refl _)

/-- With `k = 0`, which Rust rejects, the model's chunks are empty lists. -/
theorem chunksAux_zero_mem {α : Type} (n : Nat) (l c : List α) (h : c ∈ chunksAux 0 n l) : c = [] := by
  induction n generalizing l with
  | zero => simp [chunksAux] at h
  | succ n ih =>
    cases l with
    | nil => simp [chunksAux] at h
    | cons a l =>
      simp only [chunksAux, List.take_zero, List.drop_zero, List.mem_cons] at h
      rcases h with rfl | h
      · rfl
      · exact ih _ h

theorem chunkSizeFor_pos {ex : ExecInfo} {n k : Nat} (h : chunkSizeFor ex n = .ok k) : 0 < k := by
  unfold chunkSizeFor at h
  split at h
  · split at h
    · cases h
    · cases h; exact Nat.succ_pos _
  · cases h; omega

/-- Counting over a list of finished workers. -/
theorem counts_workers {data : Data T} {dom : Domain T} {fuel : Nat} (cs : List (List (Particle T)))
    (results : List (List (Particle T) × Balance)) (g : Nat → List (Ev T))
    (hlen : cs.length = results.length) (hk : ∀ c ∈ cs, ∀ p ∈ c, p.species = .known)
    (hmay : ∀ j c r, cs[j]? = some c → results[j]? = some r →
      (chunkProg data dom fuel c).May (g j) r)
    {ps0 oss0 ps0' d0 ex0} (h0 : Counts data dom fuel ps0 oss0 ps0' d0 ex0) :
    ∃ oss, Counts data dom fuel (ps0 ++ cs.flatten) (oss0 ++ oss)
      (ps0' ++ (results.map Prod.fst).flatten)
      ((results.map Prod.snd).foldl Balance.add d0)
      (ex0 ++ (List.range cs.length).flatMap fun j => Ev.pushes (g j)) := by
  induction cs generalizing results g ps0 oss0 ps0' d0 ex0 with
  | nil =>
    cases results with
    | nil => exact ⟨[], by simpa using h0⟩
    | cons _ _ => simp at hlen
  | cons c cs ih =>
    cases results with
    | nil => simp at hlen
    | cons r rs =>
      obtain ⟨oss1, h1⟩ := chunkProg_counts (hk c (by simp)) (hmay 0 c r (by simp) (by simp))
      obtain ⟨oss2, h2⟩ := ih rs (fun j => g (j + 1)) (by simpa using hlen)
        (fun c hc => hk c (by simp [hc]))
        (fun j c r hc hr => hmay (j + 1) c r (by simpa using hc) (by simpa using hr)) (h0.append h1)
      refine ⟨oss1 ++ oss2, ?_⟩
      simp only [List.flatten_cons, List.map_cons, List.foldl_cons, List.length_cons,
        List.range_succ_eq_map, List.flatMap_cons, List.flatMap_map]
      simpa only [List.append_assoc] using h2

/-- Counting facts of `process_particles`, for every policy and every schedule. -/
theorem processParticles_counts {data : Data T} {ex : ExecInfo} {fuel : Nat} {u u' : UnitState T}
    {c c' : Container T} (hk : ∀ p ∈ c.processing, p.species = .known)
    (h : ProcessParticles data ex fuel u c u' c') :
    ∃ oss ps' d dex, Counts data u.dom fuel c.processing oss ps' d dex ∧
      u'.dom = u.dom ∧ u'.unitWeight = u.unitWeight ∧ u'.balance = u.balance.add d ∧
      c'.processing = [] ∧
      c'.processed = c.processed ++ ps'.filter (fun p => p.species ≠ .unknown) ∧
      c'.extra.Perm (c.extra ++ dex) := by
  cases h with
  | seq _ h =>
    simp only [processSeq, bind_ok, pure_ok, Prod.exists] at h
    obtain ⟨ps, b, m, hrun, hfin⟩ := h
    obtain ⟨tr, hmay, heff⟩ := Prog.run_may hrun
    obtain ⟨oss, hc⟩ := chunkProg_counts hk hmay
    simp only [finishProcess, Prod.mk.injEq] at hfin
    obtain ⟨rfl, rfl⟩ := hfin
    refine ⟨oss, ps, b, _, hc, rfl, rfl, rfl, rfl, rfl, ?_⟩
    dsimp only
    rw [heff.extra]
    exact .refl _
  | @par k pool' m' results _ hks hsteps hpool _ _ _ =>
    subst hpool
    obtain ⟨hlen, g, heff, hlt, hmay⟩ := Prog.pool_trace hsteps
    rw [List.length_map] at hlen hlt
    have hkpos := chunkSizeFor_pos hks
    have hflat := chunks_flatten k c.processing hkpos
    obtain ⟨oss, hc⟩ := counts_workers (data := data) (dom := u.dom) (fuel := fuel)
      (chunks k c.processing) results (Ev.proj g) hlen
      (fun ch hch p hp => hk p (by rw [← hflat]; exact List.mem_flatten.2 ⟨ch, hch, hp⟩))
      (fun j ch r hch hr => hmay j _ r (by rw [List.getElem?_map, hch]; rfl) hr)
      (Counts.zero data u.dom fuel)
    simp only [List.nil_append, hflat] at hc
    refine ⟨oss, _, _, _, hc, rfl, rfl, rfl, rfl, rfl, ?_⟩
    simp only [finishProcess]
    rw [heff.extra]
    refine List.Perm.append_left _ ?_
    rw [Ev.pushes_eq]
    refine ((Ev.perm_proj g _ hlt).flatMap_right _).trans ?_
    rw [List.flatMap_assoc]
    simp only [Ev.pushes_eq]
    exact .refl _
