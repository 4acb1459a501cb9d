import Verif.Model.Tracking
import Verif.Lemmas.Except
import Verif.Lemmas.Prog
/-! Lemmas on the tracking of one particle: what each function leaves unchanged, and counting. -/
set_option linter.unusedSectionVars false
attribute [local irreducible] Rng.lcg Rng.sample Rng.spawn
open Flt
variable {T : Type} [Flt T]

/-- The retry loop of the nearest-facet search changes the coordinate only. -/
theorem nfLoop_frame {mesh : Mesh T} {planes coords direction tol fuel it mf} {p : Particle T}
    {nf : NearestFacet T} {p' : Particle T}
    (h : nfLoop mesh planes coords direction tol fuel it mf p = .ok (nf, p')) :
    p' = { p with coordinate := p'.coordinate } := by
  induction fuel generalizing it mf p with
  | zero => simp [nfLoop] at h
  | succ n ih =>
    simp only [nfLoop, bind_ok] at h
    obtain ⟨dists, _, h⟩ := h
    split at h
    · simp only [bind_ok] at h
      obtain ⟨c, _, h⟩ := h
      split at h
      · have := ih h
        rw [this]
      · simp only [pure_ok, Prod.mk.injEq] at h
        obtain ⟨_, rfl⟩ := h
        rfl
    · simp only [pure_ok, Prod.mk.injEq] at h
      obtain ⟨_, rfl⟩ := h
      rfl

theorem nearestFacet_frame {mesh : Mesh T} {p : Particle T} {nf : NearestFacet T} {p' : Particle T}
    (h : nearestFacet mesh p = .ok (nf, p')) : p' = { p with coordinate := p'.coordinate } := by
  simp only [nearestFacet, mctNf3dg, bind_ok, pure_ok, Prod.mk.injEq, Prod.exists, assertB_ok] at h
  obtain ⟨nf0, p0, ⟨pl, _, h⟩, _, _, _, rfl⟩ := h
  exact nfLoop_frame h

/-- Fields that the computation of a segment never changes. -/
structure SegFrame (p p' : Particle T) : Prop where
  kineticEnergy : p'.kineticEnergy = p.kineticEnergy
  energyGroup : p'.energyGroup = p.energyGroup
  weight : p'.weight = p.weight
  species : p'.species = p.species
  identifier : p'.identifier = p.identifier
  direction : p'.direction = p.direction
  domain : p'.domain = p.domain
  cell : p'.cell = p.cell
  numSegments : p'.numSegments = p.numSegments

theorem SegFrame.refl (p : Particle T) : SegFrame p p := ⟨rfl, rfl, rfl, rfl, rfl, rfl, rfl, rfl, rfl⟩

theorem SegFrame.trans {p q r : Particle T} (h1 : SegFrame p q) (h2 : SegFrame q r) :
    SegFrame p r :=
  ⟨h2.1.trans h1.1, h2.2.trans h1.2, h2.3.trans h1.3, h2.4.trans h1.4, h2.5.trans h1.5,
   h2.6.trans h1.6, h2.7.trans h1.7, h2.8.trans h1.8, h2.9.trans h1.9⟩

theorem prepareXs_frame (p : Particle T) (xs : T) : SegFrame p (prepareXs p xs) := by
  unfold prepareXs
  dsimp only
  by_cases h : (p.numMeanFreePaths ==. zero) = true
  · rw [if_pos h]; constructor <;> rfl
  · rw [if_neg h]; constructor <;> rfl

theorem prepareForced_frame (p : Particle T) : SegFrame p (prepareForced p).2 := by
  unfold prepareForced
  dsimp only
  split <;> constructor <;> rfl

theorem applyOutcome_frame {p : Particle T} {speed : T} {force : Bool} {nf : NearestFacet T}
    {o : SegOutcome} {p' : Particle T} (h : applyOutcome p speed force nf = .ok (o, p')) :
    SegFrame p p' := by
  simp only [applyOutcome, bind_ok, assertB_ok] at h
  obtain ⟨_, _, h⟩ := h
  generalize (if force = true then _ else _ : DistanceHandler T) = hd at h
  obtain ⟨hc, hf, hce, hm, ho⟩ := hd
  cases ho <;> (dsimp only at h; split at h) <;>
    (simp only [pure_ok, Prod.mk.injEq] at h; obtain ⟨_, rfl⟩ := h; constructor <;> rfl)

theorem outcome_frame {data : Data T} {dom : Domain T} {p : Particle T} {tr : List (Ev T)}
    {o : SegOutcome} {p' : Particle T} (h : (outcome data dom p).May tr (o, p')) :
    SegFrame p p' := by
  unfold outcome at h
  dsimp only at h
  obtain ⟨t1, t2, xs, _, _, h2⟩ := h.bind_inv
  obtain ⟨_, h2⟩ := h2.ofExcept_inv
  simp only [outcomeWithXs, bind_ok, Prod.exists] at h2
  obtain ⟨nf, q, hq, h2⟩ := h2
  have hf := nearestFacet_frame hq
  have hq' : SegFrame (prepareXs (prepareForced p).2 xs) q := by
    rw [hf]; constructor <;> rfl
  exact ((prepareForced_frame p).trans (prepareXs_frame _ xs)).trans
    (hq'.trans (applyOutcome_frame h2))

/-! ### Counting -/

/-- What one event adds to the balance (`d`) and to the extra particles (`ex`).  `keep` tells whether
tracking goes on. -/
structure EventCount (o : SegOutcome) (keep : Bool) (st st' : TrackState T) (d : Balance)
    (ex : List (Particle T)) : Prop where
  balance : st'.balance = st.balance.add d
  extra : st'.extra = st.extra ++ ex
  /-- particles before = particles after -/
  particles : 1 + d.produce =
    (if keep then 1 else 0) + d.absorb + d.escape + d.census + d.fission + ex.length
  collisions : d.collision = d.scatter + d.absorb + d.fission
  collision : d.collision = (if o = .collision then 1 else 0)
  census : d.census = (if o = .census then 1 else 0)
  segments : d.numSegments = 0
  start : d.start = 0
  end_ : d.end_ = 0
  source : d.source = 0
  overRr : d.overRr = 0
  weightRr : d.weightRr = 0
  split : d.split = 0
  alive : keep = true → st'.particle.species = .known ∧ o ≠ .census
  dead : keep = false →
    (st'.particle.species = .known ∧ o = .census) ∨ (st'.particle.species = .unknown ∧ o ≠ .census)
  extraKnown : ∀ q ∈ ex, q.species = .known

theorem Balance.add_zero (b : Balance) : b.add {} = b := by
  cases b; rfl

theorem Balance.zero_add (b : Balance) : Balance.add {} b = b := by
  cases b; simp [Balance.add]

theorem Balance.add_assoc (a b c : Balance) : (a.add b).add c = a.add (b.add c) := by
  simp [Balance.add, Nat.add_assoc]

theorem Balance.add_comm (a b : Balance) : a.add b = b.add a := by
  simp [Balance.add, Nat.add_comm]

theorem tallyCollision_eq_add (b : Balance) (t : ReactionType) (n : Nat) :
    tallyCollision b t n = b.add (tallyCollision {} t n) := by
  cases t <;> simp [tallyCollision, Balance.add]

theorem updateTrajectory_species (p : Particle T) (e a : T) :
    (p.updateTrajectory e a).species = p.species := rfl

theorem drawFissions_length (n : Nat) (s : BitVec 64) :
    (Particle.drawFissions (T := T) n s).1.length = n := by
  induction n generalizing s with
  | zero => rfl
  | succ n ih => simp [Particle.drawFissions, ih]

theorem spawnSeeds_length (n : Nat) (s : BitVec 64) : (Particle.spawnSeeds n s).1.length = n := by
  induction n generalizing s with
  | zero => rfl
  | succ n ih => simp [Particle.spawnSeeds, ih]

/-- Counting facts of `sample_collision`. -/
theorem sampleCollision_count {p : Particle T} {r : Reaction T} {mass : T} {n : Nat}
    {p' : Particle T} {ex : List (Particle T)}
    (h : p.sampleCollision r mass = .ok (n, p', ex)) :
    p'.species = p.species ∧ (∀ q ∈ ex, q.species = p.species) ∧ ex.length = n - 1 ∧
    (r.rtype = .scatter → n = 1) ∧ (r.rtype = .absorption → n = 0) := by
  unfold Particle.sampleCollision at h
  split at h
  · next hr =>
    simp only [Except.ok.injEq, Prod.mk.injEq] at h
    obtain ⟨rfl, rfl, rfl⟩ := h
    exact ⟨rfl, by simp, rfl, fun _ => rfl, by simp [hr]⟩
  · next hr =>
    simp only [Except.ok.injEq, Prod.mk.injEq] at h
    obtain ⟨rfl, rfl, rfl⟩ := h
    exact ⟨rfl, by simp, rfl, by simp [hr], fun _ => rfl⟩
  · next hr =>
    simp only [bind_ok, unwrap_ok] at h
    obtain ⟨k, _, h⟩ := h
    split at h
    · simp only [pure_ok, Prod.mk.injEq] at h
      obtain ⟨rfl, rfl, rfl⟩ := h
      exact ⟨rfl, by simp, rfl, by simp [hr], by simp [hr]⟩
    · split at h
      · simp only [pure_ok, Prod.mk.injEq] at h
        obtain ⟨rfl, rfl, rfl⟩ := h
        exact ⟨rfl, by simp, rfl, by simp [hr], by simp [hr]⟩
      · simp only [bind_ok, pure_ok, Prod.mk.injEq] at h
        obtain ⟨_, _, rfl, rfl, rfl⟩ := h
        refine ⟨rfl, ?_, ?_, by simp [hr], by simp [hr]⟩
        · intro q hq
          obtain ⟨⟨sd, e, a⟩, _, rfl⟩ := List.mem_map.1 hq
          rfl
        · simp [drawFissions_length, spawnSeeds_length]

theorem collisionBranch_count {data : Data T} {dom : Domain T} {fuel : Nat} {st st' : TrackState T}
    {keep : Bool} (hs : st.particle.species = .known)
    (h : collisionBranch data dom fuel st = .ok (keep, st')) :
    ∃ d ex, EventCount .collision keep st st' d ex := by
  simp only [collisionBranch, collisionEvent, bind_ok, pure_ok, Prod.mk.injEq, Prod.exists] at h
  obtain ⟨cs, _, k, st1, ⟨mat, _, ro, _, h1⟩, g, _, rfl, rfl⟩ := h
  cases ro with
  | none => simp at h1
  | some r =>
    simp only [bind_ok, pure_ok, Prod.mk.injEq, Prod.exists] at h1
    obtain ⟨n, p', ex, hsc, rfl, rfl⟩ := h1
    obtain ⟨hsp, hex, hlen, hsc1, hab⟩ := sampleCollision_count hsc
    have hsp' : (st.particle.getCurrentXs).2.species = .known := by
      simp only [Particle.getCurrentXs, hs]
    rw [hsp'] at hsp hex
    refine ⟨tallyCollision {} r.rtype n, ex, ?_⟩
    have hb := tallyCollision_eq_add st.balance r.rtype n
    cases hr : r.rtype with
    | scatter =>
      have hn := hsc1 hr; subst hn
      rw [hr] at hb
      constructor <;> simp_all [tallyCollision]
    | absorption =>
      have hn := hab hr; subst hn
      rw [hr] at hb
      constructor <;> simp_all [tallyCollision]
    | fission =>
      rw [hr] at hb
      by_cases hn : n ≥ 1
      · constructor <;> simp_all [tallyCollision] <;> (try omega)
      · have hn0 : n = 0 := by omega
        subst hn0
        constructor <;> simp_all [tallyCollision]

theorem facetCrossingEvent_species {p : Particle T} {adj : SubfacetAdj} {p' : Particle T}
    (h : facetCrossingEvent p adj = .ok p') : p'.species = p.species := by
  unfold facetCrossingEvent at h
  split at h
  all_goals first
    | (simp only [bind_ok, pure_ok] at h; obtain ⟨_, _, _, _, _, _, rfl⟩ := h; rfl)
    | (simp only [Except.ok.injEq] at h; subst h; rfl)
    | simp at h

theorem facetBranch_count {dom : Domain T} {st st' : TrackState T} {keep : Bool}
    (hs : st.particle.species = .known) (h : facetBranch dom st = .ok (keep, st')) :
    ∃ d ex, EventCount .facetCrossing keep st st' d ex := by
  simp only [facetBranch, bind_ok] at h
  obtain ⟨conn, _, fa, _, p, hp, h⟩ := h
  have hsp := facetCrossingEvent_species hp
  split at h
  · simp only [pure_ok, Prod.mk.injEq] at h
    obtain ⟨rfl, rfl⟩ := h
    refine ⟨{}, [], ?_⟩
    constructor <;> simp_all [Balance.add_zero]
  · simp only [bind_ok, pure_ok, Prod.mk.injEq] at h
    obtain ⟨_, _, _, _, rfl, rfl⟩ := h
    refine ⟨{}, [], ?_⟩
    constructor <;> simp_all [reflectParticle, Balance.add_zero]
  · simp at h
  · simp only [pure_ok, Prod.mk.injEq] at h
    obtain ⟨rfl, rfl⟩ := h
    refine ⟨{ escape := 1 }, [], ?_⟩
    constructor <;> simp_all [Balance.add]
  · simp at h

theorem segmentEvent_count {data : Data T} {dom : Domain T} {fuel : Nat} {o : SegOutcome}
    {st st' : TrackState T} {keep : Bool} (hs : st.particle.species = .known)
    (h : segmentEvent data dom fuel o st = .ok (keep, st')) : ∃ d ex, EventCount o keep st st' d ex := by
  cases o with
  | collision => exact collisionBranch_count hs h
  | facetCrossing => exact facetBranch_count hs h
  | census =>
    simp only [segmentEvent, Except.ok.injEq, Prod.mk.injEq] at h
    obtain ⟨rfl, rfl⟩ := h
    refine ⟨{ census := 1 }, [], ?_⟩
    constructor <;> simp_all [Balance.add]

/-! ### The list of the segments of a particle -/

/-- `TrackRun data dom cfuel os st st'`: the tracking loop goes from `st` to `st'` through segments
whose outcomes are `os`, with *some* answers of the shared memory.  A ghost of `trackLoop`. -/
inductive TrackRun (data : Data T) (dom : Domain T) (cfuel : Nat) :
    List SegOutcome → TrackState T → TrackState T → Prop where
  | last {o st st1 st' tr p} : (outcome data dom st.particle).May tr (o, p) →
      st1 = { st with particle := { p with numSegments := p.numSegments +. one },
                      balance := { st.balance with numSegments := st.balance.numSegments + 1 } } →
      segmentEvent data dom cfuel o st1 = .ok (false, st') →
      TrackRun data dom cfuel [o] st st'
  | more {o os st st1 st2 st' tr p} : (outcome data dom st.particle).May tr (o, p) →
      st1 = { st with particle := { p with numSegments := p.numSegments +. one },
                      balance := { st.balance with numSegments := st.balance.numSegments + 1 } } →
      segmentEvent data dom cfuel o st1 = .ok (true, st2) →
      TrackRun data dom cfuel os st2 st' →
      TrackRun data dom cfuel (o :: os) st st'

theorem trackStep_inv {data : Data T} {dom : Domain T} {fuel : Nat} {st : TrackState T}
    {tr : List (Ev T)} {r : Bool × TrackState T} (h : (trackStep data dom fuel st).May tr r) :
    ∃ tr1 o p st1, (outcome data dom st.particle).May tr1 (o, p) ∧
      st1 = { st with particle := { p with numSegments := p.numSegments +. one },
                      balance := { st.balance with numSegments := st.balance.numSegments + 1 } } ∧
      tr = tr1 ++ [Ev.add (fluxIndex dom.numGroups p.cell p.energyGroup)
        (p.segmentPathLength *. p.weight)] ∧
      segmentEvent data dom fuel o st1 = .ok r := by
  unfold trackStep at h
  obtain ⟨t1, t2, ⟨o, p⟩, rfl, h1, h2⟩ := h.bind_inv
  dsimp only at h2
  cases h2 with
  | addFlux h2 =>
    obtain ⟨rfl, h3⟩ := Prog.May.ofExcept_inv h2
    exact ⟨t1, o, p, _, h1, rfl, rfl, h3⟩

theorem trackLoop_run {data : Data T} {dom : Domain T} {cfuel fuel : Nat} {st st' : TrackState T}
    {tr : List (Ev T)} (h : (trackLoop data dom cfuel fuel st).May tr st') :
    ∃ os, TrackRun data dom cfuel os st st' := by
  induction fuel generalizing st tr with
  | zero => exact (Prog.May.fail_inv h).elim
  | succ n ih =>
    unfold trackLoop at h
    obtain ⟨t1, t2, ⟨keep, st2⟩, rfl, h1, h2⟩ := h.bind_inv
    obtain ⟨tr1, o, p, st1, ho, hst1, _, hev⟩ := trackStep_inv h1
    cases keep with
    | true =>
      obtain ⟨os, hos⟩ := ih (by simpa using h2)
      exact ⟨_, .more ho hst1 hev hos⟩
    | false =>
      have := (Prog.May.ret_inv (by simpa using h2)).2
      subst this
      exact ⟨_, .last ho hst1 hev⟩

/-- What tracking one particle adds to the counters, in terms of the outcomes of its segments. -/
structure TrackCount (os : List SegOutcome) (st st' : TrackState T) (d : Balance)
    (ex : List (Particle T)) : Prop where
  balance : st'.balance = st.balance.add d
  extra : st'.extra = st.extra ++ ex
  particles : 1 + d.produce = d.absorb + d.escape + d.census + d.fission + ex.length
  collisions : d.collision = d.scatter + d.absorb + d.fission
  collision : d.collision = os.count .collision
  census : d.census = os.count .census
  segments : d.numSegments = os.length
  start : d.start = 0
  end_ : d.end_ = 0
  source : d.source = 0
  overRr : d.overRr = 0
  weightRr : d.weightRr = 0
  split : d.split = 0
  survive : d.census = if st'.particle.species = .known then 1 else 0
  extraKnown : ∀ q ∈ ex, q.species = .known

theorem TrackRun.count {data : Data T} {dom : Domain T} {cfuel : Nat} {os : List SegOutcome}
    {st st' : TrackState T} (h : TrackRun data dom cfuel os st st')
    (hs : st.particle.species = .known) : ∃ d ex, TrackCount os st st' d ex := by
  induction h with
  | @last o st st1 st' tr p ho hst1 hev =>
    have hf := outcome_frame ho
    have hs1 : st1.particle.species = .known := by rw [hst1]; exact hf.species.trans hs
    obtain ⟨d, ex, e⟩ := segmentEvent_count hs1 hev
    obtain ⟨e1, e2, e3, e4, e5, e6, e7, e8, e9, e10, e11, e12, e13, _, e14, e15⟩ := e
    refine ⟨{ d with numSegments := 1 }, ex, ?_⟩
    have e14 := e14 rfl
    subst hst1
    dsimp only at *
    cases o <;> constructor <;> simp_all [Balance.add]
  | @more o os st st1 st2 st' tr p ho hst1 hev _ ih =>
    have hf := outcome_frame ho
    have hs1 : st1.particle.species = .known := by rw [hst1]; exact hf.species.trans hs
    obtain ⟨d, ex, e⟩ := segmentEvent_count hs1 hev
    obtain ⟨e1, e2, e3, e4, e5, e6, e7, e8, e9, e10, e11, e12, e13, e14, _, e15⟩ := e
    have e14 := e14 rfl
    obtain ⟨d', ex', i⟩ := ih e14.1
    obtain ⟨i1, i2, i3, i4, i5, i6, i7, i8, i9, i10, i11, i12, i13, i14, i15⟩ := i
    refine ⟨(({ numSegments := 1 } : Balance).add d).add d', ex ++ ex', ?_⟩
    subst hst1
    dsimp only at *
    simp only [if_true] at e3
    constructor
    · rw [i1, e1]; simp [Balance.add, Nat.add_assoc]
    · rw [i2, e2, List.append_assoc]
    · simp only [Balance.add, List.length_append]; omega
    · simp only [Balance.add]; omega
    · simp only [Balance.add, e5, i5]; cases o <;> simp; omega
    · simp only [Balance.add, e6, i6]; cases o <;> simp_all
    · simp only [Balance.add, e7, i7, List.length_cons]; omega
    · simp only [Balance.add]; omega
    · simp only [Balance.add]; omega
    · simp only [Balance.add]; omega
    · simp only [Balance.add]; omega
    · simp only [Balance.add]; omega
    · simp only [Balance.add]; omega
    · rw [← i14]; simp only [Balance.add, e6]; cases o <;> simp_all
    · intro q hq
      rcases List.mem_append.1 hq with h | h
      · exact e15 q h
      · exact i15 q h
