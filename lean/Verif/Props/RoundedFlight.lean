import Verif.Lemmas.FloatWeights
import Verif.Lemmas.TrackedBy
import Verif.Props.Rounded
import Verif.Props.Rounding
/-!
# C78: flight, time and weight with rounding

With rounding, no length, time, optical path, age or weight gets a wrong sign, so that no collision is ever forced by
an optical path that went below zero; a particle that survives a cycle has exactly no time left; and the error of the
flux is relative to the flux.  The theorems hold for every arithmetic that follows the rules of IEEE 754
(`Verif/Spec/Ieee.lean`) in which the reciprocal of a finite number does not underflow, as in `f32` and `f64`.
-/
open Flt Ieee Flooding Config
set_option linter.unusedSectionVars false
attribute [local irreducible] Rng.lcg Rng.sample Rng.spawn

/-! ### The formats -/

/-- **C78**, formats: reciprocals do not underflow when the smallest number is small enough. -/
theorem C78_reciprocal (F : Format) (h : F.prec + F.high ≤ -F.low) : Reciprocal (Num F) := by
  intro a x hx x0
  have hfit := F.fits_of_rnd (y := x) hx.rep
  have hv : val (one /. a) = some (F.rnd ((1 / x : ℝ) : EReal)) := fin_div fin_one hx x0.ne'
  refine pos_iff.2 ⟨_, hv, ?_⟩
  have htop : x < 2 ^ ((F.prec : ℤ) + F.high) := by
    have h1 := (le_abs_self x).trans hfit.2
    have h2 : F.top < 2 ^ ((F.prec : ℤ) + F.high) := by
      unfold Format.top
      rw [zpow_add₀ (by norm_num), zpow_natCast]
      have : (0 : ℝ) < 2 ^ F.high := by positivity
      nlinarith
    exact lt_of_le_of_lt h1 h2
  have hle : (2 : ℝ) ^ F.low ≤ 1 / x := by
    rw [le_div_iff₀ x0]
    have h3 : (2 : ℝ) ^ F.low * 2 ^ ((F.prec : ℤ) + F.high) ≤ 1 := by
      rw [← zpow_add₀ (by norm_num)]
      exact zpow_le_one_of_nonpos₀ (by norm_num) (by omega)
    have h4 : (0 : ℝ) < 2 ^ F.low := by positivity
    nlinarith
  have hp := F.prec_ge
  have hsmall : F.round ((2 : ℝ) ^ F.low) = 2 ^ F.low := by
    refine Format.Fits.round ⟨1, F.low, ?_, le_rfl, by simp⟩
    rw [abs_one]
    exact one_le_pow₀ (by norm_num)
  have hr : (2 : ℝ) ^ F.low ≤ F.round (1 / x) := by rw [← hsmall]; exact F.round_mono hle
  have h5 : (0 : ℝ) < 2 ^ F.low := by positivity
  rw [Format.rnd_coe]
  have := F.top_pos
  unfold Format.clamp
  split_ifs with g1 g2
  · simp
  · exfalso; linarith
  · exact_mod_cast lt_of_lt_of_le h5 hr

/-- **C78**, formats: `f32` and `f64` are among them. -/
theorem C78_formats : Reciprocal (Num binary32) ∧ Reciprocal (Num binary64) :=
  ⟨C78_reciprocal _ (by show ((24 : ℕ) : ℤ) + 104 ≤ 149; norm_num),
   C78_reciprocal _ (by show ((53 : ℕ) : ℤ) + 971 ≤ 1074; norm_num)⟩

/-! ### Segments and particles -/

section any
variable {T : Type} [Flt T] [Ieee T]

/-- **C78**, segments.  With rounding, for every segment that a run can perform, under any schedule: the optical path
left before the segment is not negative, so that the collision is not forced; the distance flown is not negative; the
optical path left afterwards is not negative; the time to census is a number between zero and what it was; the
particle does not get younger; and after a segment that ends by census no time is left. -/
theorem C78_segment {so : StrOrder} (hso : ∀ l, (so l).Perm l) {io : IterOrder} (hio : ∀ l, (io l).Perm l)
    (hR : Reciprocal T) {m : Machine} {fuel : Nat} {p : Params T} (hn : NamedParams p) (hc : Consistent p)
    (hroot : RootInGrid p) (hi : FloatInput p) {s : Started T} (hs : startRun so io m fuel p = .ok (some s))
    (ht : FloatTables s.data s.state.unit.dom) {fuel' : Nat} {d : Domain T}
    (hd : d.skeleton = s.state.unit.dom.skeleton) {q r : Particle T} {tr : List (Ev T)} {o : SegOutcome}
    (hq : ReachableBy (CacheAnswer s.data) s.data s.state.unit.dom fuel' q)
    (hm : (outcome s.data d q).May tr (o, r)) (hl : Ev.LoadsIn (CacheAnswer s.data d) tr) :
    (q.numMeanFreePaths <. zero) = false ∧
    (zero <=. r.segmentPathLength) = true ∧
    (r.numMeanFreePaths <. zero) = false ∧
    (zero <=. r.timeToCensus) = true ∧ (r.timeToCensus <=. q.timeToCensus) = true ∧
    (r.age <. q.age) = false ∧
    (o = .census → (r.timeToCensus ==. zero) = true) := by
  have hp := startRun_float hso hio hn hc hroot hi hs ht
  have hf := flightOk_reachable hp.tracking hR hq
  have h := outcome_signs (hp.tracking.skeleton hd) hR hf hm hl
  exact ⟨nn_iff.2 hf.depth, h.path, nn_iff.2 h.depth, h.time, h.shorter, h.older, h.census⟩

/-- **C78**, runs.  With rounding, after any number of cycles, under any schedule, every particle has exactly no time
left, an optical path that is not negative and an age that is not negative. -/
theorem C78_survivors {so : StrOrder} (hso : ∀ l, (so l).Perm l) {io : IterOrder} (hio : ∀ l, (io l).Perm l)
    (hR : Reciprocal T) {m : Machine} {fuel : Nat} {p : Params T} (hn : NamedParams p) (hc : Consistent p)
    (hroot : RootInGrid p) (hi : FloatInput p) {s : Started T} (hs : startRun so io m fuel p = .ok (some s))
    (ht : FloatTables s.data s.state.unit.dom) {fuel' n : Nat} (hle : n ≤ p.simulation.nSteps) {s1 : SimState T}
    (hcyc : Cycles s.data s.exec s.opts fuel' n s.state s1) (q : Particle T) (hq : q ∈ s1.container.all) :
    (q.timeToCensus ==. zero) = true ∧ (q.numMeanFreePaths <. zero) = false ∧ (q.age <. zero) = false := by
  have hp := startRun_float hso hio hn hc hroot hi hs ht
  obtain ⟨_, hset, hfresh⟩ := C64_started hs
  obtain ⟨d, q', tr, q0, hd, hr, hm, hl, rfl⟩ := cycles_ends hfresh.initial (by rw [hset.nSteps]; exact hle) hcyc q hq
  have h := outcome_signs (hp.tracking.skeleton hd) hR (flightOk_reachable hp.tracking hR hr) hm hl
  exact ⟨h.census rfl, nn_iff.2 h.depth, nn_iff.2 h.age⟩

/-- **C78**, during the run.  With rounding, every particle that exists at any moment of a run has an optical path and
an age that are not negative and a time to census between zero and the time step. -/
theorem C78_particles {so : StrOrder} (hso : ∀ l, (so l).Perm l) {io : IterOrder} (hio : ∀ l, (io l).Perm l)
    (hR : Reciprocal T) {m : Machine} {fuel : Nat} {p : Params T} (hn : NamedParams p) (hc : Consistent p)
    (hroot : RootInGrid p) (hi : FloatInput p) {s : Started T} (hs : startRun so io m fuel p = .ok (some s))
    (ht : FloatTables s.data s.state.unit.dom) {fuel' : Nat} {q : Particle T}
    (hq : ReachableBy (CacheAnswer s.data) s.data s.state.unit.dom fuel' q) :
    (q.numMeanFreePaths <. zero) = false ∧ (q.age <. zero) = false ∧
    (zero <=. q.timeToCensus) = true ∧ (q.timeToCensus <=. p.simulation.dt) = true := by
  have hp := startRun_float hso hio hn hc hroot hi hs ht
  obtain ⟨_, hset, _⟩ := C64_started hs
  have hf := flightOk_reachable hp.tracking hR hq
  obtain ⟨t, dt, ht1, hdt, t0, t1⟩ := hf.time
  rw [hset.dt] at hdt
  exact ⟨nn_iff.2 hf.depth, nn_iff.2 hf.age, (le_fin fin_zero ht1).2 t0, (le_fin ht1 hdt).2 t1⟩

/-! ### Weights -/

theorem started_tables {so : StrOrder} {io : IterOrder} {m : Machine} {fuel : Nat} {p : Params T} {s : Started T}
    (hs : startRun so io m fuel p = .ok (some s)) (ht : TablesSized s.data s.state.unit.dom) :
    StartTables s.data s.state.unit := by
  obtain ⟨_, _, hf⟩ := C64_started hs
  exact ⟨by rw [hf.cache]; simp, by rw [hf.flux]; simp, ht⟩

/-- **C78**, weights.  With rounding, after any number of cycles, under any schedule, no particle has a negative
weight, as long as the numbers of particles can be counted with 64 bits. -/
theorem C78_weights {so : StrOrder} (hso : ∀ l, (so l).Perm l) {io : IterOrder} (hio : ∀ l, (io l).Perm l)
    {m : Machine} {fuel : Nat} {p : Params T} (hn : NamedParams p) (hc : Consistent p)
    (hroot : RootInGrid p) (hi : FloatInput p) (hcut : (zero <. p.simulation.lowWeightCutoff) = true)
    {s : Started T} (hs : startRun so io m fuel p = .ok (some s)) (ht : FloatTables s.data s.state.unit.dom)
    (hts : TablesSized s.data s.state.unit.dom) {fuel' n : Nat} (hle : n ≤ p.simulation.nSteps)
    (hcount : Countable64 s.data s.opts fuel' s.state n) {s1 s1' : SimState T}
    (hdir : DirectCycles s.data s.opts fuel' n s.state s1) {ex : ExecInfo}
    (hcyc : Cycles s.data ex s.opts fuel' n s.state s1') (q : Particle T) (hq : q ∈ s1'.container.all) :
    (q.weight <. zero) = false := by
  have hp := startRun_float hso hio hn hc hroot hi hs ht
  obtain ⟨_, hset, hfresh⟩ := C64_started hs
  have hns := hset.nSteps
  have h0 := hfresh.initial
  have hrel := ((cycles_rel (ex := ex) zero_gt_zero (by omega) (started_tables hs hts).sized h0.extra
    hfresh.counters.2.2.1 hdir).1 s1' hcyc).1
  have hw := (directCycles_ok h0 hp (by rw [hset.lowWeightCutoff]; exact hcut) (by rw [hset.units.2.1]; norm_num) (by omega)
    (fun m hm k s s2 u2 c2 hk => hcount k s s2 u2 c2 (by omega)) hdir).2
  refine nn_iff.2 (hw q ?_).2
  simp only [Container.all, hrel.cont.extra', hrel.cont.extra, List.append_nil, List.mem_append] at hq ⊢
  rcases hq with h | h
  · exact .inl (hrel.cont.processing.mem_iff.2 h)
  · exact .inr (hrel.cont.processed.mem_iff.2 h)

/-- **C78**, contributions.  With rounding, no segment of any cycle takes from the flux: the contributions of the
segments, which are those of the reference under any schedule (C11), are not negative. -/
theorem C78_contributions {so : StrOrder} (hso : ∀ l, (so l).Perm l) {io : IterOrder} (hio : ∀ l, (io l).Perm l)
    (hR : Reciprocal T) {m : Machine} {fuel : Nat} {p : Params T} (hn : NamedParams p) (hc : Consistent p)
    (hroot : RootInGrid p) (hi : FloatInput p) (hcut : (zero <. p.simulation.lowWeightCutoff) = true)
    {s : Started T} (hs : startRun so io m fuel p = .ok (some s)) (ht : FloatTables s.data s.state.unit.dom)
    {fuel' n : Nat} (hlt : n < p.simulation.nSteps)
    (hcount : Countable64 s.data s.opts fuel' s.state n) {s1 s2 : SimState T} {u1 : UnitState T} {c1 : Container T}
    {b : Balance} {surv : List (Particle T)} {cs : List (ℕ × T)}
    (hdir : DirectCycles s.data s.opts fuel' n s.state s1) (hsync : cycleSync s.data s.opts n s1 = .ok s2)
    (hpc : populationControl s.data s2.globalN s2.srcWeight s2.unit s2.container = .ok (u1, c1))
    (hg : Generations s.data u1.dom fuel' c1.processing b surv cs) (c : ℕ × T) (hmem : c ∈ cs) :
    (c.2 <. zero) = false := by
  have hp := startRun_float hso hio hn hc hroot hi hs ht
  obtain ⟨_, hset, hfresh⟩ := C64_started hs
  have hns := hset.nSteps
  exact nn_iff.2 (contribs_nn hR hfresh.initial hp (by rw [hset.lowWeightCutoff]; exact hcut)
    (by rw [hset.units.2.1]; norm_num) (by omega) hcount hdir hsync hpc hg c hmem)

end any

/-! ### Flux -/

section flux
variable {F : Format}

theorem real_of_nn {a : Num F} (h : Nn a) : 0 ≤ a.real := by
  unfold Num.real
  cases hv : a.val with
  | none => simp
  | some x =>
    have := h x hv
    exact EReal.toReal_nonneg this

/-- The total of a table whose entries are sums of contributions that are not negative. -/
theorem total_ratio {flux : List (Num F)} {cs : List (ℕ × Num F)} (hi : ∀ d ∈ cs, d.1 < flux.length)
    (he : ∀ i, i < flux.length → flux[i]? = some (Flt.sum (contribsAt cs i)))
    (h0 : ∀ d ∈ cs, 0 ≤ d.2.real) (hfin : (scalarFluxSum flux).Finite) :
    (1 - F.eps) ^ (flux.length + cs.length) * exactSum (cs.map (·.2)) ≤ (scalarFluxSum flux).real ∧
    (scalarFluxSum flux).real ≤ (1 + F.eps) ^ (flux.length + cs.length) * exactSum (cs.map (·.2)) := by
  have e0 := F.eps_pos
  have e1 : F.eps ≤ 1 := F.eps_le.trans (by norm_num)
  set K := flux.length with hK
  have hent : ∀ a ∈ flux, a.Finite := (Num.foldl_finite hfin).2
  have hflux : flux = (List.range K).map fun i => Flt.sum (contribsAt cs i) := by
    refine List.ext_getElem? fun i => ?_
    by_cases hlt : i < K
    · rw [he i hlt]; simp [hlt]
    · rw [List.getElem?_eq_none (by omega), List.getElem?_eq_none (by simp; omega)]
  have hle : ∀ i, (contribsAt cs i).length ≤ cs.length := by
    intro i
    unfold contribsAt
    rw [List.length_map]
    exact List.length_filter_le _ _
  have hc0 : ∀ i, ∀ a ∈ contribsAt cs i, 0 ≤ a.real := by
    intro i a ha
    obtain ⟨d, hd, rfl⟩ := List.mem_map.1 ha
    exact h0 d (List.mem_filter.1 hd).1
  have hs0 : ∀ i, 0 ≤ exactSum (contribsAt cs i) := by
    intro i
    refine List.sum_nonneg fun x hx => ?_
    obtain ⟨a, ha, rfl⟩ := List.mem_map.1 hx
    exact hc0 i a ha
  have hone : ∀ i, i < K → (1 - F.eps) ^ cs.length * exactSum (contribsAt cs i) ≤ (Flt.sum (contribsAt cs i)).real ∧
      (Flt.sum (contribsAt cs i)).real ≤ (1 + F.eps) ^ cs.length * exactSum (contribsAt cs i) := by
    intro i hlt
    have hf : (Flt.sum (contribsAt cs i)).Finite := hent _ (List.mem_of_getElem? (he i hlt))
    obtain ⟨a, b⟩ := C75_ratio _ hf (hc0 i)
    refine ⟨le_trans ?_ a, b.trans ?_⟩
    · exact mul_le_mul_of_nonneg_right (pow_le_pow_of_le_one (by linarith) (by linarith) (hle i)) (hs0 i)
    · exact mul_le_mul_of_nonneg_right (pow_le_pow_right₀ (by linarith) (hle i)) (hs0 i)
  have key : ∀ N ≤ K,
      (1 - F.eps) ^ cs.length * ((List.range N).map fun i => exactSum (contribsAt cs i)).sum ≤
        ((List.range N).map fun i => (Flt.sum (contribsAt cs i)).real).sum ∧
      ((List.range N).map fun i => (Flt.sum (contribsAt cs i)).real).sum ≤
        (1 + F.eps) ^ cs.length * ((List.range N).map fun i => exactSum (contribsAt cs i)).sum := by
    intro N
    induction N with
    | zero => intro _; simp
    | succ N ih =>
      intro hN
      obtain ⟨i1, i2⟩ := ih (by omega)
      obtain ⟨j1, j2⟩ := hone N (by omega)
      simp only [List.range_succ, List.map_append, List.sum_append, List.map_cons, List.map_nil, List.sum_cons,
        List.sum_nil, add_zero, mul_add]
      exact ⟨by linarith, by linarith⟩
  obtain ⟨k1, k2⟩ := key K le_rfl
  have eS : exactSum (cs.map (·.2)) = ((List.range K).map fun i => exactSum (contribsAt cs i)).sum :=
    sum_by_entry Num.real cs K hi
  have eF : exactSum flux = ((List.range K).map fun i => (Flt.sum (contribsAt cs i)).real).sum := by
    conv_lhs => rw [hflux]
    unfold exactSum
    rw [List.map_map]; rfl
  rw [← eS, ← eF] at k1 k2
  have hpos : ∀ a ∈ flux, 0 ≤ a.real := by
    intro a ha
    rw [hflux] at ha
    obtain ⟨i, hi', rfl⟩ := List.mem_map.1 ha
    refine le_trans ?_ (hone i (List.mem_range.1 hi')).1
    exact mul_nonneg (pow_nonneg (by linarith) _) (hs0 i)
  obtain ⟨t1, t2⟩ := C75_ratio flux hfin hpos
  rw [← hK] at t1 t2
  have p1 : 0 ≤ (1 - F.eps) ^ K := pow_nonneg (by linarith) _
  have p2 : 0 ≤ (1 + F.eps) ^ K := pow_nonneg (by linarith) _
  rw [pow_add, pow_add, mul_assoc, mul_assoc]
  exact ⟨(mul_le_mul_of_nonneg_left k1 p1).trans t1, t2.trans (mul_le_mul_of_nonneg_left k2 p2)⟩

/-- **C78**, flux.  The total flux that any cycle of a run reports, under any policy and schedule, is, when finite, not
negative, and equal to the exact sum of the contributions of the segments of the cycle up to a factor between
`(1 - eps)^n` and `(1 + eps)^n`, where `n` counts the segments of the cycle and the entries of the tally. -/
theorem C78_flux (hR : Reciprocal (Num F)) {so : StrOrder} (hso : ∀ l, (so l).Perm l) {io : IterOrder}
    (hio : ∀ l, (io l).Perm l) {m : Machine} {fuel : Nat} {p : Params (Num F)} (hn : NamedParams p) (hc : Consistent p)
    (hroot : RootInGrid p) (hi : FloatInput p) (hcut : (zero <. p.simulation.lowWeightCutoff) = true)
    {s : Started (Num F)} (hs : startRun so io m fuel p = .ok (some s)) (ht : FloatTables s.data s.state.unit.dom)
    (hts : TablesSized s.data s.state.unit.dom) {fuel' n : Nat} (hlt : n < p.simulation.nSteps)
    (hcount : Countable64 s.data s.opts fuel' s.state n) {s1 s2 : SimState (Num F)} {u1 : UnitState (Num F)}
    {c1 : Container (Num F)} {b : Balance} {surv : List (Particle (Num F))} {cs : List (ℕ × Num F)}
    (hdir : DirectCycles s.data s.opts fuel' n s.state s1) (hsync : cycleSync s.data s.opts n s1 = .ok s2)
    (hpc : populationControl s.data s2.globalN s2.srcWeight s2.unit s2.container = .ok (u1, c1))
    (hg : Generations s.data u1.dom fuel' c1.processing b surv cs)
    {ex : ExecInfo} {s1' s2' s3' : SimState (Num F)} {u' : UnitState (Num F)} {c' : Container (Num F)}
    (h : Cycles s.data ex s.opts fuel' n s.state s1') (hs' : cycleSync s.data s.opts n s1' = .ok s2')
    (hcp : CycleProcess s.data ex fuel' s2'.globalN s2'.srcWeight s2'.unit s2'.container u' c')
    (hs3 : cycleSync s.data s.opts (n + 1) { s2' with unit := u', container := c' } = .ok s3') :
    ∃ f : Num F, s3'.reports = s2'.reports ++ [(n, { u'.balance with end_ := c'.processed.length }, f)] ∧
      (f.Finite → 0 ≤ f.real ∧
        (1 - F.eps) ^ (u'.flux.length + b.numSegments) * exactSum (cs.map (·.2)) ≤ f.real ∧
        f.real ≤ (1 + F.eps) ^ (u'.flux.length + b.numSegments) * exactSum (cs.map (·.2))) := by
  obtain ⟨_, hset, hfresh⟩ := C64_started hs
  have hns := hset.nSteps
  have h0 : StartOfRun s.state := ⟨hfresh.particles.1, hfresh.particles.2.1, hfresh.particles.2.2, hfresh.counters.1,
    hfresh.counters.2.1, hfresh.counters.2.2.1⟩
  have hpos : ∀ d ∈ cs, 0 ≤ d.2.real := fun d hd => real_of_nn (nn_iff.1
    (C78_contributions hso hio hR hn hc hroot hi hcut hs ht hlt hcount hdir hsync hpc hg d hd))
  obtain ⟨hz, hlen, hidx, cs', hperm, hfl⟩ := reference_flux num_zero_gt (started_tables hs hts) h0
    hfresh.counters.2.2.1 (by rw [hfresh.flux]; intro v hv; exact List.eq_of_mem_replicate hv) (by omega) hdir hsync hpc hg h
    hs' hcp
  refine ⟨scalarFluxSum u'.flux, cycleSync_report hs3, fun hfin => ?_⟩
  have hL : u'.flux.length = s2'.unit.flux.length := by rw [hfl, addContribs_length]
  obtain ⟨a1, a2⟩ := total_ratio (flux := u'.flux) (cs := cs')
    (fun d hd => by rw [hL]; exact hidx d (hperm.mem_iff.1 hd))
    (fun i hi => by
      rw [hL] at hi
      rw [hfl]
      exact addContribs_getElem _ _ _ _ (by rw [List.getElem?_eq_getElem hi, hz _ (List.getElem_mem hi)]))
    (fun d hd => hpos d (hperm.mem_iff.1 hd)) hfin
  rw [exactSum_perm (hperm.map _), hperm.length_eq, hlen] at a1 a2
  refine ⟨le_trans ?_ a1, a1, a2⟩
  refine mul_nonneg (pow_nonneg (by have := F.eps_le; linarith) _) (List.sum_nonneg fun x hx => ?_)
  obtain ⟨a, ha, rfl⟩ := List.mem_map.1 hx
  obtain ⟨d, hd, rfl⟩ := List.mem_map.1 ha
  exact hpos d hd

end flux
