import Verif.Props.Together
import Verif.Props.InCell
import Verif.Props.Flight
import Verif.Props.Population
import Verif.Lemmas.RealWeights
/-!
# C81: what is certain of every particle, collision and source of a run on a valid input

The properties of one step (directions, energies, times, choice of the reaction, source) are put together here for
whole runs: the hypotheses bear on the input only, and the conclusions hold for any number of cycles, under any
execution policy and schedule.  Over the reals.
-/
open Flt FltReal GridSpec MeshSpec Rng
attribute [local irreducible] Rng.lcg Rng.sample Rng.spawn

section
variable {p : Params ℝ} (h : ValidInput p) {so : StrOrder} (hso : ∀ l, (so l).Perm l) {io : IterOrder}
  (hio : ∀ l, (io l).Perm l) (m : Machine) (ht : 1 ≤ m.defaultThreads) {fuel : Nat}
  (hfuel : cells p.grid + 1 ≤ fuel) {s : Started ℝ} (hs : startRun so io m fuel p = .ok (some s))
include h hso hio ht hfuel hs

/-- **C81** (flight).  Every particle that a run can meet, at any moment of its flight, has a unit direction, an energy
above zero and at most `eMax`, a speed below that of light, an energy group of the tables, a cell of the grid, a time
to census between zero and the time step, and an age and a remaining optical path that are not negative. -/
theorem C81_flight {fuel' : Nat} {q : Particle ℝ} (hq : Reachable s.data s.state.unit.dom fuel' q) :
    q.direction.x ^ 2 + q.direction.y ^ 2 + q.direction.z ^ 2 = 1 ∧
    0 < q.kineticEnergy ∧ q.kineticEnergy ≤ p.simulation.eMax ∧
    0 < q.getSpeed ∧ q.getSpeed < 29979200000 ∧
    q.energyGroup < p.simulation.nGroups ∧ q.cell < cells p.grid ∧
    0 ≤ q.timeToCensus ∧ q.timeToCensus ≤ p.simulation.dt ∧ 0 ≤ q.age ∧ 0 ≤ q.numMeanFreePaths := by
  obtain ⟨s', h1, h2, h3, _, _, _, mats, h4, h5⟩ := h.start hso hio m ht fuel hfuel
  rw [hs] at h1
  cases h1
  obtain ⟨_, hset, _⟩ := C64_started hs
  obtain ⟨dom, bc, cs, nodeOf, m1, m2, m3, m4, m5, m6, m7⟩ := Flooding.initMesh_spec hio h4 h.root fuel hfuel
  rw [h5] at m1
  cases m1
  obtain ⟨t1, t2, t3⟩ := C23_reachable h2.tracking.time hq
  obtain ⟨e1, e2, e3⟩ := C27_reachable h2.tracking.energy hq
  have hu := C20_reachable (unit_planes hio h4 h.root fuel hfuel h5) hq
  have hi := reachable_index h2.tracking.mesh hq
  obtain ⟨v1, v2⟩ := C37_speed.2.1 _ t1.energy
  refine ⟨hu, t1.energy, by rw [← hset.eMax]; exact e2, v1, (C37_value _ t1.energy.le).2, by rw [← m5]; exact e3,
    by rw [← m6]; exact hi.cell, t1.timeToCensus, by rw [← hset.dt]; exact t3, t2, t1.opticalPath⟩

/-- **C81** (between cycles).  After any number of cycles, under any schedule, every particle is as `C81_flight` says;
it stands at census, and its energy group is the one group of the table of levels that holds its energy. -/
theorem C81_survivors {fuel' n : Nat} (hn : n ≤ p.simulation.nSteps) {ex : ExecInfo} {s1 : SimState ℝ}
    (hc : Cycles s.data ex s.opts fuel' n s.state s1) : ∀ q ∈ s1.container.all,
    Reachable s.data s.state.unit.dom fuel' q ∧ q.timeToCensus = 0 ∧ q.lastEvent = .census ∧
    ∀ g, q.energyGroup = g ↔ IsGroupOf (energyLevels p.simulation.nGroups p.simulation.eMin p.simulation.eMax)
      q.kineticEnergy g := by
  obtain ⟨s', h1, h2, h3, _, _, h6, _⟩ := h.start hso hio m ht fuel hfuel
  rw [hs] at h1
  cases h1
  obtain ⟨nd, mats, _, _, a1, a2, _⟩ := startRun_parts hs
  obtain ⟨nd', mats', b1, _, b3, _⟩ := initNuclearData_ok h.named h.consistent hso
  rw [a1] at b1
  cases b1
  have hlev : s.data.nuclear.energies = energyLevels p.simulation.nGroups p.simulation.eMin p.simulation.eMax := by
    rw [a2]; exact b3
  have h0 := started_start hs
  have hsp := C55_spectrum h0 (by omega) hc (by rw [hlev]; exact (C26_levels h.groups h.energies.1 h.energies.2.1).2.2.2)
  obtain ⟨e1, e2, e3⟩ := C56_events h0 (by omega) hc
  intro q hq
  refine ⟨(cycles_reachable h3 hc).2 q hq, (C56_survivors h2.tracking.time h0 (by omega) hc q hq).1, ?_, ?_⟩
  · simp only [Container.all, e1, e2, List.nil_append, List.append_nil] at hq
    exact (e3 q hq).2
  · rw [← hlev]
    exact hsp q hq

/-- **C81** (weights).  After any number of cycles, under any schedule, every particle has a positive weight. -/
theorem C81_weights (hfill : FilledMaterials p) (hcut : 0 < p.simulation.lowWeightCutoff) {fuel' n : Nat}
    (hn : n ≤ p.simulation.nSteps) {ex : ExecInfo} {s1 : SimState ℝ} (hc : Cycles s.data ex s.opts fuel' n s.state s1) :
    ∀ q ∈ s1.container.all, 0 < q.weight := by
  obtain ⟨s', h1, h2, h3, _, _, h6, _⟩ := h.start hso hio m ht fuel hfuel
  have hg := started_groupsMet h hso hio m ht hfuel hs
  rw [hs] at h1
  cases h1
  obtain ⟨_, hset, _⟩ := C64_started hs
  have htab := C67_started_tables hso h.named h.consistent hfill hs
  have h0 := started_start hs
  have hz : (zero >. (zero : ℝ)) = false := by simp
  obtain ⟨t, hdir⟩ := cycles_direct hz (by omega) h3 htab.sized h0.initial.reports hg hc
  have hrel := ((cycles_rel (ex := ex) hz (by omega) htab.sized h3.extra h0.initial.reports hdir).1 s1 hc).1
  have hw := (directCycles_weight h3 h2 (by rw [hset.lowWeightCutoff]; exact hcut) (by omega) hdir).2
  intro q hq
  refine (hw q ?_).2
  simp only [Container.all, hrel.cont.extra', hrel.cont.extra, List.append_nil, List.mem_append] at hq ⊢
  rcases hq with h | h
  · exact .inl (hrel.cont.processing.mem_iff.2 h)
  · exact .inr (hrel.cont.processed.mem_iff.2 h)

/-- **C81** (collisions).  When the segment of a particle that a run can meet ends by a collision, whatever the answers
of the shared table of cross-sections: the cross-section used is the positive sum of those of all reactions of the
material of the particle's cell in its energy group, and the reaction that takes place is the one in whose interval of
cumulated cross-sections the next draw falls. -/
theorem C81_collision (hfill : FilledMaterials p) (hfull : ∀ k mp, p.materials.get? k = some mp → Filled mp)
    {fuel' : Nat} {d : Domain ℝ} (hd : d.skeleton = s.state.unit.dom.skeleton) {q r : Particle ℝ} {tr : List (Ev ℝ)}
    (hq : ReachableBy (CacheAnswer s.data) s.data s.state.unit.dom fuel' q)
    (hm : (outcome s.data d q).May tr (.collision, r)) (hl : Ev.LoadsIn (CacheAnswer s.data d) tr)
    (hu : draw r.seed < 1) :
    ∃ cs mat ts, d.cells[q.cell]? = some cs ∧ s.data.materials[cs.material]? = some mat ∧
      MaterialTerms s.data cs.cellNumberDensity q.energyGroup mat ts ∧ (∀ t ∈ ts, 0 ≤ t.1) ∧
      0 < totalWeight ts ∧ r.totalCrossSection = totalWeight ts ∧
      ∃ k, ∃ hk : k < ts.length,
        cumWeight ts k ≤ totalWeight ts * draw r.seed ∧ totalWeight ts * draw r.seed < cumWeight ts (k + 1) ∧
        ∀ (st : TrackState ℝ) (f : Nat), st.particle = { r with numSegments := r.numSegments +. one } →
          collisionEvent s.data (f + 2) cs.material cs.cellNumberDensity st = (do
            let (nOut, p, ex) ← ({ st.particle with seed := lcg r.seed }).sampleCollision ts[k].2 mat.mass
            return (decide (nOut ≥ 1),
              { particle := p, balance := tallyCollision st.balance ts[k].2.rtype nOut, extra := st.extra ++ ex })) := by
  obtain ⟨s', h1, h2, h3, _⟩ := h.start hso hio m ht fuel hfuel
  have hg := started_groupsMet h hso hio m ht hfuel hs
  rw [hs] at h1
  cases h1
  have htab := C67_started_tables hso h.named h.consistent hfill hs
  have hz : (zero >. (zero : ℝ)) = false := by simp
  have hsafe := h2.tracking.skeleton hd
  have hpr := (started_present hso h.named h.consistent hfill hs).skeleton hd
  have hq' := hq.weaken fun _ _ _ _ => trivial
  obtain ⟨t1, _, _⟩ := C23_reachable h2.tracking.time hq'
  have hdir := outcome_direct hz (groupsChecked_skeleton hd htab.sized.groups)
    (by rw [numGroups_skeleton hd]; exact hg _ _ hq) hm hl
  obtain ⟨xs, _, _, hxs, _, _, _, _, _, _, _, e, _⟩ := direct_segment hsafe.time.tables t1 hdir
  have hpos := started_xs_pos h hfull hso hs hsafe.time.tables hxs
  have hc := directXs_cell hxs
  have hcs := List.getElem?_eq_getElem hc
  have hmem := List.getElem_mem hc
  have hmat := hsafe.material _ hmem
  have hmt := List.getElem?_eq_getElem hmat
  obtain ⟨ts, ht', e'⟩ := C29_same_total hcs hmt (hpr _ hmem _ hmt) hxs
  have hw := terms_nonneg hsafe.time.tables (List.getElem_mem hmat) (hsafe.time.tables.density _ hmem) ht'
  rw [cumWeight_length] at e'
  have hfr := outcome_frame hm
  have hpos' : 0 < totalWeight ts := by rw [← e']; exact hpos
  have htot : r.totalCrossSection = totalWeight ts := by rw [e, e']
  have d0 : 0 ≤ draw r.seed := (sample01 r.seed).1
  obtain ⟨k, ⟨hk, k1, k2⟩, huniq⟩ := C28_tiling hw (mul_nonneg hpos'.le d0)
    (by nlinarith : totalWeight ts * draw r.seed < totalWeight ts)
  refine ⟨_, _, ts, hcs, hmt, ht', hw, hpos', htot, k, hk, k1, k2, fun st f hst => ?_⟩
  have g1 : st.particle.energyGroup = q.energyGroup := by rw [hst]; exact hfr.energyGroup
  have g2 : st.particle.totalCrossSection = totalWeight ts := by rw [hst]; exact htot
  have g3 : st.particle.seed = r.seed := by rw [hst]
  obtain ⟨k', hk', c1, c2, c3⟩ := C28_event hmt (st := st) (hpr _ hmem _ hmt) (by rw [g1]; exact ht') hw g2 hpos'
    (by rw [g3]; exact hu) f
  rw [g3] at c1 c2 c3
  cases huniq k' ⟨hk', c1, c2⟩
  exact c3

/-- **C81** (source).  In each cycle, under any schedule, the particles sourced in each cell number
`⌊its weight / common weight⌋`, and all have the common weight, which is positive; together they number at most a tenth
of the target, and miss it by less than one per cell. -/
theorem C81_source {fuel' n : Nat} (hn : n < p.simulation.nSteps) {ex : ExecInfo} {s1 s2 : SimState ℝ}
    (hc : Cycles s.data ex s.opts fuel' n s.state s1) (hsync : cycleSync s.data s.opts n s1 = .ok s2)
    {u : UnitState ℝ} {c : Container ℝ} (hsrc : sourceNow s.data s2.srcWeight s2.unit s2.container = .ok (u, c)) :
    ∃ ws ns sourced, CellWeights s.data s1.unit.dom.cells ws ∧
      s2.srcWeight = ws.sum / (p.simulation.nParticles / 10) ∧ 0 < s2.srcWeight ∧
      List.Forall₂ (fun w n => n = ⌊w / s2.srcWeight⌋₊) ws ns ∧
      c.processing = s2.container.processing ++ sourced ∧
      (∀ p ∈ sourced, p.weight = s2.srcWeight) ∧
      (∀ i n, ns[i]? = some n → sourced.countP (fun p => p.cell = i) = n) ∧
      sourced.length = ns.sum ∧
      (sourced.length : ℝ) ≤ p.simulation.nParticles / 10 ∧
      (p.simulation.nParticles : ℝ) / 10 < sourced.length + cells p.grid ∧
      (sourced.length : ℝ) * s2.srcWeight ≤ ws.sum := by
  obtain ⟨s', h1, h2, h3, _, _, h6, mats, h4, h5⟩ := h.start hso hio m ht fuel hfuel
  rw [hs] at h1
  cases h1
  obtain ⟨_, hset, _⟩ := C64_started hs
  obtain ⟨dom, bc, cs, nodeOf, m1, m2, m3, m4, m5, m6, m7⟩ := Flooding.initMesh_spec hio h4 h.root fuel hfuel
  rw [h5] at m1
  cases m1
  have hd := (cycles_reachable h3 hc).1
  have hp1 := h2.skeleton hd
  obtain ⟨_, w0, w1, t, ht1, ht2, hprep⟩ := sync_weight_real hp1 (by omega) hsync
  have hnp : s.data.nParticles = p.simulation.nParticles := hset.nParticles
  have hlen : s1.unit.dom.cells.length = cells p.grid := by
    rw [cells_length_skeleton hd]; exact m6
  obtain ⟨ws, ns, sourced, a1, a2, a3, a4, a5, a6, a7, a8, a9, a10⟩ := C35_source (by rw [ht1]; exact hp1.source)
    (by have := hp1.atLeast; omega) hprep w1 hsrc
  rw [ht1] at a1 a9
  rw [hnp] at a2 a8 a9
  rw [hlen] at a9
  exact ⟨ws, ns, sourced, a1, a2, w0, a3, a4, a5, a6, a7, a8, a9, a10⟩

/-- **C81** (target).  Without load balancing, the split factor of each cycle aims at most at the target number of
particles, and misses it by less than the share of one particle per cell. -/
theorem C81_target (hlb : p.simulation.loadBalance = false) {fuel' n : Nat} (hn : n < p.simulation.nSteps)
    {ex : ExecInfo} {s1 s2 : SimState ℝ} (hc : Cycles s.data ex s.opts fuel' n s.state s1)
    (hsync : cycleSync s.data s.opts n s1 = .ok s2) {u : UnitState ℝ} {c : Container ℝ}
    (hsrc : sourceNow s.data s2.srcWeight s2.unit s2.container = .ok (u, c)) :
    ∃ f : ℝ, computeSplitFactor s.data.nParticles s2.globalN c.processing.length s.data.nUnits s.data.loadBalance = .ok f ∧
      0 < f ∧ f * c.processing.length ≤ p.simulation.nParticles ∧
      p.simulation.nParticles < f * (c.processing.length + cells p.grid) := by
  obtain ⟨s', h1, h2, h3, _, _, h6, mats, h4, h5⟩ := h.start hso hio m ht fuel hfuel
  rw [hs] at h1
  cases h1
  obtain ⟨_, hset, _⟩ := C64_started hs
  obtain ⟨dom, bc, cs, nodeOf, m1, m2, m3, m4, m5, m6, m7⟩ := Flooding.initMesh_spec hio h4 h.root fuel hfuel
  rw [h5] at m1
  cases m1
  have hd := (cycles_reachable h3 hc).1
  have hp1 := h2.skeleton hd
  obtain ⟨g0, w0, w1, t, ht1, ht2, hprep⟩ := sync_weight_real hp1 (by omega) hsync
  have hnp : s.data.nParticles = p.simulation.nParticles := hset.nParticles
  have hlen : s1.unit.dom.cells.length = cells p.grid := by
    rw [cells_length_skeleton hd]; exact m6
  have hl : s.data.loadBalance = false := by rw [hset.loadBalance]; exact hlb
  obtain ⟨f, hf, _⟩ := splitFactor_ok (ln := c.processing.length) h2.atMost h2.units g0 s.data.loadBalance
  obtain ⟨b1, b2⟩ := C59_target (by rw [ht1]; exact hp1.source) (by have := hp1.atLeast; omega) hl hprep w1 g0 hsrc hf
  rw [ht1, hlen, hnp] at b2
  rw [hnp] at b1
  exact ⟨f, hf, splitFactor_real_pos (by have := h2.atLeast; omega) h2.atMost h2.units g0 hf, b1, b2⟩

end

/-! ### A case -/

theorem small_full (dt : ℝ) : ∀ k mp, (smallProblem dt).materials.get? k = some mp → Filled mp := by
  intro k mp hk
  obtain ⟨mp0, hmat, q1, q2, q3⟩ : ∃ mp : MaterialParams ℝ,
      (smallProblem dt).materials = [("source_material", mp)] ∧
      mp.nIsotopes = 10 ∧ mp.nReactions = 9 ∧ mp.totalCrossSection = 1 := by
    refine ⟨_, rfl, rfl, rfl, ?_⟩
    simp [MaterialParams.default]
  rw [hmat, HMap.get?_cons] at hk
  split at hk
  · cases hk
    exact ⟨by rw [q1]; norm_num, by rw [q2]; norm_num, by rw [q3]; norm_num⟩
  · cases hk

/-- All hypotheses on the input are met by a problem whose run tracks a particle, performs its cycle on four threads,
and sources particles. -/
example : ∃ (p : Params ℝ) (s : Started ℝ) (f : Nat) (s1 : SimState ℝ), ValidInput p ∧ FilledMaterials p ∧
    (∀ k mp, p.materials.get? k = some mp → Filled mp) ∧ 0 < p.simulation.lowWeightCutoff ∧
    p.simulation.loadBalance = false ∧ p.simulation.nSteps = 1 ∧
    startRun List.reverse id ⟨4, true⟩ 2 p = .ok (some s) ∧ Cycles s.data ⟨.rayon, 1, 4, 0⟩ s.opts f 1 s.state s1 ∧
    (∃ q, ReachableBy (CacheAnswer s.data) s.data s.state.unit.dom f q) ∧
    (∃ s2 u c, cycleSync s.data s.opts 0 s.state = .ok s2 ∧
      sourceNow s.data s2.srcWeight s2.unit s2.container = .ok (u, c)) := by
  obtain ⟨dt, hdt, s, fuel', hs, _, ⟨d, q, hv⟩, _, hrun⟩ := small_run
  obtain ⟨t, s1, hc, _⟩ := (hrun 4 (by norm_num)).2
  have hset := (C64_started hs).2.1
  have hn : s.data.nSteps = 1 := hset.nSteps
  rw [hn] at hc
  obtain ⟨s2, u, c, g1, g2⟩ := C60_progress (small_valid hdt) (so := List.reverse) (fun l => List.reverse_perm l) (io := id)
    (fun l => .refl _) ⟨4, true⟩ (by norm_num) 2 (by rw [small_cells]) hs fuel' 0 (by show 0 < 1; norm_num) .zero
  have hsrc := g2
  unfold populationControl at hsrc
  rw [bind_ok] at hsrc
  obtain ⟨⟨u2, c2⟩, hsrc, _⟩ := hsrc
  refine ⟨smallProblem dt, s, fuel', s1, small_valid hdt, small_filled dt, small_full dt, ?_, rfl, rfl, hs, hc, ?_,
    s2, u2, c2, g1, hsrc⟩
  · show (0 : ℝ) < (SimulationParams.default : SimulationParams ℝ).lowWeightCutoff
    simp [SimulationParams.default]
  · obtain ⟨n, t1, t2, u', c', p, hn', hcyc, hsync, hpop, hp, rfl, hvis⟩ := hv
    obtain rfl : n = 0 := by omega
    cases hcyc
    refine ⟨p, populationControl_reach (by rw [cycleSync_dom hsync]) (fun p hp => ?_) hpop p (by simp [Container.all, hp])⟩
    have := cycleSync_all hsync p hp
    have h0 := (started_start hs).initial
    simp [Container.all, h0.processing, h0.processed, h0.extra] at this
