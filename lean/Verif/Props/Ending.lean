import Verif.Lemmas.EndingLoop
import Verif.Lemmas.EndingRun
import Verif.Props.NoPanic
import Verif.Props.Reproducible
/-!
# C76: tracking ends

Nothing in the code bounds the number of segments of a particle, nor the number of generations of fission products in
a cycle.  On a valid input, as long as no particle meets one of three exceptional cases (`Ordinary`, in
`Verif/Spec/Ending.lean`), both are bounded, by numbers that depend on the grid, the time step and the largest
cross-section only; so every execution of the run comes to its end.  Over the reals.
-/
open Flt FltReal GridSpec MeshSpec Flooding
attribute [local irreducible] Rng.lcg Rng.sample Rng.spawn

/-! ## From the start of a run to the lemmas -/

theorem AllPresent.skeleton {data : Data ℝ} {dom d : Domain ℝ} (h : AllPresent data dom)
    (hd : d.skeleton = dom.skeleton) : AllPresent data d := by
  intro cs hcs mat hm
  obtain ⟨i, hi⟩ := List.getElem?_of_mem hcs
  obtain ⟨c', hc', he⟩ := cells_skeleton hd hi
  obtain ⟨e1, _, e2, _⟩ := CellState.mk.inj he
  rw [e2]
  exact h c' (List.mem_of_getElem? hc') mat (by rw [← e1]; exact hm)

theorem started_present {p : Params ℝ} {so : StrOrder} (hso : ∀ l, (so l).Perm l) {io : IterOrder} {fuel : Nat}
    (hp : NamedParams p) (hc : Config.Consistent p) (hm : FilledMaterials p)
    {m : Machine} {a : Started ℝ} (h : startRun so io m fuel p = .ok (some a)) : AllPresent a.data a.state.unit.dom := by
  obtain ⟨nd, mats, dom, doms, h1, h2, h3, h4, h5, _⟩ := startRun_parts h
  obtain ⟨nd', mats', e1, e2, e3, e4⟩ := initNuclearData_ok hp hc hso
  rw [h1] at e1
  cases e1
  intro cs hcs mat hmat
  rw [h5] at hcs
  rw [initMesh_density h3 dom (List.mem_of_getElem? h4) cs hcs]
  rw [h2] at hmat
  obtain ⟨mp, g1, first, g2⟩ := e4.mem (List.mem_of_getElem? hmat)
  obtain ⟨k, hk⟩ := (mem_valuesIn hso).1 g1
  obtain ⟨m1, _, _⟩ := hm.materials k mp hk
  refine ⟨by simp, fun iso hiso => ?_⟩
  rw [g2.isotopes] at hiso
  obtain ⟨i, _, rfl⟩ := List.mem_map.1 hiso
  simp only [div_eq, one_eq, ofNat_eq]
  have : (0 : ℝ) < mp.nIsotopes := by exact_mod_cast m1
  positivity

theorem segmentBound_ge {g : Grid ℝ} (hg : BoxGrid g) {B X : ℝ} (hB : 0 ≤ B) (hX : 0 ≤ X) : 3 ≤ segmentBound g B X := by
  have hx := hg.lx
  have hy := hg.ly
  have hz := hg.lz
  have h1 : (1 : ℝ) ≤ g.nx := by exact_mod_cast hg.nx
  have h2 : (1 : ℝ) ≤ g.ny := by exact_mod_cast hg.ny
  have h3 : (1 : ℝ) ≤ g.nz := by exact_mod_cast hg.nz
  have h4 : 1 ≤ collisionBound B X := by unfold collisionBound; have : 0 ≤ X * B * 2 ^ 64 := by positivity
                                         linarith
  have h5 : 0 ≤ g.nx * (B / g.lx + 2) := by positivity
  have h6 : 0 ≤ g.ny * (B / g.ly + 2) := by positivity
  have h7 : 0 ≤ g.nz * (B / g.lz + 2) := by positivity
  unfold segmentBound
  nlinarith

section
variable {p : Params ℝ} (h : ValidInput p) (hm : FilledMaterials p) {so : StrOrder} (hso : ∀ l, (so l).Perm l)
  {io : IterOrder} (hio : ∀ l, (io l).Perm l) (m : Machine) (ht : 1 ≤ m.defaultThreads) (fuel : Nat)
  (hfuel : cells p.grid + 1 ≤ fuel) {s : Started ℝ} (hs : startRun so io m fuel p = .ok (some s))
include h hm hso hio ht hfuel hs

omit hio ht hfuel in
/-- **C76** (the bounds apply).  The macroscopic cross-sections of a run that has started have a bound. -/
theorem C76_largest : ∃ X : ℝ, 1 / 10 ^ 76 ≤ X ∧
    ∀ cell group xs, directXs s.data s.state.unit.dom cell group = .ok xs → xs ≤ X := by
  have hgc := (C67_started_tables hso h.named h.consistent hm hs).tables.groups
  have key : ∀ n k : Nat, ∃ X : ℝ, 1 / 10 ^ 76 ≤ X ∧ ∀ cell group xs, cell < n → group < k →
      directXs s.data s.state.unit.dom cell group = .ok xs → xs ≤ X := by
    intro n
    induction n with
    | zero => intro k; exact ⟨_, le_rfl, by intros; omega⟩
    | succ n ih =>
      intro k
      obtain ⟨X, hX, hb⟩ := ih k
      have row : ∀ j : Nat, ∃ Y : ℝ, ∀ group xs, group < j → directXs s.data s.state.unit.dom n group = .ok xs → xs ≤ Y := by
        intro j
        induction j with
        | zero => exact ⟨0, by intros; omega⟩
        | succ j ihj =>
          obtain ⟨Y, hY⟩ := ihj
          refine ⟨Max.max Y (match directXs s.data s.state.unit.dom n j with | .ok x => x | .error _ => 0), ?_⟩
          intro group xs hg hx
          rcases Nat.lt_succ_iff_lt_or_eq.1 hg with hg | rfl
          · exact le_max_of_le_left (hY group xs hg hx)
          · rw [hx]; exact le_max_right _ _
      obtain ⟨Y, hY⟩ := row k
      refine ⟨Max.max X Y, le_max_of_le_left hX, ?_⟩
      intro cell group xs hc hg hx
      rcases Nat.lt_succ_iff_lt_or_eq.1 hc with hc | rfl
      · exact le_max_of_le_left (hb cell group xs hc hg hx)
      · exact le_max_of_le_right (hY group xs hg hx)
  obtain ⟨X, hX, hb⟩ := key s.state.unit.dom.cells.length s.state.unit.dom.numGroups
  exact ⟨X, hX, fun cell group xs hx => hb cell group xs (directXs_cell hx) (hgc _ _ _ hx) hx⟩

variable {X : ℝ} (hX : 1 / 10 ^ 76 ≤ X)
  (hXs : ∀ cell group xs, directXs s.data s.state.unit.dom cell group = .ok xs → xs ≤ X)
  (hdt : (Flt.lightSpeed : ℝ) * s.data.dt < 10 ^ 76) {fuel' : Nat}
  (hb : segmentBound p.grid (Flt.lightSpeed * s.data.dt) X < fuel')
include hX hXs hdt hb

/-- **C76** (a particle).  A particle of the run that meets no exceptional case, nor its descendants, is tracked in a
bounded number of segments. -/
theorem C76_particle {d : Domain ℝ} (hd : d.skeleton = s.state.unit.dom.skeleton) {q : Particle ℝ}
    (hq : Reachable s.data s.state.unit.dom fuel' q)
    (hor : ∀ r, Visits s.data d fuel' q r → Ordinary s.data d p.grid r) :
    ∃ H, directHist s.data d fuel' q = .ok H ∧
      (H.contribs.length : ℝ) ≤ segmentBound p.grid (Flt.lightSpeed * s.data.dt) X + 1 := by
  obtain ⟨s', h1, h2, h3, h4, h5, h6, mats, h7, h8⟩ := h.start hso hio m ht fuel hfuel
  rw [hs] at h1
  cases h1
  have h3' : 3 ≤ fuel' := by
    have := segmentBound_ge (grid_box h7) (mul_nonneg (constants_pos).2.le h2.tracking.time.dt.le) (le_trans (by positivity) hX)
    exact_mod_cast this.trans hb.le
  obtain ⟨q', hq'⟩ := h2.tracking.prepare q
  obtain ⟨H, e1, e2, _⟩ := hist_ends hio h7 h.root fuel hfuel h8 hd h2.tracking
    ((started_present hso h.named h.consistent hm hs).skeleton hd) hX
    (fun c g xs hx => hXs c g xs (by rw [← directXs_skeleton s.data s.state.unit.dom, ← hd, directXs_skeleton]; exact hx)) hdt h3' hq hor hb hq'
    (.start hq')
  exact ⟨H, e1, e2⟩

/-- **C76** (a tracking phase).  The generations of particles born from a list of such particles come to an end. -/
theorem C76_generations {d : Domain ℝ} (hd : d.skeleton = s.state.unit.dom.skeleton) {ps : List (Particle ℝ)}
    (hq : ∀ q ∈ ps, Reachable s.data s.state.unit.dom fuel' q)
    (hor : ∀ q ∈ ps, ∀ r, Visits s.data d fuel' q r → Ordinary s.data d p.grid r) :
    ∃ b surv cs, Generations s.data d fuel' ps b surv cs := by
  obtain ⟨s', h1, h2, h3, h4, h5, h6, mats, h7, h8⟩ := h.start hso hio m ht fuel hfuel
  rw [hs] at h1
  cases h1
  have hX0 : 0 ≤ X := le_trans (by positivity) hX
  have h3' : 3 ≤ fuel' := by
    have := segmentBound_ge (grid_box h7) (mul_nonneg (constants_pos).2.le h2.tracking.time.dt.le) hX0
    exact_mod_cast this.trans hb.le
  obtain ⟨n, hn⟩ := exists_nat_gt (collisionBound (Flt.lightSpeed * s.data.dt) X)
  refine generations_end hio h7 h.root fuel hfuel h8 hd h2.tracking
    ((started_present hso h.named h.consistent hm hs).skeleton hd) hX
    (fun c g xs hx => hXs c g xs (by rw [← directXs_skeleton s.data s.state.unit.dom, ← hd, directXs_skeleton]; exact hx)) hdt h3' hb n ps
    fun q hqp => ⟨q, hq q hqp, hor q hqp, fun q' hq' => ⟨.start hq', ?_⟩⟩
  obtain ⟨t1, t2, _⟩ := reachable_facts hio h7 h.root fuel hfuel h8 h2.tracking ((hq q hqp).prepared hq')
  refine lt_of_le_of_lt ((collisionsLeft_le t1.opticalPath).trans ?_) hn
  unfold collisionBound reachOf
  have := (constants_pos).2.le
  gcongr

/-- **C76** (a run).  If no particle of the run meets an exceptional case, then the run in which every particle is
tracked on its own comes to its end; no execution of the program, for any setting of the threads, stops before the end
under any schedule, and there is one that completes. -/
theorem C76_run (hor : ∀ d q, RunVisits s.data s.opts fuel' s.state d q → Ordinary s.data d p.grid q) :
    (∃ t, DirectRun s.data s.opts fuel' s.state t) ∧
    ∀ ex : ExecInfo, ex.chunkSize ≠ 0 ∨ ex.nRayonThreads ≠ 0 →
      (∀ e, ¬ RunFails s.data ex s.opts fuel' s.state e) ∧ ∃ t, RunCore s.data ex s.opts fuel' s.state t := by
  obtain ⟨s', h1, h2, h3, h4, h5, h6, mats, h7, h8⟩ := h.start hso hio m ht fuel hfuel
  rw [hs] at h1
  cases h1
  have hsz : Sized s.data s.state.unit := (C67_started_tables hso h.named h.consistent hm hs).sized
  have hz : (zero >. (zero : ℝ)) = false := by simp
  -- a direct synchronisation goes through, and the particles come from the run
  have sync : ∀ {n s1}, n ≤ s.data.nSteps → DirectCycles s.data s.opts fuel' n s.state s1 →
      ∃ s2, cycleSync s.data s.opts n s1 = .ok s2 ∧
        ∃ u c, populationControl s.data s2.globalN s2.srcWeight s2.unit s2.container = .ok (u, c) ∧
          u.dom.skeleton = s.state.unit.dom.skeleton ∧
          ∀ q ∈ c.processing, Reachable s.data s.state.unit.dom fuel' q := by
    intro n s1 hn hd
    obtain ⟨r1, r2⟩ := cycles_rel (ex := ⟨.sequential, 1, 1, 1⟩) hz hn hsz h3.extra h3.reports hd
    obtain ⟨s1', hc⟩ := r2 (.inl one_ne_zero)
    obtain ⟨hr, _⟩ := r1 s1' hc
    obtain ⟨a1, a2, a3⟩ := cycles_safe h2 h3 h4 hn hc
    have hg := numGroups_skeleton a2
    obtain ⟨s2', e1, _, e3, e4, w, e5, e6⟩ := (h2.skeleton a2).sync (o := s.opts) (n := n) hn a1.spectrum (fun p h => by
      have := (C27_reachable h2.tracking.energy (a3 p h)).2.2
      omega)
    obtain ⟨⟨u', c'⟩, hx⟩ := (h2.skeleton (d := s2'.unit.dom) (by rw [e4]; exact a2)).population (c := s2'.container) e3
      (by rw [e4]; exact e5)
    rw [← e6] at hx
    obtain ⟨s2, f1, hr2⟩ := cycleSync_rel hr.symm e1
    obtain ⟨u, c, g1, g2, g3, _⟩ := populationControl_rel hr2.unit hr2.cont hx
    have hd1 : s2'.unit.dom.skeleton = s.state.unit.dom.skeleton := by rw [e4]; exact a2
    have hk := populationControl_reach hd1 (fun q hq => a3 q (cycleSync_all e1 q hq)) hx
    refine ⟨s2, f1, u, c, ?_, ?_, ?_⟩
    · rw [hr2.globalN, hr2.srcWeight]; exact g1
    · rw [g2.dom]; exact (populationControl_skeleton hx).trans hd1
    · intro q hq
      exact hk q (by simp [Container.all, g3.processing.mem_iff.2 hq])
  have cyc : ∀ n, n ≤ s.data.nSteps → ∃ s1, DirectCycles s.data s.opts fuel' n s.state s1 := by
    intro n
    induction n with
    | zero => intro _; exact ⟨_, .zero⟩
    | succ n ih =>
      intro hn
      obtain ⟨s1, hd⟩ := ih (by omega)
      obtain ⟨s2, e1, u, c, e2, e3, e4⟩ := sync (by omega) hd
      obtain ⟨b, surv, cs, hgen⟩ := C76_generations h hm hso hio m ht fuel hfuel hs hX hXs hdt hb e3 e4
        (fun q hq r hr => hor u.dom r ⟨n, s1, s2, u, c, q, by omega, hd, e1, e2, hq, rfl, hr⟩)
      exact ⟨_, .succ hd e1 ⟨u, c, b, surv, cs, e2, hgen, rfl, rfl⟩⟩
  obtain ⟨s1, hd⟩ := cyc _ le_rfl
  obtain ⟨s2, e1, _⟩ := sync le_rfl hd
  have hrun : DirectRun s.data s.opts fuel' s.state s2 := ⟨s1, hd, e1⟩
  exact ⟨⟨s2, hrun⟩, fun ex hex => ⟨fun e => runFails_none hz hsz h3.extra h3.reports hrun hex,
    (runCore_rel hz hsz h3.extra h3.reports hrun ex).2 hex⟩⟩

end

/-- **C09** (failures).  If tracking every particle on its own succeeds, no execution of the run stops on a failure,
under any policy, number of threads, chunk size and interleaving.  For every number type. -/
theorem C09_no_failure {T : Type} [Flt T] (data : Data T) (o : SyncOpts) (fuel : Nat) (s0 s : SimState T)
    (hz : (zero >. (zero : T)) = false) (ht : StartTables data s0.unit)
    (hx : s0.container.extra = []) (hr : s0.reports = []) (hd : DirectRun data o fuel s0 s) (ex : ExecInfo)
    (hex : ex.chunkSize ≠ 0 ∨ ex.nRayonThreads ≠ 0) (e : Panic) : ¬ RunFails data ex o fuel s0 e :=
  runFails_none hz ht.sized hx hr hd hex

/-- A case: the toy problem, on four threads. -/
example : ∀ e, ¬ RunFails toyData ⟨.rayon, 1, 4, 0⟩ toyOpts 20 toySim e := by
  obtain ⟨s, h, _⟩ := toyDirect_run
  exact C09_no_failure toyData toyOpts 20 toySim s rfl toy_startTables rfl rfl h _ (.inr (by decide))
