import Verif.Lemmas.Converse
import Verif.Lemmas.Fuel
import Verif.Lemmas.CycleAt
import Verif.Lemmas.FloatWeights
import Verif.Props.RoundedCase
import Verif.Props.Report
/-!
# C79: executions finish together, with the same results

`C09` compares an execution with the reference that tracks each particle on its own, when the reference finishes.  Here
nothing is assumed of the reference: one finished execution, under any policy and schedule, tells that every execution
finishes, without failure, and with the same results.  The loops of the model have a bound, `fuel`; the code has
none, so the executions may have different bounds.
-/
open Flt FltReal Flooding Config GridSpec MeshSpec Ieee
set_option linter.unusedSectionVars false
attribute [local irreducible] Rng.lcg Rng.sample Rng.spawn

/-! ## Any arithmetic -/

section
variable {T : Type} [Flt T]

theorem SameResults.between {r s t : SimState T} (h1 : SameResults r s) (h2 : SameResults r t) : SameResults s t :=
  ⟨by rw [h1.reports, h2.reports], by rw [h1.cumulative, h2.cumulative], by rw [h1.spectrum, h2.spectrum],
    by rw [h1.srcWeight, h2.srcWeight], by rw [h1.globalN, h2.globalN], h2.waiting.trans h1.waiting.symm,
    h2.done.trans h1.done.symm, by rw [h1.cells, h2.cells]⟩

/-- **C79** (results).  Two finished executions of a run have the same results, under any policies, numbers of threads,
chunk sizes and interleavings. -/
theorem C79_same_results (data : Data T) (o : SyncOpts) (s0 : SimState T) (hz : (zero >. (zero : T)) = false)
    (h0 : StartOfRun s0) (ht : StartTables data s0.unit) (hm : GroupsMet data s0.unit.dom)
    {ex ex' : ExecInfo} {fuel fuel' : Nat} {s s' : SimState T}
    (h : RunCore data ex o fuel s0 s) (h' : RunCore data ex' o fuel' s0 s') : SameResults s s' := by
  obtain ⟨r, hr⟩ := runCore_direct hz h0.initial ht.sized h0.initial.reports hm h
  obtain ⟨r', hr'⟩ := runCore_direct hz h0.initial ht.sized h0.initial.reports hm h'
  cases hr.unique hr'
  exact .between ((C09_run_schedule_independent data o fuel s0 r hz ht h0.initial.extra h0.initial.reports hr).1 ex s h)
    ((C09_run_schedule_independent data o fuel' s0 r hz ht h0.initial.extra h0.initial.reports hr').1 ex' s' h')

/-- **C79** (end).  When one execution of a run finishes, then under every policy and schedule the run can finish, and
no execution of it fails. -/
theorem C79_all_finish (data : Data T) (o : SyncOpts) (s0 : SimState T) (hz : (zero >. (zero : T)) = false)
    (h0 : StartOfRun s0) (ht : StartTables data s0.unit) (hm : GroupsMet data s0.unit.dom)
    {ex ex' : ExecInfo} {fuel fuel' : Nat} (hf : fuel ≤ fuel') {s : SimState T}
    (h : RunCore data ex o fuel s0 s) (hex : ex'.chunkSize ≠ 0 ∨ ex'.nRayonThreads ≠ 0) :
    (∃ s', RunCore data ex' o fuel' s0 s') ∧ ∀ e, ¬ RunFails data ex' o fuel' s0 e := by
  obtain ⟨r, hr⟩ := runCore_direct hz h0.initial ht.sized h0.initial.reports hm h
  have hr := hr.mono hf
  exact ⟨(C09_run_schedule_independent data o fuel' s0 r hz ht h0.initial.extra h0.initial.reports hr).2 ex' hex,
    C09_no_failure data o fuel' s0 r hz ht h0.initial.extra h0.initial.reports hr ex' hex⟩

/-- **C79** (flux).  When the order of additions does not matter, as in exact arithmetic, the flux table and the
reports with their total flux are the same too. -/
theorem C79_same_flux (data : Data T) (o : SyncOpts) (s0 : SimState T) (hz : (zero >. (zero : T)) = false)
    (hadd : AddExchange T) (h0 : StartOfRun s0) (ht : StartTables data s0.unit) (hm : GroupsMet data s0.unit.dom)
    {ex ex' : ExecInfo} {fuel fuel' : Nat} {s s' : SimState T}
    (h : RunCore data ex o fuel s0 s) (h' : RunCore data ex' o fuel' s0 s') :
    s'.unit.flux = s.unit.flux ∧ s'.reports = s.reports := by
  obtain ⟨r, hr⟩ := runCore_direct hz h0.initial ht.sized h0.initial.reports hm h
  obtain ⟨r', hr'⟩ := runCore_direct hz h0.initial ht.sized h0.initial.reports hm h'
  cases hr.unique hr'
  have key : ∀ {a b : SimState T}, SimRel a b → b.unit.flux = a.unit.flux ∧ b.reports = a.reports := by
    intro a b hab
    refine ⟨hab.unit.flux.eq hadd, ?_⟩
    have hl := hab.reports
    generalize a.reports = la at hl ⊢
    generalize b.reports = lb at hl ⊢
    induction hl with
    | nil => rfl
    | @cons x y _ _ h1 _ ih =>
      obtain ⟨e1, e2, f, f', e3, e4, e5⟩ := h1
      obtain ⟨x1, x2, x3⟩ := x
      obtain ⟨y1, y2, y3⟩ := y
      dsimp only at e1 e2 e4 e5
      rw [ih, e4, e5, e3.eq hadd, e1, e2]
  obtain ⟨a1, a2⟩ := key ((runCore_rel hz ht.sized h0.initial.extra h0.initial.reports hr ex).1 s h)
  obtain ⟨b1, b2⟩ := key ((runCore_rel hz ht.sized h0.initial.extra h0.initial.reports hr' ex').1 s' h')
  exact ⟨b1.trans a1.symm, b2.trans a2.symm⟩

end

/-! ## Runs started from an input, exact arithmetic -/

/-- What a run started from a valid input offers to the theorems above. -/
theorem started_groupsMet {p : Params ℝ} (h : ValidInput p) {so : StrOrder} (hso : ∀ l, (so l).Perm l) {io : IterOrder}
    (hio : ∀ l, (io l).Perm l) (m : Machine) (ht : 1 ≤ m.defaultThreads) {fuel : Nat}
    (hfuel : cells p.grid + 1 ≤ fuel) {s : Started ℝ} (hs : startRun so io m fuel p = .ok (some s)) :
    GroupsMet s.data s.state.unit.dom := by
  obtain ⟨s', h1, h2, _⟩ := h.start hso hio m ht fuel hfuel
  rw [hs] at h1
  cases h1
  intro f q hq
  exact (C27_reachable h2.tracking.energy (hq.weaken fun _ _ _ _ => trivial)).2.2

/-- **C79** (exact).  A run started from a valid input: its finished executions report the same, flux included, and
when one finishes all do. -/
theorem C79_exact {p : Params ℝ} (h : ValidInput p) (hm : FilledMaterials p) {so : StrOrder} (hso : ∀ l, (so l).Perm l)
    {io : IterOrder} (hio : ∀ l, (io l).Perm l) (m : Machine) (ht : 1 ≤ m.defaultThreads) {fuel : Nat}
    (hfuel : cells p.grid + 1 ≤ fuel) {s : Started ℝ} (hs : startRun so io m fuel p = .ok (some s))
    {ex : ExecInfo} {f : Nat} {t : SimState ℝ} (hr : RunCore s.data ex s.opts f s.state t) :
    (∀ ex' f' t', RunCore s.data ex' s.opts f' s.state t' →
      SameResults t t' ∧ t'.unit.flux = t.unit.flux ∧ t'.reports = t.reports) ∧
    (∀ ex' f', f ≤ f' → ex'.chunkSize ≠ 0 ∨ ex'.nRayonThreads ≠ 0 →
      (∃ t', RunCore s.data ex' s.opts f' s.state t') ∧ ∀ e, ¬ RunFails s.data ex' s.opts f' s.state e) := by
  have hg := started_groupsMet h hso hio m ht hfuel hs
  have h0 := started_start hs
  have htab := C67_started_tables hso h.named h.consistent hm hs
  have hz : (zero >. (zero : ℝ)) = false := by simp
  exact ⟨fun ex' f' t' hr' => ⟨C79_same_results _ _ _ hz h0 htab hg hr hr',
      C79_same_flux _ _ _ hz addExchange_real h0 htab hg hr hr'⟩,
    fun ex' f' hf hex => C79_all_finish _ _ _ hz h0 htab hg hf hr hex⟩

/-! ## Runs started from an input, with rounding -/

section
variable {T : Type} [Flt T] [Ieee T]

theorem float_groupsMet {data : Data T} {dom : Domain T} (h : FloatTracking data dom) : GroupsMet data dom :=
  fun _ _ hq => (floatOk_reachable h hq).group

/-- **C78**, weights of any execution.  With rounding, after any number of cycles that any execution performs, no particle
has a negative weight, as long as the numbers of particles can be counted with 64 bits. -/
theorem C78_all_weights {so : StrOrder} (hso : ∀ l, (so l).Perm l) {io : IterOrder} (hio : ∀ l, (io l).Perm l)
    {m : Machine} {fuel : Nat} {p : Params T} (hn : NamedParams p) (hc : Consistent p) (hm : FilledMaterials p)
    (hroot : RootInGrid p) (hi : FloatInput p) (hcut : (zero <. p.simulation.lowWeightCutoff) = true)
    {s : Started T} (hs : startRun so io m fuel p = .ok (some s)) (ht : FloatTables s.data s.state.unit.dom)
    {fuel' n : Nat} (hle : n ≤ p.simulation.nSteps) (hcount : Countable64 s.data s.opts fuel' s.state n)
    {ex : ExecInfo} {s1 : SimState T} (hcyc : Cycles s.data ex s.opts fuel' n s.state s1) (q : Particle T)
    (hq : q ∈ s1.container.all) : (q.weight <. zero) = false := by
  have hns : s.data.nSteps = p.simulation.nSteps := (C64_started hs).2.1.nSteps
  have hg := float_groupsMet (startRun_float hso hio hn hc hroot hi hs ht).tracking
  have h0 := started_start hs
  have htab := C67_started_tables hso hn hc hm hs
  obtain ⟨r, hd⟩ := cycles_direct zero_gt_zero (by omega) h0.initial htab.sized h0.initial.reports hg hcyc
  exact C78_weights hso hio hn hc hroot hi hcut hs ht htab.tables hle hcount hd hcyc q hq

/-- **C79** (rounding).  The same with the rounding of `f32` or `f64`, for all results but the flux. -/
theorem C79_rounded {so : StrOrder} (hso : ∀ l, (so l).Perm l) {io : IterOrder} (hio : ∀ l, (io l).Perm l)
    {m : Machine} {fuel : Nat} {p : Params T} (hn : NamedParams p) (hc : Consistent p) (hm : FilledMaterials p)
    (hroot : RootInGrid p) (hi : FloatInput p) {s : Started T} (hs : startRun so io m fuel p = .ok (some s))
    (ht : FloatTables s.data s.state.unit.dom)
    {ex : ExecInfo} {f : Nat} {t : SimState T} (hr : RunCore s.data ex s.opts f s.state t) :
    (∀ ex' f' t', RunCore s.data ex' s.opts f' s.state t' → SameResults t t') ∧
    (∀ ex' f', f ≤ f' → ex'.chunkSize ≠ 0 ∨ ex'.nRayonThreads ≠ 0 →
      (∃ t', RunCore s.data ex' s.opts f' s.state t') ∧ ∀ e, ¬ RunFails s.data ex' s.opts f' s.state e) := by
  have hg := float_groupsMet (startRun_float hso hio hn hc hroot hi hs ht).tracking
  have h0 := started_start hs
  have htab := C67_started_tables hso hn hc hm hs
  exact ⟨fun ex' f' t' hr' => C79_same_results _ _ _ zero_gt_zero h0 htab hg hr hr',
    fun ex' f' hf hex => C79_all_finish _ _ _ zero_gt_zero h0 htab hg hf hr hex⟩

/-- **C79** (reproducible).  Two inputs that describe the same problem, on two machines, with any orders of the hash
maps: when an execution of the one finishes, all executions of the other finish, and with the same results. -/
theorem C79_reproducible {so so' : StrOrder} (hso : ∀ l, (so l).Perm l) (hso' : ∀ l, (so' l).Perm l) {io : IterOrder}
    (hio : ∀ l, (io l).Perm l) {m m' : Machine} {fuel : Nat} {p q : Params T} (hpq : SameProblem p q)
    (hp : NamedParams p) (hq : NamedParams q) (hc : Consistent p) (hm : FilledMaterials p)
    (hroot : RootInGrid p) (hi : FloatInput p) {a : Started T} (ha : startRun so io m fuel p = .ok (some a))
    (ht : FloatTables a.data a.state.unit.dom)
    {ex : ExecInfo} {f : Nat} {s : SimState T} (hr : RunCore a.data ex a.opts f a.state s) :
    ∃ b, startRun so' io m' fuel q = .ok (some b) ∧
      (∀ ex' f' t, RunCore b.data ex' b.opts f' b.state t → AgreeingResults a.data b.data s t) ∧
      (∀ ex' f', f ≤ f' → ex'.chunkSize ≠ 0 ∨ ex'.nRayonThreads ≠ 0 →
        (∃ t, RunCore b.data ex' b.opts f' b.state t) ∧ ∀ e, ¬ RunFails b.data ex' b.opts f' b.state e) := by
  obtain ⟨b, hb, _, _, hrun⟩ := (C67_same_run (fuel := fuel) (io := io) hso hso' hpq hp hq hc m m').2 a ha
  obtain ⟨h1, h2⟩ := C79_rounded hso hio hp hc hm hroot hi ha ht hr
  refine ⟨b, hb, fun ex' f' t hrt => ?_, fun ex' f' hf hex => ?_⟩
  · obtain ⟨t', g1, g2⟩ := (hrun ex' f').2.1 t hrt
    exact .of_same (h1 ex' f' t' g1) g2
  · obtain ⟨⟨t', k1⟩, k2⟩ := h2 ex' f' hf hex
    obtain ⟨t, g1, _⟩ := (hrun ex' f').1 t' k1
    exact ⟨⟨t, g1⟩, fun e he => k2 e (((hrun ex' f').2.2 e).2 he)⟩

end

section
variable {F : Format}

/-- The total flux that a finished execution reports for a cycle, against the contributions of the reference. -/
theorem reported_flux (hR : Reciprocal (Num F)) {so : StrOrder} (hso : ∀ l, (so l).Perm l) {io : IterOrder}
    (hio : ∀ l, (io l).Perm l) {m : Machine} {fuel : Nat} {p : Params (Num F)} (hn : NamedParams p) (hc : Consistent p)
    (hm : FilledMaterials p) (hroot : RootInGrid p) (hi : FloatInput p)
    (hcut : (zero <. p.simulation.lowWeightCutoff) = true)
    {s : Started (Num F)} (hs : startRun so io m fuel p = .ok (some s)) (ht : FloatTables s.data s.state.unit.dom)
    {f : Nat} (hcount : Countable64 s.data s.opts f s.state p.simulation.nSteps)
    {ex : ExecInfo} {t : SimState (Num F)} (hr : RunCore s.data ex s.opts f s.state t) {n : Nat}
    (hlt : n < p.simulation.nSteps) :
    ∃ s1 s2 u1 c1 b surv cs bal x, DirectCycles s.data s.opts f n s.state s1 ∧ cycleSync s.data s.opts n s1 = .ok s2 ∧
      populationControl s.data s2.globalN s2.srcWeight s2.unit s2.container = .ok (u1, c1) ∧
      Generations s.data u1.dom f c1.processing b surv cs ∧
      t.reports[n]? = some (n, bal, x) ∧ bal.numSegments = b.numSegments ∧
      (x.Finite → 0 ≤ x.real ∧
        (1 - F.eps) ^ (s.state.unit.flux.length + bal.numSegments) * exactSum (cs.map (·.2)) ≤ x.real ∧
        x.real ≤ (1 + F.eps) ^ (s.state.unit.flux.length + bal.numSegments) * exactSum (cs.map (·.2))) := by
  have hns : s.data.nSteps = p.simulation.nSteps := (C64_started hs).2.1.nSteps
  have hg := float_groupsMet (startRun_float hso hio hn hc hroot hi hs ht).tracking
  have h0 := started_start hs
  have htab := C67_started_tables hso hn hc hm hs
  have hlt' : n < s.data.nSteps := by omega
  obtain ⟨t1, t2, u, c, t3, g1, g2, g3, g4, g5⟩ := runCore_at hlt' h0 hr
  have hcyc : Cycles s.data ex s.opts f (n + 1) s.state _ := .succ g1 g2 g3
  obtain ⟨r, hd⟩ := cycles_direct zero_gt_zero (by omega) h0.initial htab.sized h0.initial.reports hg hcyc
  have hrel := (cycles_rel (ex := ex) zero_gt_zero (by omega) htab.sized h0.initial.extra h0.initial.reports hd).1 _ hcyc
  have hlen : u.flux.length = s.state.unit.flux.length := by
    have e1 := (cycles_sized htab.sized (by omega) hcyc).fluxLen
    have e2 := (cycles_reachableBy h0.initial (by omega) hcyc).1
    exact e1.trans ((tableSize_skeleton e2).trans htab.sized.fluxLen.symm)
  cases hd with
  | @succ _ _ s1 s2 v k hd1 hsync hdc =>
  obtain ⟨u1, c1, b, surv, cs, hpc, hgen, rfl, rfl⟩ := hdc
  have hb : u.balance.numSegments = b.numSegments := by
    have e1 : u.balance = u1.balance.add b := hrel.1.unit.balance
    have e2 := populationControl_segments hpc
    have e3 : s2.unit.balance.numSegments = 0 := by
      obtain ⟨hrel1, _⟩ := (cycles_rel (ex := ex) zero_gt_zero (by omega) htab.sized h0.initial.extra h0.initial.reports
        hd1).1 _ g1
      obtain ⟨w, hw, hrel2⟩ := cycleSync_rel hrel1 hsync
      rw [g2] at hw
      cases hw
      rw [← hrel2.unit.balance, (cycleSync_after (by omega) h0.initial (cycles_between (by omega) h0.initial g1) g2).balance]
    rw [e1]
    change u1.balance.numSegments + b.numSegments = _
    omega
  obtain ⟨x, hx, hfin⟩ := C78_flux hR hso hio hn hc hroot hi hcut hs ht htab.tables hlt
    (fun k a b c d hk => hcount k a b c d (by omega)) hd1 hsync hpc hgen g1 g2 g3 g4
  have hxe : x = scalarFluxSum u.flux := by
    rw [cycleSync_report g4] at hx
    have := List.append_cancel_left hx
    simpa using this.symm
  refine ⟨s1, s2, u1, c1, b, surv, cs, { u.balance with end_ := c.processed.length }, x, hd1, hsync, hpc, hgen,
    hxe ▸ g5, hb, fun hf => ?_⟩
  rw [← hlen]
  exact hb ▸ hfin hf

/-- **C78**, flux of any execution.  With rounding, a finished execution reports for each cycle a total flux which, when
finite, is not negative. -/
theorem C78_reported_flux (hR : Reciprocal (Num F)) {so : StrOrder} (hso : ∀ l, (so l).Perm l) {io : IterOrder}
    (hio : ∀ l, (io l).Perm l) {m : Machine} {fuel : Nat} {p : Params (Num F)} (hn : NamedParams p) (hc : Consistent p)
    (hm : FilledMaterials p) (hroot : RootInGrid p) (hi : FloatInput p)
    (hcut : (zero <. p.simulation.lowWeightCutoff) = true)
    {s : Started (Num F)} (hs : startRun so io m fuel p = .ok (some s)) (ht : FloatTables s.data s.state.unit.dom)
    {f : Nat} (hcount : Countable64 s.data s.opts f s.state p.simulation.nSteps)
    {ex : ExecInfo} {t : SimState (Num F)} (hr : RunCore s.data ex s.opts f s.state t) {n : Nat}
    (hlt : n < p.simulation.nSteps) :
    ∃ bal x, t.reports[n]? = some (n, bal, x) ∧ (x.Finite → 0 ≤ x.real) := by
  obtain ⟨s1, s2, u1, c1, b, surv, cs, bal, x, _, _, _, _, a5, _, a7⟩ :=
    reported_flux hR hso hio hn hc hm hroot hi hcut hs ht hcount hr hlt
  exact ⟨bal, x, a5, fun hf => (a7 hf).1⟩

/-- **C79** (rounding, flux).  The total fluxes that two finished executions of a run report for the same cycle, when
finite, differ by rounding alone: by a factor that depends on the number of segments of the cycle and of entries of the
tally only. -/
theorem C79_rounded_flux (hR : Reciprocal (Num F)) {so : StrOrder} (hso : ∀ l, (so l).Perm l) {io : IterOrder}
    (hio : ∀ l, (io l).Perm l) {m : Machine} {fuel : Nat} {p : Params (Num F)} (hn : NamedParams p) (hc : Consistent p)
    (hm : FilledMaterials p) (hroot : RootInGrid p) (hi : FloatInput p)
    (hcut : (zero <. p.simulation.lowWeightCutoff) = true)
    {s : Started (Num F)} (hs : startRun so io m fuel p = .ok (some s)) (ht : FloatTables s.data s.state.unit.dom)
    {f f' : Nat} (hcount : ∀ g, Countable64 s.data s.opts g s.state p.simulation.nSteps)
    {ex ex' : ExecInfo} {t t' : SimState (Num F)} (hr : RunCore s.data ex s.opts f s.state t)
    (hr' : RunCore s.data ex' s.opts f' s.state t') {n : Nat} (hlt : n < p.simulation.nSteps) :
    ∃ bal x x', t.reports[n]? = some (n, bal, x) ∧ t'.reports[n]? = some (n, bal, x') ∧
      (x.Finite → x'.Finite → 0 ≤ x.real ∧
        (1 - F.eps) ^ (s.state.unit.flux.length + bal.numSegments) * x.real ≤
          (1 + F.eps) ^ (s.state.unit.flux.length + bal.numSegments) * x'.real) := by
  obtain ⟨s1, s2, u1, c1, b, surv, cs, bal, x, a1, a2, a3, a4, a5, a6, a7⟩ :=
    reported_flux hR hso hio hn hc hm hroot hi hcut hs ht (hcount f) hr hlt
  obtain ⟨s1', s2', u1', c1', b', surv', cs', bal', x', b1, b2, b3, b4, b5, b6, b7⟩ :=
    reported_flux hR hso hio hn hc hm hroot hi hcut hs ht (hcount f') hr' hlt
  cases (a1.mono (Nat.le_max_left f f')).unique (b1.mono (Nat.le_max_right f f'))
  rw [a2] at b2
  cases b2
  rw [a3] at b3
  cases b3
  obtain ⟨rfl, rfl, rfl⟩ := (a4.mono (Nat.le_max_left f f')).unique (b4.mono (Nat.le_max_right f f'))
  have hsame := ((C79_rounded hso hio hn hc hm hroot hi hs ht hr).1 ex' f' t' hr').reports
  have hbal : bal' = bal := by
    have := congrArg (·[n]?) hsame
    simp only [List.getElem?_map, a5, b5, Option.map_some, Option.some.injEq, Prod.mk.injEq] at this
    exact this.2
  subst hbal
  refine ⟨bal', x, x', a5, b5, fun hf hf' => ?_⟩
  obtain ⟨p1, _, p2⟩ := a7 hf
  obtain ⟨_, p3, _⟩ := b7 hf'
  refine ⟨p1, ?_⟩
  have e1 : (0 : ℝ) ≤ (1 - F.eps) ^ (s.state.unit.flux.length + bal'.numSegments) :=
    pow_nonneg (by have := F.eps_le; linarith) _
  have e2 : (0 : ℝ) ≤ (1 + F.eps) ^ (s.state.unit.flux.length + bal'.numSegments) :=
    pow_nonneg (by have := F.eps_pos; linarith) _
  calc _ ≤ (1 - F.eps) ^ (s.state.unit.flux.length + bal'.numSegments) *
        ((1 + F.eps) ^ (s.state.unit.flux.length + bal'.numSegments) * exactSum _) := mul_le_mul_of_nonneg_left p2 e1
    _ = (1 + F.eps) ^ (s.state.unit.flux.length + bal'.numSegments) *
        ((1 - F.eps) ^ (s.state.unit.flux.length + bal'.numSegments) * exactSum _) := by ring
    _ ≤ _ := mul_le_mul_of_nonneg_left p3 e2

end

/-! ## The hypotheses are met -/

/-- The small problem of `Verif/Props/EndingCase.lean`, in which a particle is tracked: it starts, an execution on
four threads finishes, and so does every other, with the same reports. -/
example : ∃ (p : Params ℝ) (s : Started ℝ) (f : Nat) (t : SimState ℝ), ValidInput p ∧ FilledMaterials p ∧
    startRun List.reverse id ⟨4, true⟩ 2 p = .ok (some s) ∧ RunCore s.data ⟨.rayon, 1, 4, 0⟩ s.opts f s.state t ∧
    ∀ ex' f' t', RunCore s.data ex' s.opts f' s.state t' → t'.reports = t.reports := by
  obtain ⟨dt, hdt, s, fuel', hs, _, _, ⟨r, hr⟩, _⟩ := small_run
  have htab := C67_started_tables (fun l => List.reverse_perm l) (small_valid hdt).named (small_valid hdt).consistent
    (small_filled dt) hs
  have h0 := started_start hs
  obtain ⟨t, ht⟩ := (C09_run_schedule_independent s.data s.opts fuel' s.state r (by simp) htab h0.initial.extra
    h0.initial.reports hr).2 ⟨.rayon, 1, 4, 0⟩ (.inr (by decide))
  exact ⟨smallProblem dt, s, fuel', t, small_valid hdt, small_filled dt, hs, ht, fun ex' f' t' hr' =>
    ((C79_exact (small_valid hdt) (small_filled dt) (fun l => List.reverse_perm l) (fun l => .refl _) ⟨4, true⟩ (by norm_num)
      (by rw [small_cells]) hs ht).1 ex' f' t' hr').2.2⟩
