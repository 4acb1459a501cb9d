import Verif.Props.ToyRun
/-!
# C06, C07, C08: particle balance and counters

All the theorems of this file hold for every `Flt T`: nothing is assumed about arithmetic.
They quantify over every problem (`data`, `s0`), execution policy and chunk size (`ex`), options and
every run of the relation `RunCore`, which contains every interleaving of the workers.
-/
open Flt
set_option linter.unusedSectionVars false
variable {T : Type} [Flt T]

/-! ## Specification -/

/-- The balance equation of the documentation: what comes in equals what goes out. -/
def BalanceEq (b : Balance) : Prop :=
  b.start + b.source + b.produce + b.split =
    b.absorb + b.census + b.escape + (b.overRr + b.weightRr) + b.fission

/-- `crossings` facet crossings explain the segments that did not end in a collision or census. -/
def SegmentsEq (b : Balance) (crossings : Nat) : Prop :=
  b.numSegments = b.collision + b.census + crossings

/-- Start of a run: empty containers, zero tallies. -/
def StartOfRun (s : SimState T) : Prop :=
  s.container.processing = [] ∧ s.container.processed = [] ∧ s.container.extra = [] ∧
  s.unit.balance = {} ∧ s.cumulative = {} ∧ s.reports = []

theorem StartOfRun.initial {s : SimState T} (h : StartOfRun s) : InitialState s :=
  ⟨h.1, h.2.1, h.2.2.1, h.2.2.2.1, h.2.2.2.2.1, h.2.2.2.2.2⟩

/-! ## C06 -/

/-- **C06.** In every cycle reported by a finished run, particles in = particles out, and there is
one report per cycle. -/
theorem C06_cycle_balance (data : Data T) (ex : ExecInfo) (o : SyncOpts) (fuel : Nat)
    (s0 s : SimState T) (h0 : StartOfRun s0) (h : RunCore data ex o fuel s0 s) :
    s.reports.length = data.nSteps ∧ ∀ r ∈ s.reports, BalanceEq r.2.1 := by
  have ha := runCore_after h0.initial h
  constructor
  · have := congrArg List.length ha.steps
    simpa using this
  · intro r hr
    exact (ha.reports r hr).balance

/-- **C06**, per particle: in the tracking phase of a cycle, from any container without invalid
particles and under any policy and schedule, the particles tracked (`ps`) are exactly the particles
present plus the ones created (`new`), each once; the particles kept at the end are exactly the ones
still valid after their tracking; every other one is accounted for as absorbed, escaped or consumed
by a fission. -/
theorem C06_no_particle_lost (data : Data T) (ex : ExecInfo) (fuel : Nat) (u u' : UnitState T)
    (c c' : Container T) (hk : ∀ p ∈ c.processing ++ c.extra, p.species = .known)
    (h : ProcessLoop data ex fuel u c u' c') :
    ∃ ps oss ps' d new, Tracked data u.dom fuel ps oss ps' ∧
      ps.Perm (c.processing ++ c.extra ++ new) ∧
      c'.processing = [] ∧ c'.extra = [] ∧
      c'.processed = c.processed ++ ps'.filter (fun p => p.species ≠ .unknown) ∧
      u'.balance = u.balance.add d ∧
      d.census = (ps'.filter (fun p => p.species ≠ .unknown)).length ∧
      ps.length + d.produce = d.absorb + d.escape + d.census + d.fission + new.length := by
  obtain ⟨ps, oss, ps', d, new, hc, h1, _, _, h2, h3, h4, h5⟩ := processLoop_counts hk h
  exact ⟨ps, oss, ps', d, new, hc.runs, h1, h3, h4, h5, h2, hc.survive.symm, hc.particles⟩

/-- The hypotheses of `C06_cycle_balance` are met by a run with all kinds of events. -/
example : ∃ s, StartOfRun toySim ∧ RunCore toyData toyExec toyOpts 20 toySim s ∧
    (s.reports.map fun r => (r.1, r.2.1)) = toyReports := by
  obtain ⟨s, h1, h2, _⟩ := toyRun_core
  exact ⟨s, ⟨rfl, rfl, rfl, rfl, rfl, rfl⟩, h1, h2⟩

/-! ## C07 -/

/-- **C07.** Reports are numbered from 0, the first cycle starts empty, each cycle ends with its
census count and the next one starts with it; the particles waiting after the run are the ones
counted last; the cumulative counters are the sums of the reports, and the lost-particle check on
them passes. -/
theorem C07_counters_chain (data : Data T) (ex : ExecInfo) (o : SyncOpts) (fuel : Nat)
    (s0 s : SimState T) (h0 : StartOfRun s0) (h : RunCore data ex o fuel s0 s) :
    s.reports.map (·.1) = List.range data.nSteps ∧
    (∀ r, s.reports[0]? = some r → r.2.1.start = 0) ∧
    (∀ r ∈ s.reports, r.2.1.end_ = r.2.1.census) ∧
    (∀ i r r', s.reports[i]? = some r → s.reports[i + 1]? = some r' → r'.2.1.start = r.2.1.end_) ∧
    (∀ r, s.reports.getLast? = some r → s.container.processing.length = r.2.1.end_) ∧
    s.cumulative = Balance.sum (s.reports.map fun r => r.2.1) ∧
    missingParticleTest s.cumulative = true := by
  have ha := runCore_after h0.initial h
  refine ⟨ha.steps, ha.first, fun r hr => (ha.reports r hr).survivors, ha.chain, ?_, ha.cumulative, ?_⟩
  · intro r hr
    rw [ha.startOk, hr]; rfl
  · rw [ha.cumulative]
    have hall := fun r hr => (ha.reports r hr).balance
    clear ha h h0
    have key : ∀ (l : List (Nat × Balance × T)) (b0 : Balance), BalanceEq b0 →
        (∀ r ∈ l, BalanceEq r.2.1) → BalanceEq ((l.map fun r => r.2.1).foldl Balance.add b0) := by
      intro l
      induction l with
      | nil => intro b0 hb _; exact hb
      | cons r l ih =>
        intro b0 hb hl
        refine ih _ ?_ (fun r hr => hl r (by simp [hr]))
        have h1 := hl r (by simp)
        simp only [BalanceEq, Balance.add] at hb h1 ⊢
        omega
    have := key s.reports {} rfl hall
    simp only [BalanceEq] at this
    simp only [missingParticleTest, sumReports, Balance.sum, beq_iff_eq]
    omega

/-- The check is not constantly true. -/
example : missingParticleTest { start := 1 } = false := by decide

example : ∃ s, StartOfRun toySim ∧ RunCore toyData toyExec toyOpts 20 toySim s ∧
    s.reports.length = 2 := by
  obtain ⟨s, h1, h2, _⟩ := toyRun_core
  refine ⟨s, ⟨rfl, rfl, rfl, rfl, rfl, rfl⟩, h1, ?_⟩
  have := congrArg List.length h2
  simpa [toyReports] using this

/-! ## C08 -/

/-- **C08**, per cycle: collisions are scatters, absorptions and fissions; and there is a history
of the tracked particles (the list `oss` of the outcomes of their segments) such that the segment
counter is the number of segments, the collision and census counters are the numbers of collisions
and census events, so the remaining ones are exactly the facet crossings. -/
theorem C08_event_counters (data : Data T) (ex : ExecInfo) (o : SyncOpts) (fuel : Nat)
    (s0 s : SimState T) (h0 : StartOfRun s0) (h : RunCore data ex o fuel s0 s) :
    ∀ r ∈ s.reports, r.2.1.collision = r.2.1.scatter + r.2.1.absorb + r.2.1.fission ∧
      ∃ dom ps oss ps', Tracked data dom fuel ps oss ps' ∧
        r.2.1.numSegments = oss.flatten.length ∧
        r.2.1.collision = oss.flatten.count .collision ∧
        r.2.1.census = oss.flatten.count .census ∧
        SegmentsEq r.2.1 (oss.flatten.count .facetCrossing) ∧
        facetCrossingCount r.2.1 = .ok (oss.flatten.count .facetCrossing) := by
  intro r hr
  have ha := (runCore_after h0.initial h).reports r hr
  refine ⟨ha.collisions, ?_⟩
  obtain ⟨dom, ps, oss, ps', ht, h1, h2, h3⟩ := ha.segments
  have hsum : ∀ l : List SegOutcome,
      l.length = l.count .collision + l.count .census + l.count .facetCrossing := by
    intro l
    induction l with
    | nil => rfl
    | cons a l ih => cases a <;> simp <;> omega
  have hs := hsum oss.flatten
  refine ⟨dom, ps, oss, ps', ht, h1, h2, h3, ?_, ?_⟩
  · simp only [SegmentsEq]; omega
  · unfold facetCrossingCount
    rw [if_neg (by omega), if_neg (by omega)]
    congr 1
    omega

/-- **C08**, cumulative: the subtraction of the event-balance check never underflows; its result is
the sum of the facet crossings of the cycles. -/
theorem C08_no_underflow (data : Data T) (ex : ExecInfo) (o : SyncOpts) (fuel : Nat)
    (s0 s : SimState T) (h0 : StartOfRun s0) (h : RunCore data ex o fuel s0 s) :
    ∃ crossings : List Nat, crossings.length = data.nSteps ∧
      (∀ (i : Nat) (r : Nat × Balance × T) (n : Nat), s.reports[i]? = some r → crossings[i]? = some n →
        facetCrossingCount r.2.1 = .ok n) ∧
      facetCrossingCount s.cumulative = .ok crossings.sum ∧
      s.cumulative.collision = s.cumulative.scatter + s.cumulative.absorb + s.cumulative.fission := by
  have ha := runCore_after h0.initial h
  have hlen : s.reports.length = data.nSteps := by
    have := congrArg List.length ha.steps
    simpa using this
  have hev := C08_event_counters data ex o fuel s0 s h0 h
  have hcross : ∀ r ∈ s.reports, ∃ n, SegmentsEq r.2.1 n ∧ facetCrossingCount r.2.1 = .ok n := by
    intro r hr
    obtain ⟨_, _, _, _, _, _, _, _, _, h1, h2⟩ := hev r hr
    exact ⟨_, h1, h2⟩
  have hcol : ∀ r ∈ s.reports, r.2.1.collision = r.2.1.scatter + r.2.1.absorb + r.2.1.fission :=
    fun r hr => (hev r hr).1
  rw [ha.cumulative, ← hlen]
  have key : ∀ (l : List (Nat × Balance × T)) (b0 : Balance) (n0 : Nat), SegmentsEq b0 n0 →
      b0.collision = b0.scatter + b0.absorb + b0.fission →
      (∀ r ∈ l, ∃ n, SegmentsEq r.2.1 n ∧ facetCrossingCount r.2.1 = .ok n) →
      (∀ r ∈ l, r.2.1.collision = r.2.1.scatter + r.2.1.absorb + r.2.1.fission) →
      ∃ cr : List Nat, cr.length = l.length ∧
        (∀ (i : Nat) (r : Nat × Balance × T) (n : Nat), l[i]? = some r → cr[i]? = some n → facetCrossingCount r.2.1 = .ok n) ∧
        SegmentsEq ((l.map fun r => r.2.1).foldl Balance.add b0) (n0 + cr.sum) ∧
        ((l.map fun r => r.2.1).foldl Balance.add b0).collision =
          ((l.map fun r => r.2.1).foldl Balance.add b0).scatter +
          ((l.map fun r => r.2.1).foldl Balance.add b0).absorb +
          ((l.map fun r => r.2.1).foldl Balance.add b0).fission := by
    intro l
    induction l with
    | nil => intro b0 n0 hb hc _ _; exact ⟨[], rfl, by simp, by simpa using hb, hc⟩
    | cons r l ih =>
      intro b0 n0 hb hc hl hl'
      obtain ⟨n, hn, hn'⟩ := hl r (by simp)
      have hc' := hl' r (by simp)
      obtain ⟨cr, h1, h2, h3, h4⟩ := ih (b0.add r.2.1) (n0 + n)
        (by simp only [SegmentsEq, Balance.add] at hb hn ⊢; omega)
        (by simp only [Balance.add]; omega)
        (fun r hr => hl r (by simp [hr])) (fun r hr => hl' r (by simp [hr]))
      refine ⟨n :: cr, by simp [h1], ?_, ?_, h4⟩
      · intro i r' m hr' hm
        cases i with
        | zero =>
          simp only [List.getElem?_cons_zero, Option.some.injEq] at hr' hm
          subst hr' hm; exact hn'
        | succ i => exact h2 i r' m (by simpa using hr') (by simpa using hm)
      · simpa [Nat.add_assoc] using h3
  obtain ⟨cr, h1, h2, h3, h4⟩ := key s.reports {} 0 rfl rfl hcross hcol
  refine ⟨cr, h1, h2, ?_, h4⟩
  rw [Nat.zero_add] at h3
  change SegmentsEq (sumReports s.reports) cr.sum at h3
  simp only [SegmentsEq] at h3
  unfold facetCrossingCount
  rw [if_neg (by omega), if_neg (by omega)]
  congr 1
  omega

/-- The subtraction can fail on other counters. -/
example : facetCrossingCount { collision := 1 } = .error .overflow := by decide
