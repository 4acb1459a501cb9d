import Verif.Props.EndToEnd
/-!
# C59 and C81: how many particles population control can leave

Over the reals.  The split is random, but the number of copies is not free: a cycle never starts its tracking with twice the
requested number of particles or more, unless more survived the cycle before.
-/
open Flt FltReal GridSpec MeshSpec Rng
attribute [local irreducible] Rng.lcg Rng.sample Rng.spawn

theorem family_lengths {f : ℝ} (hf : 1 < f) {ps : List (Particle ℝ)} {fams : List (List (Particle ℝ))}
    (h : List.Forall₂ (SplitFamily f) ps fams) :
    ((⌊f⌋₊ : ℝ) * ps.length ≤ fams.flatten.length) ∧ (fams.flatten.length : ℝ) ≤ (⌊f⌋₊ + 1) * ps.length := by
  induction h with
  | nil => simp
  | @cons p fam ps fams hp _ ih =>
    have h1 : 1 ≤ ⌊f⌋₊ := Nat.le_floor (by simpa using hf.le)
    have hlen : ⌊f⌋₊ ≤ fam.length ∧ fam.length ≤ ⌊f⌋₊ + 1 := by
      rw [hp.size]
      unfold copiesFor
      split <;> omega
    have a1 : (⌊f⌋₊ : ℝ) ≤ fam.length := by exact_mod_cast hlen.1
    have a2 : (fam.length : ℝ) ≤ ⌊f⌋₊ + 1 := by exact_mod_cast hlen.2
    rw [List.flatten_cons, List.length_append, List.length_cons]
    push_cast
    constructor <;> linarith [ih.1, ih.2]

/-- **C59** (size).  A factor below one or of one never adds a particle.  With a factor `f` above one, every particle becomes
`⌊f⌋` or `⌊f⌋ + 1` particles, before the low-weight game removes some: the counters of the cycle say so, and at most
`(⌊f⌋ + 1)` times as many particles remain. -/
theorem C59_size {data : Data ℝ} {n : ℕ} {w f : ℝ} {u us u1 : UnitState ℝ} {c cs c1 : Container ℝ}
    (hsrc : sourceNow data w u c = .ok (us, cs))
    (hfac : computeSplitFactor data.nParticles n cs.processing.length data.nUnits data.loadBalance = .ok f)
    (hx : c.extra = []) (h : populationControl data n w u c = .ok (u1, c1)) :
    (f ≤ 1 → c1.processing.length ≤ cs.processing.length) ∧
    (1 < f → f < 2 ^ 64 →
      (⌊f⌋₊ : ℝ) * cs.processing.length ≤ c1.processing.length + u1.balance.weightRr ∧
      (c1.processing.length + u1.balance.weightRr : ℝ) ≤ (⌊f⌋₊ + 1) * cs.processing.length ∧
      c1.processing.length + u1.balance.weightRr = cs.processing.length + u1.balance.split) := by
  obtain ⟨a1, a2, a3⟩ := C59_population hsrc hfac hx h
  refine ⟨fun hle => ?_, fun h1 h2 => ?_⟩
  · rcases lt_or_eq_of_le hle with hlt | heq
    · rw [(a1 hlt).1]
      exact List.length_filterMap_le _ _
    · rw [(a2 heq).1]
  · obtain ⟨fams, b1, b2, b3, b4⟩ := a3 h1 h2
    have hlen := b2.length_eq
    have hsum : (fams.flatten.filterMap (lowWeightGame data.lowWeightCutoff w)).length +
        fams.flatten.countP (fun p => lowWeightGame data.lowWeightCutoff w p = none) = fams.flatten.length := by
      generalize fams.flatten = l
      induction l with
      | nil => rfl
      | cons a l ih =>
        rw [List.filterMap_cons, List.countP_cons]
        cases hg : lowWeightGame data.lowWeightCutoff w a <;> simp <;> omega
    have tot : c1.processing.length + u1.balance.weightRr = fams.flatten.length := by omega
    obtain ⟨c1', c2'⟩ := family_lengths h1 b1
    have tot' : (c1.processing.length + u1.balance.weightRr : ℝ) = fams.flatten.length := by exact_mod_cast tot
    rw [tot', tot]
    exact ⟨c1', c2', by omega⟩

section
variable {p : Params ℝ} (h : ValidInput p) {so : StrOrder} (hso : ∀ l, (so l).Perm l) {io : IterOrder}
  (hio : ∀ l, (io l).Perm l) (m : Machine) (ht : 1 ≤ m.defaultThreads) {fuel : Nat}
  (hfuel : cells p.grid + 1 ≤ fuel) {s : Started ℝ} (hs : startRun so io m fuel p = .ok (some s))
include h hso hio ht hfuel hs

/-- **C81** (size of the population).  In a run on a valid input without load balancing, let `k` particles be left by the cycle before, to which
the source adds at most a tenth of the target.  If together they are at most the target, the cycle tracks fewer than twice the target;
otherwise it tracks no more than the `k` particles and the sourced ones. -/
theorem C81_size (hlb : p.simulation.loadBalance = false) {fuel' n : Nat} (hn : n < p.simulation.nSteps)
    {ex : ExecInfo} {s1 s2 : SimState ℝ} (hc : Cycles s.data ex s.opts fuel' n s.state s1)
    (hsync : cycleSync s.data s.opts n s1 = .ok s2) {u : UnitState ℝ} {c : Container ℝ}
    (hpop : populationControl s.data s2.globalN s2.srcWeight s2.unit s2.container = .ok (u, c)) :
    (s1.container.all.length + p.simulation.nParticles / 10 ≤ p.simulation.nParticles →
      c.processing.length < 2 * p.simulation.nParticles) ∧
    (p.simulation.nParticles < s1.container.all.length + p.simulation.nParticles / 10 →
      c.processing.length ≤ s1.container.all.length + p.simulation.nParticles / 10) := by
  have hpop' := hpop
  unfold populationControl at hpop'
  rw [bind_ok] at hpop'
  obtain ⟨⟨us, cs⟩, hsrc, _⟩ := hpop'
  obtain ⟨f, hf, f0, f1, _⟩ := C81_target h hso hio m ht hfuel hs hlb hn hc hsync hsrc
  obtain ⟨_, _, sourced, _, _, _, _, hproc, _, _, _, hle, _⟩ := C81_source h hso hio m ht hfuel hs hn hc hsync hsrc
  have hns : sourced.length ≤ p.simulation.nParticles / 10 := by
    rw [Nat.le_div_iff_mul_le (by norm_num)]
    have : (sourced.length : ℝ) * 10 ≤ p.simulation.nParticles := by linarith
    exact_mod_cast this
  obtain ⟨s', h1, h2, h3, _⟩ := h.start hso hio m ht fuel hfuel
  rw [hs] at h1
  cases h1
  obtain ⟨_, hset, _⟩ := C64_started hs
  have hN := hset.nParticles
  obtain ⟨g0, _, _, t, ht1, ht2, hprep⟩ := sync_weight_real (h2.skeleton (cycles_reachable h3 hc).1) (by omega) hsync
  obtain ⟨e1, e2, _⟩ := C56_events (started_start hs) (by omega) hc
  have hprep' : ∃ k, s2.container = s1.container.swap ∧ s2.globalN = s2.container.processing.length + k ∧
      k = p.simulation.nParticles / 10 := by
    simp only [syncPrepare, bind_ok, pure_ok, unwrap_ok] at hprep
    obtain ⟨w, _, k, hk, rfl⟩ := hprep
    refine ⟨k, by rw [← ht2], rfl, ?_⟩
    rw [toUsize_eq] at hk
    simp only [mul_eq, lit_eq, ofNat_eq] at hk
    split at hk
    · rw [← Option.some.inj hk, hN, Nat.floor_eq_iff (by positivity)]
      have q1 := Nat.div_mul_le_self p.simulation.nParticles 10
      have q2 := Nat.lt_div_mul_add (a := p.simulation.nParticles) (b := 10) (by norm_num)
      have q1' : ((p.simulation.nParticles / 10 : ℕ) : ℝ) * 10 ≤ p.simulation.nParticles := by exact_mod_cast q1
      have q2' : (p.simulation.nParticles : ℝ) < ((p.simulation.nParticles / 10 : ℕ) : ℝ) * 10 + 10 := by exact_mod_cast q2
      constructor <;> norm_num <;> linarith
    · cases hk
  obtain ⟨k, hsw, hgk, rfl⟩ := hprep'
  have hall : s2.container.processing.length = s1.container.all.length := by
    rw [hsw]
    simp [Container.all, Container.swap, e1, e2]
  have hx : s2.container.extra = [] := by
    rw [hsw]
    simpa [Container.swap] using e2
  have hcs : cs.processing.length ≤ s1.container.all.length + p.simulation.nParticles / 10 := by
    rw [hproc, List.length_append]; omega
  have hg : s2.globalN = s1.container.all.length + p.simulation.nParticles / 10 ∧ 0 < s2.globalN :=
    ⟨by rw [hgk, hall], g0⟩
  have hl : s.data.loadBalance = false := by rw [hset.loadBalance]; exact hlb
  obtain ⟨f', hf', g1, g2, g3, g4⟩ := C34_global s.data.nParticles s2.globalN cs.processing.length s.data.nUnits hg.2
  rw [← hl, hf] at hf'
  cases hf'
  obtain ⟨b1, b2⟩ := C59_size hsrc hf hx hpop
  obtain ⟨f2, hf2, hlt⟩ := splitFactor_ok (ln := cs.processing.length) h2.atMost h2.units hg.2 s.data.loadBalance
  rw [hf] at hf2
  cases hf2
  have pos : 10 ≤ s.data.nParticles := h2.atLeast
  constructor
  · intro hk
    rcases le_or_gt f 1 with hf1 | hf1
    · have := b1 hf1
      omega
    · obtain ⟨_, b2, _⟩ := b2 hf1 hlt
      have fl : (⌊f⌋₊ : ℝ) ≤ f := Nat.floor_le f0.le
      have l0 : (0 : ℝ) ≤ cs.processing.length := by positivity
      have w0 : (0 : ℝ) ≤ u.balance.weightRr := by positivity
      have key : (c.processing.length : ℝ) ≤ p.simulation.nParticles + cs.processing.length := by nlinarith
      have : c.processing.length ≤ p.simulation.nParticles + cs.processing.length := by exact_mod_cast key
      have : s2.globalN < s.data.nParticles := g4.1 hf1
      omega
  · intro hk
    have := b1 (g2.2 (by omega)).le
    omega

end

/-- The first cycle of a run that meets all hypotheses: no particle is left from before, and fewer than twice the target are
tracked. -/
example : ∃ (p : Params ℝ) (s : Started ℝ) (s2 : SimState ℝ) (u : UnitState ℝ) (c : Container ℝ), ValidInput p ∧
    p.simulation.loadBalance = false ∧ 0 < p.simulation.nSteps ∧
    startRun List.reverse id ⟨4, true⟩ 2 p = .ok (some s) ∧ cycleSync s.data s.opts 0 s.state = .ok s2 ∧
    populationControl s.data s2.globalN s2.srcWeight s2.unit s2.container = .ok (u, c) ∧
    c.processing.length < 2 * p.simulation.nParticles := by
  obtain ⟨dt, hdt, s, fuel', hs, _⟩ := small_run
  obtain ⟨s2, u, c, g1, g2⟩ := C60_progress (small_valid hdt) (so := List.reverse) (fun l => List.reverse_perm l) (io := id)
    (fun l => .refl _) ⟨4, true⟩ (by norm_num) 2 (by rw [small_cells]) hs fuel' 0 (by show 0 < 1; norm_num) .zero
  refine ⟨smallProblem dt, s, s2, u, c, small_valid hdt, rfl, by show 0 < 1; norm_num, hs, g1, g2, ?_⟩
  refine (C81_size (small_valid hdt) (so := List.reverse) (fun l => List.reverse_perm l) (io := id) (fun l => .refl _)
    ⟨4, true⟩ (by norm_num) (by rw [small_cells]) hs rfl (fuel' := fuel') (by show 0 < 1; norm_num) (ex := ⟨.rayon, 1, 4, 0⟩) .zero
    g1 g2).1 ?_
  have h0 := (started_start hs).initial
  simp only [Container.all, h0.processing, h0.processed, h0.extra, List.append_nil, List.length_nil]
  omega
