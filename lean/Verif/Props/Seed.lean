import Verif.Spec.Seeds
import Verif.Lemmas.CellNumbersStart
import Verif.Props.Reproducible
import Verif.Props.CycleReport
import Verif.Props.RoundedCase
/-!
# C84: the seed and the numbers of the cells

The seed of the input is used once, at the start, to draw the cell from which the mesh is explored; with the order in
which the hash maps give their keys, it decides the numbers of the cells.  The random numbers of the particles come
from the identifiers of the cells and from the numbers of particles sourced so far.  So the results do not depend on
the seed.
-/
open Flt Config Flooding GridSpec
set_option linter.unusedSectionVars false
attribute [local irreducible] Rng.lcg Rng.sample Rng.spawn

section
variable {T : Type} [Flt T]

/-! ## Lemmas -/

theorem DomNum.placed {σ : Nat → Nat} {a b : Domain T} (h : DomNum σ a b) (p : Particle T) :
    b.placed (p.renum σ) = a.placed p := by
  have := h.cell p.cell
  unfold Domain.placed
  rw [← this]
  rfl

theorem SimNum.same {σ : Nat → Nat} {data : Data T} {s s' : SimState T} (h : SimNum σ data s s') : SameButNumbers s s' := by
  have hp : ∀ {l l' : List (Particle T)}, (l.map (Particle.renum σ)).Perm l' →
      (l'.map s'.unit.dom.placed).Perm (l.map s.unit.dom.placed) := by
    intro l l' hl
    have := (hl.map s'.unit.dom.placed).symm
    rw [List.map_map] at this
    refine this.trans (.of_eq (List.map_congr_left fun p _ => ?_))
    exact h.unit.dom.placed p
  refine ⟨?_, h.cumulative, h.spectrum, h.srcWeight, h.globalN, ?_, hp h.cont.processing, hp h.cont.processed⟩
  · have hr := h.reports
    generalize s.reports = x at hr ⊢
    generalize s'.reports = y at hr ⊢
    induction hr with
    | nil => rfl
    | cons h1 _ ih => rw [List.map_cons, List.map_cons, ih, h1.1, h1.2.1]
  · have := (h.unit.dom.cells.map Prod.fst).symm
    rw [List.map_map] at this
    have e : (Prod.fst ∘ fun e : CellState T × Nat => (e.1, σ e.2)) = Prod.fst := rfl
    rwa [e, List.zipIdx_map_fst, List.zipIdx_map_fst] at this

theorem SameResults.placed {s t : SimState T} (h : SameResults s t) : SameButNumbers s t := by
  have e : t.unit.dom.placed = s.unit.dom.placed := by
    funext p; unfold Domain.placed; rw [h.cells]
  exact ⟨h.reports, h.cumulative, h.spectrum, h.srcWeight, h.globalN, .of_eq h.cells,
    by rw [e]; exact h.waiting.map _, by rw [e]; exact h.done.map _⟩

theorem SameButNumbers.symm {s t : SimState T} (h : SameButNumbers s t) : SameButNumbers t s :=
  ⟨h.reports.symm, h.cumulative.symm, h.spectrum.symm, h.srcWeight.symm, h.globalN.symm, h.cells.symm, h.waiting.symm,
    h.done.symm⟩

theorem SameButNumbers.trans {s t u : SimState T} (h : SameButNumbers s t) (h' : SameButNumbers t u) :
    SameButNumbers s u :=
  ⟨h'.reports.trans h.reports, h'.cumulative.trans h.cumulative, h'.spectrum.trans h.spectrum,
    h'.srcWeight.trans h.srcWeight, h'.globalN.trans h.globalN, h'.cells.trans h.cells, h'.waiting.trans h.waiting,
    h'.done.trans h.done⟩

theorem unitWeightOf_perm (hex : AddExchange T) {data : Data T} {l l' : List (CellState T)} (h : l.Perm l') {w : T}
    (hw : unitWeightOf data l = .ok w) : unitWeightOf data l' = .ok w := by
  unfold unitWeightOf at hw ⊢
  obtain ⟨rates, h1, hw⟩ := bind_ok.1 hw
  obtain ⟨ws, h2, hw⟩ := bind_ok.1 hw
  obtain ⟨ws', h3, h4⟩ := mapM_perm_ok h h2
  rw [h1]
  simp only [bind, Except.bind] at h3 ⊢
  rw [h3]
  rw [← hw]
  unfold Flt.sum
  rw [foldl_perm hex h4]

variable {so : StrOrder} {io io' : IterOrder} {m m' : Machine} {fuel fuel2 : Nat} {p q : Params T}

theorem addMaterials_congr {p q : Params T} (h : q.crossSections = p.crossSections) (polys : HMap String (Polynomial5 T)) :
    ∀ l nd (mats : List (Material T)), addMaterials q polys l nd mats = addMaterials p polys l nd mats := by
  have h1 : ∀ mp n nd (iso : List (Isotope T)), addIsotopes q polys mp n nd iso = addIsotopes p polys mp n nd iso := by
    intro mp n
    induction n with
    | zero => intro nd iso; rfl
    | succ n ih => intro nd iso; simp only [addIsotopes, h, ih]
  intro l
  induction l with
  | nil => intro nd mats; rfl
  | cons mp l ih => intro nd mats; simp only [addMaterials, h1, ih]

theorem initNuclearData_congr {p q : Params T} (hx : q.crossSections = p.crossSections) (hm : q.materials = p.materials)
    (hs : q.simulation.nGroups = p.simulation.nGroups ∧ q.simulation.eMin = p.simulation.eMin ∧
      q.simulation.eMax = p.simulation.eMax) : initNuclearData so q = initNuclearData so p := by
  unfold initNuclearData polynomialMap
  rw [addMaterials_congr hx, hx, hm, hs.1, hs.2.1, hs.2.2]

/-- The states in which two runs start differ only in the numbers of the cells. -/
theorem started_num (hso : ∀ l, (so l).Perm l) (hio : ∀ l, (io l).Perm l) (hio' : ∀ l, (io' l).Perm l)
    (hpq : SameButSeed p q) (hp : NamedParams p) (hc : Consistent p) (hm : FilledMaterials p) (hr : RootInGrid p)
    (hr' : RootInGrid q) {a b : Started T} (ha : startRun so io m fuel p = .ok (some a))
    (hb : startRun so io' m' fuel2 q = .ok (some b)) :
    b.data = a.data ∧ b.opts = a.opts ∧ StartTables a.data a.state.unit ∧ StartTables b.data b.state.unit ∧
      b.state.unit.dom.cells.Perm a.state.unit.dom.cells ∧
      ((∀ w, unitWeightOf a.data a.state.unit.dom.cells = .ok w → unitWeightOf b.data b.state.unit.dom.cells = .ok w) →
        ∃ σ, SimNum σ a.data a.state b.state) := by
  unfold SameButSeed at hpq
  generalize q.simulation.seed = seed at hpq
  generalize q.simulation.nRayonThreads = nth at hpq
  generalize q.simulation.chunkSize = ch at hpq
  generalize q.simulation.bindThreads = bi at hpq
  subst hpq
  have ta := C67_started_tables hso hp hc hm ha
  have tb := C67_started_tables hso (p := { p with simulation := { p.simulation with
    seed := seed, nRayonThreads := nth, chunkSize := ch, bindThreads := bi } }) ⟨hp.materials, hp.crossSections⟩
    ⟨hc.1, hc.2, hc.3, hc.4⟩ ⟨hm.1, hm.2⟩ hb
  obtain ⟨_, sa, fa⟩ := C64_started ha
  obtain ⟨_, sb, fb⟩ := C64_started hb
  obtain ⟨k1, k2, k3, _⟩ := startRun_some ha
  obtain ⟨nd, mats, dom, doms, a1, a2, a3, a4, a5, a6, _⟩ := startRun_parts ha
  obtain ⟨nd', mats', dom', doms', b1, b2, b3, b4, b5, b6, _⟩ := startRun_parts hb
  have hpos : 0 < p.simulation.nx ∧ 0 < p.simulation.ny ∧ 0 < p.simulation.nz := by
    unfold Params.askedCells at k1
    refine ⟨Nat.pos_of_ne_zero ?_, Nat.pos_of_ne_zero ?_, Nat.pos_of_ne_zero ?_⟩ <;>
      (intro e; rw [e] at k1; simp at k1)
  have hnd : initNuclearData so { p with simulation := { p.simulation with
    seed := seed, nRayonThreads := nth, chunkSize := ch, bindThreads := bi } } = initNuclearData so p :=
    initNuclearData_congr rfl rfl ⟨rfl, rfl, rfl⟩
  rw [hnd, a1] at b1
  cases b1
  have hdata : b.data = a.data := by rw [a2, b2]; rfl
  obtain ⟨g, dm, bc, cs, nodeOf, e1, e2, e3, e4, e5, e6, e7, e8⟩ := initMesh_shape hio a6 hpos hr a3
  obtain ⟨g', dm', bc', cs', nodeOf', f1, f2, f3, f4, f5, f6, f7, f8⟩ := initMesh_shape hio' b6 hpos hr' b3
  have hgg : g = g' := by rw [e1, f1]
  subst hgg
  subst e2 f2
  simp only [List.getElem?_cons_zero, Option.some.injEq] at a4 b4
  subst a4 b4
  have hbc : bc' = bc := by
    have h1 : getBoundaryConditions p.simulation.boundaryCondition = .ok bc' := f3
    rw [e3] at h1
    cases h1
    rfl
  subst hbc
  have hdom := built_domNum e4 f4 (by rw [f5, e5]) (by rw [f6, e6]) e7 f7 (geoms := p.geometries) (mats := mats) e8 f8
  rw [← a5, ← b5] at hdom
  have hperm : b.state.unit.dom.cells.Perm a.state.unit.dom.cells := by
    have := (hdom.cells.map Prod.fst).symm
    rw [List.map_map] at this
    have e : (Prod.fst ∘ fun e : CellState T × Nat => (e.1, newNumber g cs cs' e.2)) = Prod.fst := rfl
    rwa [e, List.zipIdx_map_fst, List.zipIdx_map_fst] at this
  have hopts : b.opts = a.opts := by
    have h1 : b.opts.spectrumOn = a.opts.spectrumOn := Bool.eq_iff_iff.2 (sb.spectrum.trans sa.spectrum.symm)
    have h2 : b.opts.bench = a.opts.bench := Bool.eq_iff_iff.2 (sb.bench.trans sa.bench.symm)
    cases hx : a.opts
    cases hy : b.opts
    rw [hx, hy] at h1 h2
    dsimp only at h1 h2
    rw [h1, h2]
  refine ⟨hdata, hopts, ta, tb, hperm, fun hw => ⟨newNumber g cs cs', ⟨hdom, ?_, ?_, ?_, ta.tables.groups, ?_⟩, ?_, ?_, ?_, ?_,
    ?_, ?_⟩⟩
  · rw [hdata] at hw; exact hw
  · rw [fa.counters.1, fb.counters.1]
  · refine ⟨[], [], fa.flux, ?_, by simp, by simp, .refl _⟩
    rw [fb.flux, ← hdom.tableSize_eq]
    rfl
  · have := tb.tables.groups
    rwa [hdata] at this
  · refine ⟨?_, ?_, fa.particles.2.2, fb.particles.2.2⟩
    · rw [fa.particles.1, fb.particles.1]; exact .refl _
    · rw [fa.particles.2.1, fb.particles.2.1]; exact .refl _
  · rw [fa.weights.2, fb.weights.2]
  · rw [fa.counters.2.2.2, fb.counters.2.2.2]
  · rw [fa.counters.2.1, fb.counters.2.1]
  · rw [fa.spectrum, fb.spectrum, hdom.groups]
  · rw [fa.counters.2.2.1, fb.counters.2.2.1]; exact .nil

/-! ## C84 -/

/-- **C84**.  Two runs whose inputs differ at most in the seed and in the settings of the threads have the same
read-only data, start with the same cells up to their numbers, and agree in their results, for every order in which
the hash maps give the cells, every setting of the threads and every schedule.  The runs add up what the cells emit
in different orders: this sum, which is the only one, is assumed to come out the same. -/
theorem C84_seed (hso : ∀ l, (so l).Perm l) (hio : ∀ l, (io l).Perm l) (hio' : ∀ l, (io' l).Perm l)
    (hpq : SameButSeed p q) (hp : NamedParams p) (hc : Consistent p) (hm : FilledMaterials p) (hr : RootInGrid p)
    (hr' : RootInGrid q) (hz : (zero >. (zero : T)) = false) {a b : Started T}
    (ha : startRun so io m fuel p = .ok (some a)) (hb : startRun so io' m' fuel2 q = .ok (some b))
    (hw : ∀ w, unitWeightOf a.data a.state.unit.dom.cells = .ok w → unitWeightOf b.data b.state.unit.dom.cells = .ok w)
    {fuel' : Nat} {r : SimState T} (hd : DirectRun a.data a.opts fuel' a.state r) :
    b.data = a.data ∧ b.opts = a.opts ∧ SameButNumbers a.state b.state ∧
      (∀ ex ex' s t, RunCore a.data ex a.opts fuel' a.state s → RunCore b.data ex' b.opts fuel' b.state t →
        SameButNumbers s t) ∧
      (∀ ex', ex'.chunkSize ≠ 0 ∨ ex'.nRayonThreads ≠ 0 → ∃ t, RunCore b.data ex' b.opts fuel' b.state t) := by
  obtain ⟨h1, h2, ta, tb, _, h3⟩ := started_num hso hio hio' hpq hp hc hm hr hr' ha hb
  obtain ⟨σ, h4⟩ := h3 hw
  obtain ⟨_, _, fa⟩ := C64_started ha
  obtain ⟨_, _, fb⟩ := C64_started hb
  obtain ⟨r', hd', h5⟩ := directRun_num h4 hd
  rw [← h1, ← h2] at hd'
  obtain ⟨g1, _⟩ := C09_run_schedule_independent _ _ fuel' _ _ hz ta fa.particles.2.2 fa.counters.2.2.1 hd
  obtain ⟨g3, g4⟩ := C09_run_schedule_independent _ _ fuel' _ _ hz tb fb.particles.2.2 fb.counters.2.2.1 hd'
  exact ⟨h1, h2, h4.same, fun ex ex' s t hs ht =>
    ((g1 ex s hs).placed.symm.trans h5.same).trans (g3 ex' t ht).placed, g4⟩

/-- **C84**, sums that do not depend on the order of their terms: nothing is assumed about what the cells emit. -/
theorem C84_seed_exact (hex : AddExchange T) (hso : ∀ l, (so l).Perm l) (hio : ∀ l, (io l).Perm l)
    (hio' : ∀ l, (io' l).Perm l) (hpq : SameButSeed p q) (hp : NamedParams p) (hc : Consistent p)
    (hm : FilledMaterials p) (hr : RootInGrid p) (hr' : RootInGrid q) (hz : (zero >. (zero : T)) = false)
    {a b : Started T} (ha : startRun so io m fuel p = .ok (some a)) (hb : startRun so io' m' fuel2 q = .ok (some b))
    {fuel' : Nat} {r : SimState T} (hd : DirectRun a.data a.opts fuel' a.state r) :
    b.data = a.data ∧ b.opts = a.opts ∧ SameButNumbers a.state b.state ∧
      (∀ ex ex' s t, RunCore a.data ex a.opts fuel' a.state s → RunCore b.data ex' b.opts fuel' b.state t →
        SameButNumbers s t) ∧
      (∀ ex', ex'.chunkSize ≠ 0 ∨ ex'.nRayonThreads ≠ 0 → ∃ t, RunCore b.data ex' b.opts fuel' b.state t) := by
  obtain ⟨h1, _, _, _, h3, _⟩ := started_num hso hio hio' hpq hp hc hm hr hr' ha hb
  refine C84_seed hso hio hio' hpq hp hc hm hr hr' hz ha hb (fun w hw => ?_) hd
  rw [h1]
  exact unitWeightOf_perm hex h3.symm hw

end

/-! ## Exact arithmetic -/

theorem FluxNum.sum {n : ℕ} {f f' : List ℝ} (h : FluxNum n f f') : scalarFluxSum f' = scalarFluxSum f := by
  obtain ⟨cs, cs', rfl, rfl, h1, h2, h3⟩ := h
  unfold scalarFluxSum
  rw [flt_sum_real, flt_sum_real, addContribs_sum _ _ (by simpa using h2), addContribs_sum _ _ (by simpa using h1),
    h3.sum_eq]

/-- **C84**, valid inputs in exact arithmetic.  Changing the seed of a valid input for another for which the draws of
the start-up fall in the grid gives an input that starts, and whatever the settings of the threads and the schedule
the results are the same: reports, with the flux, counters, spectrum, cells and particles. -/
theorem C84_seed_valid {so : StrOrder} (hso : ∀ l, (so l).Perm l) {io io' : IterOrder} (hio : ∀ l, (io l).Perm l)
    (hio' : ∀ l, (io' l).Perm l) {p q : Params ℝ} (hv : ValidInput p) (hm : FilledMaterials p) (hpq : SameButSeed p q)
    (hseed : q.simulation.seed + 1 < 2 ^ 64) (hroot : q.rootCell < cells q.grid) {m m' : Machine}
    (hth : 1 ≤ m'.defaultThreads) {fuel : ℕ} (hfuel : cells p.grid + 1 ≤ fuel) {a : Started ℝ}
    (ha : startRun so io m fuel p = .ok (some a)) {fuel' : ℕ} {r : SimState ℝ}
    (hd : DirectRun a.data a.opts fuel' a.state r) :
    ∃ b, startRun so io' m' fuel q = .ok (some b) ∧ b.data = a.data ∧ b.opts = a.opts ∧
      (∀ ex ex' s t, RunCore a.data ex a.opts fuel' a.state s → RunCore b.data ex' b.opts fuel' b.state t →
        SameButNumbers s t ∧ t.reports = s.reports) ∧
      (∀ ex', ex'.chunkSize ≠ 0 ∨ ex'.nRayonThreads ≠ 0 → ∃ t, RunCore b.data ex' b.opts fuel' b.state t) := by
  have hq : ValidInput q := by
    have hg : q.grid = p.grid := by rw [hpq]; rfl
    have hf : q.geometries = p.geometries := by rw [hpq]
    have hmm : q.materials = p.materials := by rw [hpq]
    have hx : q.crossSections = p.crossSections := by rw [hpq]
    have hs : q.simulation = { p.simulation with
      seed := q.simulation.seed, nRayonThreads := q.simulation.nRayonThreads, chunkSize := q.simulation.chunkSize,
      bindThreads := q.simulation.bindThreads } := by
      have := congrArg Params.simulation hpq
      exact this
    refine ⟨⟨by rw [hmm]; exact hv.named.materials, by rw [hx]; exact hv.named.crossSections⟩, ⟨?_, ?_, ?_, ?_⟩, ?_, ?_, ?_, hseed,
      ?_, ?_, hroot, ?_, ?_, ?_, ?_, ?_, ?_, ?_⟩
    · rw [hf]; exact hv.consistent.1
    · rw [hf]; exact hv.consistent.2
    · rw [hf, hmm]; exact hv.consistent.3
    · rw [hmm, hx]; exact hv.consistent.4
    · rw [hs]; exact hv.units
    · rw [hs]; exact hv.counts
    · rw [hs]; exact hv.sizes
    · rw [hs]; exact hv.border
    · rw [hg, hf]; exact hv.covered
    · rw [hg, hs]; exact hv.particles
    · rw [hs]; exact hv.dt
    · rw [hs]; exact hv.energies
    · rw [hs]; exact hv.groups
    · rw [hmm]; exact hv.materials
    · rw [hx]; exact hv.nuBar
    · obtain ⟨c, h1, geom, mp, h2, h3⟩ := hv.emits
      unfold RegionOf at h2 ⊢
      rw [hg, hmm, hf]
      exact ⟨c, h1, geom, mp, h2, h3⟩
  have hg : q.grid = p.grid := by rw [hpq]; rfl
  obtain ⟨b, hb, _, _, _, _, _, mats, hsu, _⟩ := hq.start hso hio' m' hth fuel (by rw [hg]; exact hfuel)
  obtain ⟨nd, mats0, _, _, _, _, _, hsu0, _⟩ := hv.safe hso hio fuel hfuel
  have hr := exact_root hsu0 hv.root
  have hr' := exact_root hsu hroot
  have hz : (zero >. (zero : ℝ)) = false := by simp
  obtain ⟨h1, h2, ta, tb, hperm, h3⟩ := started_num hso hio hio' hpq hv.named hv.consistent hm hr hr' ha hb
  obtain ⟨g1, g2, g3, g4, g5⟩ := C84_seed_exact addExchange_real hso hio hio' hpq hv.named hv.consistent hm hr hr' hz ha hb hd
  refine ⟨b, hb, g1, g2, fun ex ex' s t hs ht => ⟨g4 ex ex' s t hs ht, ?_⟩, g5⟩
  obtain ⟨σ, h4⟩ := h3 (fun w hw => by rw [h1]; exact unitWeightOf_perm addExchange_real hperm.symm hw)
  obtain ⟨_, _, fa⟩ := C64_started ha
  obtain ⟨_, _, fb⟩ := C64_started hb
  obtain ⟨r', hd', h5⟩ := directRun_num h4 hd
  rw [← h1, ← h2] at hd'
  rw [(C11_reports_schedule_independent _ _ fuel' _ _ addExchange_real hz ta fa.particles.2.2 fa.counters.2.2.1 hd ex s hs).1,
    (C11_reports_schedule_independent _ _ fuel' _ _ addExchange_real hz tb fb.particles.2.2 fb.counters.2.2.1 hd' ex' t ht).1]
  have hrr := h5.reports
  generalize r.reports = x at hrr ⊢
  generalize r'.reports = y at hrr ⊢
  induction hrr with
  | nil => rfl
  | cons k _ ih =>
    obtain ⟨k1, k2, n, f, f', k3, k4, k5⟩ := k
    rw [ih]
    congr 1
    exact Prod.ext k1 (Prod.ext k2 (by rw [k4, k5, k3.sum]))

/-! ## The hypotheses are met -/

namespace TwoSeeds
open TwoMaterials

/-- The two cells of `TwoMaterials`, with the seed `k`, on `threads` threads. -/
def seeded (k threads : Nat) : Params Toy :=
  { first with simulation := { first.simulation with seed := k, nRayonThreads := threads } }

/-- Test of the result of two computations. -/
def inRange {V : Type} (n : Nat) (x : Except Panic (List V)) (f : V → Except Panic Nat) : Bool :=
  match x with
  | .ok [c0] => match f c0 with
    | .ok root => decide (root < n)
    | .error _ => true
  | _ => true

theorem inRange_sound {V : Type} {n : Nat} {x : Except Panic (List V)} {f : V → Except Panic Nat}
    (h : inRange n x f = true) (c0 : V) (root : Nat) (hc : x = .ok [c0]) (hw : f c0 = .ok root) : root < n := by
  subst hc
  unfold inRange at h
  dsimp only at h
  rw [hw] at h
  exact of_decide_eq_true h

/-- Test of `RootInGrid`. -/
def rootCheck (p : Params Toy) : Bool :=
  let g := Grid.new p.simulation.nx p.simulation.ny p.simulation.nz p.simulation.lx p.simulation.ly p.simulation.lz
  inRange (cells g) (initCenters g 1 (BitVec.ofNat 64 (p.simulation.seed + 1))) g.whichCell

theorem rootCheck_sound {p : Params Toy} (h : rootCheck p = true) : RootInGrid p := inRange_sound h

/-- Tests evaluated by the kernel: the first cell of the grid has number 1 with the one seed and number 0 with the
other. -/
def numbers (m : Machine) (p : Params Toy) (l : List Nat) : Bool :=
  match startRun id id m 50 p with
  | .ok (some b) => decide (b.state.unit.dom.cells.map (·.id) = l)
  | _ => false

theorem numbers_first : numbers ⟨1, true⟩ first [2 ^ 32, 0] = true := by decide +kernel

theorem numbers_seeded : numbers ⟨4, true⟩ (seeded 0 4) [0, 2 ^ 32] = true := by decide +kernel

theorem numbers_sound {m : Machine} {p : Params Toy} {l : List Nat} (h : numbers m p l = true) :
    ∃ b, startRun id id m 50 p = .ok (some b) ∧ b.state.unit.dom.cells.map (·.id) = l := by
  unfold numbers at h
  split at h
  · next b hb => exact ⟨b, hb, by simpa using h⟩
  · cases h

theorem roots : rootCheck first = true ∧ rootCheck (seeded 0 4) = true := by decide +kernel

/-- With one seed on one thread, and with another on four threads, both inputs start, the cells have other numbers,
and all runs, of 45 collisions, agree. -/
example : ∃ a b, startRun id id ⟨1, true⟩ 50 first = .ok (some a) ∧
    startRun id id ⟨4, true⟩ 50 (seeded 0 4) = .ok (some b) ∧
    a.state.unit.dom.cells.map (·.id) = [2 ^ 32, 0] ∧ b.state.unit.dom.cells.map (·.id) = [0, 2 ^ 32] ∧
    (∃ t, RunCore b.data ⟨.rayon, 1, 4, 1⟩ b.opts 60 b.state t) ∧
    ∀ ex ex' s t, RunCore a.data ex a.opts 60 a.state s → RunCore b.data ex' b.opts 60 b.state t →
      SameButNumbers s t ∧ s.reports.map (fun r => r.2.1.collision) = [45] := by
  obtain ⟨r1, r2⟩ := roots
  obtain ⟨b, hb, h3⟩ := numbers_sound numbers_seeded
  obtain ⟨a, ha, h2⟩ := numbers_sound numbers_first
  have hk := check_true
  unfold check at hk
  split at hk
  · next a' ha' =>
    rw [ha] at ha'
    cases ha'
    rw [Bool.and_eq_true, decide_eq_true_eq] at hk
    obtain ⟨⟨h1, _⟩, hk⟩ := hk
    split at hk
    · next r hr =>
      have hd := directRun_sound h1 hr
      have hz : (zero >. (zero : Toy)) = false := by decide +kernel
      obtain ⟨_, _, _, g1, g2⟩ := C84_seed_exact addExchange_toy (so := id) (fun l => .refl l) (fun l => .refl l)
        (fun l => .refl l) (p := first) (q := seeded 0 4) rfl named.1 consistent filled (rootCheck_sound r1)
        (rootCheck_sound r2) hz ha hb hd
      refine ⟨a, b, ha, hb, h2, h3, g2 ⟨.rayon, 1, 4, 1⟩ (.inl (by decide)), fun ex ex' s t hs ht =>
        ⟨g1 ex ex' s t hs ht, ?_⟩⟩
      obtain ⟨_, _, fa⟩ := C64_started ha
      have k := ((C09_run_schedule_independent _ _ 60 _ _ hz
        (C67_started_tables (fun l => .refl l) named.1 consistent filled ha) fa.particles.2.2 fa.counters.2.2.1 hd).1
          ex s hs).reports
      have k' := congrArg (List.map fun x : Nat × Balance => x.2.collision) k
      rw [List.map_map, List.map_map] at k'
      rw [decide_eq_true_eq] at hk
      have k2 := congrArg (List.map fun x : Nat × Balance => x.2.collision) hk
      rw [List.map_map] at k2
      exact k'.trans k2
    · cases hk
  · cases hk

end TwoSeeds

/-- The hypotheses of `C84_seed_valid` are met by the built-in problem on one cell, with its own seed and with the
seed 7, in a run with a particle that is tracked. -/
example : ∃ (p q : Params ℝ) (a : Started ℝ) (fuel' : ℕ) (r : SimState ℝ), ValidInput p ∧ FilledMaterials p ∧
    SameButSeed p q ∧ q.simulation.seed = 7 ∧ p.simulation.seed = 1029384756 ∧ q.rootCell < cells q.grid ∧
    cells p.grid + 1 ≤ 2 ∧ startRun List.reverse id ⟨4, true⟩ 2 p = .ok (some a) ∧
    DirectRun a.data a.opts fuel' a.state r ∧ ∃ d x, RunVisits a.data a.opts fuel' a.state d x := by
  obtain ⟨dt, hdt, a, fuel', ha, _, hv, ⟨r, hd⟩, _⟩ := small_run
  have hval := small_valid hdt
  obtain ⟨nd, mats, _, _, _, _, _, hsu, _⟩ := hval.safe (so := id) (fun l => .refl l) (io := id) (fun l => .refl l) 2
    (by rw [small_cells])
  have hlt : ∀ s : BitVec 64, (Rng.lcg s).toNat < 2 ^ 64 - 1024 → Rng.draw s < 1 := by
    intro s h
    refine lt_of_le_of_ne (Rng.draw_le_one s) fun he => ?_
    have := (C01_sample_range s).2.2.1.1 (by rw [← he]; unfold Rng.draw; rfl)
    have h2 : (Rng.sample (T := ℝ) s).2 = Rng.lcg s := by unfold Rng.sample; rfl
    rw [h2] at this
    omega
  have k1 : (Rng.lcg (BitVec.ofNat 64 (7 + 1))).toNat < 2 ^ 64 - 1024 := by decide +kernel
  have k2 : (Rng.lcg (Rng.lcg (BitVec.ofNat 64 (7 + 1)))).toNat < 2 ^ 64 - 1024 := by decide +kernel
  have k3 : (Rng.lcg (Rng.lcg (Rng.lcg (BitVec.ofNat 64 (7 + 1))))).toNat < 2 ^ 64 - 1024 := by decide +kernel
  have hsu' : SingleUnit { smallProblem dt with simulation := { (smallProblem dt).simulation with seed := 7 } } mats :=
    ⟨hsu.1, hsu.2, hsu.3, by show 7 + 1 < 2 ^ 64; norm_num, hsu.5, hsu.6, hsu.7, hsu.8⟩
  refine ⟨smallProblem dt, { smallProblem dt with simulation := { (smallProblem dt).simulation with seed := 7 } }, a, fuel', r,
    hval, small_filled dt, rfl, rfl, rfl, ?_, by rw [small_cells], ha, hd, hv⟩
  exact C16_center hsu' (hlt _ k1) (hlt _ k2) (hlt _ k3)
