import Verif.Props.Source
import Verif.Props.Grid
import Verif.Props.Start
import Verif.Lemmas.LocateFloat
import Verif.Props.Rounded
import Verif.Props.EndingCase
import Verif.Props.Together
import Verif.Lemmas.StartFloat
import Verif.Lemmas.SafeStart
/-!
# C80: the cells of a started run and the particles that they source keep distinct identifiers

With exact arithmetic for every valid input, and with rounding for every grid of reasonable size.
-/
open Flt Ieee GridSpec MeshSpec Config Flooding
attribute [local irreducible] Rng.lcg Rng.sample Rng.spawn Rng.hashState
set_option linter.unusedSectionVars false

section general
variable {T : Type} [Flt T]

/-- The numbers of the cells, from the state of each cell. -/
theorem ids_of_table {l : List (CellState T)} {cs : List Nat} {n : Nat} (hp : cs.Perm (List.range n))
    (hlen : cs.length = l.length)
    (key : ∀ (i c : Nat), cs[i]? = some c → ∃ st : CellState T, l[i]? = some st ∧ st.id = c * 2 ^ 32 ∧
      st.sourceTally = 0) :
    (∃ gids : List Nat, gids.Perm (List.range n) ∧ l.map (·.id) = gids.map (· * 2 ^ 32)) ∧
    ∀ st ∈ l, st.sourceTally = 0 := by
  refine ⟨⟨cs, hp, List.ext_getElem? fun i => ?_⟩, fun st hst => ?_⟩
  · rw [List.getElem?_map, List.getElem?_map]
    cases hi : cs[i]? with
    | none =>
      have : l[i]? = none := by
        rw [List.getElem?_eq_none_iff] at hi ⊢
        omega
      rw [this]
      rfl
    | some c =>
      obtain ⟨st, q1, q2, _⟩ := key i c hi
      rw [q1]
      exact congrArg some q2
  · obtain ⟨i, hi⟩ := List.getElem?_of_mem hst
    have : i < cs.length := by
      rw [hlen]; exact (List.getElem?_eq_some_iff.1 hi).1
    obtain ⟨st', q1, _, q3⟩ := key i _ (List.getElem?_eq_getElem this)
    rw [hi] at q1
    cases q1
    exact q3

/-- The numbers of the cells, for every arithmetic that finds the centre of a cell in that cell. -/
theorem startRun_ids {so : StrOrder} {io : IterOrder} (hio : ∀ l, (io l).Perm l) {m : Machine} {fuel : Nat}
    {p : Params T} {s : Started T} (hroot : RootInGrid p) (h : startRun so io m fuel p = .ok (some s))
    (hloc : ∀ c, c < cells p.gridOf → ∃ r, p.gridOf.meanPoint c = .ok r ∧ p.gridOf.whichCell r = .ok c) :
    (∃ gids : List Nat, gids.Perm (List.range (cells p.gridOf)) ∧
      s.state.unit.dom.cells.map (·.id) = gids.map (· * 2 ^ 32)) ∧
    ∀ st ∈ s.state.unit.dom.cells, st.sourceTally = 0 := by
  obtain ⟨nd, mats, dom, doms, h1, h2, h3, h4, h5, h6, _⟩ := startRun_parts h
  obtain ⟨hc0, _⟩ := startRun_some h
  have hpos : 0 < p.simulation.nx ∧ 0 < p.simulation.ny ∧ 0 < p.simulation.nz := by
    unfold Params.askedCells at hc0
    refine ⟨Nat.pos_of_ne_zero ?_, Nat.pos_of_ne_zero ?_, Nat.pos_of_ne_zero ?_⟩ <;> intro h0 <;> simp [h0] at hc0
  obtain ⟨g, dom', bc, cs, nodeOf, e1, rfl, e3, e4, e5, e6, e7, e8⟩ := initMesh_shape hio h6 hpos hroot h3
  have : dom' = dom := by simpa using h4
  subst this
  have hg : g = p.gridOf := e1
  subst hg
  rw [h5]
  have key : ∀ (i c : Nat), cs[i]? = some c → ∃ st : CellState T, dom'.cells[i]? = some st ∧ st.id = c * 2 ^ 32 ∧
      st.sourceTally = 0 := by
    intro i c hi
    obtain ⟨st, q1, q2⟩ := e8 i c hi
    obtain ⟨r, r1, r2⟩ := hloc c (e4.lt hi)
    refine ⟨st, q1, ?_⟩
    unfold cellStateOf at q2
    obtain ⟨_, _, q2⟩ := bind_ok.1 q2
    obtain ⟨_, _, q2⟩ := bind_ok.1 q2
    obtain ⟨center, hcen, q2⟩ := bind_ok.1 q2
    obtain ⟨_, _, q2⟩ := bind_ok.1 q2
    obtain ⟨_, _, q2⟩ := bind_ok.1 q2
    obtain ⟨n, hn, q2⟩ := bind_ok.1 q2
    rw [e4.centerOf hi, r1] at hcen
    cases hcen
    rw [r2] at hn
    cases hn
    cases pure_ok.1 q2
    exact ⟨rfl, rfl⟩
  exact ids_of_table e4.perm (by rw [e4.perm.length_eq, List.length_range, ← e7]) key

/-- The counters of the cells count the sourced particles. -/
theorem sourceCells_tally {data : Data T} {dom : Domain T} {rates : List T} {w : T} {cells cells' : List (CellState T)}
    {i : Nat} {ps : List (Particle T)} (h : sourceCells data dom rates w cells i = .ok (cells', ps)) :
    (cells'.map (·.sourceTally)).sum = (cells.map (·.sourceTally)).sum + ps.length := by
  induction cells generalizing i cells' ps with
  | nil =>
    simp only [sourceCells, Except.ok.injEq, Prod.mk.injEq] at h
    obtain ⟨rfl, rfl⟩ := h
    rfl
  | cons cell cells ih =>
    simp only [sourceCells, bind_ok, pure_ok, Prod.exists, Prod.mk.injEq] at h
    obtain ⟨n, _, ps1, hps1, cs, ps2, hcs, rfl, rfl⟩ := h
    have hl := mapM_ok_length hps1
    simp only [cellSeeds, List.length_map, List.length_range] at hl
    simp only [List.map_cons, List.sum_cons, ih hcs, List.length_append, hl]
    omega

theorem sourcedRun_tally {data : Data T} {ex : ExecInfo} {o : SyncOpts} {fuel n : Nat} {s0 s : SimState T}
    {l : List (Particle T)} (h : SourcedRun data ex o fuel n s0 s l) :
    Cycles data ex o fuel n s0 s ∧
    (s.unit.dom.cells.map (·.sourceTally)).sum = (s0.unit.dom.cells.map (·.sourceTally)).sum + l.length := by
  induction h with
  | zero => exact ⟨.zero, rfl⟩
  | @succ n s s1 s2 u1 c1 u c sourced new _ hsync hsrc hnew hp ih =>
    obtain ⟨hcyc, htal⟩ := ih
    refine ⟨.succ hcyc hsync hp, ?_⟩
    have hdom : s2.unit.dom = s1.unit.dom := cycleSync_dom hsync
    obtain ⟨u3, c3, hpc, hl⟩ := hp
    simp only [populationControl, bind_ok, Prod.exists] at hpc
    obtain ⟨u2, c2, hs, f, _, hreg⟩ := hpc
    rw [hs] at hsrc
    obtain ⟨rfl, rfl⟩ : u2 = u1 ∧ c2 = c1 := by simpa using hsrc
    have hu : u.dom = u2.dom := by rw [processLoop_dom hl, regulateOrSplit_dom hreg]
    simp only [sourceNow, bind_ok, pure_ok, Prod.exists, Prod.mk.injEq] at hs
    obtain ⟨rates, _, cells, ps, hsc, rfl, rfl⟩ := hs
    have hps : ps = new := List.append_cancel_left hnew
    subst hps
    dsimp only at hu ⊢
    rw [hu]
    dsimp only
    rw [sourceCells_tally hsc, hdom, htal, List.length_append]
    omega

/-- As long as the run has sourced at most `2^32` particles, no counter is above. -/
theorem tally_le {data : Data T} {ex : ExecInfo} {o : SyncOpts} {fuel n : Nat} {s0 s : SimState T}
    {l : List (Particle T)} (h : SourcedRun data ex o fuel n s0 s l)
    (h0 : ∀ st ∈ s0.unit.dom.cells, st.sourceTally = 0) (hl : l.length ≤ 2 ^ 32) :
    ∀ c ∈ s.unit.dom.cells, c.sourceTally ≤ 2 ^ 32 := by
  intro c hc
  have h1 := (sourcedRun_tally h).2
  have h2 : (s0.unit.dom.cells.map (·.sourceTally)).sum = 0 := by
    rw [List.sum_eq_zero_iff]
    intro x hx
    obtain ⟨st, hst, rfl⟩ := List.mem_map.1 hx
    exact h0 st hst
  have h3 : c.sourceTally ≤ (s.unit.dom.cells.map (·.sourceTally)).sum :=
    List.le_sum_of_mem (List.mem_map.2 ⟨c, hc, rfl⟩)
  omega

theorem globalIds_of {cells : List (CellState T)} {n : Nat} (hn : n ≤ 2 ^ 32)
    (h : ∃ gids : List Nat, gids.Perm (List.range n) ∧ cells.map (·.id) = gids.map (· * 2 ^ 32)) : GlobalIds cells := by
  obtain ⟨gids, h1, h2⟩ := h
  refine ⟨gids, h1.nodup_iff.2 List.nodup_range, fun g hg => ?_, h2⟩
  have := List.mem_range.1 (h1.mem_iff.1 hg)
  omega

end general

section exact

/-- **C05** (start).  With exact arithmetic, the cells of a started run carry the numbers of the cells of the grid,
each one once, and no cell has sourced a particle yet. -/
theorem C05_cell_numbers {so : StrOrder} (hso : ∀ l, (so l).Perm l) {io : IterOrder} (hio : ∀ l, (io l).Perm l)
    {m : Machine} (hm : 1 ≤ m.defaultThreads) {fuel : Nat} {p : Params ℝ} (hv : ValidInput p)
    (hfuel : cells p.grid + 1 ≤ fuel) {s : Started ℝ} (h : startRun so io m fuel p = .ok (some s)) :
    (∃ gids : List Nat, gids.Perm (List.range (cells p.grid)) ∧
      s.state.unit.dom.cells.map (·.id) = gids.map (· * 2 ^ 32)) ∧
    ∀ st ∈ s.state.unit.dom.cells, st.sourceTally = 0 := by
  obtain ⟨s', h', _, _, _, _, _, mats, hu, hmesh⟩ := hv.start hso hio m hm fuel hfuel
  rw [h] at h'
  cases h'
  obtain ⟨dom, bc, cs, nodeOf, e1, _, e3, _, _, e6, e7⟩ := initMesh_spec hio hu hv.root fuel hfuel
  rw [hmesh] at e1
  have : dom = s.state.unit.dom := by simpa using e1.symm
  subst this
  refine ids_of_table e3.perm (by rw [e3.perm.length_eq, List.length_range, ← e6]) fun i c hi => ?_
  obtain ⟨st, q1, q2⟩ := e7 i c hi
  obtain ⟨k, _, _, _, q3⟩ := cellState_spec hu e3 hi
  rw [q2] at q3
  cases q3
  exact ⟨_, q1, rfl, rfl⟩

/-- The number of particles of the source of a run. -/
theorem sourcedRun_bound {data : Data ℝ} {ex : ExecInfo} {o : SyncOpts} {fuel n : Nat} {s0 s : SimState ℝ}
    {l : List (Particle ℝ)} (hp : SafeProblem data s0.unit.dom) (hi : InitialState s0) (hn : n ≤ data.nSteps)
    (h : SourcedRun data ex o fuel n s0 s l) : (l.length : ℝ) ≤ n * (data.nParticles / 10) := by
  induction h with
  | zero => simp
  | @succ n s0 s1 s2 u1 c1 u c sourced new hprev hsync hsrc hnew _ ih =>
    have ih := ih hp hi (by omega)
    have hsk := (cycles_reachableBy hi (by omega) (sourcedRun_tally hprev).1).1
    have key : ∀ {s' : SimState ℝ}, s'.unit.dom = s1.unit.dom → syncPrepare data s' = .ok s2 →
        (new.length : ℝ) ≤ data.nParticles / 10 := by
      intro s' hd hprep
      have hp' : SafeProblem data s'.unit.dom := hp.skeleton (by rw [hd]; exact hsk)
      obtain ⟨w, hw, w0, _⟩ := hp'.weight
      have hpos : 0 < s2.unit.unitWeight := by
        simp only [syncPrepare, bind_ok, pure_ok] at hprep
        obtain ⟨w', hw', _, _, rfl⟩ := hprep
        rw [hw] at hw'
        cases hw'
        exact w0
      obtain ⟨_, _, l', _, _, _, h4, _, _, _, h5, _⟩ := C35_source hp'.source (by have := hp.atLeast; omega) hprep hpos hsrc
      rw [hnew] at h4
      rw [List.append_cancel_left h4]
      exact h5
    have hlast : (new.length : ℝ) ≤ data.nParticles / 10 := by
      unfold cycleSync at hsync
      split at hsync
      · rw [bind_ok] at hsync
        obtain ⟨s', h1, h2⟩ := hsync
        rw [if_neg (by omega)] at h2
        refine key ?_ h2
        simp only [syncFinalize, bind_ok, pure_ok] at h1
        obtain ⟨_, _, rfl⟩ := h1
        rfl
      · exact key rfl hsync
    rw [List.length_append]
    push_cast
    linarith

/-- **C05** (from the input).  For every valid input of at most `2^32` cells, if the number of cycles times a tenth of
the requested number of particles is at most `2^32`, then all the particles that the source creates during the run have
distinct identifiers and distinct seeds, in every execution. -/
theorem C05_started {so : StrOrder} (hso : ∀ l, (so l).Perm l) {io : IterOrder} (hio : ∀ l, (io l).Perm l)
    {m : Machine} (hm : 1 ≤ m.defaultThreads) {fuel : Nat} {p : Params ℝ} (hv : ValidInput p)
    (hfuel : cells p.grid + 1 ≤ fuel) (hcells : cells p.grid ≤ 2 ^ 32)
    (hsize : p.simulation.nSteps * p.simulation.nParticles ≤ 10 * 2 ^ 32) {s : Started ℝ}
    (h : startRun so io m fuel p = .ok (some s)) {fuel' n : Nat} (hn : n ≤ p.simulation.nSteps) {s1 : SimState ℝ}
    (hr : Cycles s.data s.exec s.opts fuel' n s.state s1) :
    ∃ sourced, SourcedRun s.data s.exec s.opts fuel' n s.state s1 sourced ∧
      (sourced.map (·.identifier)).Nodup ∧ (sourced.map (·.seed)).Nodup := by
  obtain ⟨sourced, hs⟩ := C05_history _ _ _ _ _ _ _ hr
  obtain ⟨c1, c2⟩ := C05_cell_numbers hso hio hm hv hfuel h
  obtain ⟨s', h', hp, hi, _, _, hns, _⟩ := hv.start hso hio m hm fuel hfuel
  rw [h] at h'
  cases h'
  have hnp : s.data.nParticles = p.simulation.nParticles := by
    obtain ⟨nd, mats, _, _, _, e, _⟩ := startRun_parts h
    rw [e]
    rfl
  have hb := sourcedRun_bound hp hi (by omega) hs
  rw [hnp] at hb
  have hl : sourced.length ≤ 2 ^ 32 := by
    have h1 : n * p.simulation.nParticles ≤ 10 * 2 ^ 32 := (Nat.mul_le_mul_right _ hn).trans hsize
    have h2 : (n : ℝ) * p.simulation.nParticles ≤ 10 * 2 ^ 32 := by exact_mod_cast h1
    have h3 : (sourced.length : ℝ) ≤ 2 ^ 32 := by
      refine hb.trans ?_
      rw [← mul_div_assoc, div_le_iff₀ (by norm_num)]
      linarith
    exact_mod_cast h3
  exact ⟨sourced, hs, C05_sourced_distinct _ _ _ _ _ _ _ _ hs (globalIds_of hcells c1) (tally_le hs c2 hl)⟩

end exact

section rounded
variable {T : Type} [Flt T] [Ieee T]

/-- **C80** (location).  With rounding, the centre that the program computes for a cell, as the mean of its fourteen
points, is found in that cell. -/
theorem C80_located {g : Grid T} (hg : SizedGrid g) {c : Nat} (hc : c < cells g) :
    ∃ r, g.meanPoint c = .ok r ∧ g.whichCell r = .ok c := meanPoint_located hg hc

/-- **C80** (geometric centre).  The same for the centre computed from the lower corner of the cell. -/
theorem C80_center_located {g : Grid T} (hg : SizedGrid g) {c : Nat} (hc : c < cells g) :
    ∃ r, g.cellCenter c = .ok r ∧ g.whichCell r = .ok c := cellCenter_located hg hc

theorem draw_below {s : BitVec 64} (hs : (Rng.lcg s).toNat ≤ (2 ^ 24 - 2 ^ 11) * 2 ^ 40) {n k : Nat} (h0 : 0 < n)
    (hn : n ≤ 2 ^ 10) (h : unwrap (Flt.toUsize (Flt.floor ((Rng.sample (T := T) s).1 *. Flt.ofNat n))) = .ok k) :
    k < n := by
  have e : (Rng.sample (T := T) s).1 = Flt.ofSeed (Rng.lcg s) := by unfold Rng.sample; rfl
  rw [e] at h
  obtain ⟨x, hx, x1⟩ := ofSeed_le (T := T) (Rng.lcg s) (2 ^ 24 - 2 ^ 11) (by norm_num) hs
  obtain ⟨x', hx', x0, _⟩ := fin_sample (T := T) (Rng.lcg s)
  have : x' = x := by
    rw [show val (Flt.ofSeed (Rng.lcg s) : T) = some (x' : EReal) from hx'] at hx
    exact_mod_cast Option.some.inj hx
  subst this
  have hn0 : (1 : ℝ) ≤ n := by exact_mod_cast h0
  have hb : Bd (Flt.ofSeed (Rng.lcg s) : T) 0 (1 - 1 / 2 ^ 13) := ⟨x', hx', x0, x1.trans (by norm_num)⟩
  have hr : Rep T (((n * (2 ^ 13 - 1) : ℕ) : ℝ) * 2 ^ (-13 : ℤ)) :=
    rep_scaled (by omega) (by norm_num) (by norm_num)
  obtain ⟨z, hz, z0, z1⟩ := hb.mul (IsFin.bd (fin_ofNat (T := T) (n := n) (by omega))) rep_zero hr le_rfl
    (by linarith) (by linarith) (by
      push_cast
      norm_num
      linarith)
  have hf := val_floor _ _ hz
  have zn : z < n := by
    refine lt_of_le_of_lt z1 ?_
    push_cast
    norm_num
    linarith
  have f0 : (0 : ℝ) ≤ ((⌊z⌋ : ℤ) : ℝ) := by exact_mod_cast Int.floor_nonneg.2 z0
  have f1 : ((⌊z⌋ : ℤ) : ℝ) < n := lt_of_le_of_lt (Int.floor_le z) zn
  have n1 : (n : ℝ) ≤ 2 ^ 10 := by exact_mod_cast hn
  rw [toUsize_eq _ _ hf f0 (lt_of_lt_of_le f1 (n1.trans (by norm_num)))] at h
  have := Except.ok.inj h
  rw [← this]
  exact (Nat.floor_lt f0).2 f1

/-- **C80** (unit).  With rounding, the cell at the centre of the unit is in the grid, if none of the three numbers
drawn for it is within `2^-13` of one. -/
theorem C80_root {p : Params T} (hg : SizedGrid p.gridOf)
    (hs : ∀ k ∈ [1, 2, 3], (Rng.lcg^[k] (BitVec.ofNat 64 (p.simulation.seed + 1))).toNat ≤ (2 ^ 24 - 2 ^ 11) * 2 ^ 40) :
    RootInGrid p := by
  intro c0 root hc hw
  change initCenters p.gridOf 1 _ = _ at hc
  change p.gridOf.whichCell c0 = _ at hw
  change root < cells p.gridOf
  generalize BitVec.ofNat 64 (p.simulation.seed + 1) = s at hs hc
  have s1 := hs 1 (by simp)
  have s2 := hs 2 (by simp)
  have s3 := hs 3 (by simp)
  rw [Function.iterate_one] at s1
  rw [Function.iterate_succ_apply', Function.iterate_one] at s2
  rw [Function.iterate_succ_apply', Function.iterate_succ_apply', Function.iterate_one] at s3
  have hsam : ∀ s, (Rng.sample (T := T) s).2 = Rng.lcg s := fun s => by unfold Rng.sample; rfl
  unfold initCenters randomCenter at hc
  obtain ⟨⟨c, s'⟩, h1, h2⟩ := bind_ok.1 hc
  obtain ⟨cs, _, h2⟩ := bind_ok.1 h2
  have hcc : c = c0 := by
    have := pure_ok.1 h2
    simp at this
    exact this.1
  subst hcc
  generalize hr1 : Rng.sample (T := T) s = r1 at h1
  have q1 := hsam s
  rw [hr1] at q1
  obtain ⟨f1, t1⟩ := r1
  dsimp only at h1 q1
  subst q1
  generalize hr2 : Rng.sample (T := T) (Rng.lcg s) = r2 at h1
  have q2 := hsam (Rng.lcg s)
  rw [hr2] at q2
  obtain ⟨f2, t2⟩ := r2
  dsimp only at h1 q2
  subst q2
  generalize hr3 : Rng.sample (T := T) (Rng.lcg (Rng.lcg s)) = r3 at h1
  obtain ⟨f3, t3⟩ := r3
  dsimp only at h1
  obtain ⟨i, hi, h1⟩ := bind_ok.1 h1
  obtain ⟨j, hj, h1⟩ := bind_ok.1 h1
  obtain ⟨k, hk, h1⟩ := bind_ok.1 h1
  obtain ⟨c', hc', h1⟩ := bind_ok.1 h1
  cases pure_ok.1 h1
  have bi := draw_below (T := T) (s := s) s1 hg.counts.1.1 hg.counts.1.2 (by rw [hr1]; exact hi)
  have bj := draw_below (T := T) (s := Rng.lcg s) s2 hg.counts.2.1.1 hg.counts.2.1.2 (by rw [hr2]; exact hj)
  have bk := draw_below (T := T) (s := Rng.lcg (Rng.lcg s)) s3 hg.counts.2.2.1 hg.counts.2.2.2 (by rw [hr3]; exact hk)
  have hlt : p.gridOf.cellTupleToIdx (i, j, k) < cells p.gridOf := (C12_cells p.gridOf).2 (i, j, k) ⟨bi, bj, bk⟩ |>.1
  obtain ⟨r, e1, e2⟩ := cellCenter_located hg hlt
  rw [hc'] at e1
  cases e1
  rw [hw] at e2
  cases e2
  exact hlt

theorem sized_cells {g : Grid T} (hg : SizedGrid g) : cells g ≤ 2 ^ 30 := by
  have h1 : g.nx * g.ny ≤ 2 ^ 10 * 2 ^ 10 := Nat.mul_le_mul hg.counts.1.2 hg.counts.2.1.2
  have h2 : g.nx * g.ny * g.nz ≤ 2 ^ 10 * 2 ^ 10 * 2 ^ 10 := Nat.mul_le_mul h1 hg.counts.2.2.2
  exact h2

/-- **C80** (cells).  With rounding, the cells of a started run carry the numbers of the cells of the grid, each one
once, and no cell has sourced a particle yet. -/
theorem C80_cell_numbers {so : StrOrder} {io : IterOrder} (hio : ∀ l, (io l).Perm l) {m : Machine} {fuel : Nat}
    {p : Params T} {s : Started T} (hroot : RootInGrid p) (hg : SizedGrid p.gridOf)
    (h : startRun so io m fuel p = .ok (some s)) :
    (∃ gids : List Nat, gids.Perm (List.range (cells p.gridOf)) ∧
      s.state.unit.dom.cells.map (·.id) = gids.map (· * 2 ^ 32)) ∧
    ∀ st ∈ s.state.unit.dom.cells, st.sourceTally = 0 :=
  startRun_ids hio hroot h fun _ hc => meanPoint_located hg hc

/-- **C80** (particles).  With rounding, as long as the run has sourced at most `2^32` particles, all the particles
that the source creates in the first `n` cycles have distinct identifiers and distinct seeds, in every execution. -/
theorem C80_sourced_distinct {so : StrOrder} {io : IterOrder} (hio : ∀ l, (io l).Perm l) {m : Machine} {fuel : Nat}
    {p : Params T} {s : Started T} (hroot : RootInGrid p) (hg : SizedGrid p.gridOf)
    (h : startRun so io m fuel p = .ok (some s)) {fuel' n : Nat} {s1 : SimState T} {sourced : List (Particle T)}
    (hr : SourcedRun s.data s.exec s.opts fuel' n s.state s1 sourced)
    (hl : sourced.length ≤ 2 ^ 32) :
    (sourced.map (·.identifier)).Nodup ∧ (sourced.map (·.seed)).Nodup :=
  C05_sourced_distinct _ _ _ _ _ _ _ _ hr
    (globalIds_of ((sized_cells hg).trans (by norm_num)) (C80_cell_numbers hio hroot hg h).1)
    (tally_le hr (C80_cell_numbers hio hroot hg h).2 hl)

end rounded

/-! ### Non-vacuity -/

/-- The built-in problem, in both formats of the program. -/
example : ∃ (p : Params (Num binary32)) (s : Started (Num binary32)), RootInGrid p ∧ SizedGrid p.gridOf ∧
    startRun id id ⟨8, false⟩ 1000 p = .ok (some s) ∧ cells p.gridOf = 1000 := by
  obtain ⟨s, h1, _⟩ := builtin_start (threads := 1) (steps := 10) (builtin_sourced binary32)
    (so := id) (fun l => .refl _) (io := id) (fun l => .refl _) ⟨8, false⟩ le_rfl
  exact ⟨_, s, builtin_floatMesh.root, builtin_floatMesh.sized, h1, builtin_cells⟩

example : ∃ (p : Params (Num binary64)) (s : Started (Num binary64)), RootInGrid p ∧ SizedGrid p.gridOf ∧
    startRun id id ⟨8, false⟩ 1000 p = .ok (some s) ∧ cells p.gridOf = 1000 := by
  obtain ⟨s, h1, _⟩ := builtin_start (threads := 8) (steps := 10) (builtin_sourced binary64)
    (so := id) (fun l => .refl _) (io := id) (fun l => .refl _) ⟨8, false⟩ le_rfl
  exact ⟨_, s, builtin_floatMesh.root, builtin_floatMesh.sized, h1, builtin_cells⟩

/-- A run with a sourced particle, of the small problem: it meets the hypotheses of `C05_started`. -/
example : ∃ (dt : ℝ) (s : Started ℝ) (fuel' : Nat) (s1 : SimState ℝ), ValidInput (smallProblem dt) ∧
    cells (smallProblem dt).grid + 1 ≤ 2 ∧
    (smallProblem dt).simulation.nSteps * (smallProblem dt).simulation.nParticles ≤ 10 * 2 ^ 32 ∧
    startRun List.reverse id ⟨4, true⟩ 2 (smallProblem dt) = .ok (some s) ∧
    Cycles s.data s.exec s.opts fuel' 1 s.state s1 := by
  obtain ⟨dt, hdt, s, fuel', hs, _, _, ⟨r, hr⟩, _⟩ := small_run
  have hv := small_valid hdt
  have htab := C67_started_tables (fun l => List.reverse_perm l) hv.named hv.consistent (small_filled dt) hs
  have h0 := started_start hs
  obtain ⟨s', h', _, _, _, hx, hns, _⟩ := hv.start (so := List.reverse) (fun l => List.reverse_perm l) (io := id)
    (fun l => .refl _) ⟨4, true⟩ (by norm_num) 2 (by rw [small_cells])
  rw [hs] at h'
  cases h'
  obtain ⟨t, s1, ht, _⟩ := (C09_run_schedule_independent s.data s.opts fuel' s.state r (by simp) htab h0.initial.extra
    h0.initial.reports hr).2 s.exec (by tauto)
  rw [hns] at ht
  exact ⟨dt, s, fuel', s1, hv, by rw [small_cells], by show 1 * 16 ≤ 10 * 2 ^ 32; norm_num, hs, ht⟩

/-- The seed of the built-in problem meets the hypothesis of `C80_root`. -/
example : ∀ k ∈ [1, 2, 3], (Rng.lcg^[k] (BitVec.ofNat 64 (1029384756 + 1))).toNat ≤ (2 ^ 24 - 2 ^ 11) * 2 ^ 40 := by
  decide +kernel
