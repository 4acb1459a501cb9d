import Verif.Lemmas.BuiltinFloat
import Verif.Lemmas.RoundBack
/-!
# C65, C66: ranges and absence of panics, with rounding

The theorems hold for every arithmetic that follows the rules of IEEE 754 (`Verif/Spec/Ieee.lean`), so for the two
formats of `Verif/Model/Binary.lean`.  What they ask of the input and of the tables built from it is in
`Verif/Spec/FloatProblem.lean` and `Verif/Spec/FloatMesh.lean`; these are conditions on numbers that the program
computes.  The built-in problem meets all of them, in both formats.
-/
open Flt Ieee Flooding Config
attribute [local irreducible] Rng.lcg Rng.sample Rng.spawn

/-! ### C50 in any arithmetic -/

/-- **C50** for every run that has started, in any arithmetic: no panic of the kind that the code calls impossible,
and every particle has a cell of the mesh and a facet of its cell. -/
theorem C50_any_arithmetic {T : Type} [Flt T] {so : StrOrder} {io : IterOrder} (hio : ∀ l, (io l).Perm l)
    {m : Machine} {fuel : Nat} {p : Params T} (hroot : RootInGrid p) {s : Started T}
    (hs : startRun so io m fuel p = .ok (some s)) (fuel' : Nat) :
    (∀ e, RunFails s.data s.exec s.opts fuel' s.state e →
      e ≠ .unreachable ∧ e ≠ .unimplemented ∧ e ≠ .adjacencyUndefined) ∧
    ∀ q, Reachable s.data s.state.unit.dom fuel' q →
      q.cell < p.simulation.nx * p.simulation.ny * p.simulation.nz ∧ q.facet < 24 := by
  obtain ⟨h1, _, h3⟩ := startRun_mesh hio hroot hs
  refine ⟨fun e he => ?_, fun q hq => ?_⟩
  · have := C50_impossible (C64_started hs).2.2.initial h1 he
    unfold Impossible at this
    tauto
  · have := (C50_indices h1 hq).1
    exact ⟨by rw [h3] at this; exact this.2.1, this.2.2⟩

variable {T : Type} [Flt T] [Ieee T]

/-- **C65**.  With rounding, every particle that exists at the end of a cycle has a finite energy between zero and
the upper bound of the source energies, a time to census that is not negative, and indices of existing tables. -/
theorem C65_ranges {so : StrOrder} (hso : ∀ l, (so l).Perm l) {io : IterOrder} (hio : ∀ l, (io l).Perm l)
    {m : Machine} {fuel : Nat} {p : Params T} (hn : NamedParams p) (hc : Consistent p) (hroot : RootInGrid p)
    (hi : FloatInput p) {s : Started T} (hs : startRun so io m fuel p = .ok (some s))
    (ht : FloatTables s.data s.state.unit.dom) {fuel' n : Nat} (hle : n ≤ p.simulation.nSteps) {s1 : SimState T}
    (hcyc : Cycles s.data s.exec s.opts fuel' n s.state s1) (q : Particle T) (hq : q ∈ s1.container.all) :
    (∃ e hi : ℝ, val q.kineticEnergy = some (e : EReal) ∧ val p.simulation.eMax = some (hi : EReal) ∧
      0 ≤ e ∧ e ≤ hi) ∧
    (q.timeToCensus <. zero) = false ∧
    q.energyGroup < p.simulation.nGroups ∧
    q.cell < p.simulation.nx * p.simulation.ny * p.simulation.nz ∧ q.facet < 24 := by
  have hp := startRun_float hso hio hn hc hroot hi hs ht
  obtain ⟨_, hset, hfresh⟩ := C64_started hs
  obtain ⟨h1, _, h3⟩ := startRun_mesh hio hroot hs
  obtain ⟨_, hr⟩ := cycles_reachableBy hfresh.initial (by rw [hset.nSteps]; omega) hcyc
  obtain ⟨f1, f2, f3⟩ := floatOk_reachable hp.tracking (hr q hq)
  have hx := reachable_index h1 (hr q hq)
  refine ⟨?_, ?_, ?_, by have := hx.2; rw [h3] at this; exact this, hx.3⟩
  · rw [hset.eMax] at f2; exact f2
  · exact nn_iff.2 f1
  · rw [← hset.groups]; exact f3

/-- **C66** (start).  With rounding, the start-up of a run gives a result, for any iteration order of the hash maps
and any machine. -/
theorem C66_start {so : StrOrder} (hso : ∀ l, (so l).Perm l) {io : IterOrder} (hio : ∀ l, (io l).Perm l)
    (m : Machine) {p : Params T} (hn : NamedParams p) (hc : Consistent p) (hm : FloatMesh p) (hi : FloatInput p)
    (hpart : 10 * p.askedCells ≤ p.simulation.nParticles) {fuel : Nat} (hfuel : p.askedCells ≤ fuel) :
    ∃ s, startRun so io m fuel p = .ok (some s) := by
  obtain ⟨s, h, _⟩ := hm.start hn hc hi hpart hso hio m fuel hfuel
  exact ⟨s, h⟩

/-- **C66** (run).  With rounding, no execution of the run stops on a panic, for any number of threads, chunk size and
interleaving. -/
theorem C66_no_panic {so : StrOrder} (hso : ∀ l, (so l).Perm l) {io : IterOrder} (hio : ∀ l, (io l).Perm l)
    {m : Machine} (hm : 1 ≤ m.defaultThreads) {fuel : Nat} {p : Params T} (hn : NamedParams p) (hc : Consistent p)
    (hroot : RootInGrid p) (hi : FloatInput p) {s : Started T} (hs : startRun so io m fuel p = .ok (some s))
    (ht : FloatTables s.data s.state.unit.dom) (fuel' : Nat) (e : Panic)
    (he : RunFails s.data s.exec s.opts fuel' s.state e) : e = .outOfFuel := by
  have hp := startRun_float hso hio hn hc hroot hi hs ht
  obtain ⟨_, hset, hfresh⟩ := C64_started hs
  obtain ⟨_, _, _, _, _, _, _, _, _, _, hx⟩ := startRun_parts hs
  exact runFails_float hp hfresh.initial hfresh.sizes (fun h => hx hm h.2) he

/-- **C66** (next step).  As long as the number of cycles is not reached, the next synchronisation and the next
population control give a result. -/
theorem C66_progress {so : StrOrder} (hso : ∀ l, (so l).Perm l) {io : IterOrder} (hio : ∀ l, (io l).Perm l)
    {m : Machine} {fuel : Nat} {p : Params T} (hn : NamedParams p) (hc : Consistent p) (hroot : RootInGrid p)
    (hi : FloatInput p) {s : Started T} (hs : startRun so io m fuel p = .ok (some s))
    (ht : FloatTables s.data s.state.unit.dom) {fuel' n : Nat} (hlt : n < p.simulation.nSteps) {s1 : SimState T}
    (hcyc : Cycles s.data s.exec s.opts fuel' n s.state s1) :
    ∃ s2 u c, cycleSync s.data s.opts n s1 = .ok s2 ∧
      populationControl s.data s2.globalN s2.srcWeight s2.unit s2.container = .ok (u, c) := by
  have hp := startRun_float hso hio hn hc hroot hi hs ht
  obtain ⟨_, hset, hfresh⟩ := C64_started hs
  have hns := hset.nSteps
  have a1 := cycles_float hp hfresh.initial hfresh.sizes (by omega) hcyc
  obtain ⟨a2, a3⟩ := cycles_reachableBy hfresh.initial (by omega) hcyc
  have hg := numGroups_skeleton a2
  obtain ⟨s2, e1, _, e3, e4, w, e5, e6⟩ := (hp.skeleton a2).sync (o := s.opts) (n := n) (by omega) a1.spectrum
    (fun p h => by
      have := (floatOk_reachable hp.tracking (a3 p h)).group
      omega)
  obtain ⟨⟨u, c⟩, hx⟩ := (hp.skeleton (d := s2.unit.dom) (by rw [e4]; exact a2)).population (c := s2.container) e3
    (by rw [e4]; exact e5)
  exact ⟨s2, u, c, e1, by rw [e6]; exact hx⟩

/-! ### Inputs in range -/

/-- **C66** (range).  When the numbers of the input are in the ranges of `FloatRange`, the run starts and no execution of
it stops on a panic, whatever the number of threads, the chunk size and the interleaving.  Nothing is asked of the tables
that the run builds. -/
theorem C66_range {so : StrOrder} (hso : ∀ l, (so l).Perm l) {io : IterOrder} (hio : ∀ l, (io l).Perm l)
    {m : Machine} (hm : 1 ≤ m.defaultThreads) {p : Params T} (hn : NamedParams p) (hc : Consistent p) (hmesh : FloatMesh p)
    (hi : FloatInput p) (hr : FloatRange p) (hpart : 10 * p.askedCells ≤ p.simulation.nParticles) {fuel : Nat}
    (hfuel : p.askedCells ≤ fuel) :
    ∃ s, startRun so io m fuel p = .ok (some s) ∧
      ∀ fuel' e, RunFails s.data s.exec s.opts fuel' s.state e → e = .outOfFuel := by
  obtain ⟨s, h1, h2⟩ := hr.start hmesh hn hc hi hpart hso hio m hfuel
  exact ⟨s, h1, C66_no_panic hso hio hm hn hc hmesh.root hi h1 h2⟩

/-! ### The built-in problem -/

/-- The largest energy of the built-in source is not above the upper bound, in any format. -/
theorem builtin_sourced (F : Format) :
    (((Flt.lit 20 0 : Num F) -. Flt.lit 1 (-9)) +. Flt.lit 1 (-9) <=. Flt.lit 20 0) = true := by
  obtain ⟨n, h1, h2⟩ := twenty_even F
  obtain ⟨e, he, e0, e1⟩ := eMin_bd (T := Num F)
  have hx : IsFin (Flt.lit 20 0 : Num F) 20 := by have := eMax_is (T := Num F); unfold IsI at this; exact_mod_cast this
  exact sourced_even hx he (by norm_num) h1 h2 (le_trans (by positivity) e0) (lt_of_le_of_lt e1 (by norm_num))

/-- **C66** for the problem that runs without an input file: with the rounding of any binary format not smaller than
`f32`, it starts, and no execution of it stops on a panic, for any number of threads and of cycles. -/
theorem C66_builtin (F : Format) {so : StrOrder} (hso : ∀ l, (so l).Perm l) {io : IterOrder} (hio : ∀ l, (io l).Perm l)
    {m : Machine} (hm : 1 ≤ m.defaultThreads) (threads steps : Nat) {fuel : Nat} (hfuel : 1000 ≤ fuel) :
    ∃ s : Started (Num F), startRun so io m fuel (builtinOf threads steps) = .ok (some s) ∧
      ∀ fuel' e, RunFails s.data s.exec s.opts fuel' s.state e → e = .outOfFuel := by
  obtain ⟨s, h1, h2⟩ := builtin_start (threads := threads) (steps := steps) (builtin_sourced F) hso hio m hfuel
  exact ⟨s, h1, C66_no_panic hso hio hm (builtin_named _) (builtin_consistent _) builtin_floatMesh.root
    (builtin_floatInput (builtin_sourced F)) h1 h2⟩

/-- The inputs of `C66_range` include, in `f32`, a curve of `10^97`, which is too large for `f32`, and a curve that is not
flat. -/
example (x : CrossSectionParams (Num binary32)) (hx : x = steepCurve ∨ x = slopedCurve) :
    ∃ p : Params (Num binary32), NamedParams p ∧ Consistent p ∧ FloatMesh p ∧ FloatInput p ∧ FloatRange p ∧
    10 * p.askedCells ≤ p.simulation.nParticles ∧ p.crossSections = [("flat", x)] := by
  have h := (builtin_floatInput (T := Num binary32) (threads := 8) (steps := 10) (builtin_sourced _)).nuBar "flat" _ rfl
  refine ⟨curvedOf x 8 10, curved_named ?_, curved_consistent, curved_floatMesh, curved_floatInput (builtin_sourced _) ?_,
    curved_range ?_, by show 10 * (10 * 10 * 10) ≤ 1000000; norm_num, rfl⟩
  · rcases hx with rfl | rfl <;> rfl
  · rcases hx with rfl | rfl <;> exact h
  · rcases hx with rfl | rfl
    · exact steep_tame
    · exact sloped_tame

/-- The hypotheses of the theorems above hold together, in `f32` and in `f64`: the built-in problem on one thread and
on eight. -/
example : ∃ (p : Params (Num binary32)) (s : Started (Num binary32)), NamedParams p ∧ Consistent p ∧ FloatMesh p ∧
    RootInGrid p ∧ FloatInput p ∧ 10 * p.askedCells ≤ p.simulation.nParticles ∧
    startRun id id ⟨8, false⟩ 1000 p = .ok (some s) ∧ FloatTables s.data s.state.unit.dom ∧ p.simulation.nSteps = 10 := by
  obtain ⟨s, h1, h2⟩ := builtin_start (threads := 1) (steps := 10) (builtin_sourced binary32)
    (so := id) (fun l => .refl _) (io := id) (fun l => .refl _) ⟨8, false⟩ le_rfl
  exact ⟨_, s, builtin_named _, builtin_consistent _, builtin_floatMesh, builtin_floatMesh.root,
    builtin_floatInput (builtin_sourced _), by show 10 * (10 * 10 * 10) ≤ 1000000; norm_num, h1, h2, rfl⟩

example : ∃ (p : Params (Num binary64)) (s : Started (Num binary64)), NamedParams p ∧ Consistent p ∧ FloatMesh p ∧
    RootInGrid p ∧ FloatInput p ∧ 10 * p.askedCells ≤ p.simulation.nParticles ∧
    startRun id id ⟨8, false⟩ 1000 p = .ok (some s) ∧ FloatTables s.data s.state.unit.dom ∧ p.simulation.nRayonThreads = 8 := by
  obtain ⟨s, h1, h2⟩ := builtin_start (threads := 8) (steps := 10) (builtin_sourced binary64)
    (so := id) (fun l => .refl _) (io := id) (fun l => .refl _) ⟨8, false⟩ le_rfl
  exact ⟨_, s, builtin_named _, builtin_consistent _, builtin_floatMesh, builtin_floatMesh.root,
    builtin_floatInput (builtin_sourced _), by show 10 * (10 * 10 * 10) ≤ 1000000; norm_num, h1, h2, rfl⟩

/-! ### A source energy above the upper bound -/

/-- **C65 without its condition on the source energies is violated** in `f32`: with these bounds, of which the upper
one has an odd last digit, the energy that the source computes for this state of the generator is above the upper
bound, and its group is one past the last one, whatever the number of groups. -/
theorem C65_above_violated : ∃ (eMin eMax : Num binary32) (lo hi : ℝ) (seed : BitVec 64), IsFin eMin lo ∧
    IsFin eMax hi ∧ 0 < lo ∧ lo < hi ∧ 20 ≤ hi ∧
    (eMax <. (Rng.sample (T := Num binary32) seed).1 *. (eMax -. eMin) +. eMin) = true ∧
    ∀ n, 0 < n → getEnergyGroups (energyLevels n eMin eMax)
      ((Rng.sample (T := Num binary32) seed).1 *. (eMax -. eMin) +. eMin) = .ok n := by
  have num : ∀ (n : ℕ) (k : ℤ), n ≤ 2 ^ 24 → -100 ≤ k → k ≤ 100 → ∃ a : Num binary32, IsFin a (n * 2 ^ k) := by
    intro n k h h0 h1
    refine ⟨Num.round (((n : ℝ) * 2 ^ k : ℝ) : EReal) false, ?_⟩
    show some (binary32.rnd _) = _
    rw [binary32.rnd_scaled n k h h0 h1]
  obtain ⟨eMin, hlo⟩ := num 3 (-20) (by norm_num) (by norm_num) (by norm_num)
  obtain ⟨eMax, hhi⟩ := num 10485761 (-19) (by norm_num) (by norm_num) (by norm_num)
  have hu : IsFin (Rng.sample (T := Num binary32) 1161856439546075578#64).1 1 := by
    have : (Rng.sample (T := Num binary32) 1161856439546075578#64).1 = Flt.ofSeed (Rng.lcg 1161856439546075578#64) := by
      unfold Rng.sample; rfl
    rw [this]
    exact ofSeed_one (by decide +kernel)
  obtain ⟨r1, r2⟩ := round_source
  have fin : ∀ {a : Num binary32} {x y : ℝ}, val a = some (rnd (Num binary32) (x : EReal)) → binary32.round x = y →
      |y| ≤ 32 → IsFin a y := by
    intro a x y ha hy hb
    refine fin_of_rnd ha ?_
    show binary32.rnd _ = _
    have ht : (32 : ℝ) ≤ binary32.top := by
      unfold Format.top
      show (32 : ℝ) ≤ (2 ^ 24 - 1) * 2 ^ (104 : ℤ)
      norm_num
    rw [abs_le] at hb
    rw [Format.rnd_coe, hy]
    unfold Format.clamp
    rw [if_neg (by linarith), if_neg (by linarith)]
  have hd : IsFin (eMax -. eMin) 20 := fin (fin_sub hhi hlo) (by push_cast; exact r1) (by norm_num)
  have key : ∀ u : Num binary32, IsFin u 1 → (eMax <. u *. (eMax -. eMin) +. eMin) = true ∧
      ∀ n, 0 < n → getEnergyGroups (energyLevels n eMin eMax) (u *. (eMax -. eMin) +. eMin) = .ok n := by
    intro u hu
    have hm : IsFin (u *. (eMax -. eMin)) 20 := by
      have := IsFin.mul hu hd (by rw [one_mul]; exact hd.rep)
      rwa [one_mul] at this
    have he : IsFin (u *. (eMax -. eMin) +. eMin) (10485762 * 2 ^ (-19 : ℤ)) :=
      fin (fin_add hm hlo) (by push_cast; exact r2) (by norm_num [abs_le])
    have hgt : (eMax <. u *. (eMax -. eMin) +. eMin) = true := (lt_fin hhi he).2 (by push_cast; norm_num)
    refine ⟨hgt, fun n hn => ?_⟩
    have h0 : (energyLevels n eMin eMax)[0]? = some eMin := by
      unfold energyLevels
      dsimp only
      rw [List.getElem?_map, List.getElem?_range (Nat.succ_pos n), Option.map_some, if_neg (by omega), if_pos rfl]
    have hle : (u *. (eMax -. eMin) +. eMin <=. eMin) = false := by
      rw [← Bool.not_eq_true, le_fin he hlo]
      push_cast
      norm_num
    unfold getEnergyGroups
    simp only [idx_ok.2 h0, energyLevels_length, Nat.add_sub_cancel, idx_ok.2 (energyLevels_last n eMin eMax), bind,
      Except.bind]
    rw [if_neg (by rw [hle]; simp), if_pos hgt]
    rfl
  exact ⟨eMin, eMax, _, _, 1161856439546075578#64, hlo, hhi, by positivity, by push_cast; norm_num,
    by push_cast; norm_num, key _ hu⟩
