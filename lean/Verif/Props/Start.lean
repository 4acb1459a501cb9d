import Verif.Spec.Started
import Verif.Props.NoPanic
/-!
# C64: a run starts with the settings it was given, and from nothing
-/
open Flt
set_option linter.unusedSectionVars false
attribute [local irreducible] Rng.lcg Rng.sample Rng.spawn

section
variable {T : Type} [Flt T] {so : StrOrder} {io : IterOrder} {m : Machine} {fuel : Nat} {p : Params T}

/-- Number of cells of the mesh that is asked for. -/
def Params.askedCells (p : Params T) : Nat := p.simulation.nx * p.simulation.ny * p.simulation.nz

theorem startRun_some {s : Started T} (h : startRun so io m fuel p = .ok (some s)) :
    0 < p.askedCells ∧ p.askedCells < 2 ^ 64 ∧ 10 * p.askedCells ≤ p.simulation.nParticles ∧
      initRun so io m fuel p = .ok s := by
  unfold startRun at h
  dsimp only at h
  change (if 2 ^ 64 ≤ p.askedCells then _ else _) = _ at h
  split at h
  · cases h
  change (if p.askedCells = 0 then _ else _) = _ at h
  split at h
  · cases h
  change (if p.simulation.nParticles / p.askedCells < 10 then _ else _) = _ at h
  split at h
  · cases h
  obtain ⟨s', h1, h2⟩ := bind_ok.1 h
  cases pure_ok.1 h2
  refine ⟨by omega, by omega, ?_, h1⟩
  rename_i h3
  rw [Nat.not_lt, Nat.le_div_iff_mul_le (by omega)] at h3
  exact h3

theorem initData_ok {data : Data T} (h : initData so p = .ok data) :
    ∃ nd mats, initNuclearData so p = .ok (nd, mats) ∧ data = p.data nd mats := by
  unfold initData at h
  obtain ⟨⟨nd, mats⟩, h1, h2⟩ := bind_ok.1 h
  dsimp only at h2
  obtain ⟨_, _, h3⟩ := bind_ok.1 h2
  exact ⟨nd, mats, h1, (pure_ok.1 h3).symm⟩

/-- What the execution settings are when the containers are built. -/
theorem procInfo_single {info : ProcInfo} {c : Container T} (h : ProcInfo.new p.execSettings = .ok info)
    (hc : initContainers so p info.info = .ok c) :
    p.simulation.nUnits = 1 ∧ info.info.nUnits = 1 ∧ info.info.nRayonThreads = p.simulation.nRayonThreads ∧
      info.info.policy = (if p.simulation.nRayonThreads = 1 then .sequential else .rayon) ∧
      info.info.chunkSize = p.simulation.chunkSize ∧ c = ⟨[], [], []⟩ := by
  have hpol : (info.info.policy = .sequential ∨ info.info.policy = .rayon) ∧ c = ⟨[], [], []⟩ := by
    unfold initContainers at hc
    split at hc
    · cases hc
    obtain ⟨_, _, hc⟩ := bind_ok.1 hc
    generalize info.info.policy = pol at hc ⊢
    cases pol <;> simp only [pure, Except.pure, Except.ok.injEq, reduceCtorEq] at hc <;> simp [← hc]
  have hu : p.execSettings.nUnits ≠ 0 := by
    intro h0
    rw [(C42_policy p.execSettings).1 h0] at h
    cases h
  obtain ⟨info', h1, h2, h3, h4, h5, _⟩ := (C42_policy p.execSettings).2 hu
  rw [h1] at h
  cases h
  have e1 : p.execSettings.nUnits = p.simulation.nUnits := rfl
  have e2 : p.execSettings.nRayonThreads = p.simulation.nRayonThreads := rfl
  rw [e1, e2] at h2
  have hone : p.simulation.nUnits = 1 := by
    by_contra hne
    rw [e1] at hu
    unfold expectedPolicy at h2
    rcases hpol.1 with h | h <;> rw [h] at h2 <;> revert h2 <;>
      (split <;> simp_all)
  refine ⟨hone, by rw [h3]; exact hone, h4, ?_, h5, hpol.2⟩
  rw [h2, hone]
  by_cases ht : p.simulation.nRayonThreads = 1
  · rw [ht]; rfl
  · rw [if_neg ht]
    unfold expectedPolicy
    split <;> simp_all

/-- **C64**.  A run that starts has at least ten particles by cell of the mesh asked for, takes its settings from the
parameters and starts from nothing. -/
theorem C64_started {s : Started T} (h : startRun so io m fuel p = .ok (some s)) :
    10 * p.askedCells ≤ p.simulation.nParticles ∧ Settings p s ∧ Fresh s.state := by
  obtain ⟨_, _, h1, h⟩ := startRun_some h
  refine ⟨h1, ?_⟩
  unfold initRun at h
  obtain ⟨info, hi, h⟩ := bind_ok.1 h
  obtain ⟨data, hd, h⟩ := bind_ok.1 h
  obtain ⟨c, hc, h⟩ := bind_ok.1 h
  obtain ⟨units, hun, h⟩ := bind_ok.1 h
  obtain ⟨u, hu, h⟩ := bind_ok.1 h
  cases pure_ok.1 h
  obtain ⟨nd, mats, _, rfl⟩ := initData_ok hd
  obtain ⟨i1, i2, _, i3, i4, rfl⟩ := procInfo_single hi hc
  have hunit : ∃ dom : Domain T, dom.numGroups = p.simulation.nGroups ∧
      u = ⟨dom, {}, List.replicate (dom.cells.length * p.simulation.nGroups) zero,
        List.replicate (dom.cells.length * p.simulation.nGroups) zero, zero⟩ := by
    unfold initUnits at hun
    obtain ⟨doms, hm, hun⟩ := bind_ok.1 hun
    obtain ⟨_, _, hun⟩ := bind_ok.1 hun
    cases pure_ok.1 hun
    have hu' := idx_ok.1 hu
    rw [List.getElem?_map] at hu'
    obtain ⟨dom, hdom, rfl⟩ := Option.map_eq_some_iff.1 hu'
    refine ⟨dom, ?_, rfl⟩
    unfold initMesh at hm
    obtain ⟨ddc, _, hm⟩ := bind_ok.1 hm
    dsimp only at hm
    split at hm
    swap
    · cases hm
    obtain ⟨_, _, hm⟩ := bind_ok.1 hm
    obtain ⟨_, _, hm⟩ := bind_ok.1 hm
    obtain ⟨_, _, hm⟩ := bind_ok.1 hm
    obtain ⟨gid, _, hg⟩ := mapM_ok_mem hm (List.mem_of_getElem? hdom)
    obtain ⟨_, _, hg⟩ := bind_ok.1 hg
    unfold Domain.build at hg
    obtain ⟨_, _, hg⟩ := bind_ok.1 hg
    obtain ⟨_, _, hg⟩ := bind_ok.1 hg
    obtain ⟨_, _, hg⟩ := bind_ok.1 hg
    cases pure_ok.1 hg
    rfl
  obtain ⟨dom, hg, rfl⟩ := hunit
  constructor
  · refine ⟨rfl, rfl, rfl, rfl, rfl, rfl, rfl, ?_, ?_, ?_, ⟨i1, i1, ?_⟩, ?_, ?_, hg⟩
    · exact fun name => lookup_map_get? (fun mp : MaterialParams T => mp.sourceRate) p.materials name
    · simp
    · simp
    · dsimp only
      split <;> exact i2
    · dsimp only
      split <;> exact i3
    · dsimp only
      split <;> exact i4
  · refine ⟨⟨rfl, rfl, rfl⟩, ⟨rfl, rfl, rfl, rfl⟩, ?_, ?_, rfl, ?_, ⟨rfl, rfl⟩⟩
    · dsimp only [startState]; rw [hg]
    · dsimp only [startState]; rw [hg]
    · dsimp only [startState]; rw [hg]

/-- **C64** (refusal).  A run is refused exactly when the mesh asked for has cells, in a number that can be counted,
and there are fewer than ten particles by cell. -/
theorem C64_refused : startRun so io m fuel p = .ok none ↔
    0 < p.askedCells ∧ p.askedCells < 2 ^ 64 ∧ p.simulation.nParticles < 10 * p.askedCells := by
  unfold startRun
  dsimp only
  change (if 2 ^ 64 ≤ p.askedCells then _ else if p.askedCells = 0 then _
    else if p.simulation.nParticles / p.askedCells < 10 then _ else _) = _ ↔ _
  split
  · constructor
    · intro h; cases h
    · omega
  split
  · constructor
    · intro h; cases h
    · omega
  have hpos : 0 < p.askedCells := by omega
  split
  · rename_i h
    rw [Nat.div_lt_iff_lt_mul hpos] at h
    exact ⟨fun _ => ⟨hpos, by omega, h⟩, fun _ => rfl⟩
  · rename_i h
    rw [Nat.div_lt_iff_lt_mul hpos] at h
    constructor
    · intro h'
      obtain ⟨_, _, h'⟩ := bind_ok.1 h'
      cases pure_ok.1 h'
    · rintro ⟨_, _, h'⟩
      exact absurd h' h

end

/-! ## Concrete cases -/

open FltReal GridSpec MeshSpec

/-- The built-in problem starts on four threads, with its settings, without a spectrum. -/
example : ∃ s, startRun List.reverse id ⟨4, true⟩ 1001 (builtinParams (chosen 4 10)) = .ok (some s) ∧
    s.data.nSteps = 10 ∧ s.exec.policy = .rayon ∧ s.opts.spectrumOn = false ∧
    s.state.container.processing = [] := by
  have hv := builtin_valid 4 10
  have hf : cells (builtinParams (chosen 4 10)).grid + 1 ≤ 1001 := le_of_eq (by
    rw [show cells (builtinParams (chosen 4 10)).grid = 1000 from default_cells 1029384756])
  obtain ⟨s, h1, _⟩ := C60_start hv (so := List.reverse) (fun l => List.reverse_perm l) (io := id)
    (fun l => .refl _) ⟨4, true⟩ (by norm_num) 1001 hf
  obtain ⟨_, h2, h3⟩ := C64_started h1
  refine ⟨s, h1, h2.nSteps, h2.policy, ?_, h3.particles.1⟩
  rw [← Bool.not_eq_true, h2.spectrum]
  exact fun h => h rfl

/-- Asked for nine thousand nine hundred and ninety-nine particles on its thousand cells, it is refused. -/
example : startRun id id ⟨4, true⟩ 1001
    (builtinParams { (SimulationParams.default : SimulationParams ℝ) with nParticles := 9999 }) = .ok none :=
  C64_refused.2 (by
    show 0 < 10 * 10 * 10 ∧ 10 * 10 * 10 < 2 ^ 64 ∧ 9999 < 10 * (10 * 10 * 10)
    norm_num)
