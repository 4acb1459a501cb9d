import Verif.Props.Seed
/-!
# C64, C27: settings that the validation accepts and that stop the start-up or give energies below zero
-/
open Flt Flooding Config GridSpec
set_option linter.unusedSectionVars false
attribute [local irreducible] Rng.lcg Rng.sample Rng.spawn

section
variable {T : Type} [Flt T] {so : StrOrder} {io : IterOrder} {m : Machine} {fuel : Nat} {p : Params T}

private theorem okThen {α β : Type} (x : α) (f : α → Except Panic β) : (Except.ok x >>= f) = f x := rfl

/-- A start-up that fails where the domains are built. -/
theorem startRun_meshFails {q : Params T} {a : Started T} {e : Panic}
    (h : startRun so io m fuel p = .ok (some a))
    (hx : q.crossSections = p.crossSections) (hm : q.materials = p.materials)
    (hs : q.simulation.nGroups = p.simulation.nGroups ∧ q.simulation.eMin = p.simulation.eMin ∧
      q.simulation.eMax = p.simulation.eMax)
    (hcell : q.simulation.nx = p.simulation.nx ∧ q.simulation.ny = p.simulation.ny ∧
      q.simulation.nz = p.simulation.nz ∧ q.simulation.nParticles = p.simulation.nParticles)
    (hex : q.execSettings = p.execSettings) (hout : q.simulation.crossSectionsOut = p.simulation.crossSectionsOut)
    (hcont : ∀ i, initContainers so q i = initContainers so p i)
    (hmesh : ∀ mats doms, initMesh io fuel p mats = .ok doms → initMesh io fuel q mats = .error e) :
    startRun so io m fuel q = .error e := by
  obtain ⟨h1, h2, h3, h⟩ := startRun_some h
  have hask : q.askedCells = p.askedCells := by
    unfold Params.askedCells; rw [hcell.1, hcell.2.1, hcell.2.2.1]
  have hrun : initRun so io m fuel q = .error e := by
    unfold initRun at h ⊢
    obtain ⟨info, hi, h⟩ := bind_ok.1 h
    obtain ⟨data, hd, h⟩ := bind_ok.1 h
    obtain ⟨c, hc, h⟩ := bind_ok.1 h
    obtain ⟨units, hun, h⟩ := bind_ok.1 h
    unfold initUnits at hun
    obtain ⟨doms, hdoms, _⟩ := bind_ok.1 hun
    unfold initData at hd
    obtain ⟨⟨nd, mats⟩, hnd, hd⟩ := bind_ok.1 hd
    obtain ⟨out, ho, hd⟩ := bind_ok.1 hd
    cases pure_ok.1 hd
    have hd' : initData so q = .ok (q.data nd mats) := by
      unfold initData
      rw [initNuclearData_congr hx hm hs, hnd]
      have : crossSectionOutput q nd mats = .ok out := by
        rw [← ho]; unfold crossSectionOutput; rw [hout, hs.1]
      simp only [okThen, this]; rfl
    have hu' : initUnits io fuel q mats = .error e := by
      unfold initUnits
      rw [hmesh mats doms hdoms]; rfl
    have hun' : (q.data nd mats).materials = mats := rfl
    simp only [hex, hi, hd', hcont, hc, okThen, hun', hu']
    rfl
  unfold startRun
  change (if 2 ^ 64 ≤ q.askedCells then _ else if q.askedCells = 0 then _
    else if q.simulation.nParticles / q.askedCells < 10 then _ else _) = _
  rw [hask, hcell.2.2.2, if_neg (by omega), if_neg (by omega), if_neg (by
    rw [Nat.div_lt_iff_lt_mul h1]; omega), hrun]
  rfl

theorem single_of_started {a : Started T} (h : startRun so io m fuel p = .ok (some a)) : p.simulation.nUnits = 1 := by
  obtain ⟨_, _, _, _, _, _, _, _, _, h, _⟩ := startRun_parts h
  exact h

/-- **C64**, an unknown border.  Take any problem that starts, and change nothing but the name of the kind of border
to one that is none of the three known ones.  The parameters are as consistent as before, so that the validation
has nothing against them, and the start-up stops with a panic (`unreachable!`) on every machine. -/
theorem C64_unknown_border {a : Started T} (h : startRun so io m fuel p = .ok (some a)) {s : String}
    (hs : s ≠ "reflect" ∧ s ≠ "escape" ∧ s ≠ "octant") :
    (Consistent p → Consistent (p.withBorder s)) ∧
      startRun so io m fuel (p.withBorder s) = .error .unreachable := by
  refine ⟨fun hc => ⟨hc.1, hc.2, hc.3, hc.4⟩, ?_⟩
  have h1 := single_of_started h
  refine startRun_meshFails h rfl rfl ⟨rfl, rfl, rfl⟩ ⟨rfl, rfl, rfl, rfl⟩ rfl rfl (fun _ => rfl) fun mats doms hd => ?_
  unfold initMesh at hd ⊢
  obtain ⟨ddc, hddc, hd⟩ := bind_ok.1 hd
  rw [hddc]
  dsimp only at hd
  split at hd
  case isFalse => cases hd
  rename_i hseed
  obtain ⟨centers, hcs, hd⟩ := bind_ok.1 hd
  obtain ⟨comm, hcm, hd⟩ := bind_ok.1 hd
  obtain ⟨comm', hcm', hd⟩ := bind_ok.1 hd
  simp only [Params.withBorder, okThen]
  refine (if_pos hseed).trans ?_
  rw [hcs]
  simp only [okThen, hcm, hcm']
  rw [h1] at hd ⊢
  simp only [List.range_one, List.mapM_cons] at hd ⊢
  obtain ⟨dom, hdom, _⟩ := bind_ok.1 hd
  obtain ⟨part, hp, _⟩ := bind_ok.1 hdom
  simp only [hp, okThen, Domain.build, getBoundaryConditions, if_neg hs.1, if_neg hs.2.1, if_neg hs.2.2]
  rfl

/-- **C64**, the largest seed.  Take any problem that starts, and change nothing but the seed to the largest one that
can be given.  The parameters are as consistent as before and the start-up stops with a panic: one is added
to the seed. -/
theorem C64_last_seed {a : Started T} (h : startRun so io m fuel p = .ok (some a)) :
    (Consistent p → Consistent (p.withSeed (2 ^ 64 - 1))) ∧
      startRun so io m fuel (p.withSeed (2 ^ 64 - 1)) = .error .overflow := by
  refine ⟨fun hc => ⟨hc.1, hc.2, hc.3, hc.4⟩, ?_⟩
  refine startRun_meshFails h rfl rfl ⟨rfl, rfl, rfl⟩ ⟨rfl, rfl, rfl, rfl⟩ rfl rfl (fun _ => rfl) fun mats doms hd => ?_
  unfold initMesh at hd ⊢
  obtain ⟨ddc, hddc, _⟩ := bind_ok.1 hd
  rw [hddc]
  rfl
end

/-- **C27**, light materials: whatever the mass of the material between zero and one, a particle of positive energy
that scatters in it has a negative energy after the collision for some states of its generator. -/
theorem C27_violated_light {mass : ℝ} (h0 : 0 < mass) (h1 : mass < 1) (r : Reaction ℝ) (hr : r.rtype = .scatter)
    (p : Particle ℝ) (hp : 0 < p.kineticEnergy) :
    ∃ seed q, Particle.sampleCollision { p with seed := seed } r mass = .ok (1, q, []) ∧
      q.kineticEnergy < 0 := by
  have hne : {seed : BitVec 64 | (Rng.sample (T := ℝ) seed).1 = 1}.Nonempty := by
    apply Set.nonempty_of_ncard_ne_zero
    rw [C01_documented_range_violated]; norm_num
  obtain ⟨s, hs⟩ := hne
  have hs : (Rng.sample (T := ℝ) s).1 = 1 := hs
  have key : Particle.sampleCollision { p with seed := s } r mass = .ok (1,
      ({ p with seed := (Rng.sample (T := ℝ) (Rng.sample (T := ℝ) s).2).2 } : Particle ℝ).updateTrajectory
        (p.kineticEnergy *. (one -. (Rng.sample (T := ℝ) s).1 *. (one /. mass)))
        ((Rng.sample (T := ℝ) (Rng.sample (T := ℝ) s).2).1 *. two -. one), []) := by
    unfold Particle.sampleCollision
    rw [hr]
  refine ⟨s, _, key, ?_⟩
  rw [(updateTrajectory_energy _ _ _).1, hs]
  simp only [FltReal.mul_eq, FltReal.one_eq, FltReal.div_eq, FltReal.sub_eq]
  have : 1 < 1 / mass := by rw [lt_div_iff₀ h0]; linarith
  exact mul_neg_of_pos_of_neg hp (by linarith)

/-- The built-in problem with periodic borders, and with the largest seed: accepted by the validation, stopped at the
start. -/
example : Consistent ((builtinParams (chosen 4 10)).withBorder "periodic") ∧
    startRun List.reverse id ⟨4, true⟩ 1001 ((builtinParams (chosen 4 10)).withBorder "periodic") =
      .error .unreachable ∧
    startRun List.reverse id ⟨4, true⟩ 1001 ((builtinParams (chosen 4 10)).withSeed (2 ^ 64 - 1)) =
      .error .overflow := by
  have hv := builtin_valid 4 10
  have hf : cells (builtinParams (chosen 4 10)).grid + 1 ≤ 1001 := le_of_eq (by
    rw [show cells (builtinParams (chosen 4 10)).grid = 1000 from default_cells 1029384756])
  obtain ⟨s, h1, _⟩ := C60_start hv (so := List.reverse) (fun l => List.reverse_perm l) (io := id)
    (fun l => .refl _) ⟨4, true⟩ (by norm_num) 1001 hf
  obtain ⟨h2, h3⟩ := C64_unknown_border h1 (s := "periodic") (by decide)
  exact ⟨h2 hv.consistent, h3, (C64_last_seed h1).2⟩

/-- A reaction in a material of mass one half. -/
example (p : Particle ℝ) (hp : 0 < p.kineticEnergy) (r : Reaction ℝ) (hr : r.rtype = .scatter) :
    ∃ seed q, Particle.sampleCollision { p with seed := seed } r (1 / 2) = .ok (1, q, []) ∧ q.kineticEnergy < 0 :=
  C27_violated_light (by norm_num) (by norm_num) r hr p hp
