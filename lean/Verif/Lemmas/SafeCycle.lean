import Verif.Lemmas.SafeTrack
import Verif.Props.SourceStrength
/-!
# Synchronisation and population control go through

Over the reals, with a positive source, the steps between two trackings give a result.
-/
open Flt FltReal
attribute [local irreducible] Rng.lcg Rng.sample Rng.spawn

/-- What a run needs of its data and of the mesh of the unit. -/
structure SafeProblem (data : Data ℝ) (dom : Domain ℝ) : Prop where
  tracking : SafeTracking data dom
  rates : ∀ m ∈ data.materials, ∃ r, data.sourceRates.lookup m.name = some r
  source : SourceHyps data dom.cells
  /-- some cell emits particles -/
  emits : ∃ cell ∈ dom.cells, ∃ m r, data.materials[cell.material]? = some m ∧
    data.sourceRates.lookup m.name = some r ∧ 0 < cell.volume ∧ 0 < r
  atLeast : 10 ≤ data.nParticles
  atMost : data.nParticles < 2 ^ 64
  units : 0 < data.nUnits

theorem SourceHyps.skeleton {data : Data ℝ} {d dom : Domain ℝ} (h : SourceHyps data dom.cells)
    (hd : d.skeleton = dom.skeleton) : SourceHyps data d.cells := by
  refine ⟨fun cs hcs => ?_, h.rate, h.dt⟩
  obtain ⟨i, hi⟩ := List.getElem?_of_mem hcs
  obtain ⟨c', hc', he⟩ := cells_skeleton hd hi
  have : cs.volume = c'.volume := by
    have := congrArg (fun c : CellState ℝ => c.volume) he
    exact this
  rw [this]
  exact h.volume c' (List.mem_of_getElem? hc')

theorem SafeProblem.skeleton {data : Data ℝ} {dom d : Domain ℝ} (h : SafeProblem data dom)
    (hd : d.skeleton = dom.skeleton) : SafeProblem data d where
  tracking := h.tracking.skeleton hd
  rates := h.rates
  source := h.source.skeleton hd
  emits := by
    obtain ⟨cell, hc, m, r, h1, h2, h3, h4⟩ := h.emits
    obtain ⟨i, hi⟩ := List.getElem?_of_mem hc
    obtain ⟨c', hc', he⟩ := cells_skeleton hd.symm hi
    have e1 : cell.material = c'.material := by
      have := congrArg (fun c : CellState ℝ => c.material) he; exact this
    have e2 : cell.volume = c'.volume := by
      have := congrArg (fun c : CellState ℝ => c.volume) he; exact this
    exact ⟨c', List.mem_of_getElem? hc', m, r, by rw [← e1]; exact h1, h2, by rw [← e2]; exact h3, h4⟩
  atLeast := h.atLeast
  atMost := h.atMost
  units := h.units

variable {data : Data ℝ} {dom : Domain ℝ}

theorem SafeProblem.rateList (h : SafeProblem data dom) : ∃ rates, sourceRateList data = .ok rates ∧
    rates.length = data.materials.length := by
  obtain ⟨rates, hr⟩ : ∃ rates, sourceRateList data = .ok rates := by
    unfold sourceRateList
    refine mapM_ok_exists fun m hm => ?_
    obtain ⟨r, hr⟩ := h.rates m hm
    rw [hr]
    exact ⟨r, rfl⟩
  exact ⟨rates, hr, by unfold sourceRateList at hr; exact mapM_ok_length hr⟩

theorem sum_pos_of_mem {l : List ℝ} (h0 : ∀ x ∈ l, 0 ≤ x) {x : ℝ} (hx : x ∈ l) : x ≤ l.sum := by
  induction l with
  | nil => cases hx
  | cons a l ih =>
    have ha := h0 a (by simp)
    have hl : 0 ≤ l.sum := List.sum_nonneg fun x h => h0 x (by simp [h])
    rw [List.sum_cons]
    rcases List.mem_cons.1 hx with rfl | hx
    · linarith
    · have := ih (fun x h => h0 x (by simp [h])) hx; linarith

/-- The weight of the unit: positive, and at least that of each of its cells. -/
theorem SafeProblem.weight (h : SafeProblem data dom) : ∃ w, unitWeightOf data dom.cells = .ok w ∧ 0 < w ∧
    ∀ rates, sourceRateList data = .ok rates → ∀ cell ∈ dom.cells, ∃ r, rates[cell.material]? = some r ∧
      0 ≤ cell.volume * r * data.dt ∧ cell.volume * r * data.dt ≤ w := by
  obtain ⟨rates, hrates, hlen⟩ := h.rateList
  have hidx : ∀ cell ∈ dom.cells, ∃ r, rates[cell.material]? = some r ∧ 0 ≤ r := by
    intro cell hc
    have hm := h.tracking.material cell hc
    have hr := List.getElem?_eq_getElem (l := rates) (i := cell.material) (by omega)
    refine ⟨_, hr, ?_⟩
    obtain ⟨m, _, hl⟩ := rates_lookup hrates hr
    exact h.source.rate _ _ hl
  obtain ⟨ws, hws⟩ : ∃ ws, dom.cells.mapM (fun cell => do
      let r ← idx rates cell.material
      return cell.volume *. r *. data.dt) = Except.ok (ε := Panic) ws := by
    refine mapM_ok_exists fun cell hc => ?_
    obtain ⟨r, hr, _⟩ := hidx cell hc
    rw [idx_ok.2 hr]
    exact ⟨_, rfl⟩
  have hmem : ∀ cell ∈ dom.cells, ∀ r, rates[cell.material]? = some r → cell.volume * r * data.dt ∈ ws := by
    intro cell hc r hr
    obtain ⟨i, hi⟩ := List.getElem?_of_mem hc
    obtain ⟨b, hb, hf⟩ := mapM_ok_getElem hws i _ hi
    rw [idx_ok.2 hr] at hf
    have hf := Except.ok.inj hf
    have : cell.volume * r * data.dt = b := by rw [← hf]; simp
    rw [this]
    exact List.mem_of_getElem? hb
  have hnn : ∀ w ∈ ws, 0 ≤ w := by
    intro w hw
    obtain ⟨cell, hc, hf⟩ := mapM_ok_mem hws hw
    obtain ⟨r, hr, h0⟩ := hidx cell hc
    rw [idx_ok.2 hr] at hf
    have hf := Except.ok.inj hf
    have : w = cell.volume * r * data.dt := by rw [← hf]; simp
    rw [this]
    exact mul_nonneg (mul_nonneg (h.source.volume cell hc) h0) h.source.dt
  refine ⟨ws.sum, ?_, ?_, ?_⟩
  · unfold unitWeightOf
    rw [hrates]
    have := flt_sum_real ws
    simp only [bind_ok, pure_ok]
    exact ⟨rates, rfl, ws, by simpa only [bind_ok, pure_ok] using hws, this⟩
  · obtain ⟨cell, hc, m, r, h1, h2, h3, h4⟩ := h.emits
    obtain ⟨r', hr', _⟩ := hidx cell hc
    obtain ⟨m', hm', hl'⟩ := rates_lookup hrates hr'
    rw [h1] at hm'
    cases hm'
    rw [h2] at hl'
    cases hl'
    have := sum_pos_of_mem hnn (hmem cell hc r hr')
    have := mul_pos (mul_pos h3 h4) h.tracking.time.dt
    linarith
  · intro rates' hr' cell hc
    rw [hrates] at hr'
    cases hr'
    obtain ⟨r, hr, h0⟩ := hidx cell hc
    have := hmem cell hc r hr
    exact ⟨r, hr, hnn _ this, sum_pos_of_mem hnn this⟩

/-! ### Synchronisation -/

theorem toSpawn_eq (n : Nat) : (Flt.mul (Flt.lit 1 (-1)) (Flt.ofNat n) : ℝ) = n / 10 := by
  simp only [mul_eq, lit_eq, ofNat_eq]
  rw [zpow_neg, zpow_one]
  push_cast
  ring

/-- The preparation of a cycle: it succeeds, and the weight of the sourced particles and the number of particles
are positive. -/
theorem SafeProblem.prepare {s : SimState ℝ} (h : SafeProblem data s.unit.dom) :
    ∃ s', syncPrepare data s = .ok s' ∧ 0 < s'.globalN ∧ s'.unit.dom = s.unit.dom ∧
      ∃ w, unitWeightOf data s.unit.dom.cells = .ok w ∧ s'.srcWeight = w / (data.nParticles / 10) := by
  obtain ⟨w, hw, _, _⟩ := h.weight
  have h1 : (10 : ℝ) ≤ data.nParticles := by exact_mod_cast h.atLeast
  have h2 : (data.nParticles : ℝ) < 2 ^ 64 := by exact_mod_cast h.atMost
  have hk : Flt.toUsize (Flt.mul (Flt.lit 1 (-1)) (Flt.ofNat data.nParticles) : ℝ) =
      some ⌊(data.nParticles : ℝ) / 10⌋₊ := by
    rw [toSpawn_eq, toUsize_eq, if_pos]
    constructor <;> linarith
  have hpos : 0 < ⌊(data.nParticles : ℝ) / 10⌋₊ := by
    rw [Nat.floor_pos]; linarith
  have hs : ∃ s', syncPrepare data s = .ok s' ∧
      s'.globalN = s.container.swap.processing.length + ⌊(data.nParticles : ℝ) / 10⌋₊ ∧
      s'.unit.dom = s.unit.dom ∧
      s'.srcWeight = Flt.div (Flt.add zero w) (Flt.mul (Flt.lit 1 (-1)) (Flt.ofNat data.nParticles)) := by
    unfold syncPrepare
    rw [hw]
    dsimp only [bind, Except.bind]
    rw [hk]
    exact ⟨_, rfl, rfl, rfl, rfl⟩
  obtain ⟨s', e1, e2, e3, e4⟩ := hs
  refine ⟨s', e1, by omega, e3, w, hw, ?_⟩
  rw [e4, toSpawn_eq]
  simp

theorem SafeProblem.sync {o : SyncOpts} {n k : Nat} {s : SimState ℝ} (h : SafeProblem data s.unit.dom)
    (hn : n ≤ data.nSteps) (hk : s.spectrum.length = k) (hg : ∀ p ∈ s.container.all, p.energyGroup < k) :
    ∃ s', cycleSync data o n s = .ok s' ∧ s'.spectrum.length = k ∧ 0 < s'.globalN ∧
      s'.unit.dom = s.unit.dom ∧
      ∃ w, unitWeightOf data s.unit.dom.cells = .ok w ∧ s'.srcWeight = w / (data.nParticles / 10) := by
  unfold cycleSync
  split
  · obtain ⟨sp, hsp, hlen⟩ := updateSpectrum_ok (on := o.spectrumOn) hk hg
    have hfin : ∃ s1, syncFinalize o n s = .ok s1 ∧ s1.spectrum = sp ∧ s1.unit.dom = s.unit.dom := by
      unfold syncFinalize
      simp only [bind_ok, pure_ok]
      exact ⟨_, ⟨sp, hsp, rfl⟩, rfl, rfl⟩
    obtain ⟨s1, h1, h2, h3⟩ := hfin
    rw [h1]
    dsimp only [bind, Except.bind]
    rw [if_neg (by omega)]
    have hs1 : SafeProblem data s1.unit.dom := by rw [h3]; exact h
    obtain ⟨s', h4, h5, h6, h7⟩ := hs1.prepare
    refine ⟨s', h4, ?_, h5, by rw [h6, h3], by rw [← h3]; exact h7⟩
    rw [(syncPrepare_fields h4).2.2.2.2.2.2.1, h2, hlen]
  · obtain ⟨s', h4, h5, h6, h7⟩ := h.prepare
    refine ⟨s', h4, ?_, h5, h6, h7⟩
    rw [(syncPrepare_fields h4).2.2.2.2.2.2.1, hk]

/-! ### Population control -/

theorem splitAll_ok {factor : ℝ} (h1 : 1 < factor) (h2 : factor < 2 ^ 64) (ps : List (Particle ℝ)) :
    ∃ x, splitAll factor ps = .ok x := by
  induction ps with
  | nil => exact ⟨_, rfl⟩
  | cons p ps ih =>
    obtain ⟨⟨ps', cs'⟩, ih⟩ := ih
    obtain ⟨⟨p', cs⟩, hp⟩ : ∃ x, p.underPopulatedSplit factor = .ok x := by
      unfold Particle.underPopulatedSplit
      dsimp only
      generalize Rng.sample (T := ℝ) p.seed = r1
      obtain ⟨u, s⟩ := r1
      dsimp only
      have f1 : (1 : ℝ) ≤ (⌊factor⌋ : ℝ) := by
        exact_mod_cast (Int.le_floor.2 (by exact_mod_cast h1.le) : (1 : ℤ) ≤ ⌊factor⌋)
      have f2 : (⌊factor⌋ : ℝ) ≤ factor := Int.floor_le factor
      obtain ⟨n, hn⟩ : ∃ n, Flt.toUsize (if (u >. (factor -. Flt.floor factor)) = true then Flt.floor factor -. one
          else Flt.floor factor : ℝ) = some n := by
        simp only [toUsize_eq, floor_eq, one_eq, sub_eq]
        split
        · exact ⟨_, if_pos ⟨by linarith, by linarith⟩⟩
        · exact ⟨_, if_pos ⟨by linarith, by linarith⟩⟩
      rw [hn]
      exact ⟨_, rfl⟩
    unfold splitAll
    rw [hp]
    dsimp only [bind, Except.bind]
    rw [ih]
    exact ⟨_, rfl⟩

theorem splitFactor_ok {target gn ln units : Nat} (ht : target < 2 ^ 64) (hu : 0 < units) (hg : 0 < gn) (lb : Bool) :
    ∃ f : ℝ, computeSplitFactor target gn ln units lb = .ok f ∧ f < 2 ^ 64 := by
  have ht' : (target : ℝ) < 2 ^ 64 := by exact_mod_cast ht
  have t0 : (0 : ℝ) ≤ target := by positivity
  unfold computeSplitFactor
  split
  · split
    · rename_i hl
      have hq0 : (0 : ℝ) ≤ target / units := by positivity
      have hq : (target : ℝ) / units ≤ target := div_le_self t0 (by exact_mod_cast hu)
      have hc : (⌈(target : ℝ) / units⌉ : ℝ) ≤ target := by
        exact_mod_cast (Int.ceil_le.2 (by exact_mod_cast hq) : ⌈(target : ℝ) / units⌉ ≤ (target : ℤ))
      have hc0 : (0 : ℝ) ≤ (⌈(target : ℝ) / units⌉ : ℝ) := by
        exact_mod_cast (Int.ceil_nonneg hq0 : 0 ≤ ⌈(target : ℝ) / units⌉)
      have hU : Flt.toUsize (Flt.ceil (Flt.ofNat target /. Flt.ofNat units : ℝ)) =
          some ⌊(⌈(target : ℝ) / units⌉ : ℝ)⌋₊ := by
        simp only [toUsize_eq, ceil_eq, div_eq, ofNat_eq]
        exact if_pos ⟨by linarith, by linarith⟩
      dsimp only
      rw [hU]
      refine ⟨_, rfl, ?_⟩
      simp only [div_eq, ofNat_eq]
      have h1 : ((⌊(⌈(target : ℝ) / units⌉ : ℝ)⌋₊ : ℕ) : ℝ) ≤ target := (Nat.floor_le hc0).trans hc
      have hln : (1 : ℝ) ≤ ln := by exact_mod_cast Nat.one_le_iff_ne_zero.2 hl
      exact lt_of_le_of_lt ((div_le_self (by positivity) hln).trans h1) ht'
    · exact ⟨_, rfl, by simp only [one_eq]; norm_num⟩
  · refine ⟨_, rfl, ?_⟩
    simp only [div_eq, ofNat_eq]
    exact lt_of_le_of_lt (div_le_self t0 (by exact_mod_cast hg)) ht'

theorem SafeProblem.population {gn : Nat} {w : ℝ} {u : UnitState ℝ} {c : Container ℝ} (h : SafeProblem data u.dom)
    (hg : 0 < gn) (hw : unitWeightOf data u.dom.cells = .ok w) :
    ∃ x, populationControl data gn (w / (data.nParticles / 10)) u c = .ok x := by
  obtain ⟨w', hw', hpos, hcell⟩ := h.weight
  rw [hw] at hw'
  cases hw'
  obtain ⟨rates, hrates, _⟩ := h.rateList
  have n1 : (10 : ℝ) ≤ data.nParticles := by exact_mod_cast h.atLeast
  have n2 : (data.nParticles : ℝ) < 2 ^ 64 := by exact_mod_cast h.atMost
  set sw := w / ((data.nParticles : ℝ) / 10) with hsw
  have hsw0 : 0 < sw := by positivity
  obtain ⟨⟨cells, ps⟩, hcells⟩ := sourceCells_ok (data := data) h.tracking.mesh (rates := rates) (sw := sw)
    (cells := u.dom.cells) (i := 0) (fun cell hc => by
      obtain ⟨r, hr, h0, h1⟩ := hcell rates hrates cell hc
      unfold cellSourceCount
      rw [idx_ok.2 hr]
      dsimp only [bind, Except.bind]
      have q0 : 0 ≤ cell.volume * r * data.dt / sw := div_nonneg h0 hsw0.le
      have q1 : cell.volume * r * data.dt / sw ≤ data.nParticles / 10 := by
        rw [div_le_iff₀ hsw0, hsw, mul_div_cancel₀ _ (by positivity)]
        exact h1
      have f0 : (0 : ℝ) ≤ (⌊cell.volume * r * data.dt / sw⌋ : ℝ) := by
        exact_mod_cast (Int.floor_nonneg.2 q0)
      have f1 := Int.floor_le (cell.volume * r * data.dt / sw)
      have : Flt.toUsize (Flt.floor (cell.volume *. r *. data.dt /. sw : ℝ)) =
          some ⌊(⌊cell.volume * r * data.dt / sw⌋ : ℝ)⌋₊ := by
        simp only [toUsize_eq, floor_eq, div_eq, mul_eq]
        exact if_pos ⟨by linarith, by linarith⟩
      rw [this]
      exact ⟨_, rfl⟩) (by omega)
  unfold populationControl sourceNow
  rw [hrates]
  dsimp only [bind, Except.bind]
  rw [hcells]
  dsimp only [pure, Except.pure]
  obtain ⟨f, hf, hf1⟩ := splitFactor_ok (ln := (c.processing ++ ps).length) h.atMost h.units hg data.loadBalance
  rw [hf]
  dsimp only
  unfold regulateOrSplit
  split
  · exact ⟨_, rfl⟩
  · split
    · rename_i h1
      simp only [lt_eq, one_eq, decide_eq_true_eq] at h1
      obtain ⟨⟨qs, cs⟩, hq⟩ := splitAll_ok h1 hf1 (c.processing ++ ps)
      unfold Container.split
      dsimp only [bind, Except.bind]
      rw [hq]
      exact ⟨_, rfl⟩
    · exact ⟨_, rfl⟩
