import Verif.Lemmas.FloatCollide
import Verif.Lemmas.SafeRun
/-!
# Synchronisation and population control go through in floating-point arithmetic
-/
set_option linter.unusedSectionVars false
open Flt Ieee
attribute [local irreducible] Rng.lcg Rng.sample Rng.spawn
variable {T : Type} [Flt T] [Ieee T] {data : Data T} {dom : Domain T}

theorem FloatProblem.skeleton {d : Domain T} (h : FloatProblem data dom) (hd : d.skeleton = dom.skeleton) :
    FloatProblem data d := by
  have hw : unitWeightOf data d.cells = unitWeightOf data dom.cells := by
    have key : ∀ D : Domain T, unitWeightOf data D.skeleton.cells = unitWeightOf data D.cells := by
      intro D
      unfold unitWeightOf Domain.skeleton
      simp only [List.mapM_map]
      rfl
    rw [← key d, hd, key]
  refine ⟨h.tracking.skeleton hd, h.rates, ?_, by rw [hw]; exact h.weight, h.atLeast, h.atMost, h.units⟩
  intro cs hcs
  obtain ⟨i, hi⟩ := List.getElem?_of_mem hcs
  obtain ⟨c', hc', he⟩ := cells_skeleton hd hi
  have : cs.volume = c'.volume := by
    have := congrArg (fun c : CellState T => c.volume) he; exact this
  rw [this]
  exact h.volume c' (List.mem_of_getElem? hc')

/-! ### Numbers -/

theorem rep_two_pow {k : ℤ} (h0 : -100 ≤ k) (h1 : k ≤ 100) : Rep T ((2 : ℝ) ^ k) := by
  simpa using rep_scaled (T := T) (n := 1) (by norm_num) h0 h1

theorem fin_ofNat_le {n : ℕ} {m : ℕ} {k : ℤ} (h0 : (m : ℝ) ≤ n) (hm : m ≤ 2 ^ 24) (h1 : (n : ℝ) ≤ 2 ^ k)
    (k0 : -100 ≤ k) (k1 : k ≤ 100) : ∃ x : ℝ, IsFin (Flt.ofNat n : T) x ∧ m ≤ x ∧ x ≤ 2 ^ k := by
  obtain ⟨z, hz, z0, z1⟩ := rnd_between (T := T) (rep_nat hm) (rep_two_pow k0 k1) h0 h1
  exact ⟨z, by unfold IsFin; rw [val_ofNat, hz], z0, z1⟩

/-- A natural number that is not zero is rounded to at least one, possibly to infinity. -/
theorem ofNat_pos {n : ℕ} (h : 0 < n) : ∃ y : EReal, val (Flt.ofNat n : T) = some y ∧ ((1 : ℝ) : EReal) ≤ y := by
  refine ⟨_, val_ofNat n, ?_⟩
  have : rnd T ((1 : ℝ) : EReal) = ((1 : ℝ) : EReal) := rep_one
  rw [← this]
  exact rnd_mono (EReal.coe_le_coe_iff.2 (by exact_mod_cast h))

theorem div_ge_one {a b : T} {x M : ℝ} {y : EReal} (ha : IsFin a x) (h0 : 0 ≤ x) (h1 : x ≤ M) (hM : Rep T M)
    (hb : val b = some y) (hy : ((1 : ℝ) : EReal) ≤ y) : ∃ z, IsFin (a /. b) z ∧ 0 ≤ z ∧ z ≤ M := by
  rcases eq_or_ne y ⊤ with rfl | ht
  · refine ⟨0, ?_, le_rfl, h0.trans h1⟩
    unfold IsFin
    rw [val_div _ _ (by rw [hb]; simp), ha, hb]
    unfold ieeeDiv
    dsimp only
    rw [if_neg (fun h => h.1.elim (EReal.coe_ne_top _) (EReal.coe_ne_bot _))]
    have : (x : EReal) / ⊤ = ((0 : ℝ) : EReal) := by rw [EReal.div_top]; rfl
    rw [this]
    exact congrArg some rep_zero
  · have hbot : y ≠ ⊥ := by rintro rfl; exact EReal.coe_ne_bot _ (le_bot_iff.1 hy)
    lift y to ℝ using ⟨ht, hbot⟩
    have hy1 : (1 : ℝ) ≤ y := EReal.coe_le_coe_iff.1 hy
    have hpos : 0 < y := by linarith
    obtain ⟨z, hz, z0, z1⟩ := rnd_between (T := T) rep_zero hM (t := x / y) (by positivity)
      ((div_le_self h0 hy1).trans h1)
    exact ⟨z, by unfold IsFin; rw [fin_div ha hb hpos.ne', hz], z0, z1⟩

theorem fin_tenth : ∃ x : ℝ, IsFin (Flt.lit 1 (-1) : T) x ∧ 1 / 16 ≤ x ∧ x ≤ 1 / 8 := by
  have hlo := rndLit_exact (T := T) 1 (-4) (by norm_num) (by norm_num) (by norm_num)
  have hhi := rndLit_exact (T := T) 1 (-3) (by norm_num) (by norm_num) (by norm_num)
  have e1 : (((1 : ℕ) : ℝ) * 2 ^ (-4 : ℤ) : ℝ) = 1 / 16 := by norm_num
  have e2 : (((1 : ℕ) : ℝ) * 2 ^ (-3 : ℤ) : ℝ) = 1 / 8 := by norm_num
  rw [e1] at hlo
  rw [e2] at hhi
  have hv := val_lit (T := T) 1 (-1)
  have a : ((1 / 16 : ℝ) : EReal) ≤ rndLit T (((1 : ℕ) : ℝ) * 10 ^ (-1 : ℤ) : ℝ) := by
    rw [← hlo]; exact rndLit_mono (EReal.coe_le_coe_iff.2 (by norm_num))
  have b : rndLit T (((1 : ℕ) : ℝ) * 10 ^ (-1 : ℤ) : ℝ) ≤ ((1 / 8 : ℝ) : EReal) := by
    rw [← hhi]; exact rndLit_mono (EReal.coe_le_coe_iff.2 (by norm_num))
  generalize rndLit T (((1 : ℕ) : ℝ) * 10 ^ (-1 : ℤ) : ℝ) = z at hv a b
  have hb : z ≠ ⊥ := by rintro rfl; exact EReal.coe_ne_bot _ (le_bot_iff.1 a)
  have ht : z ≠ ⊤ := by rintro rfl; exact EReal.coe_ne_top _ (top_le_iff.1 b)
  lift z to ℝ using ⟨ht, hb⟩
  exact ⟨z, hv, EReal.coe_le_coe_iff.1 a, EReal.coe_le_coe_iff.1 b⟩

/-- The number of particles to spawn is at least one. -/
theorem fin_spawn {n : ℕ} (h0 : 16 ≤ n) (h1 : n ≤ 2 ^ 62) :
    ∃ k : ℝ, IsFin (Flt.lit 1 (-1) *. Flt.ofNat n : T) k ∧ 1 ≤ k ∧ k ≤ 2 ^ 59 := by
  obtain ⟨t, ht, t0, t1⟩ := fin_tenth (T := T)
  obtain ⟨x, hx, x0, x1⟩ := fin_ofNat_le (T := T) (n := n) (m := 16) (k := 62) (by exact_mod_cast h0) (by norm_num)
    (by norm_cast) (by norm_num) (by norm_num)
  have x0 : (16 : ℝ) ≤ x := by exact_mod_cast x0
  have x1 : x ≤ 2 ^ 62 := by exact_mod_cast x1
  have r59 : Rep T ((2 : ℝ) ^ 59) := by
    have := rep_two_pow (T := T) (k := 59) (by norm_num) (by norm_num)
    exact_mod_cast this
  obtain ⟨z, hz, z0, z1⟩ := rnd_between (T := T) rep_one r59 (t := t * x) (by nlinarith) (by
    calc t * x ≤ 1 / 8 * 2 ^ 62 := by nlinarith
      _ = 2 ^ 59 := by norm_num)
  exact ⟨z, by unfold IsFin; rw [fin_mul ht hx, hz], z0, z1⟩

/-! ### The source -/

/-- If a sum of numbers that are not negative is finite, so is each of them, and each is at most the sum. -/
theorem sum_bounds (ws : List T) (hn : ∀ w ∈ ws, Nn w) : ∀ (acc : T) (r : ℝ), Nn acc →
    IsFin (ws.foldl (· +. ·) acc) r →
    (∃ x : ℝ, IsFin acc x ∧ 0 ≤ x ∧ x ≤ r) ∧ ∀ w ∈ ws, ∃ x : ℝ, IsFin w x ∧ 0 ≤ x ∧ x ≤ r := by
  induction ws with
  | nil =>
    intro acc r ha hr
    have h0 := ha _ hr
    exact ⟨⟨r, hr, by exact_mod_cast h0, le_rfl⟩, by simp⟩
  | cons a ws ih =>
    intro acc r ha hr
    have hna := hn a (by simp)
    rw [List.foldl_cons] at hr
    obtain ⟨⟨s, hs, s0, s1⟩, hall⟩ := ih (fun w h => hn w (by simp [h])) (acc +. a) r (ha.add hna) hr
    have hv := hs
    unfold IsFin at hv
    rw [val_add] at hv
    have main : ∀ (c : T) (x : EReal) (t : EReal), val c = some x → 0 ≤ x → x ≤ t → rnd T t = (s : EReal) →
        ∃ x : ℝ, IsFin c x ∧ 0 ≤ x ∧ x ≤ r := by
      intro c x t hc h0 hle ht
      have hxs : x ≤ (s : EReal) := by
        rw [← ht, ← rnd_val c x hc]
        exact rnd_mono hle
      have hb : x ≠ ⊥ := by rintro rfl; simp at h0
      have htop : x ≠ ⊤ := by rintro rfl; exact EReal.coe_ne_top _ (top_le_iff.1 hxs)
      lift x to ℝ using ⟨htop, hb⟩
      exact ⟨x, hc, by exact_mod_cast h0, (EReal.coe_le_coe_iff.1 hxs).trans s1⟩
    cases h1 : val acc with
    | none => rw [h1] at hv; simp [ieeeAdd] at hv
    | some x =>
      cases h2 : val a with
      | none => rw [h1, h2] at hv; simp [ieeeAdd] at hv
      | some y =>
        rw [h1, h2] at hv
        unfold ieeeAdd at hv
        dsimp only at hv
        split at hv
        · cases hv
        · have hv := Option.some.inj hv
          have x0 := ha x h1
          have y0 := hna y h2
          refine ⟨main acc x _ h1 x0 (le_add_of_nonneg_right y0) hv, ?_⟩
          intro w hw
          rcases List.mem_cons.1 hw with rfl | hw
          · exact main w y _ h2 y0 (le_add_of_nonneg_left x0) hv
          · exact hall w hw

theorem FloatProblem.rateList (h : FloatProblem data dom) : ∃ rates, sourceRateList data = .ok rates ∧
    rates.length = data.materials.length ∧ ∀ r ∈ rates, Usable r := by
  obtain ⟨rates, hr⟩ : ∃ rates, sourceRateList data = .ok rates := by
    unfold sourceRateList
    refine mapM_ok_exists fun m hm => ?_
    obtain ⟨r, hr, _⟩ := h.rates m hm
    rw [hr]
    exact ⟨r, rfl⟩
  refine ⟨rates, hr, by unfold sourceRateList at hr; exact mapM_ok_length hr, fun r hm => ?_⟩
  unfold sourceRateList at hr
  obtain ⟨m, hmem, hf⟩ := mapM_ok_mem hr hm
  obtain ⟨r', hr', hu⟩ := h.rates m hmem
  rw [hr'] at hf
  cases hf
  exact hu

/-- The weight of the unit, and that of its cells. -/
theorem FloatProblem.weights (h : FloatProblem data dom) : ∃ (w : T) (x : ℝ), unitWeightOf data dom.cells = .ok w ∧
    IsFin w x ∧ 0 ≤ x ∧ ∀ rates, sourceRateList data = .ok rates → ∀ cell ∈ dom.cells,
      ∃ r c, rates[cell.material]? = some r ∧ IsFin (cell.volume *. r *. data.dt) c ∧ 0 ≤ c ∧ c ≤ x := by
  obtain ⟨w, hw, ⟨x, hx, x0⟩, _⟩ := h.weight
  obtain ⟨rates, hrates, hlen, hru⟩ := h.rateList
  refine ⟨w, x, hw, hx, x0, ?_⟩
  intro rates' hr' cell hc
  rw [hrates] at hr'
  cases hr'
  simp only [unitWeightOf, hrates, bind_ok, pure_ok, Except.ok.injEq, exists_eq_left'] at hw
  obtain ⟨ws, hws, rfl⟩ := hw
  obtain ⟨dt, hdt, dt0⟩ := h.tracking.dt
  have hnn : ∀ w ∈ ws, Nn w := by
    intro w hw
    obtain ⟨c', hc', hf⟩ := mapM_ok_mem hws hw
    simp only [bind_ok, pure_ok, idx_ok] at hf
    obtain ⟨r, hr, rfl⟩ := hf
    obtain ⟨v, hv, v0⟩ := h.volume c' hc'
    obtain ⟨rr, hrr, rr0⟩ := hru r (List.mem_of_getElem? hr)
    exact ((hv.nn v0).mul (hrr.nn rr0)).mul (hdt.nn dt0)
  obtain ⟨_, hall⟩ := sum_bounds ws hnn zero x nn_zero hx
  obtain ⟨i, hi⟩ := List.getElem?_of_mem hc
  obtain ⟨b, hb, hf⟩ := mapM_ok_getElem hws i _ hi
  simp only [bind_ok, pure_ok, idx_ok] at hf
  obtain ⟨r, hr, rfl⟩ := hf
  obtain ⟨c, hc', c0, c1⟩ := hall _ (List.mem_of_getElem? hb)
  exact ⟨r, c, hr, hc', c0, c1⟩

/-- The value of the weight of a sourced particle. -/
theorem FloatProblem.sourceWeight (h : FloatProblem data dom) {w : T} (hw : unitWeightOf data dom.cells = .ok w) :
    ∃ x z : ℝ, IsFin w x ∧ 0 ≤ x ∧ 0 < z ∧
      IsFin ((zero +. w) /. (Flt.lit 1 (-1) *. Flt.ofNat data.nParticles)) z ∧
      rnd T ((x / z : ℝ) : EReal) < (((2 : ℝ) ^ 63 : ℝ) : EReal) := by
  obtain ⟨w', hw', ⟨x, hx, x0⟩, hpos, hlt⟩ := h.weight
  rw [hw] at hw'
  cases hw'
  obtain ⟨k, hk, k1, _⟩ := fin_spawn (T := T) h.atLeast h.atMost
  obtain ⟨z, hz, z0, _⟩ := div_ge_one hx x0 le_rfl hx.rep hk (EReal.coe_le_coe_iff.2 k1)
  rw [lt_fin fin_zero hz] at hpos
  have hsum : IsFin (zero +. w) x := by
    unfold IsFin
    rw [fin_add fin_zero hx, zero_add]
    exact congrArg some hx.rep
  refine ⟨x, z, hx, x0, hpos, ?_, ?_⟩
  · have kne : k ≠ 0 := by linarith
    have e := fin_div hsum hk kne
    rw [← fin_div hx hk kne] at e
    exact e.trans hz
  · obtain ⟨a, b, ha, hb, hab⟩ := (lt_iff _ _).1 hlt
    rw [fin_div hx hz hpos.ne'] at ha
    cases ha
    rw [val_ofNat] at hb
    cases hb
    have : rnd T (((2 ^ 63 : ℕ) : ℝ) : EReal) = (((2 : ℝ) ^ 63 : ℝ) : EReal) := by
      have := rep_two_pow (T := T) (k := 63) (by norm_num) (by norm_num)
      unfold Rep at this
      exact_mod_cast this
    rw [this] at hab
    exact hab

theorem cellSourceCount_total (h : FloatProblem data dom) {w sw : T} {x z : ℝ} (hw : unitWeightOf data dom.cells = .ok w)
    (hx : IsFin w x) (z0 : 0 < z) (hz : IsFin sw z) (hlt : rnd T ((x / z : ℝ) : EReal) < (((2 : ℝ) ^ 63 : ℝ) : EReal))
    {rates : List T} (hrates : sourceRateList data = .ok rates) {cell : CellState T} (hc : cell ∈ dom.cells) :
    ∃ n, cellSourceCount data rates sw cell = .ok n := by
  obtain ⟨w', x', hw', hx', _, hall⟩ := h.weights
  rw [hw] at hw'
  cases hw'
  have := hx.inj hx'
  subst this
  obtain ⟨r, c, hr, hcw, c0, c1⟩ := hall rates hrates cell hc
  unfold cellSourceCount
  rw [idx_ok.2 hr]
  dsimp only [bind, Except.bind]
  have hq := fin_div hcw hz z0.ne'
  have hle : rnd T ((c / z : ℝ) : EReal) ≤ rnd T ((x / z : ℝ) : EReal) :=
    rnd_mono (EReal.coe_le_coe_iff.2 (by gcongr))
  have hub := lt_of_le_of_lt hle hlt
  have hlb : (0 : EReal) ≤ rnd T ((c / z : ℝ) : EReal) := rnd_nonneg (by exact_mod_cast (by positivity : 0 ≤ c / z))
  generalize rnd T ((c / z : ℝ) : EReal) = q at hq hub hlb
  have hb : q ≠ ⊥ := by rintro rfl; simp at hlb
  have ht : q ≠ ⊤ := by rintro rfl; simp at hub
  lift q to ℝ using ⟨ht, hb⟩
  have q0 : 0 ≤ q := by exact_mod_cast hlb
  have q1 : q < 2 ^ 63 := EReal.coe_lt_coe_iff.1 hub
  have f0 : (0 : ℝ) ≤ ((⌊q⌋ : ℤ) : ℝ) := by exact_mod_cast (Int.floor_nonneg.2 q0)
  have f1 := Int.floor_le q
  have hb : (2 : ℝ) ^ 63 < 2 ^ 64 := by norm_num
  rw [toUsize_eq _ _ (val_floor _ q hq) f0 (by linarith)]
  exact ⟨_, rfl⟩

/-! ### Synchronisation -/

theorem FloatProblem.prepare {s : SimState T} (h : FloatProblem data s.unit.dom) :
    ∃ s', syncPrepare data s = .ok s' ∧ 0 < s'.globalN ∧ s'.unit.dom = s.unit.dom ∧
      ∃ w, unitWeightOf data s.unit.dom.cells = .ok w ∧
        s'.srcWeight = (zero +. w) /. (Flt.lit 1 (-1) *. Flt.ofNat data.nParticles) := by
  obtain ⟨w, hw, _⟩ := h.weight
  obtain ⟨k, hk, k1, k2⟩ := fin_spawn (T := T) h.atLeast h.atMost
  have hU := toUsize_eq _ k hk (by linarith) (by
    have : (2 : ℝ) ^ 59 < 2 ^ 64 := by norm_num
    linarith)
  have hpos : 0 < ⌊k⌋₊ := by rw [Nat.floor_pos]; exact k1
  have hs : ∃ s', syncPrepare data s = .ok s' ∧
      s'.globalN = s.container.swap.processing.length + ⌊k⌋₊ ∧
      s'.unit.dom = s.unit.dom ∧
      s'.srcWeight = Flt.div (Flt.add zero w) (Flt.mul (Flt.lit 1 (-1)) (Flt.ofNat data.nParticles)) := by
    unfold syncPrepare
    rw [hw]
    dsimp only [bind, Except.bind]
    rw [hU]
    exact ⟨_, rfl, rfl, rfl, rfl⟩
  obtain ⟨s', e1, e2, e3, e4⟩ := hs
  exact ⟨s', e1, by omega, e3, w, hw, e4⟩

theorem FloatProblem.sync {o : SyncOpts} {n k : Nat} {s : SimState T} (h : FloatProblem data s.unit.dom)
    (hn : n ≤ data.nSteps) (hk : s.spectrum.length = k) (hg : ∀ p ∈ s.container.all, p.energyGroup < k) :
    ∃ s', cycleSync data o n s = .ok s' ∧ s'.spectrum.length = k ∧ 0 < s'.globalN ∧
      s'.unit.dom = s.unit.dom ∧
      ∃ w, unitWeightOf data s.unit.dom.cells = .ok w ∧
        s'.srcWeight = (zero +. w) /. (Flt.lit 1 (-1) *. Flt.ofNat data.nParticles) := by
  unfold cycleSync
  split
  · obtain ⟨sp, hsp, hlen⟩ := updateSpectrum_ok (on := o.spectrumOn) hk hg
    have hfin : ∃ s1, syncFinalize o n s = .ok s1 ∧ s1.spectrum = sp ∧ s1.unit.dom = s.unit.dom := by
      unfold syncFinalize
      simp only [bind_ok, pure_ok]
      exact ⟨_, ⟨sp, hsp, rfl⟩, rfl, rfl⟩
    obtain ⟨s1, h1, h2, h3⟩ := hfin
    rw [h1]
    dsimp only [bind, Except.bind]
    rw [if_neg (by omega)]
    have hs1 : FloatProblem data s1.unit.dom := by rw [h3]; exact h
    obtain ⟨s', h4, h5, h6, h7⟩ := hs1.prepare
    refine ⟨s', h4, ?_, h5, by rw [h6, h3], by rw [← h3]; exact h7⟩
    rw [(syncPrepare_fields h4).2.2.2.2.2.2.1, h2, hlen]
  · obtain ⟨s', h4, h5, h6, h7⟩ := h.prepare
    refine ⟨s', h4, ?_, h5, h6, h7⟩
    rw [(syncPrepare_fields h4).2.2.2.2.2.2.1, hk]

/-! ### Population control -/

theorem rep_62 : Rep T ((2 : ℝ) ^ 62) := by
  have := rep_two_pow (T := T) (k := 62) (by norm_num) (by norm_num)
  exact_mod_cast this

theorem split_total {factor : T} {f : ℝ} (hf : IsFin factor f) (h1 : 1 < f) (h2 : f ≤ 2 ^ 62)
    (ps : List (Particle T)) : ∃ x, splitAll factor ps = .ok x := by
  induction ps with
  | nil => exact ⟨_, rfl⟩
  | cons p ps ih =>
    obtain ⟨⟨ps', cs'⟩, ih⟩ := ih
    obtain ⟨⟨p', cs⟩, hp⟩ : ∃ x, p.underPopulatedSplit factor = .ok x := by
      unfold Particle.underPopulatedSplit
      dsimp only
      generalize Rng.sample (T := T) p.seed = r1
      obtain ⟨u, s⟩ := r1
      dsimp only
      have f1 : (1 : ℝ) ≤ ((⌊f⌋ : ℤ) : ℝ) := by
        exact_mod_cast (Int.le_floor.2 (by exact_mod_cast h1.le) : (1 : ℤ) ≤ ⌊f⌋)
      have f2 : ((⌊f⌋ : ℤ) : ℝ) ≤ f := Int.floor_le f
      have hb : (2 : ℝ) ^ 62 < 2 ^ 64 := by norm_num
      have hfl := val_floor _ f hf
      obtain ⟨n, hn⟩ : ∃ n, Flt.toUsize (if (u >. (factor -. Flt.floor factor)) = true then Flt.floor factor -. one
          else Flt.floor factor : T) = some n := by
        split
        · obtain ⟨z, hz, z0, z1⟩ := rnd_between (T := T) rep_zero rep_62 (t := ((⌊f⌋ : ℤ) : ℝ) - 1)
            (by linarith) (by linarith)
          have hsub := fin_sub (show IsFin (Flt.floor factor) _ from hfl) fin_one
          rw [hz] at hsub
          exact ⟨_, toUsize_eq _ z hsub z0 (by linarith)⟩
        · exact ⟨_, toUsize_eq _ _ hfl (by linarith) (by linarith)⟩
      rw [hn]
      exact ⟨_, rfl⟩
    unfold splitAll
    rw [hp]
    dsimp only [bind, Except.bind]
    rw [ih]
    exact ⟨_, rfl⟩

theorem splitFactor_total {target gn ln units : Nat} (ht : target ≤ 2 ^ 62) (hu : 0 < units) (hg : 0 < gn)
    (lb : Bool) : ∃ (f : T) (x : ℝ), computeSplitFactor target gn ln units lb = .ok f ∧ IsFin f x ∧ x ≤ 2 ^ 62 := by
  have nat : ∀ n : ℕ, n ≤ 2 ^ 62 → ∃ x : ℝ, IsFin (Flt.ofNat n : T) x ∧ 0 ≤ x ∧ x ≤ 2 ^ 62 := by
    intro n hn
    obtain ⟨x, hx, x0, x1⟩ := fin_ofNat_le (T := T) (n := n) (m := 0) (k := 62) (by simp) (by norm_num)
      (by exact_mod_cast hn) (by norm_num) (by norm_num)
    exact ⟨x, hx, by exact_mod_cast x0, by exact_mod_cast x1⟩
  obtain ⟨t, ht', t0, t1⟩ := nat target ht
  have hb : (2 : ℝ) ^ 62 < 2 ^ 64 := by norm_num
  unfold computeSplitFactor
  split
  · split
    · rename_i hl
      obtain ⟨y, hy, y1⟩ := ofNat_pos (T := T) hu
      obtain ⟨q, hq, q0, q1⟩ := div_ge_one ht' t0 t1 rep_62 hy y1
      have c0 : (0 : ℝ) ≤ ((⌈q⌉ : ℤ) : ℝ) := by exact_mod_cast (Int.ceil_nonneg q0)
      have c1 : ((⌈q⌉ : ℤ) : ℝ) ≤ 2 ^ 62 := by
        have : ⌈q⌉ ≤ (2 ^ 62 : ℤ) := Int.ceil_le.2 (by exact_mod_cast q1)
        exact_mod_cast this
      have hU := toUsize_eq _ _ (val_ceil _ q hq) c0 (by linarith)
      dsimp only
      rw [hU]
      have hfl : ⌊((⌈q⌉ : ℤ) : ℝ)⌋₊ ≤ 2 ^ 62 := by
        have := (Nat.floor_le c0).trans c1
        exact_mod_cast this
      obtain ⟨a, ha, a0, a1⟩ := nat _ hfl
      obtain ⟨y', hy', y1'⟩ := ofNat_pos (T := T) (Nat.pos_of_ne_zero hl)
      obtain ⟨z, hz, _, z1⟩ := div_ge_one ha a0 a1 rep_62 hy' y1'
      exact ⟨_, z, rfl, hz, z1⟩
    · exact ⟨_, 1, rfl, fin_one, by norm_num⟩
  · obtain ⟨y, hy, y1⟩ := ofNat_pos (T := T) hg
    obtain ⟨z, hz, _, z1⟩ := div_ge_one ht' t0 t1 rep_62 hy y1
    exact ⟨_, z, rfl, hz, z1⟩

theorem FloatProblem.population {gn : Nat} {w : T} {u : UnitState T} {c : Container T} (h : FloatProblem data u.dom)
    (hg : 0 < gn) (hw : unitWeightOf data u.dom.cells = .ok w) :
    ∃ x, populationControl data gn ((zero +. w) /. (Flt.lit 1 (-1) *. Flt.ofNat data.nParticles)) u c = .ok x := by
  obtain ⟨x, z, hx, _, z0, hz, hlt⟩ := h.sourceWeight hw
  obtain ⟨rates, hrates, _⟩ := h.rateList
  generalize (zero +. w) /. (Flt.lit 1 (-1) *. Flt.ofNat data.nParticles) = sw at hz ⊢
  obtain ⟨⟨cells, ps⟩, hcells⟩ := sourceCells_ok (data := data) h.tracking.mesh (rates := rates) (sw := sw)
    (cells := u.dom.cells) (i := 0) (fun cell hc => cellSourceCount_total h hw hx z0 hz hlt hrates hc) (by omega)
  unfold populationControl sourceNow
  rw [hrates]
  dsimp only [bind, Except.bind]
  rw [hcells]
  dsimp only [pure, Except.pure]
  obtain ⟨f, y, hf, hy, hf1⟩ := splitFactor_total (T := T) (ln := (c.processing ++ ps).length) h.atMost h.units hg
    data.loadBalance
  rw [hf]
  dsimp only
  unfold regulateOrSplit
  split
  · exact ⟨_, rfl⟩
  · split
    · rename_i h1
      have h1 : (one <. f) = true := h1
      rw [lt_fin fin_one hy] at h1
      obtain ⟨⟨qs, cs⟩, hq⟩ := split_total hy h1 hf1 (c.processing ++ ps)
      unfold Container.split
      dsimp only [bind, Except.bind]
      rw [hq]
      exact ⟨_, rfl⟩
    · exact ⟨_, rfl⟩

/-! ### The run -/

variable {ex : ExecInfo} {o : SyncOpts} {fuel : Nat}

theorem cycles_float {n : Nat} {s0 s : SimState T} (hp : FloatProblem data s0.unit.dom) (h0 : InitialState s0)
    (hs : StartSizes s0) (hn : n ≤ data.nSteps + 1) (h : Cycles data ex o fuel n s0 s) : StartSizes s := by
  induction h with
  | zero => exact hs
  | @succ n s0 s1 s2 u c hc hsync hcyc ih =>
    have ih := ih hp h0 hs (by omega)
    obtain ⟨r1, r2⟩ := cycles_reachableBy h0 (by omega) hc
    have hp1 := hp.skeleton r1
    have hg := numGroups_skeleton r1
    obtain ⟨s', e1, e2, _, e4, _⟩ := hp1.sync (o := o) (n := n) (by omega) ih.spectrum (fun p h => by
      have := (floatOk_reachable hp.tracking (r2 p h)).group
      omega)
    rw [hsync] at e1
    cases e1
    obtain ⟨l1, l2⟩ := cycleSync_lengths (by omega) hsync
    obtain ⟨u1, c1, hpc, hl⟩ := hcyc
    obtain ⟨p1, p2, _⟩ := populationControl_tables hpc
    obtain ⟨k1, k2, k3⟩ := processLoop_lengths hl
    have hsk := populationControl_skeleton hpc
    refine ⟨?_, ?_, ?_⟩
    · show u.cache.length = tableSize u.dom
      rw [k1, k3, p1, tableSize_skeleton hsk, e4, l1]; exact ih.cache
    · show u.flux.length = tableSize u.dom
      rw [k2, k3, p2, tableSize_skeleton hsk, e4, l2]; exact ih.flux
    · show s2.spectrum.length = u.dom.numGroups + 1
      rw [e2, k3, numGroups_skeleton hsk, e4]

theorem runFails_float {s0 : SimState T} {e : Panic} (hp : FloatProblem data s0.unit.dom) (h0 : InitialState s0)
    (hs : StartSizes s0) (hx : ¬ (ex.chunkSize = 0 ∧ ex.nRayonThreads = 0))
    (h : RunFails data ex o fuel s0 e) : e = .outOfFuel := by
  have sync : ∀ {n s}, n ≤ data.nSteps → Cycles data ex o fuel n s0 s → ∃ s', cycleSync data o n s = .ok s' ∧
      0 < s'.globalN ∧ s'.unit.dom = s.unit.dom ∧
      ∃ w, unitWeightOf data s.unit.dom.cells = .ok w ∧
        s'.srcWeight = (zero +. w) /. (Flt.lit 1 (-1) *. Flt.ofNat data.nParticles) := by
    intro n s hn hc
    have a1 := cycles_float hp h0 hs (by omega) hc
    obtain ⟨a2, a3⟩ := cycles_reachableBy h0 (by omega) hc
    have hg := numGroups_skeleton a2
    obtain ⟨s', e1, _, e3, e4, e5⟩ := (hp.skeleton a2).sync (o := o) hn a1.spectrum (fun p h => by
      have := (floatOk_reachable hp.tracking (a3 p h)).group
      omega)
    exact ⟨s', e1, e3, e4, e5⟩
  cases h with
  | @sync n s _ hn hc he =>
    obtain ⟨s', e1, _⟩ := sync hn hc
    rw [e1] at he
    cases he
  | @population n s s1 _ hn hc hsync he =>
    obtain ⟨s', e1, e2, e3, w, e4, e5⟩ := sync (by omega) hc
    rw [hsync] at e1
    cases e1
    obtain ⟨a2, _⟩ := cycles_reachableBy h0 (by omega) hc
    obtain ⟨x, hx⟩ := (hp.skeleton (d := s1.unit.dom) (by rw [e3]; exact a2)).population (c := s1.container) e2
      (by rw [e3]; exact e4)
    rw [e5, hx] at he
    cases he
  | @tracking n s s1 u c _ hn hc hsync hpc he =>
    have a1 := cycles_float hp h0 hs (by omega) hc
    obtain ⟨a2, a3⟩ := cycles_reachableBy h0 (by omega) hc
    have hd1 : s1.unit.dom.skeleton = s0.unit.dom.skeleton := by rw [cycleSync_dom hsync]; exact a2
    have hk1 := fun p hp => a3 p (cycleSync_all hsync p hp)
    have hk2 := populationControl_reach hd1 hk1 hpc
    have hsk := populationControl_skeleton hpc
    have hd2 := hsk.trans hd1
    obtain ⟨l1, l2⟩ := cycleSync_lengths (by omega) hsync
    obtain ⟨p1, p2, _⟩ := populationControl_tables hpc
    have t : tableSize u.dom = tableSize s.unit.dom := by
      rw [tableSize_skeleton hsk, cycleSync_dom hsync]
    rcases loopFails_inv hd2 hk2 (cacheAnswer_stores _ _) (populationControl_answers (by omega) hsync hpc) he with
      h | ⟨_, h⟩ | ⟨p, hr, hf⟩
    · exact h
    · exact absurd h hx
    · exact hp.tracking.particle hd2 hr (by rw [p1, l1, t, a1.cache]) (by rw [p2, l2, t, a1.flux]) hf
