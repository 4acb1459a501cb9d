import Verif.Lemmas.Events
import Verif.Lemmas.Reactions
import Verif.Lemmas.Reach
/-!
# C35: source strength

Exact real arithmetic.
-/
open FltReal
attribute [local irreducible] Rng.lcg Rng.sample Rng.spawn

/-- Specification: `ws` are the physical source weights of the cells: volume × source rate of the
material × time step. -/
def CellWeights (data : Data ℝ) (cells : List (CellState ℝ)) (ws : List ℝ) : Prop :=
  List.Forall₂ (fun cell w => ∃ m r, data.materials[cell.material]? = some m ∧
    data.sourceRates.lookup m.name = some r ∧ w = cell.volume * r * data.dt) cells ws

/-- No negative volume, source rate or time step. -/
structure SourceHyps (data : Data ℝ) (cells : List (CellState ℝ)) : Prop where
  volume : ∀ c ∈ cells, 0 ≤ c.volume
  rate : ∀ m r, data.sourceRates.lookup m = some r → 0 ≤ r
  dt : 0 ≤ data.dt

theorem rates_lookup {data : Data ℝ} {rates : List ℝ} (h : sourceRateList data = .ok rates) {i : ℕ} {r : ℝ}
    (hr : rates[i]? = some r) :
    ∃ m, data.materials[i]? = some m ∧ data.sourceRates.lookup m.name = some r := by
  unfold sourceRateList at h
  have hlen := mapM_ok_length h
  obtain ⟨hi, -⟩ := List.getElem?_eq_some_iff.1 hr
  rw [hlen] at hi
  obtain ⟨b, hb, hf⟩ := mapM_ok_getElem h i _ (List.getElem?_eq_getElem hi)
  rw [hr] at hb
  obtain rfl := Option.some.inj hb
  refine ⟨_, List.getElem?_eq_getElem hi, ?_⟩
  split at hf
  · rename_i hl; rw [hl]; exact congrArg some (Except.ok.inj hf)
  · simp at hf

/-- The weight of the unit is the sum of the weights of its cells. -/
theorem unitWeight_spec {data : Data ℝ} {cells : List (CellState ℝ)} {w : ℝ}
    (h : unitWeightOf data cells = .ok w) : ∃ ws, CellWeights data cells ws ∧ w = ws.sum := by
  simp only [unitWeightOf, bind_ok, pure_ok] at h
  obtain ⟨rates, hrates, ws, hws, rfl⟩ := h
  refine ⟨ws, ?_, flt_sum_real ws⟩
  induction cells generalizing ws with
  | nil => simp only [List.mapM_nil, pure_ok] at hws; subst hws; exact .nil
  | cons c cells ih =>
    simp only [List.mapM_cons, bind_ok, pure_ok, idx_ok] at hws
    obtain ⟨w, ⟨r, hr, rfl⟩, ws', hws', rfl⟩ := hws
    obtain ⟨m, hm, hl⟩ := rates_lookup hrates hr
    exact .cons ⟨m, r, hm, hl, by simp⟩ (ih ws' (by simpa only [bind_ok, pure_ok, idx_ok] using hws'))

theorem CellWeights.unique {data : Data ℝ} {cells : List (CellState ℝ)} {ws ws' : List ℝ}
    (h : CellWeights data cells ws) (h' : CellWeights data cells ws') : ws = ws' := by
  unfold CellWeights at h h'
  induction h generalizing ws' with
  | nil => cases h'; rfl
  | cons ha _ ih =>
    cases h' with
    | cons hb ht =>
      obtain ⟨m, r, h1, h2, rfl⟩ := ha
      obtain ⟨m', r', h1', h2', rfl⟩ := hb
      rw [h1] at h1'
      obtain rfl := Option.some.inj h1'
      rw [h2] at h2'
      obtain rfl := Option.some.inj h2'
      rw [ih ht]

/-- What the loop over the cells sources. -/
theorem sourceCells_count {data : Data ℝ} {dom : Domain ℝ} {rates : List ℝ} {sw : ℝ}
    (hrates : sourceRateList data = .ok rates) {cells : List (CellState ℝ)} {i : ℕ}
    {cells' : List (CellState ℝ)} {ps : List (Particle ℝ)}
    (h : sourceCells data dom rates sw cells i = .ok (cells', ps)) :
    ∃ ws ns, CellWeights data cells ws ∧
      List.Forall₂ (fun w n => 0 ≤ w / sw → n = ⌊w / sw⌋₊) ws ns ∧
      ps.length = ns.sum ∧ (∀ p ∈ ps, p.weight = sw ∧ i ≤ p.cell) ∧
      ∀ j n, ns[j]? = some n → ps.countP (fun p => p.cell = i + j) = n := by
  induction cells generalizing i cells' ps with
  | nil =>
    simp only [sourceCells, Except.ok.injEq, Prod.mk.injEq] at h
    obtain ⟨_, rfl⟩ := h
    exact ⟨[], [], .nil, .nil, rfl, by simp, by simp⟩
  | cons c cells ih =>
    simp only [sourceCells, bind_ok, pure_ok, Prod.exists, Prod.mk.injEq] at h
    obtain ⟨n, hn, ps1, hps1, cs2, ps2, h2, _, rfl⟩ := h
    obtain ⟨ws, ns, i1, i2, i3, i4, i5⟩ := ih h2
    simp only [cellSourceCount, bind_ok, idx_ok, unwrap_ok] at hn
    obtain ⟨r, hr, hn⟩ := hn
    obtain ⟨m, hm, hl⟩ := rates_lookup hrates hr
    have hlen : ps1.length = n := by
      rw [mapM_ok_length hps1]; simp [cellSeeds]
    have hall : ∀ p ∈ ps1, p.weight = sw ∧ p.cell = i := by
      intro p hp
      obtain ⟨s, _, hs⟩ := mapM_ok_mem hps1 hp
      have := sourceParticle_fields hs
      exact ⟨this.weight, this.cell⟩
    refine ⟨c.volume * r * data.dt :: ws, n :: ns, .cons ⟨m, r, hm, hl, rfl⟩ i1, .cons ?_ i2, ?_, ?_, ?_⟩
    · intro h0
      simp only [floor_eq, mul_eq, div_eq, toUsize_eq] at hn
      split at hn
      · rw [← Option.some.inj hn, ← Int.floor_toNat, Int.floor_intCast, Int.floor_toNat]
      · simp at hn
    · rw [List.length_append, hlen, i3, List.sum_cons]
    · intro p hp
      rcases List.mem_append.1 hp with hp | hp
      · exact ⟨(hall p hp).1, (hall p hp).2.ge⟩
      · exact ⟨(i4 p hp).1, by have := (i4 p hp).2; omega⟩
    · intro j k hk
      rw [List.countP_append]
      cases j with
      | zero =>
        simp only [List.getElem?_cons_zero, Option.some.injEq] at hk
        subst hk
        rw [List.countP_eq_length.2 (fun p hp => by simp [(hall p hp).2]), hlen,
          List.countP_eq_zero.2 (fun p hp => by have := (i4 p hp).2; simp; omega)]
        rfl
      | succ j =>
        rw [List.countP_eq_zero.2 (fun p hp => by have := (hall p hp).2; simp; omega), zero_add]
        rw [← i5 j k (by simpa using hk)]
        congr 1
        funext p
        rw [show i + (j + 1) = i + 1 + j by ring]

theorem sum_floor_bounds {ws : List ℝ} {ns : List ℕ} {sw : ℝ} (hsw : 0 < sw) (hw : ∀ w ∈ ws, 0 ≤ w)
    (h : List.Forall₂ (fun w n => n = ⌊w / sw⌋₊) ws ns) :
    (ns.sum : ℝ) * sw ≤ ws.sum ∧ ws.sum ≤ ((ns.sum : ℝ) + ws.length) * sw ∧
      (ws ≠ [] → ws.sum < ((ns.sum : ℝ) + ws.length) * sw) := by
  induction h with
  | nil => simp
  | @cons w n ws ns hn _ ih =>
    obtain ⟨i1, i2, _⟩ := ih (fun w hw' => hw w (by simp [hw']))
    have h0 : 0 ≤ w / sw := div_nonneg (hw w (by simp)) hsw.le
    have f1 : (n : ℝ) ≤ w / sw := by rw [hn]; exact Nat.floor_le h0
    have f2 : w / sw < n + 1 := by rw [hn]; exact Nat.lt_floor_add_one _
    rw [le_div_iff₀ hsw] at f1
    rw [div_lt_iff₀ hsw] at f2
    simp only [List.sum_cons, Nat.cast_add, List.length_cons, Nat.cast_one]
    refine ⟨?_, ?_, fun _ => ?_⟩ <;> nlinarith

/-- **C35.** Preparation of a cycle followed by the sourcing.  With `S = nParticles / 10`, `ws` the physical
source weights of the cells and `W` their sum (assumed positive): cell `i` receives `⌊wᵢ / (W / S)⌋`
particles, each with weight `W / S`; in total at most `S` and more than `S` minus the number of cells; and
the weight sourced is at most `W`. -/
theorem C35_source {data : Data ℝ} {s s2 : SimState ℝ} {u : UnitState ℝ} {c : Container ℝ}
    (hy : SourceHyps data s.unit.dom.cells) (hn : 0 < data.nParticles)
    (hprep : syncPrepare data s = .ok s2) (hpos : 0 < s2.unit.unitWeight)
    (h : sourceNow data s2.srcWeight s2.unit s2.container = .ok (u, c)) :
    ∃ ws ns sourced, CellWeights data s.unit.dom.cells ws ∧
      s2.srcWeight = ws.sum / (data.nParticles / 10) ∧
      List.Forall₂ (fun w n => n = ⌊w / s2.srcWeight⌋₊) ws ns ∧
      c.processing = s2.container.processing ++ sourced ∧
      (∀ p ∈ sourced, p.weight = s2.srcWeight) ∧
      (∀ i n, ns[i]? = some n → sourced.countP (fun p => p.cell = i) = n) ∧
      sourced.length = ns.sum ∧
      (sourced.length : ℝ) ≤ data.nParticles / 10 ∧
      (data.nParticles : ℝ) / 10 < sourced.length + s.unit.dom.cells.length ∧
      (sourced.length : ℝ) * s2.srcWeight ≤ ws.sum := by
  simp only [syncPrepare, bind_ok, pure_ok] at hprep
  obtain ⟨w, hw, k, _, rfl⟩ := hprep
  obtain ⟨ws, hws, rfl⟩ := unitWeight_spec hw
  simp only at hpos
  simp only [sourceNow, bind_ok, pure_ok, Prod.exists, Prod.mk.injEq] at h
  obtain ⟨rates, hrates, cells, ps, hps, _, rfl⟩ := h
  obtain ⟨ws', ns, h1, h2, h3, h4, h5⟩ := sourceCells_count hrates hps
  obtain rfl := hws.unique h1
  have hS : (0 : ℝ) < data.nParticles / 10 := by positivity
  have hsw : (Flt.div (Flt.add Flt.zero ws.sum) (Flt.mul (Flt.lit 1 (-1)) (Flt.ofNat data.nParticles)) : ℝ) =
      ws.sum / (data.nParticles / 10) := by
    simp only [div_eq, add_eq, zero_eq, zero_add, mul_eq, lit_eq, ofNat_eq]
    congr 1
    rw [zpow_neg, zpow_one]
    push_cast
    ring
  simp only at h2 h4 ⊢
  rw [hsw] at h2 h4
  set sw := ws.sum / ((data.nParticles : ℝ) / 10) with hswdef
  have hswp : 0 < sw := div_pos hpos hS
  have hwn : ∀ w ∈ ws, 0 ≤ w := by
    clear * - hws hy
    have hv := hy.volume
    generalize s.unit.dom.cells = cs at hws hy hv
    unfold CellWeights at hws
    induction hws with
    | nil => simp
    | @cons a b cs bs hab _ ih =>
      obtain ⟨m, r, _, hl, rfl⟩ := hab
      intro w hw
      rcases List.mem_cons.1 hw with rfl | hw
      · exact mul_nonneg (mul_nonneg (hv a (by simp)) (hy.rate _ _ hl)) hy.dt
      · refine ih ?_ ?_ w hw
        · exact ⟨fun c hc => hv c (by simp [hc]), hy.rate, hy.dt⟩
        · exact fun c hc => hv c (by simp [hc])
  have h2' : List.Forall₂ (fun w n => n = ⌊w / sw⌋₊) ws ns := by
    clear * - h2 hwn hswp
    induction h2 with
    | nil => exact .nil
    | cons ha _ ih =>
      exact .cons (ha (div_nonneg (hwn _ (by simp)) hswp.le)) (ih fun w hw => hwn w (by simp [hw]))
  have hlen : ws.length = s.unit.dom.cells.length := by
    unfold CellWeights at hws; exact hws.length_eq.symm
  have hne : ws ≠ [] := by rintro rfl; simp at hpos
  obtain ⟨b1, _, b3⟩ := sum_floor_bounds hswp hwn h2'
  have b3 := b3 hne
  have hWS : ws.sum = data.nParticles / 10 * sw := by rw [hswdef]; field_simp
  refine ⟨ws, ns, ps, hws, hsw, ?_, rfl, ?_, ?_, h3, ?_, ?_, ?_⟩
  · rw [hsw]; exact h2'
  · intro p hp; rw [hsw]; exact (h4 p hp).1
  · intro i n hi
    have := h5 i n hi
    simpa using this
  · rw [h3]
    rw [hWS] at b1
    exact le_of_mul_le_mul_right b1 hswp
  · rw [h3, ← hlen]
    rw [hWS] at b3
    exact lt_of_mul_lt_mul_right b3 hswp.le
  · rw [h3, hsw]; exact b1

/-- Two cells of weights 1 and 2 and a target of 100 particles: particle weight 0.3, 3 and 6 particles, so 9 out of
the 10 wanted. -/
example : List.Forall₂ (fun (w : ℝ) n => n = ⌊w / ((1 + 2) / ((100 : ℕ) / 10))⌋₊) [1, 2] [3, 6] ∧
    ((3 + 6 : ℕ) : ℝ) ≤ (100 : ℕ) / 10 := by
  refine ⟨.cons ?_ (.cons ?_ .nil), by norm_num⟩
  · rw [eq_comm, Nat.floor_eq_iff (by norm_num)]; norm_num
  · rw [eq_comm, Nat.floor_eq_iff (by norm_num)]; norm_num

/-- Data with a source, and two cells. -/
example : ∃ (data : Data ℝ) (cells : List (CellState ℝ)), SourceHyps data cells ∧
    unitWeightOf data cells = .ok 3 := by
  refine ⟨{ dt := 1, eMin := 1, eMax := 20, nParticles := 100, nSteps := 1, lowWeightCutoff := 0,
            loadBalance := false, nUnits := 1,
            nuclear := { numEnergyGroups := 1, isotopes := [], energies := [] },
            materials := [{ name := "m", mass := 1, iso := [] }], sourceRates := [("m", 1)] },
    [{ material := 0, volume := 1, cellNumberDensity := 1, id := 0, sourceTally := 0 },
     { material := 0, volume := 2, cellNumberDensity := 1, id := 1, sourceTally := 0 }], ?_, ?_⟩
  · refine ⟨by simp, ?_, by simp⟩
    intro m r h
    simp only [List.lookup] at h
    split at h
    · rw [← Option.some.inj h]; exact zero_le_one
    · simp at h
  · simp [unitWeightOf, sourceRateList, bind, Except.bind, pure, Except.pure, List.mapM_cons, idx, List.lookup,
      flt_sum_real]
    norm_num
