import Verif.Lemmas.WideReal
import Verif.Lemmas.Reactions
import Verif.Lemmas.Uniform
import Mathlib.MeasureTheory.Measure.Lebesgue.Basic
import Mathlib.Tactic.FieldSimp
/-!
# C28 - C30: choice of the reaction, macroscopic cross-sections, normalisation of the tables

Exact real arithmetic.  The specification of the weights is in `Verif/Spec/Reactions.lean`.
-/
open Rng FltReal
attribute [local irreducible] Rng.lcg Rng.sample Rng.spawn

/-! ## C28 -/

/-- **C28, choice.** A drawn value in the `k`-th interval of cumulated weights selects reaction `k`, after
one pass over the material (two turns of the loop: one pass, and the test that ends it). -/
theorem C28_choice {data : Data ℝ} {mat : Material ℝ} {ρ : ℝ} {g : ℕ} {ts : List (ℝ × Reaction ℝ)}
    (hp : Present ρ mat) (ht : MaterialTerms data ρ g mat ts) (hw : ∀ t ∈ ts, 0 ≤ t.1)
    {k : ℕ} (hk : k < ts.length) {xs : ℝ} (h1 : cumWeight ts k ≤ xs) (h2 : xs < cumWeight ts (k + 1))
    (fuel : ℕ) :
    pickReaction data mat ρ g (fuel + 2) xs none = .ok (some ts[k].2) := by
  obtain ⟨tss, hall, rfl⟩ := ht
  have hx : 0 ≤ xs := le_trans (cumWeight_nonneg hw k) h1
  unfold pickReaction
  simp only [le_eq, zero_eq, hx, decide_true, if_true, scanIsotopes_terms hp.1 hp.2 hall hx, bind,
    Except.bind, scanT_hit hw hk h1 h2]
  unfold pickReaction
  simp only [le_eq, zero_eq]
  rw [if_neg (by simp; linarith)]
  rfl

/-- **C28, tiling.** Every value below the total lies in exactly one of the intervals. -/
theorem C28_tiling {ts : List (ℝ × Reaction ℝ)} (hw : ∀ t ∈ ts, 0 ≤ t.1) {xs : ℝ} (h0 : 0 ≤ xs)
    (h1 : xs < totalWeight ts) :
    ∃! k : ℕ, k < ts.length ∧ cumWeight ts k ≤ xs ∧ xs < cumWeight ts (k + 1) :=
  exists_interval hw h0 h1

/-- **C28, collision event.** The value drawn is the total times a uniform number.  When that number is
below 1, the event is the sampling of exactly one reaction, the one whose interval holds the value. -/
theorem C28_event {data : Data ℝ} {m : ℕ} {mat : Material ℝ} (hm : data.materials[m]? = some mat) {ρ : ℝ}
    {st : TrackState ℝ} {ts : List (ℝ × Reaction ℝ)} (hp : Present ρ mat)
    (ht : MaterialTerms data ρ st.particle.energyGroup mat ts) (hw : ∀ t ∈ ts, 0 ≤ t.1)
    (htot : st.particle.totalCrossSection = totalWeight ts) (hpos : 0 < totalWeight ts)
    (hu : draw st.particle.seed < 1) (fuel : ℕ) :
    ∃ k, ∃ hk : k < ts.length,
      cumWeight ts k ≤ totalWeight ts * draw st.particle.seed ∧
      totalWeight ts * draw st.particle.seed < cumWeight ts (k + 1) ∧
      collisionEvent data (fuel + 2) m ρ st = (do
        let (nOut, p, ex) ←
          ({ st.particle with seed := lcg st.particle.seed }).sampleCollision ts[k].2 mat.mass
        return (decide (nOut ≥ 1),
          { particle := p, balance := tallyCollision st.balance ts[k].2.rtype nOut,
            extra := st.extra ++ ex })) := by
  have h0 : 0 ≤ totalWeight ts * draw st.particle.seed := mul_nonneg hpos.le (draw_nonneg _)
  have h1 : totalWeight ts * draw st.particle.seed < totalWeight ts := by nlinarith
  obtain ⟨k, ⟨hk, ha, hb⟩, -⟩ := C28_tiling hw h0 h1
  refine ⟨k, hk, ha, hb, ?_⟩
  have hpick := C28_choice hp ht hw hk ha hb fuel
  unfold collisionEvent Particle.getCurrentXs
  have hs : Rng.sample (T := ℝ) st.particle.seed = (draw st.particle.seed, lcg st.particle.seed) :=
    Prod.ext rfl (by with_unfolding_all rfl)
  rw [hs]
  simp only [mul_eq, htot, idx_ok.2 hm]
  simp only [bind, Except.bind, hpick]

/-- **C28, share of an ideal draw.** The uniform numbers that select reaction `k` form an interval of
length weight / total. -/
theorem C28_share {ts : List (ℝ × Reaction ℝ)} {k : ℕ} (hk : k < ts.length) (hpos : 0 < totalWeight ts) :
    MeasureTheory.volume {u : ℝ | cumWeight ts k ≤ totalWeight ts * u ∧
      totalWeight ts * u < cumWeight ts (k + 1)} = ENNReal.ofReal (ts[k].1 / totalWeight ts) := by
  have e : {u : ℝ | cumWeight ts k ≤ totalWeight ts * u ∧ totalWeight ts * u < cumWeight ts (k + 1)} =
      Set.Ico (cumWeight ts k / totalWeight ts) (cumWeight ts (k + 1) / totalWeight ts) := by
    ext u
    simp only [Set.mem_ofPred_eq, Set.mem_Ico]
    rw [div_le_iff₀ hpos, lt_div_iff₀ hpos, mul_comm u]
  rw [e, Real.volume_Ico, cumWeight_succ hk]
  congr 1
  ring

/-- **C28, share of the generator's draws.** Among the `2^64` states of the generator, the number that
select reaction `k` is weight / total of them, up to `2^13`. -/
theorem C28_share_states {ts : List (ℝ × Reaction ℝ)} (hw : ∀ t ∈ ts, 0 ≤ t.1) {k : ℕ}
    (hk : k < ts.length) (hpos : 0 < totalWeight ts) :
    |(({s : BitVec 64 | cumWeight ts k ≤ totalWeight ts * draw s ∧
        totalWeight ts * draw s < cumWeight ts (k + 1)}.ncard : ℕ) : ℝ)
      - ts[k].1 / totalWeight ts * 2 ^ 64| ≤ 2 ^ 13 := by
  have hmono := cumWeight_mono hw
  have hle : ∀ j ≤ ts.length, cumWeight ts j ≤ totalWeight ts := fun j hj => by
    rw [← cumWeight_length]; exact hmono hj
  have hb : ∀ j ≤ ts.length, 0 ≤ cumWeight ts j / totalWeight ts ∧ cumWeight ts j / totalWeight ts ≤ 1 :=
    fun j hj => ⟨div_nonneg (cumWeight_nonneg hw _) hpos.le, (div_le_one hpos).2 (hle j hj)⟩
  have c1 := count_draw_lt (hb k (by omega)).1 (hb k (by omega)).2
  have c2 := count_draw_lt (hb (k + 1) (by omega)).1 (hb (k + 1) (by omega)).2
  have hsub : {s : BitVec 64 | draw s < cumWeight ts k / totalWeight ts} ⊆
      {s : BitVec 64 | draw s < cumWeight ts (k + 1) / totalWeight ts} := by
    intro s hs
    simp only [Set.mem_ofPred_eq] at hs ⊢
    exact lt_of_lt_of_le hs ((div_le_div_iff_of_pos_right hpos).2 (hmono (Nat.le_succ k)))
  have e : {s : BitVec 64 | cumWeight ts k ≤ totalWeight ts * draw s ∧
      totalWeight ts * draw s < cumWeight ts (k + 1)} =
      {s : BitVec 64 | draw s < cumWeight ts (k + 1) / totalWeight ts} \
        {s : BitVec 64 | draw s < cumWeight ts k / totalWeight ts} := by
    ext s
    simp only [Set.mem_ofPred_eq, Set.mem_sdiff]
    rw [lt_div_iff₀ hpos, lt_div_iff₀ hpos, mul_comm (draw s), not_lt, and_comm]
  rw [e]
  have hn := Set.ncard_sdiff_add_ncard_of_subset hsub ((Set.finite_of_ncard_ne_zero (by rw [ncard_states]; positivity)).subset (Set.subset_univ _))
  have hn' := congrArg (Nat.cast (R := ℝ)) hn
  rw [Nat.cast_add] at hn'
  have hs := cumWeight_succ hk
  have hdiv : ts[k].1 / totalWeight ts =
      cumWeight ts (k + 1) / totalWeight ts - cumWeight ts k / totalWeight ts := by
    rw [hs]; ring
  rw [hdiv]
  rw [abs_le] at c1 c2 ⊢
  norm_num at c1 c2 ⊢
  constructor <;> linarith [c1.1, c1.2, c2.1, c2.2]

/-- **C28, largest draw.** If the uniform number is exactly 1 the first pass selects nothing; the second
one then selects the first reaction with a positive weight. -/
theorem C28_largest_draw {data : Data ℝ} {mat : Material ℝ} {ρ : ℝ} {g : ℕ} {ts : List (ℝ × Reaction ℝ)}
    (hp : Present ρ mat) (ht : MaterialTerms data ρ g mat ts) (hw : ∀ t ∈ ts, 0 ≤ t.1)
    {k : ℕ} (hk : k < ts.length) (hpos : 0 < ts[k].1) (hfirst : cumWeight ts k = 0) (fuel : ℕ) :
    pickReaction data mat ρ g (fuel + 3) (totalWeight ts) none = .ok (some ts[k].2) := by
  have hn : 0 ≤ totalWeight ts := by rw [← cumWeight_length]; exact cumWeight_nonneg hw _
  have h0 := C28_choice hp ht hw hk (xs := 0) hfirst.le (by rw [cumWeight_succ hk, hfirst]; linarith) fuel
  obtain ⟨tss, hall, rfl⟩ := ht
  unfold pickReaction
  simp only [le_eq, zero_eq, hn, decide_true, if_true, scanIsotopes_terms hp.1 hp.2 hall hn, bind,
    Except.bind, scanT_miss hw le_rfl, sub_self]
  exact h0

/-- **C28 needs a positive cross-section.** If all weights are zero the search never ends. -/
theorem C28_no_end_without_weight {data : Data ℝ} {mat : Material ℝ} {ρ : ℝ} {g : ℕ}
    {ts : List (ℝ × Reaction ℝ)} (hp : Present ρ mat) (ht : MaterialTerms data ρ g mat ts)
    (hw : ∀ t ∈ ts, t.1 = 0) {xs : ℝ} (hx : 0 ≤ xs) (fuel : ℕ) :
    pickReaction data mat ρ g fuel xs none = .error .outOfFuel := by
  have htot : totalWeight ts = 0 := by
    unfold totalWeight
    apply List.sum_eq_zero
    intro x hx'
    obtain ⟨t, htm, rfl⟩ := List.mem_map.1 hx'
    exact hw t htm
  obtain ⟨tss, hall, rfl⟩ := ht
  induction fuel with
  | zero => rfl
  | succ fuel ih =>
    unfold pickReaction
    have hmiss := scanT_miss (fun t ht => (hw t ht).ge) (htot.trans_le hx) none
    simp only [le_eq, zero_eq, hx, decide_true, if_true, scanIsotopes_terms hp.1 hp.2 hall hx, bind,
      Except.bind, hmiss, htot, sub_zero]
    exact ih

/-! ## C29 -/

/-- An isotope contributes the sum of its weights. -/
theorem macroscopicTotalXs_terms {data : Data ℝ} {mat : Material ℝ} {ρ : ℝ} {g i : ℕ} {iso : Isotope ℝ}
    (hi : mat.iso[i]? = some iso) (hρ : ρ ≠ 0) (hf : iso.atomFraction ≠ 0) {x : ℝ} :
    macroscopicTotalXs data mat i ρ g = .ok x ↔
      ∃ ts, IsotopeTerms data ρ g iso ts ∧ x = totalWeight ts := by
  unfold macroscopicTotalXs NuclearData.getTotalCrossSection groupCrossSections
  rw [idx_ok.2 hi]
  simp only [bind, Except.bind, beq_eq, zero_eq, hf, hρ, decide_false, Bool.or_self, Bool.false_eq_true,
    if_false]
  cases hrs : idx data.nuclear.isotopes iso.gid with
  | error e =>
    simp only [reduceCtorEq, false_iff]
    rintro ⟨ts, ⟨rs, h, -⟩, -⟩
    rw [idx_ok.2 h] at hrs
    exact absurd hrs (by simp)
  | ok rs =>
    simp only
    have key : ∀ l : List ℝ, rs.mapM (fun r => idx r.crossSection g) = .ok l ↔
        List.Forall₂ (fun r t => ∃ σ, r.crossSection[g]? = some σ ∧
          t = (iso.atomFraction * ρ * σ, r)) rs
          ((l.zip rs).map fun p => (iso.atomFraction * ρ * p.1, p.2)) ∧ l.length = rs.length := by
      clear hrs
      induction rs with
      | nil => intro l; simp [pure, Except.pure, eq_comm]
      | cons r rs ih =>
        intro l
        simp only [List.mapM_cons, bind_ok, pure_ok]
        constructor
        · rintro ⟨a, ha, l', hl', rfl⟩
          obtain ⟨h1, h2⟩ := (ih l').1 hl'
          exact ⟨List.Forall₂.cons ⟨a, idx_ok.1 ha, rfl⟩ h1, by simp [h2]⟩
        · rintro ⟨h1, h2⟩
          cases l with
          | nil => simp at h2
          | cons a l =>
            simp only [List.zip_cons_cons, List.map_cons, List.forall₂_cons] at h1
            obtain ⟨⟨σ, hσ, he⟩, h1⟩ := h1
            simp only [Prod.mk.injEq, and_true] at he
            have hr : idx r.crossSection g = .ok σ := idx_ok.2 hσ
            by_cases haσ : a = σ
            · subst haσ; exact ⟨a, hr, l, (ih l).2 ⟨h1, by simpa using h2⟩, rfl⟩
            · exfalso
              apply haσ
              have : iso.atomFraction * ρ ≠ 0 := mul_ne_zero hf hρ
              exact mul_left_cancel₀ this he
    constructor
    · intro h
      cases hl : rs.mapM (fun r => idx r.crossSection g) with
      | error e => rw [hl] at h; simp at h
      | ok l =>
        rw [hl] at h
        simp only [pure, Except.pure, Except.ok.injEq, mul_eq, flt_sum_real] at h
        obtain ⟨h1, h2⟩ := (key l).1 hl
        refine ⟨_, ⟨rs, idx_ok.1 hrs, h1⟩, ?_⟩
        rw [← h, totalWeight, List.map_map]
        have : (Prod.fst ∘ fun p : ℝ × Reaction ℝ => (iso.atomFraction * ρ * p.1, p.2)) =
            (fun x => iso.atomFraction * ρ * x) ∘ Prod.fst := rfl
        rw [this, ← List.map_map, List.map_fst_zip h2.le, List.sum_map_mul_left]
        simp
    · rintro ⟨ts, ⟨rs', h, hall⟩, rfl⟩
      have : rs' = rs := by rw [idx_ok.2 h] at hrs; exact Except.ok.inj hrs
      subst this
      have hl : ∀ (rs : List (Reaction ℝ)) (ts : List (ℝ × Reaction ℝ)),
          List.Forall₂ (fun r t => ∃ σ, r.crossSection[g]? = some σ ∧
            t = (iso.atomFraction * ρ * σ, r)) rs ts →
          ∃ l, rs.mapM (fun r => idx r.crossSection g) = .ok l ∧
            iso.atomFraction * ρ * l.sum = totalWeight ts := by
        intro rs ts hall
        induction hall with
        | nil => exact ⟨[], rfl, by simp [totalWeight]⟩
        | @cons r t rs ts hrt _ ih =>
          obtain ⟨σ, hσ, rfl⟩ := hrt
          obtain ⟨l, hl, hs⟩ := ih
          refine ⟨σ :: l, ?_, ?_⟩
          · rw [List.mapM_cons, idx_ok.2 hσ, hl]; rfl
          · rw [List.sum_cons, mul_add, hs]; simp [totalWeight]
      obtain ⟨l, hl, hs⟩ := hl _ _ hall
      rw [hl]
      simp only [pure, Except.pure, Except.ok.injEq, mul_eq, flt_sum_real]
      exact hs

/-- **C29, sum.** The macroscopic cross-section of a material is the sum over its isotopes and their
reactions of fraction × density × cross-section, and is defined exactly when all table entries exist. -/
theorem C29_sum {data : Data ℝ} {m : ℕ} {mat : Material ℝ} (hm : data.materials[m]? = some mat) {ρ : ℝ}
    (hp : Present ρ mat) (g : ℕ) (x : ℝ) :
    weightedMacroXs data m ρ g = .ok x ↔ ∃ ts, MaterialTerms data ρ g mat ts ∧ x = totalWeight ts := by
  unfold weightedMacroXs
  rw [idx_ok.2 hm]
  simp only [bind_ok, pure_ok, flt_sum_real]
  have fwd : ∀ (n : ℕ) (isos : List (Isotope ℝ)) (l : List ℝ),
      (∀ j iso, isos[j]? = some iso → mat.iso[n + j]? = some iso) →
      ((List.range' n isos.length).mapM (fun i => macroscopicTotalXs data mat i ρ g) = .ok l ↔
        ∃ tss, List.Forall₂ (IsotopeTerms data ρ g) isos tss ∧ l = tss.map totalWeight) := by
    intro n isos
    induction isos generalizing n with
    | nil => intro l _; simp [pure, Except.pure, eq_comm]
    | cons iso isos ih =>
      intro l hj
      have h0 : mat.iso[n]? = some iso := by simpa using hj 0 iso rfl
      have hf := hp.2 iso (List.mem_of_getElem? h0)
      have ih' := fun l => ih (n + 1) l (fun j i hi => by
        have := hj (j + 1) i (by simpa using hi)
        rw [show n + 1 + j = n + (j + 1) by omega]; exact this)
      simp only [List.length_cons, List.range'_succ, List.mapM_cons, bind_ok, pure_ok, ih',
        macroscopicTotalXs_terms h0 hp.1 hf]
      constructor
      · rintro ⟨x, ⟨ts, hts, rfl⟩, _, ⟨tss, htss, rfl⟩, rfl⟩
        exact ⟨ts :: tss, List.Forall₂.cons hts htss, rfl⟩
      · rintro ⟨tss, htss, rfl⟩
        cases htss with
        | cons hts htss => exact ⟨_, ⟨_, hts, rfl⟩, _, ⟨_, htss, rfl⟩, rfl⟩
  have key := fun l => fwd 0 mat.iso l (fun j iso h => by simpa using h)
  simp only [← List.range_eq_range'] at key
  constructor
  · rintro ⟨mat', hmat, l, hl, rfl⟩
    obtain rfl := Except.ok.inj hmat
    obtain ⟨tss, htss, rfl⟩ := (key l).1 hl
    refine ⟨_, ⟨tss, htss, rfl⟩, ?_⟩
    rw [totalWeight, List.map_flatten, List.sum_flatten, List.map_map]
    rfl
  · rintro ⟨_, ⟨tss, htss, rfl⟩, rfl⟩
    refine ⟨mat, rfl, _, (key _).2 ⟨tss, htss, rfl⟩, ?_⟩
    rw [totalWeight, List.map_flatten, List.sum_flatten, List.map_map]
    rfl

/-- **C29, same total as the search.** The cross-section of a cell is the length of the union of the
intervals the reaction search uses in that cell and group. -/
theorem C29_same_total {data : Data ℝ} {dom : Domain ℝ} {cell g : ℕ} {cs : CellState ℝ} {mat : Material ℝ}
    (hc : dom.cells[cell]? = some cs) (hm : data.materials[cs.material]? = some mat)
    (hp : Present cs.cellNumberDensity mat) {x : ℝ} (h : directXs data dom cell g = .ok x) :
    ∃ ts, MaterialTerms data cs.cellNumberDensity g mat ts ∧ x = cumWeight ts ts.length := by
  unfold directXs at h
  rw [idx_ok.2 hc] at h
  obtain ⟨ts, h1, h2⟩ := (C29_sum hm hp g x).1 h
  exact ⟨ts, h1, by rw [cumWeight_length]; exact h2⟩

/-- **C29, sign.** With no negative weight the total is non-negative; with one positive it is positive. -/
theorem C29_positive {ts : List (ℝ × Reaction ℝ)} (hw : ∀ t ∈ ts, 0 ≤ t.1) :
    0 ≤ totalWeight ts ∧ ((∃ t ∈ ts, 0 < t.1) → 0 < totalWeight ts) := by
  constructor
  · rw [← cumWeight_length]; exact cumWeight_nonneg hw _
  · rintro ⟨t, ht, hpos⟩
    refine lt_of_lt_of_le hpos (List.single_le_sum ?_ _ (List.mem_map_of_mem ht))
    intro x hx
    obtain ⟨t', ht', rfl⟩ := List.mem_map.1 hx
    exact hw t' ht'

/-- **C29, absent material.** With zero density each isotope counts for `1e-20`, whatever its tables. -/
theorem C29_zero_density {data : Data ℝ} {m : ℕ} {mat : Material ℝ} (hm : data.materials[m]? = some mat)
    (g : ℕ) : weightedMacroXs data m 0 g = .ok (mat.iso.length * (10 : ℝ) ^ (-20 : ℤ)) := by
  unfold weightedMacroXs
  rw [idx_ok.2 hm]
  simp only [bind, Except.bind]
  have h := mapM_ok_of_forall (ε := Panic) (l := List.range mat.iso.length)
    (f := fun i => macroscopicTotalXs data mat i 0 g) (g := fun _ => (10 : ℝ) ^ (-20 : ℤ)) (by
      intro i hi
      unfold macroscopicTotalXs
      rw [idx_ok.2 (List.getElem?_eq_getElem (List.mem_range.1 hi))]
      simp [bind, Except.bind, pure, Except.pure])
  rw [h]
  simp [pure, Except.pure, flt_sum_real]

/-! ## C30 -/

/-- Specification: `g` is the first group whose upper level reaches 1 MeV. -/
def FirstReaching (energies : List ℝ) (g : ℕ) : Prop :=
  (∃ e, energies[g + 1]? = some e ∧ 1 ≤ e) ∧
    ∀ h < g, ∀ e, energies[h + 1]? = some e → e < 1

/-- Specification: the polynomial of degree four, `aa` being the leading coefficient. -/
noncomputable def quartic (p : Polynomial5 ℝ) (x : ℝ) : ℝ :=
  p.aa * x ^ 4 + p.bb * x ^ 3 + p.cc * x ^ 2 + p.dd * x + p.ee

/-- Specification: unscaled value of the table in the group between two levels: ten to the power of the
polynomial, taken at the decimal logarithm of the middle energy. -/
noncomputable def rawValue (p : Polynomial5 ℝ) (lo hi : ℝ) : ℝ :=
  (10 : ℝ) ^ quartic p (Real.logb 10 ((lo + hi) / 2))

theorem val_quartic (p : Polynomial5 ℝ) (x : ℝ) : p.val x = quartic p x := by
  simp only [Polynomial5.val, quartic, add_eq, mul_eq]
  ring

theorem rawValue_pos (p : Polynomial5 ℝ) (lo hi : ℝ) : 0 < rawValue p lo hi := by
  unfold rawValue; positivity

theorem raw_getElem (p : Polynomial5 ℝ) (energies : List ℝ) (n : ℝ) (g : ℕ) (lo hi : ℝ)
    (h0 : energies[g]? = some lo) (h1 : energies[g + 1]? = some hi) :
    (realRaw p energies n).1[g]? = some (rawValue p lo hi) := by
  induction energies generalizing g n with
  | nil => simp at h0
  | cons e0 l ih =>
    cases l with
    | nil => simp at h1
    | cons e1 rest =>
      unfold realRaw
      cases g with
      | zero =>
        simp only [List.getElem?_cons_zero, Option.some.injEq, zero_add, List.getElem?_cons_succ] at h0 h1 ⊢
        subst h0 h1
        simp [rawValue, val_quartic]
      | succ g =>
        simp only [List.getElem?_cons_succ]
        exact ih _ g (by simpa using h0) (by simpa using h1)

/-- Once set, the normal value stays. -/
theorem raw_normal_keep (p : Polynomial5 ℝ) (energies : List ℝ) {n : ℝ} (hn : n ≠ 0) :
    (realRaw p energies n).2 = n := by
  induction energies with
  | nil => rfl
  | cons e0 l ih =>
    cases l with
    | nil => rfl
    | cons e1 rest =>
      unfold realRaw
      simp only [beq_eq, zero_eq, hn, decide_false, Bool.and_false, Bool.false_eq_true, if_false]
      exact ih

theorem raw_normal (p : Polynomial5 ℝ) (energies : List ℝ) (g : ℕ) (lo hi : ℝ)
    (h0 : energies[g]? = some lo) (h1 : energies[g + 1]? = some hi) (hg : FirstReaching energies g) :
    (realRaw p energies 0).2 = rawValue p lo hi := by
  induction energies generalizing g with
  | nil => simp at h0
  | cons e0 l ih =>
    cases l with
    | nil => simp at h1
    | cons e1 rest =>
      obtain ⟨⟨e, he, hge⟩, hlt⟩ := hg
      unfold realRaw
      cases g with
      | zero =>
        simp only [List.getElem?_cons_zero, Option.some.injEq, zero_add, List.getElem?_cons_succ] at h0 h1 he
        subst h0 h1
        subst he
        simp only [le_eq, one_eq, hge, decide_true, beq_eq, zero_eq, Bool.and_self, if_true]
        rw [raw_normal_keep]
        · simp [rawValue, val_quartic]
        · have := rawValue_pos p e0 e1
          simp only [rawValue] at this
          simpa [val_quartic] using this.ne'
      | succ g =>
        have h10 : e1 < 1 := hlt 0 (by omega) e1 rfl
        simp only [le_eq, one_eq, not_le.2 h10, decide_false, Bool.false_and, Bool.false_eq_true, if_false]
        refine ih g (by simpa using h0) (by simpa using h1) ⟨⟨e, by simpa using he, hge⟩, ?_⟩
        intro h hh e' he'
        exact hlt (h + 1) (by omega) e' (by simpa using he')

/-- **C30, one reaction.** In the first group whose upper level reaches 1 MeV the table holds exactly the
requested value; in any other group it holds that value times the ratio of the polynomial's values. -/
theorem C30_reaction (rtype : ReactionType) (nuBar : ℝ) (energies : List ℝ) (p : Polynomial5 ℝ) (req : ℝ)
    {g : ℕ} (hg : FirstReaching energies g) {lo hi : ℝ} (h0 : energies[g]? = some lo)
    (h1 : energies[g + 1]? = some hi) :
    (Reaction.new rtype nuBar energies p req).crossSection[g]? = some req ∧
    ∀ h lo' hi', energies[h]? = some lo' → energies[h + 1]? = some hi' →
      (Reaction.new rtype nuBar energies p req).crossSection[h]? =
        some (req * (rawValue p lo' hi' / rawValue p lo hi)) := by
  have hall : ∀ h lo' hi', energies[h]? = some lo' → energies[h + 1]? = some hi' →
      (Reaction.new rtype nuBar energies p req).crossSection[h]? =
        some (req * (rawValue p lo' hi' / rawValue p lo hi)) := by
    intro h lo' hi' ha hb
    rw [Reaction.new_real]
    simp only [zero_eq, List.getElem?_map, raw_getElem p energies 0 h lo' hi' ha hb, Option.map_some,
      raw_normal p energies g lo hi h0 h1 hg, mul_eq, div_eq, Option.some.injEq]
    ring
  refine ⟨?_, hall⟩
  rw [hall g lo hi h0 h1, div_self (rawValue_pos p lo hi).ne', mul_one]

/-- Sum of a sequence of period 3. -/
theorem sum_period3 (a b c : ℝ) (q : ℕ) :
    ((List.range (3 * q)).map fun ii => match ii % 3 with | 0 => a | 1 => b | _ => c).sum = q * (a + b + c) := by
  induction q with
  | zero => simp
  | succ q ih =>
    rw [show 3 * (q + 1) = 3 * q + 1 + 1 + 1 by ring, List.range_succ, List.range_succ, List.range_succ]
    simp only [List.map_append, List.sum_append, ih, List.map_cons, List.map_nil, List.sum_cons, List.sum_nil]
    have e0 : (3 * q) % 3 = 0 := by omega
    have e1 : (3 * q + 1) % 3 = 1 := by omega
    have e2 : (3 * q + 1 + 1) % 3 = 2 := by omega
    rw [e0, e1, e2]
    push_cast
    ring

theorem isotope_sum (energies : List ℝ) (sp : IsotopeSpec ℝ) (nuBar : ℝ) {g : ℕ}
    (hg : FirstReaching energies g) {lo hi : ℝ} (h0 : energies[g]? = some lo)
    (h1 : energies[g + 1]? = some hi) :
    ∃ l, groupCrossSections (isotopeReactions energies sp nuBar) g = .ok l ∧
      l = (List.range sp.nReactions).map fun ii => match ii % 3 with
        | 0 => sp.totalCrossSection * sp.scatteringRatio / (((reactionCounts sp.nReactions).2.1 : ℝ) *
            (sp.fissionRatio + sp.scatteringRatio + sp.absorptionRatio))
        | 1 => sp.totalCrossSection * sp.fissionRatio / (((reactionCounts sp.nReactions).1 : ℝ) *
            (sp.fissionRatio + sp.scatteringRatio + sp.absorptionRatio))
        | _ => sp.totalCrossSection * sp.absorptionRatio / (((reactionCounts sp.nReactions).2.2 : ℝ) *
            (sp.fissionRatio + sp.scatteringRatio + sp.absorptionRatio)) := by
  refine ⟨_, ?_, rfl⟩
  unfold groupCrossSections isotopeReactions
  rw [List.mapM_map]
  apply mapM_ok_of_forall
  intro i _
  simp only [Function.comp_apply, add_eq, mul_eq, div_eq, ofNat_eq]
  have h3 := Nat.mod_lt i (show 3 > 0 by norm_num)
  generalize i % 3 = r at h3
  interval_cases r <;> exact idx_ok.2 (C30_reaction _ _ _ _ _ hg h0 h1).1

/-- **C30, isotope.** With at least three reactions (and a non-zero sum of ratios), the cross-section of the
new isotope in the first group whose upper level reaches 1 MeV is the requested total. -/
theorem C30_isotope (nd : NuclearData ℝ) (sp : IsotopeSpec ℝ) (nuBar : ℝ) {g : ℕ}
    (hg : FirstReaching nd.energies g) (hn : 3 ≤ sp.nReactions)
    (hw : sp.fissionRatio + sp.scatteringRatio + sp.absorptionRatio ≠ 0) :
    (nd.addIsotope sp nuBar).1.getTotalCrossSection (nd.addIsotope sp nuBar).2 g =
      .ok sp.totalCrossSection := by
  obtain ⟨⟨hi, h1, hge⟩, hlt⟩ := hg
  have hg : FirstReaching nd.energies g := ⟨⟨hi, h1, hge⟩, hlt⟩
  obtain ⟨hlen, -⟩ := List.getElem?_eq_some_iff.1 h1
  obtain ⟨l, hl, he⟩ := isotope_sum nd.energies sp nuBar hg
    (List.getElem?_eq_getElem (show g < nd.energies.length by omega)) h1
  unfold NuclearData.getTotalCrossSection NuclearData.addIsotope
  simp only [List.length_append, List.length_cons, List.length_nil, zero_add, Nat.add_sub_cancel]
  have hget : idx (nd.isotopes ++ [isotopeReactions nd.energies sp nuBar]) nd.isotopes.length =
      .ok (isotopeReactions nd.energies sp nuBar) := idx_ok.2 (by simp)
  rw [hget]
  simp only [bind, Except.bind, hl, pure, Except.pure, flt_sum_real, Except.ok.injEq]
  rw [he]
  obtain ⟨q, r, hr, hq⟩ : ∃ q r, r < 3 ∧ sp.nReactions = 3 * q + r :=
    ⟨sp.nReactions / 3, sp.nReactions % 3, Nat.mod_lt _ (by norm_num), by omega⟩
  have hqpos : 1 ≤ q := by omega
  have hq0 : (q : ℝ) ≠ 0 := by exact_mod_cast (by omega : q ≠ 0)
  have hq1 : (q : ℝ) + 1 ≠ 0 := by positivity
  rw [hq]
  have hc : reactionCounts (3 * q + r) =
      (if r = 2 then q + 1 else q, if r = 0 then q else q + 1, q) := by
    unfold reactionCounts
    have hm : (3 * q + r) % 3 = r := by omega
    have hd : (3 * q + r) / 3 = q := by omega
    rw [hm, hd]
    interval_cases r <;> simp
  rw [hc]
  have e0 : (3 * q) % 3 = 0 := by omega
  have e1 : (3 * q + 1) % 3 = 1 := by omega
  interval_cases r
  · simp only [add_zero, sum_period3]
    norm_num
    field_simp
    ring
  · rw [List.range_succ, List.map_append, List.sum_append, sum_period3]
    simp only [List.map_cons, List.map_nil, List.sum_cons, List.sum_nil, e0]
    norm_num
    field_simp
    ring
  · rw [List.range_succ, List.range_succ, List.map_append, List.sum_append, List.map_append,
      List.sum_append, sum_period3]
    simp only [List.map_cons, List.map_nil, List.sum_cons, List.sum_nil, e0, e1]
    norm_num
    field_simp
    ring

/-- **C30 needs three reactions.** With one reaction, only the scattering share is present; with two, the
scattering and fission shares. -/
theorem C30_few_reactions (nd : NuclearData ℝ) (sp : IsotopeSpec ℝ) (nuBar : ℝ) {g : ℕ}
    (hg : FirstReaching nd.energies g) :
    (sp.nReactions = 1 →
      (nd.addIsotope sp nuBar).1.getTotalCrossSection (nd.addIsotope sp nuBar).2 g =
        .ok (sp.totalCrossSection * sp.scatteringRatio /
          (sp.fissionRatio + sp.scatteringRatio + sp.absorptionRatio))) ∧
    (sp.nReactions = 2 →
      (nd.addIsotope sp nuBar).1.getTotalCrossSection (nd.addIsotope sp nuBar).2 g =
        .ok (sp.totalCrossSection * (sp.scatteringRatio + sp.fissionRatio) /
          (sp.fissionRatio + sp.scatteringRatio + sp.absorptionRatio))) := by
  obtain ⟨⟨hi, h1, hge⟩, hlt⟩ := hg
  have hg : FirstReaching nd.energies g := ⟨⟨hi, h1, hge⟩, hlt⟩
  obtain ⟨hlen, -⟩ := List.getElem?_eq_some_iff.1 h1
  obtain ⟨l, hl, he⟩ := isotope_sum nd.energies sp nuBar hg
    (List.getElem?_eq_getElem (show g < nd.energies.length by omega)) h1
  unfold NuclearData.getTotalCrossSection NuclearData.addIsotope
  simp only [List.length_append, List.length_cons, List.length_nil, zero_add, Nat.add_sub_cancel]
  have hget : idx (nd.isotopes ++ [isotopeReactions nd.energies sp nuBar]) nd.isotopes.length =
      .ok (isotopeReactions nd.energies sp nuBar) := idx_ok.2 (by simp)
  rw [hget]
  simp only [bind, Except.bind, hl, pure, Except.pure, flt_sum_real, Except.ok.injEq]
  rw [he]
  constructor
  · intro hn
    rw [hn]
    simp [List.range_succ, reactionCounts]
  · intro hn
    rw [hn]
    simp [List.range_succ, reactionCounts]
    ring

/-- **C30, levels below 1 MeV.** If no level reaches 1 MeV the value the tables are divided by is zero:
in floats every entry is infinite or not a number. -/
theorem C30_zero_divisor (p : Polynomial5 ℝ) (energies : List ℝ) (h : ∀ e ∈ energies.tail, e < 1) :
    (realRaw p energies Flt.zero).2 = 0 := by
  rw [zero_eq]
  induction energies with
  | nil => rfl
  | cons e0 l ih =>
    cases l with
    | nil => rfl
    | cons e1 rest =>
      unfold realRaw
      have h1 : e1 < 1 := h e1 (by simp)
      simp only [le_eq, one_eq, not_le.2 h1, decide_false, Bool.false_and, Bool.false_eq_true, if_false]
      exact ih (fun e he => h e (by simp at he ⊢; exact Or.inr he))

/-! ## Concrete cases -/

namespace CrossSectionsExample

/-- A scattering reaction of weight 1 and a fission reaction of weight 3, in one group. -/
def scat : Reaction ℝ := { crossSection := [1], rtype := .scatter, nuBar := 1 }
def fiss : Reaction ℝ := { crossSection := [3], rtype := .fission, nuBar := 2 }
/-- Two isotopes in equal parts, both with these two reactions. -/
def mat : Material ℝ := { name := "fuel", mass := 235, iso := [⟨0, 1⟩, ⟨1, 2⟩] }
def data : Data ℝ where
  nuclear := { numEnergyGroups := 1, isotopes := [[scat, fiss], [fiss]], energies := [0, 20] }
  materials := [mat]
  dt := 1
  eMin := 1
  eMax := 20
  nParticles := 100
  nSteps := 10
  lowWeightCutoff := 0
  loadBalance := false
  nUnits := 1
  sourceRates := [("fuel", 1)]

/-- The weights: 1, 3 (first isotope) and 6 (second isotope, fraction 2). -/
theorem terms : MaterialTerms data 1 0 mat [(1, scat), (3, fiss), (6, fiss)] := by
  refine ⟨[[(1, scat), (3, fiss)], [(6, fiss)]], ?_, rfl⟩
  refine .cons ⟨_, rfl, .cons ⟨1, rfl, ?_⟩ (.cons ⟨3, rfl, ?_⟩ .nil)⟩
    (.cons ⟨_, rfl, .cons ⟨3, rfl, ?_⟩ .nil⟩ .nil) <;> norm_num

theorem present : Present 1 mat := by
  refine ⟨one_ne_zero, ?_⟩
  simp [mat]

/-- A value of 5 out of 10 falls in the third interval, [4, 10). -/
example : pickReaction data mat 1 0 2 5 none = .ok (some fiss) :=
  C28_choice present terms (by simp) (k := 2) (by simp) (by simp [cumWeight]; norm_num)
    (by simp [cumWeight]; norm_num) 0

/-- The macroscopic cross-section is 10. -/
example : weightedMacroXs data 0 1 0 = .ok 10 :=
  (C29_sum (m := 0) rfl present 0 10).2 ⟨_, terms, by simp [totalWeight]; norm_num⟩

/-- A table of levels whose second group reaches 1 MeV, and an isotope with five reactions. -/
example : FirstReaching [(0.001 : ℝ), 0.1, 2, 20] 1 := by
  refine ⟨⟨2, rfl, by norm_num⟩, ?_⟩
  intro h hh e he
  obtain rfl : h = 0 := by omega
  simp only [zero_add, List.getElem?_cons_succ, List.getElem?_cons_zero, Option.some.injEq] at he
  rw [← he]; norm_num

end CrossSectionsExample
