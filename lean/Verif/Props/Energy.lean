import Verif.Lemmas.Events
import Verif.Lemmas.Groups
import Verif.Props.Rng
import Verif.Lemmas.Uniform
import Mathlib.Tactic.Positivity
/-!
# C26, C27: energy groups and the range of energies

Over the reals.
-/
set_option linter.unusedSectionVars false
attribute [local irreducible] Rng.lcg Rng.sample Rng.spawn
open FltReal

/-! ## C26 -/

/-- Specification of the energy group of an energy in a table of levels `l 0 < l 1 < … < l n`. -/
def IsGroupOf (l : List ℝ) (e : ℝ) (g : Nat) : Prop :=
  ∃ first last, l[0]? = some first ∧ l[l.length - 1]? = some last ∧
    ((e ≤ first ∧ g = 0) ∨
     (last < e ∧ g = l.length - 1) ∨
     (first < e ∧ e ≤ last ∧ ∃ a b, l[g]? = some a ∧ l[g + 1]? = some b ∧ a ≤ e ∧
        (e < b ∨ (e = b ∧ g + 1 = l.length - 1))))

theorem bisect_spec {l : List ℝ} {e last : ℝ} (hlast : l[l.length - 1]? = some last) (he : e ≤ last)
    (fuel low high : Nat) (hf : high - low ≤ fuel) (hlh : low < high) (hh : high < l.length)
    (hlo : ∃ a, l[low]? = some a ∧ a ≤ e)
    (hhi : high = l.length - 1 ∨ ∃ b, l[high]? = some b ∧ e < b) :
    ∃ g, bisect l e fuel low high = .ok g ∧ ∃ a b, l[g]? = some a ∧ l[g + 1]? = some b ∧ a ≤ e ∧
        (e < b ∨ (e = b ∧ g + 1 = l.length - 1)) := by
  induction fuel generalizing low high with
  | zero => omega
  | succ n ih =>
    unfold bisect
    by_cases h : high = low + 1
    · rw [if_pos h]
      obtain ⟨a, ha, hae⟩ := hlo
      rcases hhi with rfl | ⟨b, hb, heb⟩
      · refine ⟨low, rfl, a, last, ha, by rw [← h]; exact hlast, hae, ?_⟩
        rcases lt_or_eq_of_le he with h1 | h1
        · exact .inl h1
        · exact .inr ⟨h1, by omega⟩
      · exact ⟨low, rfl, a, b, ha, by rw [← h]; exact hb, hae, .inl heb⟩
    · rw [if_neg h]
      have hm : (high + low) / 2 < l.length := by omega
      have hget := List.getElem?_eq_getElem hm
      have hidx : idx l ((high + low) / 2) = .ok l[(high + low) / 2] := idx_ok.2 hget
      dsimp only
      rw [hidx]
      simp only [lt_eq, decide_eq_true_eq]
      change ∃ g, (if e < _ then _ else _) = _ ∧ _
      by_cases hc : e < l[(high + low) / 2]
      · rw [if_pos hc]
        exact ih low _ (by omega) (by omega) hm hlo (.inr ⟨_, hget, hc⟩)
      · rw [if_neg hc]
        exact ih _ high (by omega) (by omega) hh ⟨_, hget, not_lt.1 hc⟩ hhi

/-- **C26**: with at least one level the look-up always answers, and its answer is the group of the
energy: half-open intervals, 0 at or below the lowest level, the extra index `length - 1` (the number
of groups) above the highest. -/
theorem C26_lookup {l : List ℝ} (hl : l ≠ []) (e : ℝ) :
    ∃ g, getEnergyGroups l e = .ok g ∧ IsGroupOf l e g := by
  have hpos : 0 < l.length := List.length_pos_iff.2 hl
  have h0 := List.getElem?_eq_getElem hpos
  have h1 := List.getElem?_eq_getElem (show l.length - 1 < l.length by omega)
  have i0 := idx_ok.2 h0
  have i1 := idx_ok.2 h1
  unfold getEnergyGroups
  dsimp only
  rw [i0, i1]
  simp only [le_eq, lt_eq, decide_eq_true_eq]
  change ∃ g, (if e ≤ l[0] then Except.ok 0 else
    (if l[l.length - 1] < e then Except.ok (l.length - 1) else _)) = _ ∧ _
  by_cases ha : e ≤ l[0]
  · rw [if_pos ha]
    exact ⟨0, rfl, _, _, h0, h1, .inl ⟨ha, rfl⟩⟩
  · rw [if_neg ha]
    by_cases hb : l[l.length - 1] < e
    · rw [if_pos hb]
      exact ⟨_, rfl, _, _, h0, h1, .inr (.inl ⟨hb, rfl⟩)⟩
    · rw [if_neg hb]
      have ha := not_le.1 ha
      have hb := not_lt.1 hb
      have h2 : 0 < l.length - 1 := by
        rcases Nat.eq_zero_or_pos (l.length - 1) with h | h
        · have : l[l.length - 1] = l[0] := by congr 1
          rw [this] at hb; exact absurd ha (not_lt.2 hb)
        · exact h
      obtain ⟨g, hg, hspec⟩ := bisect_spec h1 hb l.length 0 (l.length - 1) (by omega) h2 (by omega)
        ⟨_, h0, ha.le⟩ (.inl rfl)
      exact ⟨g, hg, _, _, h0, h1, .inr (.inr ⟨ha, hb, hspec⟩)⟩

/-- Without any level the look-up stops the program. -/
theorem C26_no_level (e : ℝ) : getEnergyGroups ([] : List ℝ) e = .error .indexOutOfBounds := rfl

/-- **C26**: when the levels increase the group is unique, so the look-up is determined by the
specification. -/
theorem C26_unique {l : List ℝ} (hs : l.Pairwise (· < ·)) {e : ℝ} {g g' : Nat}
    (h : IsGroupOf l e g) (h' : IsGroupOf l e g') : g = g' := by
  have mono : ∀ {i j : Nat} {a b : ℝ}, l[i]? = some a → l[j]? = some b → i < j → a < b := by
    intro i j a b hi hj hij
    obtain ⟨h1, rfl⟩ := List.getElem?_eq_some_iff.1 hi
    obtain ⟨h2, rfl⟩ := List.getElem?_eq_some_iff.1 hj
    exact List.pairwise_iff_getElem.1 hs i j h1 h2 hij
  have mono' : ∀ {i j : Nat} {a b : ℝ}, l[i]? = some a → l[j]? = some b → i ≤ j → a ≤ b := by
    intro i j a b hi hj hij
    rcases Nat.lt_or_eq_of_le hij with h | h
    · exact (mono hi hj h).le
    · subst h; rw [hi] at hj; exact (Option.some.inj hj).le
  obtain ⟨f, t, hf, ht, h⟩ := h
  obtain ⟨f', t', hf', ht', h'⟩ := h'
  rw [hf] at hf'; cases hf'
  rw [ht] at ht'; cases ht'
  have hft : f ≤ t := mono' hf ht (Nat.zero_le _)
  rcases h with ⟨h1, h2⟩ | ⟨h1, h2⟩ | ⟨h1, h2, a, b, ha, hb, hae, heb⟩ <;>
  rcases h' with ⟨k1, k2⟩ | ⟨k1, k2⟩ | ⟨k1, k2, c, d, hc, hd, hce, hed⟩
  · omega
  · linarith
  · linarith
  · linarith
  · omega
  · linarith
  · linarith
  · linarith
  · rcases Nat.lt_trichotomy g g' with hlt | heq | hgt
    · exfalso
      have hbc : b ≤ c := mono' hb hc hlt
      have hcd : c < d := mono hc hd (Nat.lt_succ_self _)
      rcases heb with heb | ⟨rfl, hlast⟩
      · linarith
      · have := (List.getElem?_eq_some_iff.1 hd).1
        omega
    · exact heq
    · exfalso
      have hda : d ≤ a := mono' hd ha hgt
      have hab : a < b := mono ha hb (Nat.lt_succ_self _)
      rcases hed with hed | ⟨rfl, hlast⟩
      · linarith
      · have := (List.getElem?_eq_some_iff.1 hb).1
        omega

/-- Non-vacuity: three levels, an energy in the second group. -/
example : ([1, 2, 4] : List ℝ).Pairwise (· < ·) ∧ IsGroupOf [1, 2, 4] 2 1 := by
  refine ⟨by norm_num [List.pairwise_cons], 1, 4, rfl, rfl, .inr (.inr ⟨by norm_num, by norm_num, 2, 4,
    rfl, rfl, le_refl _, .inl (by norm_num)⟩)⟩

/-- **C26** for the program's own table: with positive increasing bounds and at least one group the
levels increase strictly from `eLow` to `eHigh`. -/
theorem C26_levels {n : Nat} (hn : 0 < n) {lo hi : ℝ} (h0 : 0 < lo) (h1 : lo < hi) :
    (energyLevels n lo hi).length = n + 1 ∧ (energyLevels n lo hi)[0]? = some lo ∧
    (energyLevels n lo hi)[n]? = some hi ∧ (energyLevels n lo hi).Pairwise (· < ·) := by
  have hlog : Real.log lo < Real.log hi := Real.log_lt_log h0 h1
  have hd : 0 < (Real.log hi - Real.log lo) / ((n + 1 : ℕ) : ℝ) := by
    apply div_pos (by linarith); positivity
  have hget : ∀ i, i < n + 1 → (energyLevels n lo hi)[i]? = some
      (if i = n then hi else Real.exp (Real.log lo +
        (Real.log hi - Real.log lo) / ((n + 1 : ℕ) : ℝ) * (i : ℝ))) := by
    intro i hi'
    simp only [energyLevels, List.getElem?_map, List.getElem?_range hi', Option.map_some, ofNat_eq,
      ln_eq, sub_eq, div_eq, exp_eq, add_eq, mul_eq]
    congr 1
    by_cases e : i = n
    · simp [e]
    · rw [if_neg e, if_neg e]
      by_cases e0 : i = 0
      · rw [if_pos e0]; subst e0; simp [Real.exp_log h0]
      · rw [if_neg e0]
  have hlen : (energyLevels n lo hi).length = n + 1 := by simp [energyLevels]
  refine ⟨hlen, ?_, ?_, ?_⟩
  · rw [hget 0 (by omega), if_neg (by omega)]; simp [Real.exp_log h0]
  · rw [hget n (by omega), if_pos rfl]
  · rw [List.pairwise_iff_getElem]
    intro i j hi' hj hij
    rw [hlen] at hi' hj
    have e1 := hget i hi'
    have e2 := hget j hj
    rw [List.getElem?_eq_getElem (by omega)] at e1 e2
    rw [Option.some.inj e1, Option.some.inj e2, if_neg (by omega)]
    by_cases ej : j = n
    · rw [if_pos ej]
      have hhi : hi = Real.exp (Real.log hi) := (Real.exp_log (h0.trans h1)).symm
      rw [hhi, Real.log_exp]
      apply Real.exp_lt_exp.2
      have hc : (i : ℝ) < ((n + 1 : ℕ) : ℝ) := by exact_mod_cast hi'
      have hp : (0 : ℝ) < ((n + 1 : ℕ) : ℝ) := by positivity
      have : (Real.log hi - Real.log lo) / ((n + 1 : ℕ) : ℝ) * (i : ℝ) < Real.log hi - Real.log lo := by
        rw [div_mul_eq_mul_div, div_lt_iff₀ hp]
        exact mul_lt_mul_of_pos_left hc (by linarith)
      linarith
    · rw [if_neg ej]
      apply Real.exp_lt_exp.2
      have hc : (i : ℝ) < (j : ℝ) := by exact_mod_cast hij
      have := mul_lt_mul_of_pos_left hc hd
      linarith

/-! ## C27 -/

/-- Hypotheses of C27: a validated table of levels that ends at `eMax ≥ 20`, masses at least 1. -/
structure EnergyHyps (data : Data ℝ) (dom : Domain ℝ) : Prop where
  eMin_nonneg : 0 ≤ data.eMin
  eMin_le : data.eMin ≤ data.eMax
  eMax_ge : 20 ≤ data.eMax
  mass : ∀ m ∈ data.materials, 1 ≤ m.mass
  groups : 0 < dom.numGroups
  levels : data.nuclear.energies.length = dom.numGroups + 1
  last : data.nuclear.energies[dom.numGroups]? = some data.eMax

theorem sample01 (s : BitVec 64) : 0 ≤ (Rng.sample (T := ℝ) s).1 ∧ (Rng.sample (T := ℝ) s).1 ≤ 1 :=
  ⟨(C01_sample_range s).1, (C01_sample_range s).2.1⟩

/-- An energy at most `eMax` has a group below the number of groups. -/
theorem group_lt {data : Data ℝ} {dom : Domain ℝ} (h : EnergyHyps data dom) {e : ℝ} {g : Nat}
    (he : e ≤ data.eMax) (hg : getEnergyGroups data.nuclear.energies e = .ok g) : g < dom.numGroups := by
  have hne : data.nuclear.energies ≠ [] := by
    intro hn; have := h.levels; rw [hn] at this; simp at this
  obtain ⟨g', hg', first, last, _, hl, hs⟩ := C26_lookup hne e
  rw [hg] at hg'; cases hg'
  rw [h.levels, Nat.add_sub_cancel, h.last] at hl
  cases hl
  have hpos := h.groups
  rcases hs with ⟨_, rfl⟩ | ⟨h1, _⟩ | ⟨_, _, a, b, _, hb, _⟩
  · exact hpos
  · exact absurd he (not_le.2 h1)
  · have := (List.getElem?_eq_some_iff.1 hb).1
    rw [h.levels] at this
    omega

theorem updateTrajectory_energy (p : Particle ℝ) (e a : ℝ) :
    (p.updateTrajectory e a).kineticEnergy = e ∧
    (p.updateTrajectory e a).energyGroup = p.energyGroup := by
  unfold Particle.updateTrajectory
  generalize Rng.sample (T := ℝ) p.seed = r
  obtain ⟨u, s⟩ := r
  dsimp only
  unfold Particle.sampleNumMfp
  generalize Rng.sample (T := ℝ) _ = r
  obtain ⟨u, s⟩ := r
  exact ⟨rfl, rfl⟩

/-- The energies coming out of a collision. -/
theorem CollisionOut.energy {mass eMax : ℝ} {p q : Particle ℝ} (h : CollisionOut mass p q)
    (hm : 1 ≤ mass) (hM : 20 ≤ eMax) (hp : 0 ≤ p.kineticEnergy ∧ p.kineticEnergy ≤ eMax) :
    (0 ≤ q.kineticEnergy ∧ q.kineticEnergy ≤ eMax) ∧ q.energyGroup = p.energyGroup := by
  cases h with
  | same => exact ⟨hp, rfl⟩
  | scatter s id s1 s2 =>
    obtain ⟨h1, h2⟩ := updateTrajectory_energy { p with seed := s, identifier := id }
      (Flt.mul p.kineticEnergy (Flt.sub Flt.one (Flt.mul (Rng.sample (T := ℝ) s1).1 (Flt.div Flt.one mass))))
      (Flt.sub (Flt.mul (Rng.sample (T := ℝ) s2).1 Flt.two) Flt.one)
    rw [h1, h2]
    refine ⟨?_, rfl⟩
    obtain ⟨u0, u1⟩ := sample01 s1
    generalize (Rng.sample (T := ℝ) s1).1 = u at u0 u1
    simp only [mul_eq, sub_eq, one_eq, div_eq]
    have hi0 : 0 ≤ 1 / mass := by positivity
    have hi1 : 1 / mass ≤ 1 := by rw [div_le_one (by linarith)]; exact hm
    have hx0 : 0 ≤ u * (1 / mass) := mul_nonneg u0 hi0
    have hx1 : u * (1 / mass) ≤ 1 := by nlinarith
    constructor
    · exact mul_nonneg hp.1 (by linarith)
    · nlinarith [hp.1, hp.2]
  | fission s id s1 s2 =>
    obtain ⟨h1, h2⟩ := updateTrajectory_energy { p with seed := s, identifier := id }
      (Flt.mul (Flt.mul (Flt.ofNat 20) (Flt.div (Flt.add (Rng.sample (T := ℝ) s1).1 Flt.one) Flt.two))
        (Flt.div (Flt.add (Rng.sample (T := ℝ) s1).1 Flt.one) Flt.two))
      (Flt.sub (Flt.mul (Rng.sample (T := ℝ) s2).1 Flt.two) Flt.one)
    rw [h1, h2]
    refine ⟨?_, rfl⟩
    obtain ⟨u0, u1⟩ := sample01 s1
    generalize (Rng.sample (T := ℝ) s1).1 = u at u0 u1
    simp only [mul_eq, one_eq, div_eq, add_eq, two_eq, ofNat_eq]
    push_cast
    constructor <;> nlinarith

/-- What C27 says of a particle. -/
def InRange (data : Data ℝ) (dom : Domain ℝ) (p : Particle ℝ) : Prop :=
  0 ≤ p.kineticEnergy ∧ p.kineticEnergy ≤ data.eMax ∧ p.energyGroup < dom.numGroups

/-- **C27**: every particle that can exist in a simulation has an energy in `[0, eMax]` and an energy
group below the number of groups. -/
theorem C27_reachable {data : Data ℝ} {dom : Domain ℝ} {fuel : Nat} (hy : EnergyHyps data dom)
    {p : Particle ℝ} (h : Reachable data dom fuel p) : InRange data dom p := by
  refine h.cases (P := InRange data dom) ?_ ?_ ?_ ?_
  · intro d w i cell p _ _ h
    obtain ⟨s, hs⟩ := h.energy
    obtain ⟨u0, u1⟩ := sample01 s
    simp only [mul_eq, add_eq, sub_eq] at hs
    have := hy.eMin_nonneg
    have := hy.eMin_le
    refine ⟨?_, ?_, by rw [h.energyGroup]; exact hy.groups⟩
    · rw [hs]; nlinarith
    · rw [hs]; nlinarith
  · intro p q hp hf
    simp only [InRange, hf.kineticEnergy, hf.energyGroup]
    exact hp
  · intro p q hp h
    simp only [gutsPrepare, bind_ok, pure_ok] at h
    obtain ⟨g, hg, rfl⟩ := h
    have hk : (if Flt.le p.timeToCensus Flt.zero = true then
        ({ p with timeToCensus := Flt.add p.timeToCensus data.dt } : Particle ℝ) else p).kineticEnergy =
        p.kineticEnergy := by split <;> rfl
    simp only [InRange]
    rw [hk] at hg
    refine ⟨?_, ?_, group_lt hy hp.2.1 hg⟩ <;> rw [hk]
    · exact hp.1
    · exact hp.2.1
  · intro d p tr o q r hd hp ho _ he
    have hf := outcome_frame ho
    have hq : InRange data dom q := by
      simp only [InRange, hf.kineticEnergy, hf.energyGroup]; exact hp
    cases he with
    | census => exact hq
    | transit => exact hq
    | escape => exact hq
    | reflect => exact hq
    | collide _ hm hc hg =>
      have := hc.energy (hy.mass _ (List.mem_of_getElem? hm)) hy.eMax_ge ⟨hq.1, hq.2.1⟩
      exact ⟨this.1.1, this.1.2, group_lt hy this.1.2 hg⟩
    | born _ hm hc =>
      have := hc.energy (hy.mass _ (List.mem_of_getElem? hm)) hy.eMax_ge ⟨hq.1, hq.2.1⟩
      exact ⟨this.1.1, this.1.2, by rw [this.2]; exact hq.2.2⟩

/-- **C27** on the state of a simulation, whatever the schedule. -/
theorem C27_run {data : Data ℝ} {ex : ExecInfo} {o : SyncOpts} {fuel n : Nat} {s0 s : SimState ℝ}
    (h0 : InitialState s0) (hy : EnergyHyps data s0.unit.dom) (h : Cycles data ex o fuel n s0 s) :
    ∀ p ∈ s.container.all, InRange data s0.unit.dom p :=
  fun p hp => C27_reachable hy ((cycles_reachable h0 h).2 p hp)

/-- **C27**, the counterpart: for every table of levels ending below 20 there is a generator state from
which a fission neutron gets an energy above the last level, hence a group index equal to the number of
groups, one past the last entry of every cross-section table of that size. -/
theorem C27_violated_below_20 :
    ∃ s : BitVec 64, (Particle.drawFission (T := ℝ) s).1.1 = 20 ∧
      ∀ (l : List ℝ) (last : ℝ), l[l.length - 1]? = some last → l.Pairwise (· < ·) → last < 20 →
        getEnergyGroups l (Particle.drawFission (T := ℝ) s).1.1 = .ok (l.length - 1) ∧
        ∀ xs : List ℝ, xs.length = l.length - 1 →
          idx xs (l.length - 1) = .error .indexOutOfBounds := by
  have hne : {seed : BitVec 64 | (Rng.sample (T := ℝ) seed).1 = 1}.Nonempty := by
    apply Set.nonempty_of_ncard_ne_zero
    rw [C01_documented_range_violated]; norm_num
  obtain ⟨s, hs⟩ := hne
  have hs : (Rng.sample (T := ℝ) s).1 = 1 := hs
  have he : (Particle.drawFission (T := ℝ) s).1.1 = 20 := by
    have : (Particle.drawFission (T := ℝ) s).1.1 =
        Flt.mul (Flt.mul (Flt.ofNat 20) (Flt.div (Flt.add (Rng.sample (T := ℝ) s).1 Flt.one) Flt.two))
          (Flt.div (Flt.add (Rng.sample (T := ℝ) s).1 Flt.one) Flt.two) := by
      unfold Particle.drawFission
      generalize Rng.sample (T := ℝ) s = r
      obtain ⟨u, s1⟩ := r
      rfl
    rw [this, hs]
    simp only [mul_eq, one_eq, div_eq, add_eq, two_eq, ofNat_eq]
    norm_num
  refine ⟨s, he, fun l last hl hp hlast => ?_⟩
  rw [he]
  have hnil : l ≠ [] := by intro h; rw [h] at hl; simp at hl
  obtain ⟨g, hg, first, last', h0, hl', hs⟩ := C26_lookup hnil 20
  rw [hl] at hl'; cases hl'
  have hfl : first ≤ last := by
    obtain ⟨h1, rfl⟩ := List.getElem?_eq_some_iff.1 h0
    obtain ⟨h2, rfl⟩ := List.getElem?_eq_some_iff.1 hl
    rcases Nat.eq_zero_or_pos (l.length - 1) with h | h
    · have : l[l.length - 1] = l[0] := by congr 1
      rw [this]
    · exact (List.pairwise_iff_getElem.1 hp _ _ h1 h2 h).le
  constructor
  · rw [hg]
    rcases hs with ⟨h1, _⟩ | ⟨_, rfl⟩ | ⟨_, h1, _⟩
    · linarith
    · rfl
    · linarith
  · intro xs hx
    unfold idx
    rw [List.getElem?_eq_none (by omega)]

/-- Non-vacuity of C27: the program's default bounds and number of groups, with the table that the
program builds from them and a material of mass 1000, meet the hypotheses. -/
example (mesh : Mesh ℝ) (cells : List (CellState ℝ)) : EnergyHyps
    { dt := 1, eMin := 1 / 10 ^ 9, eMax := 20, nParticles := 1000, nSteps := 10, lowWeightCutoff := 1,
      loadBalance := false, nUnits := 1, nuclear := NuclearData.new 230 (1 / 10 ^ 9) 20,
      materials := [⟨"defaultMaterial", 1000, []⟩], sourceRates := [] }
    { globalDomain := 0, cells := cells, mesh := mesh, numGroups := 230 } := by
  obtain ⟨h1, _, h3, _⟩ := C26_levels (n := 230) (by norm_num) (lo := 1 / 10 ^ 9) (hi := 20)
    (by norm_num) (by norm_num)
  refine ⟨by norm_num, by norm_num, le_refl _, ?_, by norm_num, h1, h3⟩
  intro m hm
  simp only [List.mem_singleton] at hm
  subst hm
  norm_num
