import Verif.Lemmas.CurveFloat
import Verif.Lemmas.StartRounded
import Verif.Lemmas.VolumeInput
import Verif.Lemmas.FloatCycle
/-!
# Tables of an input in range

From the ranges of `FloatRange`, the tables that a run builds are usable with rounding.
-/
open Flt Ieee GridSpec MeshSpec Config
attribute [local irreducible] Rng.lcg Rng.sample Rng.spawn
set_option linter.unusedSectionVars false

namespace Flooding
variable {T : Type} [Flt T] [Ieee T]

theorem tenth_bd : Bd (Flt.lit 1 (-1) : T) (2 ^ (-4 : ℤ)) (2 ^ (-3 : ℤ)) := by
  have := lit_bd (T := T) (m := 1) (e := -1) (n := 1) (k := -4) (n' := 1) (k' := -3) (by norm_num) (by norm_num)
    (by norm_num) (by norm_num) (by norm_num) (by norm_num)
  simpa using this

theorem exists_bracket {x : ℝ} (h : 0 < x) : ∃ e : ℤ, (2 : ℝ) ^ e ≤ x ∧ x ≤ 2 ^ (e + 1) := by
  refine ⟨Int.log 2 x, ?_, ?_⟩
  · exact_mod_cast Int.zpow_log_le_self (b := 2) (by norm_num) h
  · exact_mod_cast (Int.lt_zpow_succ_log_self (b := 2) (by norm_num) x).le

theorem rep_wide {k : ℤ} (h0 : -100 ≤ k) (h1 : k ≤ 124) : Rep T ((2 : ℝ) ^ k) := by
  rcases le_total k 100 with h | h
  · exact Ieee.rep_two_pow h0 h
  · have := rep_pow (T := T) k.toNat (by omega)
    rwa [Int.toNat_of_nonneg (by omega)] at this

/-- A source strength in range: the weight of a particle does not underflow, and the number of particles of a cell can
be counted. -/
theorem strength_range {w : T} (hw : Bd w (2 ^ (-57 : ℤ)) (2 ^ (118 : ℤ))) {n : Nat} (hn : 16 ≤ n) (hn' : n ≤ 2 ^ 44) :
    (zero <. (w /. (Flt.lit 1 (-1) *. Flt.ofNat n))) = true ∧
    (w /. (w /. (Flt.lit 1 (-1) *. Flt.ofNat n)) <. Flt.ofNat (2 ^ 63)) = true := by
  obtain ⟨x, hx, x0, x1⟩ := hw
  have hpos : 0 < x := lt_of_lt_of_le (by positivity) x0
  obtain ⟨e, e0, e1⟩ := exists_bracket hpos
  have el : -58 ≤ e := by
    by_contra h
    have : (2 : ℝ) ^ (e + 1) < 2 ^ (-57 : ℤ) := zpow_lt_zpow_right₀ (by norm_num) (by omega)
    linarith
  have eh : e ≤ 118 := by
    by_contra h
    have : (2 : ℝ) ^ (118 : ℤ) < 2 ^ e := zpow_lt_zpow_right₀ (by norm_num) (by omega)
    linarith
  have hw' : Bd w (2 ^ e) (2 ^ (e + 1)) := ⟨x, hx, e0, e1⟩
  obtain ⟨y, hy, y0, y1⟩ := fin_ofNat_le (T := T) (n := n) (m := 16) (k := 44) (by exact_mod_cast hn) (by norm_num)
    (by exact_mod_cast hn') (by norm_num) (by norm_num)
  have ht : Bd ((Flt.lit 1 (-1) : T) *. Flt.ofNat n) 1 (2 ^ (41 : ℤ)) :=
    tenth_bd.mul ⟨y, hy, y0, y1⟩ rep_one (rep_wide (by norm_num) (by norm_num)) (by positivity) (by positivity)
      (by norm_num) (by norm_num)
  have pe : ∀ a b : ℤ, (2 : ℝ) ^ a * 2 ^ b = 2 ^ (a + b) := fun a b => (zpow_add₀ (by norm_num) a b).symm
  have hq : Bd (w /. ((Flt.lit 1 (-1) : T) *. Flt.ofNat n)) (2 ^ (e - 41)) (2 ^ (e + 1)) :=
    hw'.div ht (rep_wide (by omega) (by omega)) (rep_wide (by omega) (by omega)) (by positivity) (by norm_num)
      (by rw [pe]; exact le_of_eq (by congr 1; ring)) (by rw [mul_one]) (by positivity)
  have hn2 : Bd (w /. (w /. ((Flt.lit 1 (-1) : T) *. Flt.ofNat n))) 0 (2 ^ (42 : ℤ)) :=
    hw'.div hq rep_zero (rep_wide (by norm_num) (by norm_num)) (by positivity) (by positivity)
      (by rw [zero_mul]; positivity) (by rw [pe]; exact le_of_eq (by congr 1; ring)) le_rfl
  refine ⟨?_, ?_⟩
  · obtain ⟨z, hz, z0, _⟩ := hq
    exact (lt_fin fin_zero hz).2 (lt_of_lt_of_le (by positivity) z0)
  · obtain ⟨z, hz, _, z1⟩ := hn2
    have hb : IsFin (Flt.ofNat (2 ^ 63) : T) (2 ^ (63 : ℤ)) := by
      unfold IsFin
      rw [val_ofNat]
      have := Ieee.rep_two_pow (T := T) (k := 63) (by norm_num) (by norm_num)
      unfold Rep at this
      rw [show (((2 ^ 63 : ℕ) : ℝ)) = (2 : ℝ) ^ (63 : ℤ) by norm_num]
      exact congrArg some this
    exact (lt_fin hz hb).2 (lt_of_le_of_lt z1 (by norm_num))

/-- An input in range starts, and its tables are usable. -/
theorem _root_.FloatRange.start {p : Params T} (h : FloatRange p) (hm : FloatMesh p) (hn : NamedParams p) (hc : Consistent p)
    (hi : FloatInput p) (hpart : 10 * cells p.gridOf ≤ p.simulation.nParticles) {so : StrOrder} (hso : ∀ l, (so l).Perm l)
    {io : IterOrder} (hio : ∀ l, (io l).Perm l) (m : Machine) {fuel : Nat} (hfuel : cells p.gridOf ≤ fuel) :
    ∃ s, startRun so io m fuel p = .ok (some s) ∧ FloatTables s.data s.state.unit.dom := by
  obtain ⟨s, h1, h2⟩ := hm.start hn hc hi hpart hso hio m fuel hfuel
  refine ⟨s, h1, ?_⟩
  obtain ⟨_, hset, _⟩ := C64_started h1
  obtain ⟨_, hm2, hm3⟩ := startRun_mesh hio hm.root h1
  obtain ⟨nd, mats, dom, doms, g1, g2, _, _, _, _⟩ := startRun_parts h1
  obtain ⟨nd', mats', e1, e2, e3, e4⟩ := initNuclearData_ok hn hc hso (p := p)
  rw [g1] at e1
  cases e1
  have hd : s.data.materials = mats := by rw [g2]; rfl
  have hnd : s.data.nuclear = nd := by rw [g2]; rfl
  have hmat : ∀ m ∈ mats, ∃ mp first, p.materials.get? mp.name = some mp ∧ MaterialFrom p nd first mp m := by
    intro m hm
    obtain ⟨mp, h1, first, h2⟩ := e4.mem hm
    obtain ⟨k, hk⟩ := (mem_valuesIn hso).1 h1
    have := hn.materials.own _ _ hk
    subst this
    exact ⟨mp, first, hk, h2⟩
  have hiso : ∀ rs ∈ nd.isotopes, rs.length ≤ 2 ^ 5 ∧ ∀ r ∈ rs, ∀ s ∈ r.crossSection, Bd s 0 (2 ^ (112 : ℤ)) := by
    intro rs hrs
    obtain ⟨i, hi⟩ := List.getElem?_of_mem hrs
    obtain ⟨mp, h1, sp, nu, hf, rfl⟩ := e4.isotope (Nat.zero_le i) hi
    obtain ⟨k, hk⟩ := (mem_valuesIn hso).1 h1
    have hr := h.materials k mp hk
    obtain ⟨x, hx, x1, _⟩ := hf.fission
    obtain ⟨y, hy, y1⟩ := hf.scattering
    obtain ⟨z, hz, z1⟩ := hf.absorption
    obtain ⟨f1, f2, f3⟩ := hf.ratios
    rw [e3]
    exact isotope_range h.groups.1 h.groups.2 h.eMin h.eMax (hf.nReactions ▸ hr.reactions) (hf.total ▸ hr.total)
      (f1 ▸ hr.fission) (f2 ▸ hr.scattering) (f3 ▸ hr.absorption) (by rw [f1, f2, f3]; exact hr.ratios)
      (x1 ▸ h.curves _ _ hx) (y1 ▸ h.curves _ _ hy) (z1 ▸ h.curves _ _ hz)
  have hden : ∀ cs ∈ s.state.unit.dom.cells, cs.cellNumberDensity = one ∧
      Bd cs.volume (2 ^ (-20 : ℤ)) (2 ^ (40 : ℤ)) := by
    intro cs hcs
    obtain ⟨c, r, c1, c2, c3, c4, _⟩ := h2 cs hcs
    obtain ⟨X, Y, Z, v1, v2, v3⟩ := h.volume
    exact ⟨c4, by rw [c3]; exact Flooding.volume_range hm.sizedInput v1 v2 v3 c1 c2⟩
  have hfrac : ∀ m ∈ mats, m.iso.length ≤ 2 ^ 7 ∧ ∀ iso ∈ m.iso, Bd (iso.atomFraction *. one) 0 1 := by
    intro m hm
    obtain ⟨mp, first, hk, hf⟩ := hmat m hm
    have hr := h.materials _ mp hk
    rw [hf.isotopes]
    refine ⟨by rw [List.length_map, List.length_range]; exact hr.isotopes, fun iso hiso => ?_⟩
    obtain ⟨i, hi, rfl⟩ := List.mem_map.1 hiso
    have hi := List.mem_range.1 hi
    have h1 : (1 : ℝ) ≤ mp.nIsotopes := by exact_mod_cast (by omega : 1 ≤ mp.nIsotopes)
    have : Bd ((one : T) /. Flt.ofNat mp.nIsotopes) 0 1 :=
      (IsFin.bd fin_one).div (IsFin.bd (fin_ofNat (n := mp.nIsotopes) (by have := hr.isotopes; omega)))
        rep_zero rep_one (by norm_num) (by linarith) (by norm_num) (by linarith) le_rfl
    exact this.mul (IsFin.bd fin_one) rep_zero rep_one le_rfl (by norm_num) (by norm_num) (by norm_num)
  refine ⟨?_, ?_, ?_, ?_⟩
  · intro cell group v hv
    unfold directXs at hv
    obtain ⟨cs, hcs, hv⟩ := bind_ok.1 hv
    have hcs := List.mem_of_getElem? (idx_ok.1 hcs)
    unfold weightedMacroXs at hv
    obtain ⟨mat, hmt, hv⟩ := bind_ok.1 hv
    have hmt := List.mem_of_getElem? (idx_ok.1 hmt)
    rw [hd] at hmt
    obtain ⟨l, hl, hv⟩ := bind_ok.1 hv
    cases pure_ok.1 hv
    have hlen := mapM_ok_length hl
    rw [List.length_range] at hlen
    have hlen2 := (hfrac mat hmt).1
    have hb : ∀ a ∈ l, Bd a 0 (2 ^ ((100 + 17 : ℕ) : ℤ)) := by
      intro a ha
      obtain ⟨i, _, hi⟩ := mapM_ok_mem hl ha
      unfold macroscopicTotalXs at hi
      obtain ⟨iso, hiso1, hi⟩ := bind_ok.1 hi
      have hiso1 := List.mem_of_getElem? (idx_ok.1 hiso1)
      split at hi
      · cases pure_ok.1 hi
        have := lit_bd (T := T) (m := 1) (e := -20) (n := 0) (k := 0) (n' := 1) (k' := 0) (by norm_num) (by norm_num)
          (by norm_num) (by norm_num) (by norm_num) (by norm_num)
        exact this.mono (by norm_num) (by norm_num)
      · obtain ⟨micro, hmi, hi⟩ := bind_ok.1 hi
        cases pure_ok.1 hi
        unfold NuclearData.getTotalCrossSection at hmi
        obtain ⟨rs, hrs, hmi⟩ := bind_ok.1 hmi
        have hrs := List.mem_of_getElem? (idx_ok.1 hrs)
        rw [hnd] at hrs
        obtain ⟨l', hl', hmi⟩ := bind_ok.1 hmi
        cases pure_ok.1 hmi
        obtain ⟨i1, i2⟩ := hiso rs hrs
        unfold groupCrossSections at hl'
        have hlen' := mapM_ok_length hl'
        have hsum := sum_bd (l := l') (A := 0) (B := 2 ^ ((100 + 12 : ℕ) : ℤ)) (fun b hb => by
          obtain ⟨r, hr, hx⟩ := mapM_ok_mem hl' hb
          exact i2 r hr b (List.mem_of_getElem? (idx_ok.1 hx))) (fun j _ => by rw [mul_zero]; exact rep_zero)
          (fun j hj => rep_big (by omega))
        have h5 : (l'.length : ℝ) ≤ 2 ^ 5 := by exact_mod_cast hlen' ▸ i1
        have hsum' : Bd (Flt.sum l') 0 (2 ^ ((100 + 17 : ℕ) : ℤ)) := hsum.mono (by simp) (by
          calc (l'.length : ℝ) * 2 ^ ((100 + 12 : ℕ) : ℤ) ≤ 2 ^ 5 * 2 ^ ((100 + 12 : ℕ) : ℤ) := by gcongr
            _ ≤ 2 ^ ((100 + 17 : ℕ) : ℤ) := by norm_num)
        rw [(hden cs hcs).1]
        exact ((hfrac mat hmt).2 iso hiso1).mul hsum' rep_zero (rep_pow (100 + 17) (by norm_num)) le_rfl le_rfl (by norm_num)
          (by rw [one_mul])
    have := sum_bd (l := l) hb (fun j _ => by rw [mul_zero]; exact rep_zero) (fun j hj => rep_big (by omega))
    exact this.usable (by simp)
  · intro cs hcs m hm iso hi rs hrs r hr x hx
    rw [hd] at hm
    rw [hnd] at hrs
    rw [(hden cs hcs).1]
    exact (((hfrac m hm).2 iso hi).mul ((hiso rs hrs).2 r hr x hx) rep_zero (rep_pow 112 (by norm_num)) le_rfl le_rfl
      (by norm_num) (by rw [one_mul]; norm_num)).usable le_rfl
  · intro cs hcs
    exact (hden cs hcs).2.usable (by positivity)
  · have hrate : ∀ m ∈ mats, ∃ r, s.data.sourceRates.lookup m.name = some r ∧ Bd r (2 ^ (-7 : ℤ)) (2 ^ (34 : ℤ)) := by
      intro m hm
      obtain ⟨mp, first, hk, hf⟩ := hmat m hm
      refine ⟨mp.sourceRate, ?_, (h.materials _ mp hk).rate⟩
      rw [hset.rates, hf.name, hk]
      rfl
    obtain ⟨rates, r1, r2, r3⟩ : ∃ rates, sourceRateList s.data = .ok rates ∧ rates.length = mats.length ∧
        ∀ r ∈ rates, Bd r (2 ^ (-7 : ℤ)) (2 ^ (34 : ℤ)) := by
      unfold sourceRateList
      rw [hd]
      refine ⟨mats.map fun m => (s.data.sourceRates.lookup m.name).getD zero, mapM_ok_of_forall fun m hm => ?_, by simp, ?_⟩
      · obtain ⟨r, hr, _⟩ := hrate m hm
        rw [hr]
        rfl
      · intro r hr
        obtain ⟨m, hm, rfl⟩ := List.mem_map.1 hr
        obtain ⟨r, hr, hb⟩ := hrate m hm
        rw [hr]
        exact hb
    have hws : (s.state.unit.dom.cells.mapM fun cell => do
        let r ← idx rates cell.material
        return cell.volume *. r *. s.data.dt) =
        .ok (s.state.unit.dom.cells.map fun cell => cell.volume *. rates.getD cell.material zero *. s.data.dt) := by
      refine mapM_ok_of_forall fun cell hcell => ?_
      have hlt := hm2 cell hcell
      rw [hd, ← r2] at hlt
      rw [idx_ok.2 (List.getElem?_eq_getElem hlt), List.getD_eq_getElem?_getD, List.getElem?_eq_getElem hlt]
      rfl
    have hpos : 0 < cells p.gridOf := by
      obtain ⟨⟨a, _⟩, ⟨b, _⟩, c, _⟩ := hm.counts
      exact Nat.mul_pos (Nat.mul_pos a b) c
    have hlen : (s.state.unit.dom.cells.map fun cell => cell.volume *. rates.getD cell.material zero *. s.data.dt).length =
        cells p.gridOf := by
      rw [List.length_map, hm3]
      rfl
    have hw := sum_bd (T := T) (A := 2 ^ (-57 : ℤ)) (B := 2 ^ (94 : ℤ))
      (l := s.state.unit.dom.cells.map fun cell => cell.volume *. rates.getD cell.material zero *. s.data.dt) (by
        intro w hw
        obtain ⟨cell, hcell, rfl⟩ := List.mem_map.1 hw
        have hlt := hm2 cell hcell
        rw [hd, ← r2] at hlt
        have hr := r3 _ (List.getElem_mem hlt)
        rw [List.getD_eq_getElem?_getD, List.getElem?_eq_getElem hlt, Option.getD_some, hset.dt]
        have h1 := (hden cell hcell).2.mul hr (rep_wide (k := -27) (by norm_num) (by norm_num))
          (rep_wide (k := 74) (by norm_num) (by norm_num)) (by positivity) (by positivity) (by norm_num) (by norm_num)
        exact h1.mul h.dt (rep_wide (k := -57) (by norm_num) (by norm_num)) (rep_wide (k := 94) (by norm_num) (by norm_num))
          (by positivity) (by positivity) (by norm_num) (by norm_num))
      (fun j hj => rep_scaled (by have := h.cells; omega) (by norm_num) (by norm_num))
      (fun j hj => rep_scaled (by have := h.cells; omega) (by norm_num) (by norm_num))
    rw [hlen] at hw
    have c1 : (1 : ℝ) ≤ (cells p.gridOf : ℕ) := by exact_mod_cast hpos
    have c2 : ((cells p.gridOf : ℕ) : ℝ) ≤ 2 ^ 24 := by exact_mod_cast h.cells
    have hw' := hw.mono (l := 2 ^ (-57 : ℤ)) (h := 2 ^ (118 : ℤ)) (by
        calc (2 : ℝ) ^ (-57 : ℤ) = 1 * 2 ^ (-57 : ℤ) := (one_mul _).symm
          _ ≤ (cells p.gridOf : ℕ) * 2 ^ (-57 : ℤ) := by gcongr) (by
        calc ((cells p.gridOf : ℕ) : ℝ) * 2 ^ (94 : ℤ) ≤ 2 ^ 24 * 2 ^ (94 : ℤ) := by gcongr
          _ ≤ 2 ^ (118 : ℤ) := by norm_num)
    refine ⟨_, ?_, hw'.usable (by positivity), ?_⟩
    · unfold unitWeightOf
      rw [r1]
      dsimp only [bind, Except.bind] at hws ⊢
      rw [hws]
      rfl
    · rw [hset.nParticles]
      exact strength_range hw' h.particles.1 h.particles.2

end Flooding
