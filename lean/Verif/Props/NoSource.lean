import Verif.Props.Benchmark
import Verif.Props.NoPanic
/-!
# C66: the need of a source

With the rounding of the machine, a problem that nothing feeds stops at its first population control.
-/
open Flt
set_option linter.unusedSectionVars false

namespace Num
variable {F : Format}

/-- Zero, or not a number. -/
def Null (a : Num F) : Prop := a.val = none ∨ a.val = some 0

theorem rnd_zero' : F.rnd 0 = 0 := by
  have h := Ieee.rnd_exact (T := Num F) 0 0 (by norm_num) (by norm_num) (by norm_num)
  simp only [Nat.cast_zero, zero_mul] at h
  exact h

theorem Null.mul {a : Num F} (h : Null a) (b : Num F) : Null (a *. b) := by
  unfold Null
  rw [show (a *. b).val = _ from mul_val a b]
  rcases h with h | h <;> rw [h]
  · exact .inl rfl
  · cases b.val with
    | none => exact .inl rfl
    | some y =>
      unfold ieeeMul
      dsimp only
      split
      · exact .inl rfl
      · right; rw [zero_mul, rnd_zero']

theorem Null.mul' {a : Num F} (h : Null a) (b : Num F) : Null (b *. a) := by
  unfold Null
  rw [show (b *. a).val = _ from mul_val b a]
  rcases h with h | h <;> rw [h]
  · cases b.val <;> exact .inl rfl
  · cases b.val with
    | none => exact .inl rfl
    | some y =>
      unfold ieeeMul
      dsimp only
      split
      · exact .inl rfl
      · right; rw [mul_zero, rnd_zero']

theorem Null.add {a b : Num F} (ha : Null a) (hb : Null b) : Null (a +. b) := by
  unfold Null
  rw [show (a +. b).val = _ from add_val a b]
  rcases ha with h | h <;> rcases hb with h' | h' <;> rw [h, h']
  · exact .inl rfl
  · exact .inl rfl
  · exact .inl rfl
  · right
    unfold ieeeAdd
    dsimp only
    rw [if_neg (by simp), add_zero, rnd_zero']

theorem Null.div {a : Num F} (h : Null a) (b : Num F) : Null (a /. b) := by
  by_cases hb : b.val = some 0
  · rcases h with h | h
    · left
      show (Num.div a b).val = _
      unfold Num.div
      rw [h]; rfl
    · exact .inl (div_zero_nan h hb)
  · unfold Null
    rw [show (a /. b).val = _ from div_val a b hb]
    rcases h with h | h <;> rw [h]
    · exact .inl rfl
    · cases b.val with
      | none => exact .inl rfl
      | some y =>
        unfold ieeeDiv
        dsimp only
        rw [if_neg (by simp), EReal.zero_div, rnd_zero']
        exact .inr rfl

theorem Null.div_null {a b : Num F} (ha : Null a) (hb : Null b) : (a /. b).val = none := by
  rcases hb with hb | hb
  · rw [show (a /. b).val = _ from div_val a b (by rw [hb]; simp), hb]
    cases a.val <;> rfl
  · rcases ha with h | h
    · show (Num.div a b).val = _
      unfold Num.div
      rw [h]; rfl
    · exact div_zero_nan h hb

theorem toUsize_nan {a : Num F} (h : a.val = none) : Flt.toUsize (Flt.floor a) = none := by
  have hf : (Flt.floor a).val = none := by
    show (Num.lift _ _ _ a).val = none
    unfold Num.lift
    rw [h]; rfl
  show (match (Flt.floor a).val with | some x => _ | none => none) = none
  rw [hf]

theorem null_sum {l : List (Num F)} (h : ∀ a ∈ l, Null a) : Null (Flt.sum l) := by
  unfold Flt.sum
  have : ∀ (l : List (Num F)) (x : Num F), Null x → (∀ a ∈ l, Null a) → Null (l.foldl Flt.add x) := by
    intro l
    induction l with
    | nil => exact fun _ hx _ => hx
    | cons a l ih =>
      intro x hx hl
      exact ih _ (hx.add (hl a (by simp))) fun b hb => hl b (by simp [hb])
  exact this l zero (.inr zero_val) h

end Num

/-- **C66**, the need of a source.  In every format: a run of at least one cycle on a mesh with a cell, when every
material has a source rate of zero, stops on a panic in its first cycle, under every execution policy, and never ends
otherwise. -/
theorem C66_no_source {F : Format} {data : Data (Num F)} {s0 : SimState (Num F)} (hn : 0 < data.nSteps)
    (hcells : s0.unit.dom.cells ≠ []) (hmat : ∀ c ∈ s0.unit.dom.cells, c.material < data.materials.length)
    (hzero : ∀ m ∈ data.materials, ∃ r, data.sourceRates.lookup m.name = some r ∧ r.val = some 0)
    (ex : ExecInfo) (o : SyncOpts) (fuel : Nat) :
    RunFails data ex o fuel s0 .unwrapNone ∧ ∀ s, ¬ RunCore data ex o fuel s0 s := by
  obtain ⟨rates, hr⟩ : ∃ rates, sourceRateList data = .ok rates := by
    unfold sourceRateList
    refine mapM_ok_exists fun m hm => ?_
    obtain ⟨r, hr, _⟩ := hzero m hm
    rw [hr]
    exact ⟨r, rfl⟩
  have hlen : rates.length = data.materials.length := by unfold sourceRateList at hr; exact mapM_ok_length hr
  have hnull : ∀ r ∈ rates, Num.Null r := by
    intro r hm
    unfold sourceRateList at hr
    obtain ⟨m, hmem, hf⟩ := mapM_ok_mem hr hm
    obtain ⟨r', hr', hu⟩ := hzero m hmem
    rw [hr'] at hf
    cases hf
    exact .inr hu
  obtain ⟨w, hw⟩ : ∃ w, unitWeightOf data s0.unit.dom.cells = .ok w := by
    unfold unitWeightOf
    rw [hr]
    dsimp only [bind, Except.bind]
    obtain ⟨ws, hws⟩ : ∃ ws, (s0.unit.dom.cells.mapM fun cell => do
        let r ← idx rates cell.material
        return cell.volume *. r *. data.dt) = .ok ws := by
      refine mapM_ok_exists fun c hc => ?_
      rw [idx_ok.2 (List.getElem?_eq_getElem (by rw [hlen]; exact hmat c hc))]
      exact ⟨_, rfl⟩
    dsimp only [bind, Except.bind] at hws
    rw [hws]
    exact ⟨_, rfl⟩
  have hwn : Num.Null w := by
    unfold unitWeightOf at hw
    rw [hr] at hw
    obtain ⟨_, h0, hw⟩ := bind_ok.1 hw
    cases h0
    obtain ⟨ws, hws, hw⟩ := bind_ok.1 hw
    cases pure_ok.1 hw
    refine Num.null_sum fun a ha => ?_
    obtain ⟨c, _, hc⟩ := mapM_ok_mem hws ha
    obtain ⟨r, hi, hc⟩ := bind_ok.1 hc
    cases pure_ok.1 hc
    exact ((hnull r (List.mem_of_getElem? (idx_ok.1 hi))).mul' _).mul _
  -- the first population control, whatever the synchronisation gives
  have hpop : ∀ s2, syncPrepare data s0 = .ok s2 →
      populationControl data s2.globalN s2.srcWeight s2.unit s2.container = .error .unwrapNone := by
    intro s2 h2
    unfold syncPrepare at h2
    rw [hw] at h2
    obtain ⟨k, hk, h2⟩ := bind_ok.1 (show (unwrap _ >>= _) = _ from h2)
    cases pure_ok.1 h2
    obtain ⟨cell, rest, hc⟩ := List.exists_cons_of_ne_nil hcells
    have hlt : cell.material < rates.length := by rw [hlen]; exact hmat cell (by rw [hc]; simp)
    refine C60_no_source_stops hr (cell := cell) (rest := rest) hc (List.getElem?_eq_getElem hlt) (Num.toUsize_nan ?_)
    exact Num.Null.div_null (((hnull _ (List.getElem_mem hlt)).mul' _).mul _)
      (((Num.Null.add (.inr Num.zero_val) hwn)).div _)
  have hsync : ∀ x, cycleSync data o 0 s0 = x → syncPrepare data s0 = x := by
    intro x h
    exact h
  constructor
  · cases h2 : syncPrepare data s0 with
    | ok s2 => exact .population hn .zero (show cycleSync data o 0 s0 = .ok s2 from h2) (hpop s2 h2)
    | error e =>
      have : e = .unwrapNone := by
        unfold syncPrepare at h2
        rw [hw] at h2
        dsimp only [bind, Except.bind] at h2
        cases hk : Flt.toUsize ((Flt.lit 1 (-1) : Num F) *. Flt.ofNat data.nParticles) with
        | some k => rw [hk] at h2; cases h2
        | none => rw [hk] at h2; cases h2; rfl
      rw [← this]
      exact .sync (Nat.zero_le _) .zero (show cycleSync data o 0 s0 = .error e from h2)
  · have key : ∀ {n : Nat} {s1 : SimState (Num F)}, Cycles data ex o fuel n s0 s1 → 0 < n → False := by
      intro n s1 h
      induction h with
      | zero => intro h; omega
      | @succ n s1 s2 _ u c h hs hp ih =>
        intro _
        rcases Nat.eq_zero_or_pos n with rfl | hpos
        · cases h
          obtain ⟨u1, c1, hp, _⟩ := hp
          rw [hpop _ (hsync _ hs)] at hp
          cases hp
        · exact ih hcells hmat hw hpop hsync hpos
    rintro s ⟨s1, hc, _⟩
    exact key hc hn

/-- A problem of one cell and one material that nothing feeds, in binary64. -/
noncomputable def unfedData : Data (Num binary64) :=
  { dt := one, eMin := zero, eMax := one, nParticles := 10, nSteps := 1, lowWeightCutoff := zero,
    loadBalance := false, nUnits := 1, nuclear := { numEnergyGroups := 1, isotopes := [], energies := [] },
    materials := [{ name := "m", mass := one, iso := [] }], sourceRates := [("m", zero)] }

/-- The state at the start of that problem. -/
noncomputable def unfedSim : SimState (Num binary64) :=
  { unit :=
      { dom :=
          { globalDomain := 0,
            cells := [{ material := 0, volume := one, cellNumberDensity := one, id := 0, sourceTally := 0 }],
            mesh := { domainGid := 0, node := [], cellConnectivity := [],
                      cellGeometry := [] },
            numGroups := 1 },
        balance := {}, flux := [zero], cache := [zero], unitWeight := zero },
    container := { processing := [], processed := [], extra := [] }, srcWeight := zero,
    globalN := 0, cumulative := {}, fluence := [], spectrum := [0, 0], reports := [] }

/-- That problem meets the hypotheses. -/
example (ex : ExecInfo) (o : SyncOpts) (fuel : Nat) : RunFails unfedData ex o fuel unfedSim .unwrapNone :=
  (C66_no_source (by decide) (by simp [unfedSim]) (by simp [unfedSim, unfedData])
    (by simp [unfedData]; exact Num.zero_val) ex o fuel).1
