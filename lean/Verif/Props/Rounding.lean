import Verif.Lemmas.Rounding
import Verif.Lemmas.Ieee
import Verif.Props.CycleReport
import Verif.Props.Rounded
/-!
# C75: how much the flux can depend on the schedule

The only results of a run that depend on the schedule are sums of floating-point numbers, added in an order that
the threads decide (C09, C11).  Here the dependence is bounded: the entries of the flux tally and the total flux
that a cycle reports are the exact sum of the contributions of the cycle, up to one rounding per addition.
-/
open Flt
set_option linter.unusedSectionVars false
attribute [local irreducible] Rng.lcg Rng.sample Rng.spawn

/-! ## Lemmas -/

section generic
variable {T : Type} [Flt T]

/-- The flux tally of a cycle of a run, under any schedule: the contributions of the reference, in some order. -/
theorem reference_flux {data : Data T} {ex : ExecInfo} {o : SyncOpts} {fuel n : Nat} {s0 s1 s2 s1' s2' : SimState T}
    {u1 u' : UnitState T} {c1 c' : Container T} {b : Balance} {surv : List (Particle T)} {cs : List (Nat × T)}
    (hz : (zero >. (zero : T)) = false) (ht : StartTables data s0.unit) (h0 : StartOfRun s0) (hr : s0.reports = [])
    (hf : ∀ v ∈ s0.unit.flux, v = zero) (hn : n < data.nSteps)
    (hd : DirectCycles data o fuel n s0 s1) (hs : cycleSync data o n s1 = .ok s2)
    (hp : populationControl data s2.globalN s2.srcWeight s2.unit s2.container = .ok (u1, c1))
    (hg : Generations data u1.dom fuel c1.processing b surv cs)
    (h : Cycles data ex o fuel n s0 s1') (hs' : cycleSync data o n s1' = .ok s2')
    (hc : CycleProcess data ex fuel s2'.globalN s2'.srcWeight s2'.unit s2'.container u' c') :
    (∀ v ∈ s2'.unit.flux, v = zero) ∧ cs.length = b.numSegments ∧ (∀ d ∈ cs, d.1 < s2'.unit.flux.length) ∧
    ∃ cs', cs'.Perm cs ∧ u'.flux = addContribs s2'.unit.flux cs' := by
  have hrel := ((cycles_rel (ex := ex) hz (Nat.le_of_lt hn) ht.sized h0.initial.extra hr hd).1 s1' h).1
  obtain ⟨s2'', hs'', hrel2⟩ := cycleSync_rel hrel hs
  rw [hs'] at hs''
  cases hs''
  obtain ⟨u2, c2, hp2, hl⟩ := hc
  obtain ⟨u3, c3, hp3, hu3, hc3, _⟩ := populationControl_rel hrel2.unit hrel2.cont hp
  rw [hrel2.globalN, hrel2.srcWeight, hp3] at hp2
  cases hp2
  rw [← hu3.dom] at hg
  exact cycle_phase_perm hz ht h0 hf hn h hs' (by rw [hrel2.globalN, hrel2.srcWeight]; exact hp3) hg
    hc3.processing hl

theorem cycles_flux_length {data : Data T} {ex : ExecInfo} {o : SyncOpts} {fuel n : Nat} {s0 s : SimState T}
    (ht : StartTables data s0.unit) (h0 : StartOfRun s0) (hn : n ≤ data.nSteps) (h : Cycles data ex o fuel n s0 s) :
    s.unit.flux.length = s0.unit.flux.length := by
  rw [(cycles_sized ht.sized hn h).fluxLen, tableSize_skeleton (cycles_reachableBy h0.initial (by omega) h).1, ht.sized.fluxLen]

end generic

section sums
variable {F : Format}

theorem num_zero : (zero : Num F).Finite ∧ (zero : Num F).real = 0 := by
  have h : Ieee.IsFin (zero : Num F) 0 := Ieee.fin_zero
  exact ⟨⟨0, h⟩, Num.real_eq h⟩

theorem num_zero_gt : (zero >. (zero : Num F)) = false := by
  by_contra h
  rw [Bool.not_eq_false] at h
  obtain ⟨x, y, hx, hy, hxy⟩ := (Ieee.lt_iff _ _).1 h
  rw [hx] at hy
  cases hy
  exact lt_irrefl _ hxy

theorem exactSum_perm {l l' : List (Num F)} (h : l.Perm l') : exactSum l = exactSum l' := (h.map _).sum_eq

theorem exactMass_perm {l l' : List (Num F)} (h : l.Perm l') : exactMass l = exactMass l' := (h.map _).sum_eq

theorem exactMass_nonneg (l : List (Num F)) : 0 ≤ exactMass l := by
  refine List.sum_nonneg fun x hx => ?_
  obtain ⟨c, _, rfl⟩ := List.mem_map.1 hx
  exact abs_nonneg _

theorem exactMass_of_nonneg {l : List (Num F)} (h : ∀ a ∈ l, 0 ≤ a.real) : exactMass l = exactSum l := by
  unfold exactMass exactSum
  congr 1
  exact List.map_congr_left fun a ha => abs_of_nonneg (h a ha)

/-- A sum over the contributions is a sum over the entries of the table. -/
theorem sum_by_entry (f : Num F → ℝ) (cs : List (ℕ × Num F)) (K : ℕ) (h : ∀ d ∈ cs, d.1 < K) :
    ((cs.map (·.2)).map f).sum = ((List.range K).map fun i => ((contribsAt cs i).map f).sum).sum := by
  induction cs with
  | nil => simp [contribsAt]
  | cons c cs ih =>
    have e : ∀ i, ((contribsAt (c :: cs) i).map f).sum =
        (if c.1 = i then f c.2 else 0) + ((contribsAt cs i).map f).sum := by
      intro i
      by_cases hi : c.1 = i
      · simp [contribsAt, hi]
      · simp [contribsAt, hi]
    simp only [e]
    rw [List.sum_map_add, ← ih (fun d hd => h d (List.mem_cons_of_mem _ hd)), List.map_cons, List.map_cons, List.sum_cons]
    congr 1
    have hc := h c (by simp)
    rw [← List.sum_toFinset _ (List.nodup_range)]
    rw [Finset.sum_ite_eq]
    simp [hc]

theorem drift_add (m n : ℕ) : F.drift m * (1 + F.drift n) + F.drift n = F.drift (m + n) := by
  unfold Format.drift
  rw [pow_add]; ring

/-- The total of a table whose entries are sums of contributions. -/
theorem total_error {flux : List (Num F)} {cs : List (ℕ × Num F)} (hi : ∀ d ∈ cs, d.1 < flux.length)
    (he : ∀ i, i < flux.length → flux[i]? = some (Flt.sum (contribsAt cs i)))
    (hfin : (scalarFluxSum flux).Finite) :
    |(scalarFluxSum flux).real - exactSum (cs.map (·.2))| ≤
      F.drift (flux.length + cs.length) * exactMass (cs.map (·.2)) := by
  set K := flux.length with hK
  have hent : ∀ a ∈ flux, a.Finite := (Num.foldl_finite hfin).2
  have hflux : flux = (List.range K).map fun i => Flt.sum (contribsAt cs i) := by
    refine List.ext_getElem? fun i => ?_
    by_cases hlt : i < K
    · rw [he i hlt]; simp [hlt]
    · rw [List.getElem?_eq_none (by omega), List.getElem?_eq_none (by simp; omega)]
  have h1 := Num.foldl_error hfin
  rw [num_zero.2, abs_zero, zero_add, zero_add] at h1
  change |(scalarFluxSum flux).real - exactSum flux| ≤ _ at h1
  have hle : ∀ i, (contribsAt cs i).length ≤ cs.length := by
    intro i
    unfold contribsAt
    rw [List.length_map]
    exact List.length_filter_le _ _
  have hone : ∀ i, i < K → |(Flt.sum (contribsAt cs i)).real - exactSum (contribsAt cs i)| ≤
      F.drift cs.length * exactMass (contribsAt cs i) := by
    intro i hlt
    have hf : (Flt.sum (contribsAt cs i)).Finite := hent _ (List.mem_of_getElem? (he i hlt))
    have := Num.foldl_error hf
    rw [num_zero.2, abs_zero, zero_add, zero_add] at this
    refine this.trans ?_
    have := exactMass_nonneg (contribsAt cs i)
    have := F.drift_mono (hle i)
    gcongr
  have key : ∀ N ≤ K,
      |((List.range N).map fun i => (Flt.sum (contribsAt cs i)).real).sum -
        ((List.range N).map fun i => exactSum (contribsAt cs i)).sum| ≤
        F.drift cs.length * ((List.range N).map fun i => exactMass (contribsAt cs i)).sum ∧
      ((List.range N).map fun i => |(Flt.sum (contribsAt cs i)).real|).sum ≤
        (1 + F.drift cs.length) * ((List.range N).map fun i => exactMass (contribsAt cs i)).sum := by
    intro N
    induction N with
    | zero => intro _; simp
    | succ N ih =>
      intro hN
      obtain ⟨i1, i2⟩ := ih (by omega)
      have h2 := hone N (by omega)
      have h3 : |exactSum (contribsAt cs N)| ≤ exactMass (contribsAt cs N) := by
        unfold exactSum exactMass
        generalize contribsAt cs N = l
        induction l with
        | nil => simp
        | cons a l ih =>
          simp only [List.map_cons, List.sum_cons]
          exact (abs_add_le _ _).trans (by linarith)
      have h4 : |(Flt.sum (contribsAt cs N)).real| ≤ (1 + F.drift cs.length) * exactMass (contribsAt cs N) := by
        have e : (Flt.sum (contribsAt cs N)).real =
          ((Flt.sum (contribsAt cs N)).real - exactSum (contribsAt cs N)) + exactSum (contribsAt cs N) := by ring
        rw [e]
        refine (abs_add_le _ _).trans ?_
        linarith
      simp only [List.range_succ, List.map_append, List.sum_append, List.map_cons, List.map_nil, List.sum_cons,
        List.sum_nil, add_zero]
      constructor
      · rw [add_sub_add_comm]
        refine (abs_add_le _ _).trans ?_
        linarith
      · linarith
  obtain ⟨k1, k2⟩ := key K le_rfl
  have eS : exactSum (cs.map (·.2)) = ((List.range K).map fun i => exactSum (contribsAt cs i)).sum :=
    sum_by_entry Num.real cs K hi
  have eM : exactMass (cs.map (·.2)) = ((List.range K).map fun i => exactMass (contribsAt cs i)).sum :=
    sum_by_entry (fun a => |a.real|) cs K hi
  have eF : exactSum flux = ((List.range K).map fun i => (Flt.sum (contribsAt cs i)).real).sum := by
    conv_lhs => rw [hflux]
    unfold exactSum
    rw [List.map_map]; rfl
  have eFM : exactMass flux = ((List.range K).map fun i => |(Flt.sum (contribsAt cs i)).real|).sum := by
    conv_lhs => rw [hflux]
    unfold exactMass
    rw [List.map_map]; rfl
  rw [← eS, ← eM, ← eF] at k1
  rw [← eM, ← eFM] at k2
  have hd := F.drift_nonneg K
  have h5 : F.drift K * exactMass flux ≤ F.drift K * ((1 + F.drift cs.length) * exactMass (cs.map (·.2))) := by gcongr
  have e : (scalarFluxSum flux).real - exactSum (cs.map (·.2)) =
      ((scalarFluxSum flux).real - exactSum flux) + (exactSum flux - exactSum (cs.map (·.2))) := by ring
  rw [e, ← drift_add]
  refine (abs_add_le _ _).trans ?_
  linarith

end sums

/-! ## Sums -/

section C75
variable {F : Format}

/-- **C75**, a sum in any order: a finite result is the exact sum, up to a relative error of `drift n`. -/
theorem C75_sum (l : List (Num F)) (h : (Flt.sum l).Finite) :
    |(Flt.sum l).real - exactSum l| ≤ F.drift l.length * exactMass l := by
  have := Num.foldl_error h
  rw [num_zero.2, abs_zero, zero_add, zero_add] at this
  exact this

/-- **C75**, contributions that are not negative: a finite result is the exact sum up to a factor between
`(1 - eps)^n` and `(1 + eps)^n`. -/
theorem C75_ratio (l : List (Num F)) (h : (Flt.sum l).Finite) (hl : ∀ a ∈ l, 0 ≤ a.real) :
    (1 - F.eps) ^ l.length * exactSum l ≤ (Flt.sum l).real ∧ (Flt.sum l).real ≤ (1 + F.eps) ^ l.length * exactSum l := by
  have := Num.foldl_ratio h (by rw [num_zero.2]) hl
  rw [num_zero.2, zero_add] at this
  exact this

/-- **C75**, two orders of the same additions: the results differ by at most twice that. -/
theorem C75_orders {l l' : List (Num F)} (hp : l.Perm l') (h : (Flt.sum l).Finite) (h' : (Flt.sum l').Finite) :
    |(Flt.sum l).real - (Flt.sum l').real| ≤ 2 * F.drift l.length * exactMass l := by
  have a := C75_sum l h
  have b := C75_sum l' h'
  rw [← hp.length_eq, ← exactSum_perm hp, ← exactMass_perm hp] at b
  rw [abs_sub_comm] at b
  have := abs_sub_le (Flt.sum l).real (exactSum l) (Flt.sum l').real
  linarith

/-- **C75**, no order overflows when the sum of the absolute values leaves room for the rounding. -/
theorem C75_finite {l : List (Num F)} (hl : ∀ a ∈ l, a.Finite)
    (h : (1 + F.drift l.length) * exactMass l ≤ F.top) : (Flt.sum l).Finite := by
  refine Num.foldl_no_overflow num_zero.1 hl ?_
  rw [num_zero.2, abs_zero, zero_add]
  unfold Format.drift at h
  rwa [add_sub_cancel] at h

/-- The error grows linearly as long as it is small: `2 n eps` for `n ≤ 2^(prec-1)`. -/
theorem C75_linear {n : ℕ} (h : (n : ℝ) * F.eps ≤ 1 / 2) : F.drift n ≤ 2 * n * F.eps := by
  have he := F.eps_pos
  have he1 : F.eps ≤ 1 := F.eps_le.trans (by norm_num)
  unfold Format.drift
  have h1 : 1 + (n : ℝ) * (-F.eps) ≤ (1 + -F.eps) ^ n := one_add_mul_le_pow (by linarith) n
  have h2 : (1 + F.eps) ^ n * (1 + -F.eps) ^ n ≤ 1 := by
    rw [← mul_pow]
    refine pow_le_one₀ ?_ ?_ <;> nlinarith
  have h3 : 0 < (1 + F.eps) ^ n := by positivity
  set p := (1 + F.eps) ^ n
  set x := (n : ℝ) * F.eps
  have h4 : p * (1 - x) ≤ 1 := by
    refine le_trans ?_ h2
    have : 1 - x ≤ (1 + -F.eps) ^ n := by simpa [x, sub_eq_add_neg] using h1
    gcongr
  have hx : 0 ≤ x := by positivity
  have : p ≤ 1 + 2 * x := by
    by_contra hc
    push Not at hc
    have : (1 + 2 * x) * (1 - x) < p * (1 - x) := by
      have : 0 < 1 - x := by linarith
      gcongr
    nlinarith
  have e : 2 * (n : ℝ) * F.eps = 2 * x := by simp [x]; ring
  linarith

/-! ## Cycles of a run -/

/-- **C75**, entries of the tally.  At the end of the tracking phase of any cycle of a run, under any policy and
schedule, every finite entry of the flux tally is the exact sum of the contributions of the segments tallied there
(those of the reference, which has no threads), up to one rounding per segment. -/
theorem C75_entries {data : Data (Num F)} {ex : ExecInfo} {o : SyncOpts} {fuel n : ℕ}
    {s0 s1 s2 s1' s2' : SimState (Num F)} {u1 u' : UnitState (Num F)} {c1 c' : Container (Num F)} {b : Balance}
    {surv : List (Particle (Num F))} {cs : List (ℕ × Num F)}
    (ht : StartTables data s0.unit) (h0 : StartOfRun s0) (hr : s0.reports = [])
    (hf : ∀ v ∈ s0.unit.flux, v = zero) (hn : n < data.nSteps)
    (hd : DirectCycles data o fuel n s0 s1) (hs : cycleSync data o n s1 = .ok s2)
    (hp : populationControl data s2.globalN s2.srcWeight s2.unit s2.container = .ok (u1, c1))
    (hg : Generations data u1.dom fuel c1.processing b surv cs)
    (h : Cycles data ex o fuel n s0 s1') (hs' : cycleSync data o n s1' = .ok s2')
    (hc : CycleProcess data ex fuel s2'.globalN s2'.srcWeight s2'.unit s2'.container u' c')
    (i : ℕ) (v : Num F) (hi : u'.flux[i]? = some v) (hv : v.Finite) :
    |v.real - exactSum (contribsAt cs i)| ≤ F.drift (contribsAt cs i).length * exactMass (contribsAt cs i) := by
  obtain ⟨hz, _, _, cs', hperm, hfl⟩ := reference_flux num_zero_gt ht h0 hr hf hn hd hs hp hg h hs' hc
  have hlen : i < s2'.unit.flux.length := by
    have := (List.getElem?_eq_some_iff.1 hi).1
    rwa [hfl, addContribs_length] at this
  have e := addContribs_getElem s2'.unit.flux cs' i zero
    (by rw [List.getElem?_eq_getElem hlen, hz _ (List.getElem_mem hlen)])
  rw [← hfl, hi] at e
  have e := Option.some.inj e
  have hq := contribsAt_perm hperm i
  have := C75_sum (contribsAt cs' i) (by rw [e] at hv; exact hv)
  rw [exactSum_perm hq, exactMass_perm hq, hq.length_eq] at this
  rw [e]
  exact this

/-- **C75**, reports.  The total flux that any cycle of a run reports, under any policy and schedule, is, when finite,
the exact sum of the contributions of the segments of the cycle, up to one rounding per counted segment and one per
entry of the tally. -/
theorem C75_report {data : Data (Num F)} {ex : ExecInfo} {o : SyncOpts} {fuel n : ℕ}
    {s0 s1 s2 s1' s2' s3' : SimState (Num F)} {u1 u' : UnitState (Num F)} {c1 c' : Container (Num F)} {b : Balance}
    {surv : List (Particle (Num F))} {cs : List (ℕ × Num F)}
    (ht : StartTables data s0.unit) (h0 : StartOfRun s0) (hr : s0.reports = [])
    (hf : ∀ v ∈ s0.unit.flux, v = zero) (hn : n < data.nSteps)
    (hd : DirectCycles data o fuel n s0 s1) (hs : cycleSync data o n s1 = .ok s2)
    (hp : populationControl data s2.globalN s2.srcWeight s2.unit s2.container = .ok (u1, c1))
    (hg : Generations data u1.dom fuel c1.processing b surv cs)
    (h : Cycles data ex o fuel n s0 s1') (hs' : cycleSync data o n s1' = .ok s2')
    (hc : CycleProcess data ex fuel s2'.globalN s2'.srcWeight s2'.unit s2'.container u' c')
    (hs3 : cycleSync data o (n + 1) { s2' with unit := u', container := c' } = .ok s3') :
    ∃ f : Num F, s3'.reports = s2'.reports ++ [(n, { u'.balance with end_ := c'.processed.length }, f)] ∧
      (f.Finite → |f.real - exactSum (cs.map (·.2))| ≤
        F.drift (u'.flux.length + b.numSegments) * exactMass (cs.map (·.2))) := by
  obtain ⟨hz, hlen, hidx, cs', hperm, hfl⟩ := reference_flux num_zero_gt ht h0 hr hf hn hd hs hp hg h hs' hc
  refine ⟨scalarFluxSum u'.flux, cycleSync_report hs3, fun hfin => ?_⟩
  have hL : u'.flux.length = s2'.unit.flux.length := by rw [hfl, addContribs_length]
  have := total_error (flux := u'.flux) (cs := cs')
    (fun d hd => by rw [hL]; exact hidx d (hperm.mem_iff.1 hd))
    (fun i hi => by
      rw [hL] at hi
      rw [hfl]
      exact addContribs_getElem _ _ _ _ (by rw [List.getElem?_eq_getElem hi, hz _ (List.getElem_mem hi)])) hfin
  rw [exactSum_perm (hperm.map _), exactMass_perm (hperm.map _), hperm.length_eq, hlen] at this
  exact this

/-- **C75**, two schedules.  The total fluxes that two runs of the same problem report for the same cycle, with any
policies, numbers of threads, chunk sizes and interleavings, differ by at most twice that. -/
theorem C75_schedules {data : Data (Num F)} {exA exB : ExecInfo} {o : SyncOpts} {fuel n : ℕ}
    {s0 s1 s2 sA1 sA2 sA3 sB1 sB2 sB3 : SimState (Num F)} {u1 uA uB : UnitState (Num F)}
    {c1 cA cB : Container (Num F)} {b : Balance} {surv : List (Particle (Num F))} {cs : List (ℕ × Num F)}
    (ht : StartTables data s0.unit) (h0 : StartOfRun s0) (hr : s0.reports = [])
    (hf : ∀ v ∈ s0.unit.flux, v = zero) (hn : n < data.nSteps)
    (hd : DirectCycles data o fuel n s0 s1) (hs : cycleSync data o n s1 = .ok s2)
    (hp : populationControl data s2.globalN s2.srcWeight s2.unit s2.container = .ok (u1, c1))
    (hg : Generations data u1.dom fuel c1.processing b surv cs)
    (hA : Cycles data exA o fuel n s0 sA1) (hsA : cycleSync data o n sA1 = .ok sA2)
    (hcA : CycleProcess data exA fuel sA2.globalN sA2.srcWeight sA2.unit sA2.container uA cA)
    (hrA : cycleSync data o (n + 1) { sA2 with unit := uA, container := cA } = .ok sA3)
    (hB : Cycles data exB o fuel n s0 sB1) (hsB : cycleSync data o n sB1 = .ok sB2)
    (hcB : CycleProcess data exB fuel sB2.globalN sB2.srcWeight sB2.unit sB2.container uB cB)
    (hrB : cycleSync data o (n + 1) { sB2 with unit := uB, container := cB } = .ok sB3) :
    ∃ fA fB : Num F, sA3.reports.getLast? = some (n, { uA.balance with end_ := cA.processed.length }, fA) ∧
      sB3.reports.getLast? = some (n, { uB.balance with end_ := cB.processed.length }, fB) ∧
      (fA.Finite → fB.Finite → |fA.real - fB.real| ≤
        2 * F.drift (s0.unit.flux.length + b.numSegments) * exactMass (cs.map (·.2))) := by
  obtain ⟨fA, eA, bA⟩ := C75_report ht h0 hr hf hn hd hs hp hg hA hsA hcA hrA
  obtain ⟨fB, eB, bB⟩ := C75_report ht h0 hr hf hn hd hs hp hg hB hsB hcB hrB
  refine ⟨fA, fB, by rw [eA]; simp, by rw [eB]; simp, fun hA' hB' => ?_⟩
  have a := bA hA'
  have b := bB hB'
  have len : ∀ {ex : ExecInfo} {s s' : SimState (Num F)} {u : UnitState (Num F)} {c : Container (Num F)},
      Cycles data ex o fuel n s0 s → cycleSync data o n s = .ok s' →
      CycleProcess data ex fuel s'.globalN s'.srcWeight s'.unit s'.container u c →
      u.flux.length = s0.unit.flux.length := by
    intro ex s s' u c h1 h2 h3
    have hall := Cycles.succ h1 h2 h3
    have := cycles_flux_length ht h0 (by omega) hall
    exact this
  rw [len hA hsA hcA] at a
  rw [len hB hsB hcB] at b
  rw [abs_sub_comm] at b
  have := abs_sub_le fA.real (exactSum (cs.map (·.2))) fB.real
  linarith

/-! ## Single precision -/

theorem round_odd : F.round (2 ^ F.prec + 1) = 2 ^ F.prec := by
  have hp := F.prec_ge
  have hl := F.low_le
  have hpow : (2 : ℝ) ^ F.prec = 2 * 2 ^ (F.prec - 1) := by
    rw [← pow_succ']; congr 1; omega
  have hpos : (1 : ℝ) < 2 ^ F.prec := one_lt_pow₀ (by norm_num) (by omega)
  have hlog : Int.log 2 |(2 : ℝ) ^ F.prec + 1| = F.prec := by
    rw [abs_of_pos (by positivity)]
    have h1 := (Int.zpow_le_iff_le_log (b := 2) (x := (F.prec : ℤ)) (r := (2 : ℝ) ^ F.prec + 1) (by norm_num)
      (by positivity)).1 (by rw [zpow_natCast]; push_cast; linarith)
    have h2 := (Int.lt_zpow_iff_log_lt (b := 2) (x := (F.prec + 1 : ℤ)) (r := (2 : ℝ) ^ F.prec + 1) (by norm_num)
      (by positivity)).1 (by
        rw [zpow_add₀ (by norm_num), zpow_natCast, zpow_one]; push_cast; linarith)
    omega
  have hulp : F.ulp (2 ^ F.prec + 1) = 1 := by
    unfold Format.ulp
    rw [hlog]
    omega
  unfold Format.round
  rw [hulp, zpow_one]
  have hq : ((2 : ℝ) ^ F.prec + 1) / 2 = ((2 ^ (F.prec - 1) : ℤ) : ℝ) + 1 / 2 := by
    push_cast
    rw [hpow]; ring
  have hfl : ⌊((2 : ℝ) ^ F.prec + 1) / 2⌋ = 2 ^ (F.prec - 1) := by
    rw [hq, Int.floor_intCast_add]
    norm_num
  have hfr : Int.fract (((2 : ℝ) ^ F.prec + 1) / 2) = 1 / 2 := by
    rw [hq, Int.fract_intCast_add, Int.fract_eq_self.2 (by norm_num)]
  have hev : Even ((2 : ℤ) ^ (F.prec - 1)) := Even.pow_of_ne_zero (by norm_num) (by omega)
  unfold roundEven
  rw [hfr, if_neg (by norm_num), if_neg (by norm_num), hfl, if_pos hev, hpow]
  push_cast
  ring

theorem fits_nat {n : ℕ} (h : n ≤ 2 ^ F.prec) : F.Fits (n : ℝ) ∧ |(n : ℝ)| ≤ F.top := by
  have hl := F.low_le
  refine ⟨⟨n, 0, by rw [Nat.abs_cast]; exact_mod_cast h, by omega, by simp⟩, ?_⟩
  rw [Nat.abs_cast]
  have h1 : (n : ℝ) ≤ 2 ^ F.prec := by exact_mod_cast h
  have h2 : (2 : ℝ) ≤ 2 ^ F.high := by
    have := zpow_le_zpow_right₀ (a := (2 : ℝ)) (by norm_num) (show (1 : ℤ) ≤ F.high by have := F.high_ge; omega)
    simpa using this
  have h3 : (2 : ℝ) ≤ 2 ^ F.prec := by
    have := pow_le_pow_right₀ (a := (2 : ℝ)) (by norm_num) (show 1 ≤ F.prec by have := F.prec_ge; omega)
    simpa using this
  unfold Format.top
  nlinarith

/-- **Additions are lost**: a sum of `n` ones is `2^prec`, and no more, as soon as `n` is at least `2^prec`.  With `f32`
(`prec = 24`) an entry of the flux tally that received 16777216 equal contributions stops growing. -/
theorem C75_lost (n : ℕ) (hn : 2 ^ F.prec ≤ n) :
    (Flt.sum (List.replicate n (one : Num F))).Finite ∧
    (Flt.sum (List.replicate n (one : Num F))).real = 2 ^ F.prec ∧
    exactSum (List.replicate n (one : Num F)) = n := by
  have h1 : (one : Num F).Finite ∧ (one : Num F).real = 1 := by
    have h : Ieee.IsFin (one : Num F) 1 := Ieee.fin_one
    exact ⟨⟨1, h⟩, Num.real_eq h⟩
  have step : ∀ k, Flt.sum (List.replicate (k + 1) (one : Num F)) = Flt.sum (List.replicate k (one : Num F)) +. one := by
    intro k
    unfold Flt.sum
    rw [List.replicate_succ', List.foldl_append]; rfl
  have low : ∀ k ≤ 2 ^ F.prec, (Flt.sum (List.replicate k (one : Num F))).Finite ∧
      (Flt.sum (List.replicate k (one : Num F))).real = k := by
    intro k
    induction k with
    | zero => intro _; rw [Nat.cast_zero]; exact num_zero
    | succ k ih =>
      intro hk
      obtain ⟨a, b⟩ := ih (by omega)
      obtain ⟨f1, f2⟩ := fits_nat hk
      have e : (Flt.sum (List.replicate k (one : Num F))).real + (one : Num F).real = ((k + 1 : ℕ) : ℝ) := by
        rw [b, h1.2]; push_cast; ring
      have hfin : (Flt.sum (List.replicate k (one : Num F)) +. one).Finite :=
        Num.add_finite.2 ⟨a, h1.1, by rw [e, f1.round]; exact f2⟩
      rw [step]
      exact ⟨hfin, by rw [Num.add_real hfin, e, f1.round]⟩
  have high : ∀ j, (Flt.sum (List.replicate (2 ^ F.prec + j) (one : Num F))).Finite ∧
      (Flt.sum (List.replicate (2 ^ F.prec + j) (one : Num F))).real = 2 ^ F.prec := by
    intro j
    induction j with
    | zero =>
      have := low (2 ^ F.prec) le_rfl
      rw [add_zero]
      exact ⟨this.1, by rw [this.2]; push_cast; rfl⟩
    | succ j ih =>
      obtain ⟨a, b⟩ := ih
      obtain ⟨_, f2⟩ := fits_nat (F := F) (n := 2 ^ F.prec) le_rfl
      have e : (Flt.sum (List.replicate (2 ^ F.prec + j) (one : Num F))).real + (one : Num F).real = 2 ^ F.prec + 1 := by
        rw [b, h1.2]
      have hfin : (Flt.sum (List.replicate (2 ^ F.prec + j) (one : Num F)) +. one).Finite :=
        Num.add_finite.2 ⟨a, h1.1, by rw [e, round_odd]; exact_mod_cast f2⟩
      rw [← add_assoc, step]
      exact ⟨hfin, by rw [Num.add_real hfin, e, round_odd]⟩
  obtain ⟨j, rfl⟩ := Nat.exists_eq_add_of_le hn
  refine ⟨(high j).1, (high j).2, ?_⟩
  unfold exactSum
  rw [List.map_replicate, List.sum_replicate, h1.2]
  simp

/-- **The schedule shows**: the same three contributions, added in two orders, give two different fluxes. -/
theorem C75_order_matters_violated : ∃ l l' : List (Num F), l.Perm l' ∧ (∀ a ∈ l, a.Finite ∧ 0 ≤ a.real) ∧
    (Flt.sum l).Finite ∧ (Flt.sum l').Finite ∧ (Flt.sum l).real ≠ (Flt.sum l').real := by
  have h1 : (one : Num F).Finite ∧ (one : Num F).real = 1 := by
    have h : Ieee.IsFin (one : Num F) 1 := Ieee.fin_one
    exact ⟨⟨1, h⟩, Num.real_eq h⟩
  obtain ⟨g1, g2, _⟩ := C75_lost (F := F) _ le_rfl
  set big := Flt.sum (List.replicate (2 ^ F.prec) (one : Num F))
  have hp := F.prec_ge
  have hpow : (2 : ℝ) ^ F.prec = 2 * 2 ^ (F.prec - 1) := by
    rw [← pow_succ']; congr 1; omega
  have hone : (1 : ℝ) ≤ 2 ^ (F.prec - 1) := one_le_pow₀ (by norm_num)
  have hh : (2 : ℝ) ^ (2 : ℤ) ≤ 2 ^ F.high := zpow_le_zpow_right₀ (by norm_num) (by have := F.high_ge; omega)
  have htop : (2 : ℝ) ^ F.prec + 2 ≤ F.top := by
    unfold Format.top
    norm_num at hh
    nlinarith
  have add : ∀ (a b : Num F) (x y : ℝ), a.Finite → b.Finite → F.round (a.real + b.real) = y → 0 ≤ y →
      y ≤ 2 ^ F.prec + 2 → (a +. b).Finite ∧ (a +. b).real = y := by
    intro a b x y ha hb e h0 hy
    have hfin : (a +. b).Finite := Num.add_finite.2 ⟨ha, hb, by rw [e, abs_of_nonneg h0]; linarith⟩
    exact ⟨hfin, by rw [Num.add_real hfin, e]⟩
  have rnat : ∀ n : ℕ, n ≤ 2 ^ F.prec → F.round (n : ℝ) = n := fun n hn => (fits_nat hn).1.round
  have rtwo : F.round (2 ^ F.prec + 2) = 2 ^ F.prec + 2 := by
    refine Format.Fits.round ⟨2 ^ (F.prec - 1) + 1, 1, ?_, by have := F.low_le; omega, ?_⟩
    · have : (1 : ℤ) ≤ 2 ^ (F.prec - 1) := one_le_pow₀ (by norm_num)
      have e : (2 : ℤ) ^ F.prec = 2 * 2 ^ (F.prec - 1) := by rw [← pow_succ']; congr 1; omega
      rw [abs_of_pos (by linarith), e]
      linarith
    · push_cast
      rw [hpow, zpow_one]; ring
  have r0 := num_zero (F := F)
  -- the large one first
  obtain ⟨a1, a2⟩ := add zero big 0 (2 ^ F.prec) r0.1 g1 (by
    rw [r0.2, g2, zero_add]
    have := rnat (2 ^ F.prec) le_rfl
    push_cast at this
    exact this) (by positivity) (by linarith)
  obtain ⟨b1, b2⟩ := add (zero +. big) one 0 (2 ^ F.prec) a1 h1.1 (by rw [a2, h1.2, round_odd]) (by positivity) (by linarith)
  obtain ⟨c1, c2⟩ := add (zero +. big +. one) one 0 (2 ^ F.prec) b1 h1.1 (by rw [b2, h1.2, round_odd]) (by positivity)
    (by linarith)
  -- the large one last
  have two_le : 2 ≤ 2 ^ F.prec := by
    calc 2 = 2 ^ 1 := rfl
      _ ≤ 2 ^ F.prec := Nat.pow_le_pow_right (by norm_num) (by omega)
  obtain ⟨d1, d2⟩ := add zero one 0 1 r0.1 h1.1 (by
    rw [r0.2, h1.2, zero_add]
    have := rnat 1 (by omega)
    push_cast at this
    exact this) (by norm_num) (by linarith)
  obtain ⟨e1, e2⟩ := add (zero +. one) one 0 2 d1 h1.1 (by
    rw [d2, h1.2]
    have := rnat 2 two_le
    push_cast at this
    norm_num [this]) (by norm_num) (by linarith)
  obtain ⟨f1, f2⟩ := add (zero +. one +. one) big 0 (2 ^ F.prec + 2) e1 g1 (by
    rw [e2, g2, add_comm, rtwo]) (by positivity) le_rfl
  refine ⟨[big, one, one], [one, one, big], ?_, ?_, c1, f1, ?_⟩
  · exact (List.Perm.swap _ _ _).trans (.cons _ (.swap _ _ _))
  · intro a ha
    simp only [List.mem_cons, List.not_mem_nil, or_false, or_self] at ha
    rcases ha with rfl | rfl
    · exact ⟨g1, by rw [g2]; positivity⟩
    · exact ⟨h1.1, by rw [h1.2]; norm_num⟩
  · change (zero +. big +. one +. one).real ≠ (zero +. one +. one +. big).real
    rw [c2, f2]
    linarith

end C75

/-! ## The hypotheses are met -/

/-- `f64`: a million contributions of `1`, in any order, with no overflow; the bound is below `10^-9`. -/
example : (∀ a ∈ List.replicate 1000000 (one : Num binary64), a.Finite) ∧
    (Flt.sum (List.replicate 1000000 (one : Num binary64))).Finite ∧
    binary64.drift 1000000 ≤ 1 / 10 ^ 9 ∧ exactMass (List.replicate 1000000 (one : Num binary64)) = 1000000 := by
  have h1 : (one : Num binary64).Finite ∧ (one : Num binary64).real = 1 := by
    have h : Ieee.IsFin (one : Num binary64) 1 := Ieee.fin_one
    exact ⟨⟨1, h⟩, Num.real_eq h⟩
  have hall : ∀ a ∈ List.replicate 1000000 (one : Num binary64), a.Finite := fun a ha => by
    rw [List.eq_of_mem_replicate ha]; exact h1.1
  have he : binary64.eps = 1 / 2 ^ 53 := rfl
  have hd : binary64.drift 1000000 ≤ 1 / 10 ^ 9 := by
    refine (C75_linear ?_).trans ?_ <;> rw [he] <;> norm_num
  have hm : exactMass (List.replicate 1000000 (one : Num binary64)) = 1000000 := by
    unfold exactMass
    rw [List.map_replicate, List.sum_replicate, h1.2]
    norm_num
  refine ⟨hall, C75_finite hall ?_, hd, hm⟩
  rw [List.length_replicate, hm]
  have ht : (2 : ℝ) ^ 53 - 1 ≤ binary64.top := by
    have h2 : (1 : ℝ) ≤ 2 ^ (971 : ℤ) := one_le_zpow₀ (by norm_num) (by norm_num)
    change (2 : ℝ) ^ 53 - 1 ≤ (2 ^ 53 - 1) * 2 ^ (971 : ℤ)
    exact le_mul_of_one_le_right (by norm_num) h2
  nlinarith

/-- `f32`: after 16777216 contributions of `1`, no more are counted. -/
example : (Flt.sum (List.replicate 20000000 (one : Num binary32))).real = 16777216 := by
  have := (C75_lost (F := binary32) 20000000 (by show 2 ^ 24 ≤ _; norm_num)).2.1
  rw [this]
  show (2 : ℝ) ^ 24 = _
  norm_num

/-- The hypotheses about runs hold together, for the last cycle of the toy run with four threads. -/
example : ∃ (n : ℕ) (s1 s2 s1' s2' s3' : SimState Toy) (u1 u' : UnitState Toy) (c1 c' : Container Toy) (b : Balance)
    (surv : List (Particle Toy)) (cs : List (ℕ × Toy)),
    StartTables toyData toySim.unit ∧ StartOfRun toySim ∧ toySim.reports = [] ∧ (∀ v ∈ toySim.unit.flux, v = zero) ∧
    n < toyData.nSteps ∧ DirectCycles toyData toyOpts 20 n toySim s1 ∧ cycleSync toyData toyOpts n s1 = .ok s2 ∧
    populationControl toyData s2.globalN s2.srcWeight s2.unit s2.container = .ok (u1, c1) ∧
    Generations toyData u1.dom 20 c1.processing b surv cs ∧
    Cycles toyData ⟨.rayon, 1, 4, 1⟩ toyOpts 20 n toySim s1' ∧ cycleSync toyData toyOpts n s1' = .ok s2' ∧
    CycleProcess toyData ⟨.rayon, 1, 4, 1⟩ 20 s2'.globalN s2'.srcWeight s2'.unit s2'.container u' c' ∧
    cycleSync toyData toyOpts (n + 1) { s2' with unit := u', container := c' } = .ok s3' := by
  obtain ⟨s, hd, _⟩ := toyDirect_run
  obtain ⟨_, h2⟩ := C09_run_schedule_independent toyData toyOpts 20 toySim s (by decide +kernel)
    toy_startTables rfl rfl hd
  obtain ⟨s', t', hc', hs'⟩ := h2 ⟨.rayon, 1, 4, 1⟩ (.inl (by decide +kernel))
  obtain ⟨t, hc, hs⟩ := hd
  obtain ⟨n, hn⟩ : ∃ n, toyData.nSteps = n + 1 := ⟨toyData.nSteps - 1, by decide⟩
  rw [hn] at hc hc' hs hs'
  cases hc with
  | @succ _ _ s1 s2 u c d1 d2 d3 =>
    cases hc' with
    | @succ _ _ s1' s2' u' c' e1 e2 e3 =>
      obtain ⟨u1, c1, b, surv, cs, p1, p2, _, _⟩ := d3
      exact ⟨n, s1, s2, s1', s2', s', u1, u', c1, c', b, surv, cs, toy_startTables, ⟨rfl, rfl, rfl, rfl, rfl, rfl⟩, rfl,
        by decide, by omega, d1, d2, p1, p2, e1, e2, e3, hs'⟩
