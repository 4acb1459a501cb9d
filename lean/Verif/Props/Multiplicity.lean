import Verif.Spec.Multiplicity
import Verif.Props.Draws
import Verif.Props.CrossSections
import Verif.Props.EndToEnd
import Verif.Lemmas.SomeCollision
import Mathlib.MeasureTheory.Integral.IntervalIntegral.Basic
/-!
# C82: the mean number of neutrons out of a collision

Whether a population grows or dies out rests on the mean number of neutrons that come out of a collision.  It is that
of the material: (scattering + Σ fission × ν̄) / total.
-/
open Flt FltReal Rng
attribute [local irreducible] Rng.lcg Rng.sample Rng.spawn

/-! ### One collision -/

/-- **C82** (collision).  A collision selects its reaction with the first draw, decides on the yield with the second, and
the neutrons that come out (the particle itself when it is kept, and the new ones) number what the reaction gives. -/
theorem C82_collision {data : Data ℝ} {m : ℕ} {mat : Material ℝ} (hm : data.materials[m]? = some mat) {ρ : ℝ}
    {st : TrackState ℝ} {ts : List (ℝ × Reaction ℝ)} (hp : Present ρ mat)
    (ht : MaterialTerms data ρ st.particle.energyGroup mat ts) (hw : ∀ t ∈ ts, 0 ≤ t.1)
    (hnu : ∀ t ∈ ts, t.2.rtype = .fission → 0 ≤ t.2.nuBar ∧ t.2.nuBar < 4)
    (htot : st.particle.totalCrossSection = totalWeight ts) (hpos : 0 < totalWeight ts)
    (hu : draw st.particle.seed < 1) {out : ℝ → ℝ → ℕ} (hout : OutOf ts out) (fuel : ℕ) :
    ∃ keep st', collisionEvent data (fuel + 2) m ρ st = .ok (keep, st') ∧
      st'.extra.length + (if keep then 1 else 0) =
        st.extra.length + out (draw st.particle.seed) (draw (lcg st.particle.seed)) := by
  obtain ⟨k, hk, k1, k2, he⟩ := C28_event hm hp ht hw htot hpos hu fuel
  rw [hout _ _ k hk k1 k2, he]
  have hnu := hnu _ (List.getElem_mem hk)
  generalize ts[k].2 = r at hnu ⊢
  have key : ∃ n p' extra, ({ st.particle with seed := lcg st.particle.seed } : Particle ℝ).sampleCollision r mat.mass =
      .ok (n, p', extra) ∧ n = neutronsOut r (draw (lcg st.particle.seed)) ∧ extra.length = n - 1 := by
    unfold neutronsOut
    cases hr : r.rtype with
    | scatter =>
      unfold Particle.sampleCollision
      rw [hr]
      exact ⟨_, _, _, rfl, rfl, rfl⟩
    | absorption =>
      unfold Particle.sampleCollision
      rw [hr]
      exact ⟨_, _, _, rfl, rfl, rfl⟩
    | fission =>
      obtain ⟨n0, n4⟩ := hnu hr
      obtain ⟨n, p', extra, e1, e2, _, e4⟩ := C31_yield { st.particle with seed := lcg st.particle.seed } r mat.mass hr n0
        (by have := draw_le_one (lcg st.particle.seed); dsimp only; linarith)
      exact ⟨n, p', extra, e1, e2, e4⟩
  obtain ⟨n, p', extra, e1, e2, e3⟩ := key
  rw [e1]
  refine ⟨_, _, rfl, ?_⟩
  simp only [List.length_append, decide_eq_true_eq, ← e2]
  split <;> omega

/-! ### The mean -/

theorem mean_neutronsOut {r : Reaction ℝ} (hnu : r.rtype = .fission → 0 ≤ r.nuBar) :
    ∫ v in (0 : ℝ)..1, (neutronsOut r v : ℝ) =
      match r.rtype with | .scatter => 1 | .absorption => 0 | .fission => r.nuBar := by
  unfold neutronsOut
  cases hr : r.rtype with
  | scatter => simp
  | absorption => simp
  | fission => exact C31_mean (hnu hr)

/-- The integral of a function that is constant on each interval of cumulated weights. -/
theorem integral_cumulated {ts : List (ℝ × Reaction ℝ)} (hw : ∀ t ∈ ts, 0 ≤ t.1) {f : ℝ → ℝ} {g : Reaction ℝ → ℝ}
    (hf : ∀ x k, ∀ hk : k < ts.length, cumWeight ts k ≤ x → x < cumWeight ts (k + 1) → f x = g ts[k].2) :
    ∀ k ≤ ts.length, IntervalIntegrable f MeasureTheory.volume 0 (cumWeight ts k) ∧
      ∫ x in (0 : ℝ)..cumWeight ts k, f x = ((ts.take k).map fun t => t.1 * g t.2).sum := by
  intro k
  induction k with
  | zero => intro _; simp [cumWeight_zero]
  | succ k ih =>
    intro hk
    obtain ⟨i1, i2⟩ := ih (by omega)
    have hk' : k < ts.length := by omega
    have hle : cumWeight ts k ≤ cumWeight ts (k + 1) := cumWeight_mono hw (Nat.le_succ k)
    have heq : Set.EqOn (fun _ => g ts[k].2) f (Set.Ioo (cumWeight ts k) (cumWeight ts (k + 1))) := fun x hx =>
      (hf x k hk' hx.1.le hx.2).symm
    have hint : IntervalIntegrable f MeasureTheory.volume (cumWeight ts k) (cumWeight ts (k + 1)) :=
      (intervalIntegrable_const (c := g ts[k].2)).congr_uIoo (by rw [Set.uIoo_of_le hle]; exact heq)
    refine ⟨i1.trans hint, ?_⟩
    rw [← intervalIntegral.integral_add_adjacent_intervals i1 hint, i2,
      ← intervalIntegral.integral_congr_Ioo_of_le hle heq, intervalIntegral.integral_const, cumWeight_succ hk',
      List.take_succ_eq_append_getElem hk', List.map_append, List.sum_append]
    simp

/-- **C82** (mean).  For two independent uniform draws, the mean number of neutrons out of a collision is the scattering
weight plus the fission weights times their mean yields, over the total weight. -/
theorem C82_mean {ts : List (ℝ × Reaction ℝ)} (hw : ∀ t ∈ ts, 0 ≤ t.1) (hpos : 0 < totalWeight ts)
    (hnu : ∀ t ∈ ts, t.2.rtype = .fission → 0 ≤ t.2.nuBar) {out : ℝ → ℝ → ℕ} (hout : OutOf ts out) :
    ∫ u in (0 : ℝ)..1, (∫ v in (0 : ℝ)..1, (out u v : ℝ)) =
      (typeWeight ts .scatter + fissionYield ts) / totalWeight ts := by
  set g : Reaction ℝ → ℝ := fun r => match r.rtype with | .scatter => 1 | .absorption => 0 | .fission => r.nuBar with hg
  set f : ℝ → ℝ := fun x => ∫ v in (0 : ℝ)..1, (out (x / totalWeight ts) v : ℝ) with hfd
  have hf : ∀ x k, ∀ hk : k < ts.length, cumWeight ts k ≤ x → x < cumWeight ts (k + 1) → f x = g ts[k].2 := by
    intro x k hk h1 h2
    rw [hfd, hg]
    dsimp only
    rw [← mean_neutronsOut (hnu _ (List.getElem_mem hk))]
    refine intervalIntegral.integral_congr fun v _ => ?_
    have e : totalWeight ts * (x / totalWeight ts) = x := mul_div_cancel₀ _ hpos.ne'
    rw [hout (x / totalWeight ts) v k hk (by rw [e]; exact h1) (by rw [e]; exact h2)]
  have hsum := (integral_cumulated hw hf ts.length le_rfl).2
  rw [cumWeight_length, List.take_length] at hsum
  have hsub : ∫ u in (0 : ℝ)..1, (∫ v in (0 : ℝ)..1, (out u v : ℝ)) = ∫ u in (0 : ℝ)..1, f (totalWeight ts * u) := by
    refine intervalIntegral.integral_congr fun u _ => ?_
    rw [hfd]
    dsimp only
    rw [mul_div_cancel_left₀ _ hpos.ne']
  rw [hsub, intervalIntegral.integral_comp_mul_left _ hpos.ne', mul_zero, mul_one, hsum, smul_eq_mul, div_eq_inv_mul]
  congr 1
  clear hsum hsub hf hfd hnu hout hw hpos
  unfold typeWeight fissionYield
  induction ts with
  | nil => simp
  | cons t ts ih =>
    simp only [List.map_cons, List.sum_cons, ih, List.filter_cons]
    cases hr : t.2.rtype <;> simp [hg, hr] <;> ring

/-- **C82** (growth).  The mean number exceeds one by the surplus of the fissions less the absorptions, over the total:
collisions multiply the neutrons exactly when the fission surplus `Σ weight × (ν̄ - 1)` exceeds the absorption. -/
theorem C82_growth {ts : List (ℝ × Reaction ℝ)} (hw : ∀ t ∈ ts, 0 ≤ t.1) (hpos : 0 < totalWeight ts)
    (hnu : ∀ t ∈ ts, t.2.rtype = .fission → 0 ≤ t.2.nuBar) {out : ℝ → ℝ → ℕ} (hout : OutOf ts out) :
    (1 < ∫ u in (0 : ℝ)..1, (∫ v in (0 : ℝ)..1, (out u v : ℝ))) ↔
      typeWeight ts .absorption < fissionYield ts - typeWeight ts .fission := by
  have hall : totalWeight ts = typeWeight ts .scatter + typeWeight ts .absorption + typeWeight ts .fission := by
    clear hw hpos hnu hout
    unfold totalWeight typeWeight
    induction ts with
    | nil => simp
    | cons t ts ih =>
      simp only [List.map_cons, List.sum_cons, ih, List.filter_cons]
      cases hr : t.2.rtype <;> simp <;> ring
  rw [C82_mean hw hpos hnu hout, lt_div_iff₀ hpos, one_mul]
  constructor <;> intro h <;> linarith

/-! ### Collisions of a run -/

theorem terms_mem {data : Data ℝ} {mat : Material ℝ} {ρ : ℝ} {g : Nat} {ts : List (ℝ × Reaction ℝ)}
    (ht : MaterialTerms data ρ g mat ts) : ∀ t ∈ ts, ∃ rs ∈ data.nuclear.isotopes, t.2 ∈ rs := by
  obtain ⟨tss, hall, rfl⟩ := ht
  intro t ht
  obtain ⟨l, hl, htl⟩ := List.mem_flatten.1 ht
  have key : ∀ (isos : List (Isotope ℝ)) (tss : List (List (ℝ × Reaction ℝ))),
      List.Forall₂ (IsotopeTerms data ρ g) isos tss → ∀ l ∈ tss, ∃ iso, IsotopeTerms data ρ g iso l := by
    intro isos tss h
    induction h with
    | nil => simp
    | cons h1 _ ih =>
      intro l hl
      rcases List.mem_cons.1 hl with rfl | hl
      · exact ⟨_, h1⟩
      · exact ih l hl
  obtain ⟨iso, rs, hrs, hf⟩ := key _ _ hall l hl
  refine ⟨rs, List.mem_of_getElem? hrs, ?_⟩
  clear hrs hl key hall ht
  induction hf with
  | nil => cases htl
  | cons h1 _ ih =>
    rcases List.mem_cons.1 htl with rfl | h
    · obtain ⟨σ, _, rfl⟩ := h1
      exact List.mem_cons_self
    · exact List.mem_cons_of_mem _ (ih h)

/-- **C82** (run).  In a run on a valid input, when the segment of a particle ends by a collision: the number of neutrons
that come out is decided by the next two draws, and its mean over uniform draws is that of the material of the cell of
the particle in its energy group. -/
theorem C82_run {p : Params ℝ} (h : ValidInput p) {so : StrOrder} (hso : ∀ l, (so l).Perm l) {io : IterOrder}
    (hio : ∀ l, (io l).Perm l) (m : Machine) (hth : 1 ≤ m.defaultThreads) {fuel : Nat}
    (hfuel : GridSpec.cells p.grid + 1 ≤ fuel) {s : Started ℝ} (hs : startRun so io m fuel p = .ok (some s))
    (hfill : FilledMaterials p) (hfull : ∀ k mp, p.materials.get? k = some mp → Filled mp)
    {fuel' : Nat} {d : Domain ℝ} (hd : d.skeleton = s.state.unit.dom.skeleton) {q r : Particle ℝ} {tr : List (Ev ℝ)}
    (hq : ReachableBy (CacheAnswer s.data) s.data s.state.unit.dom fuel' q)
    (hm : (outcome s.data d q).May tr (.collision, r)) (hl : Ev.LoadsIn (CacheAnswer s.data d) tr)
    (hu : draw r.seed < 1) :
    ∃ cs mat ts, d.cells[q.cell]? = some cs ∧ s.data.materials[cs.material]? = some mat ∧
      MaterialTerms s.data cs.cellNumberDensity q.energyGroup mat ts ∧ 0 < totalWeight ts ∧
      ∀ out, OutOf ts out →
        (∀ (st : TrackState ℝ) (f : Nat), st.particle = { r with numSegments := r.numSegments +. one } →
          ∃ keep st', collisionEvent s.data (f + 2) cs.material cs.cellNumberDensity st = .ok (keep, st') ∧
            st'.extra.length + (if keep then 1 else 0) =
              st.extra.length + out (draw r.seed) (draw (lcg r.seed))) ∧
        ∫ u in (0 : ℝ)..1, (∫ v in (0 : ℝ)..1, (out u v : ℝ)) =
          (typeWeight ts .scatter + fissionYield ts) / totalWeight ts := by
  obtain ⟨cs, mat, ts, h1, h2, h3, h4, h5, h6, _⟩ := C81_collision h hso hio m hth hfuel hs hfill hfull hd hq hm hl hu
  obtain ⟨s', e1, e2, _⟩ := h.start hso hio m hth fuel hfuel
  rw [hs] at e1
  cases e1
  have hpr := (started_present hso h.named h.consistent hfill hs).skeleton hd
  have hnu : ∀ t ∈ ts, 0 ≤ t.2.nuBar ∧ t.2.nuBar < 4 := by
    intro t ht
    obtain ⟨rs, hrs, hr⟩ := terms_mem h3 t ht
    exact e2.tracking.nuBar rs hrs _ hr
  refine ⟨cs, mat, ts, h1, h2, h3, h5, fun out hout => ⟨fun st f hst => ?_, C82_mean h4 h5 (fun t ht _ => (hnu t ht).1) hout⟩⟩
  have g1 : st.particle.energyGroup = q.energyGroup := by rw [hst]; exact (outcome_frame hm).energyGroup
  have g3 : st.particle.seed = r.seed := by rw [hst]
  have := C82_collision h2 (st := st) (hpr _ (List.mem_of_getElem? h1) _ h2) (by rw [g1]; exact h3) h4
    (fun t ht _ => hnu t ht) (by rw [hst]; exact h6) h5 (by rw [g3]; exact hu) hout f
  rw [g3] at this
  exact this

/-- A case: a material of one scattering reaction of weight 2, one absorption of weight 1 and one fission of weight 1 and
mean yield 5/2 multiplies the neutrons by 9/8. -/
example : ∃ (ts : List (ℝ × Reaction ℝ)) (out : ℝ → ℝ → ℕ), (∀ t ∈ ts, 0 ≤ t.1) ∧ 0 < totalWeight ts ∧
    (∀ t ∈ ts, t.2.rtype = .fission → 0 ≤ t.2.nuBar) ∧ OutOf ts out ∧
    ∫ u in (0 : ℝ)..1, (∫ v in (0 : ℝ)..1, (out u v : ℝ)) = 9 / 8 := by
  classical
  let ts : List (ℝ × Reaction ℝ) := [(2, ⟨[], .scatter, 0⟩), (1, ⟨[], .absorption, 0⟩), (1, ⟨[], .fission, 5 / 2⟩)]
  have hw : ∀ t ∈ ts, 0 ≤ t.1 := by simp [ts]
  have hpos : 0 < totalWeight ts := by norm_num [totalWeight, ts]
  have hnu : ∀ t ∈ ts, t.2.rtype = .fission → 0 ≤ t.2.nuBar := by norm_num [ts]
  let out : ℝ → ℝ → ℕ := fun u v =>
    if h : ∃ k, k < ts.length ∧ cumWeight ts k ≤ totalWeight ts * u ∧ totalWeight ts * u < cumWeight ts (k + 1)
    then neutronsOut (ts[h.choose]'h.choose_spec.1).2 v else 0
  have hout : OutOf ts out := by
    intro u v k hk h1 h2
    have h : ∃ k, k < ts.length ∧ cumWeight ts k ≤ totalWeight ts * u ∧ totalWeight ts * u < cumWeight ts (k + 1) :=
      ⟨k, hk, h1, h2⟩
    have hlt : totalWeight ts * u < totalWeight ts := by
      rw [← cumWeight_length]
      exact h2.trans_le (cumWeight_mono hw hk)
    have hk' : h.choose = k := (C28_tiling hw ((cumWeight_nonneg hw k).trans h1) hlt).unique h.choose_spec ⟨hk, h1, h2⟩
    simp only [out, dif_pos h, hk']
  refine ⟨ts, out, hw, hpos, hnu, hout, ?_⟩
  rw [C82_mean hw hpos hnu hout]
  simp only [typeWeight, fissionYield, totalWeight, ts, List.filter_cons]
  simp
  norm_num

/-- All hypotheses of `C81_collision` and `C82_run` are met together: the small problem starts, and a particle that its run
can meet collides, with a draw below one to select the reaction. -/
example : ∃ (p : Params ℝ) (s : Started ℝ) (q r : Particle ℝ) (tr : List (Ev ℝ)), ValidInput p ∧ FilledMaterials p ∧
    (∀ k mp, p.materials.get? k = some mp → Filled mp) ∧ startRun List.reverse id ⟨4, true⟩ 2 p = .ok (some s) ∧
    ReachableBy (CacheAnswer s.data) s.data s.state.unit.dom 10 q ∧
    (outcome s.data s.state.unit.dom q).May tr (.collision, r) ∧
    Ev.LoadsIn (CacheAnswer s.data s.state.unit.dom) tr ∧ draw r.seed < 1 := by
  obtain ⟨dt, hdt, s, _, hs, _⟩ := small_run
  obtain ⟨q, r, tr, h1, h2, h3, h4⟩ := some_collision (small_valid hdt) (so := List.reverse)
    (fun l => List.reverse_perm l) (io := id) (fun l => .refl _) ⟨4, true⟩ (by norm_num) (by rw [small_cells]) hs 10
  exact ⟨_, s, q, r, tr, small_valid hdt, small_filled dt, small_full dt, hs, h1, h2, h3, h4⟩
