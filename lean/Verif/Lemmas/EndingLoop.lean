import Verif.Lemmas.EndingEvent
import Verif.Props.CrossSections
/-!
# Tracking ends: the loop over the segments of a particle
-/
open Flt FltReal GridSpec MeshSpec Flooding Rng
attribute [local irreducible] Rng.lcg Rng.sample Rng.spawn

/-- The weights of the reactions are not negative. -/
theorem terms_nonneg {data : Data ℝ} {dom : Domain ℝ} (hx : NonnegTables data dom) {mat : Material ℝ}
    (hm : mat ∈ data.materials) {ρ : ℝ} (hρ : 0 ≤ ρ) {g : Nat} {ts : List (ℝ × Reaction ℝ)}
    (ht : MaterialTerms data ρ g mat ts) : ∀ t ∈ ts, 0 ≤ t.1 := by
  obtain ⟨tss, hall, rfl⟩ := ht
  intro t ht
  obtain ⟨l, hl, htl⟩ := List.mem_flatten.1 ht
  have key : ∀ (isos : List (Isotope ℝ)) (tss : List (List (ℝ × Reaction ℝ))),
      List.Forall₂ (IsotopeTerms data ρ g) isos tss → ∀ l ∈ tss, ∃ iso ∈ isos, IsotopeTerms data ρ g iso l := by
    intro isos tss h
    induction h with
    | nil => simp
    | cons h _ ih =>
      intro l hl
      rcases List.mem_cons.1 hl with rfl | hl
      · exact ⟨_, by simp, h⟩
      · obtain ⟨iso, h1, h2⟩ := ih l hl
        exact ⟨iso, by simp [h1], h2⟩
  obtain ⟨iso, hiso, rs, hrs, hf⟩ := key _ _ hall l hl
  have key2 : ∀ (rs : List (Reaction ℝ)) (l : List (ℝ × Reaction ℝ)),
      List.Forall₂ (fun r t => ∃ σ, r.crossSection[g]? = some σ ∧ t = (iso.atomFraction * ρ * σ, r)) rs l →
      ∀ t ∈ l, ∃ r ∈ rs, ∃ σ, r.crossSection[g]? = some σ ∧ t = (iso.atomFraction * ρ * σ, r) := by
    intro rs l h
    induction h with
    | nil => simp
    | cons h _ ih =>
      intro t ht
      rcases List.mem_cons.1 ht with rfl | ht
      · exact ⟨_, by simp, h⟩
      · obtain ⟨r, h1, h2⟩ := ih t ht
        exact ⟨r, by simp [h1], h2⟩
  obtain ⟨r, hr, σ, hσ, rfl⟩ := key2 _ _ hf t htl
  exact mul_nonneg (mul_nonneg (hx.fraction _ hm _ hiso) hρ)
    (hx.tables _ (List.mem_of_getElem? hrs) _ hr _ (List.mem_of_getElem? hσ))

/-- The choice of the reaction ends after three passes at most. -/
theorem pick_total {data : Data ℝ} {mat : Material ℝ} {ρ : ℝ} {g : ℕ} {ts : List (ℝ × Reaction ℝ)}
    (hp : Present ρ mat) (ht : MaterialTerms data ρ g mat ts) (hw : ∀ t ∈ ts, 0 ≤ t.1) (hpos : 0 < totalWeight ts)
    {u : ℝ} (h0 : 0 ≤ u) (h1 : u ≤ 1) {fuel : Nat} (hf : 3 ≤ fuel) :
    ∃ r, pickReaction data mat ρ g fuel (totalWeight ts * u) none = .ok r := by
  obtain ⟨n, rfl⟩ := Nat.exists_eq_add_of_le' hf
  rcases h1.lt_or_eq with h1 | rfl
  · obtain ⟨k, ⟨hk, ha, hb⟩, -⟩ := C28_tiling hw (mul_nonneg hpos.le h0) (show totalWeight ts * u < totalWeight ts by nlinarith)
    exact ⟨_, C28_choice hp ht hw hk ha hb (n + 1)⟩
  · obtain ⟨k, ⟨hk, ha, hb⟩, -⟩ := C28_tiling hw le_rfl hpos
    have h2 : cumWeight ts k = 0 := le_antisymm ha (cumWeight_nonneg hw k)
    rw [cumWeight_succ hk, h2, zero_add] at hb
    rw [mul_one]
    exact ⟨_, C28_largest_draw hp ht hw hk hb h2 n⟩

/-- Every material is present in the cells made of it. -/
def AllPresent (data : Data ℝ) (dom : Domain ℝ) : Prop :=
  ∀ cs ∈ dom.cells, ∀ mat, data.materials[cs.material]? = some mat → Present cs.cellNumberDensity mat

/-- A collision with a positive cross-section has a result. -/
theorem collision_total {data : Data ℝ} {dom : Domain ℝ} (hs : SafeTracking data dom) (hpr : AllPresent data dom)
    {fuel : Nat} (hf : 3 ≤ fuel) {st : TrackState ℝ} (hc : st.particle.cell < dom.cells.length)
    (hg : st.particle.energyGroup < dom.numGroups)
    (hx : directXs data dom st.particle.cell st.particle.energyGroup = .ok st.particle.totalCrossSection)
    (hne : st.particle.totalCrossSection ≠ 0) : ∃ r, collisionBranch data dom fuel st = .ok r := by
  refine ok_of_no_error fun e he => ?_
  have hx0 : 0 ≤ st.particle.totalCrossSection := hs.time.tables.directXs hx
  obtain rfl := hs.collision hc hg hx0 he
  have hcs := List.getElem?_eq_getElem hc
  have hmem := List.getElem_mem hc
  have hmat := hs.material _ hmem
  have hmt := List.getElem?_eq_getElem hmat
  obtain ⟨ts, ht, e⟩ := C29_same_total hcs hmt (hpr _ hmem _ hmt) hx
  have hw := terms_nonneg hs.time.tables (List.getElem_mem hmat) (hs.time.tables.density _ hmem) ht
  rw [cumWeight_length] at e
  unfold collisionBranch at he
  rw [idx_lt hc] at he
  generalize dom.cells[st.particle.cell] = cs at *
  simp only [bind_error, pure_error, and_false, exists_false, or_false, reduceCtorEq, false_or, Except.ok.injEq,
    exists_eq_left'] at he
  rcases he with he | ⟨⟨keep, st1⟩, _, he⟩
  · unfold collisionEvent at he
    obtain ⟨u0, u1⟩ := sample01 st.particle.seed
    have hcx : st.particle.getCurrentXs.1 = totalWeight ts * (Rng.sample (T := ℝ) st.particle.seed).1 ∧
        st.particle.getCurrentXs.2.energyGroup = st.particle.energyGroup := by
      unfold Particle.getCurrentXs
      generalize Rng.sample (T := ℝ) st.particle.seed = r1
      obtain ⟨u, s⟩ := r1
      exact ⟨by rw [← e]; rfl, rfl⟩
    generalize st.particle.getCurrentXs = xp at he hcx
    obtain ⟨xs, p⟩ := xp
    dsimp only at he hcx
    rw [idx_lt hmat] at he
    simp only [bind_error, reduceCtorEq, false_or, Except.ok.injEq, exists_eq_left'] at he
    obtain ⟨r, hr⟩ := pick_total (hpr _ hmem _ hmt) ht hw (by rw [← e]; exact lt_of_le_of_ne hx0 (Ne.symm hne)) u0 u1 hf
    rw [hcx.1, hcx.2, hr] at he
    rcases he with he | ⟨_, he', he⟩
    · cases he
    · cases he'
      rcases hs.pick (List.getElem_mem hmat) (density := cs.cellNumberDensity) (group := st.particle.energyGroup) hg fuel
        (totalWeight ts * (Rng.sample (T := ℝ) st.particle.seed).1) none
        (.inl (mul_nonneg (by rw [← e]; exact hx0) u0)) with hp | ⟨r', hp, rs, hrs, hr'⟩
      · rw [hr] at hp; cases hp
      · rw [hr] at hp
        cases hp
        dsimp only at he
        obtain ⟨n0, n1⟩ := hs.nuBar rs hrs r' hr'
        obtain ⟨x, hx⟩ := sampleCollision_safe n0 n1 p data.materials[cs.material].mass
        rw [hx] at he
        cases he
  · obtain ⟨g, hg'⟩ := hs.group st1.particle.kineticEnergy
    rw [hg'] at he
    cases he

/-- A segment of an ordinary particle and its event have a result. -/
theorem segment_total {data : Data ℝ} {dom : Domain ℝ} {g : Grid ℝ} (hs : SafeTracking data dom) (hpr : AllPresent data dom)
    {fuel : Nat} (hf : 3 ≤ fuel) {p : Particle ℝ} (hp : TimeOk p) (hi : IndexOk dom p)
    (hgp : p.energyGroup < dom.numGroups) (hor : Ordinary data dom g p) :
    ∃ o q, directOutcome data dom p = .ok (o, q) ∧ ∀ b, ∃ keep st',
      segmentEvent data dom fuel o { particle := { q with numSegments := q.numSegments +. one }, balance := b, extra := [] }
        = .ok (keep, st') := by
  have hforce : prepareForced p = (false, p) := by
    unfold prepareForced
    simp [not_lt.2 hp.opticalPath]
  obtain ⟨xs, hxs⟩ := hs.xs hi.cell hgp
  have hxs0 := hs.time.tables.directXs hxs
  obtain ⟨o, q, hq⟩ := outcomeWithXs_ok hs.mesh (p := p) hi.cell hxs0 (speed_nonneg p.kineticEnergy) hp.timeToCensus
    hp.opticalPath
  have hd : directOutcome data dom p = .ok (o, q) := by
    unfold directOutcome
    dsimp only
    rw [hforce]
    exact bind_ok.2 ⟨xs, hxs, hq⟩
  refine ⟨o, q, hd, fun b => ?_⟩
  obtain ⟨tr, hm⟩ := directOutcome_may hd
  have hfr := outcome_frame hm
  have hqi := outcome_index hs.mesh hi hm
  cases o with
  | census => exact ⟨_, _, rfl⟩
  | facetCrossing =>
    obtain ⟨⟨keep, st'⟩, hr⟩ := facetBranch_ok hs.mesh
      (st := { particle := { q with numSegments := q.numSegments +. one }, balance := b, extra := [] }) ⟨hqi.1, hqi.2, hqi.3⟩
    exact ⟨keep, st', hr⟩
  | collision =>
    obtain ⟨_, hne⟩ := hor.collision q hd
    obtain ⟨xs', _, _, hxs', _, _, _, _, _, _, _, hxq, _⟩ := direct_segment hs.time.tables hp hd
    obtain ⟨⟨keep, st'⟩, hr⟩ := collision_total hs hpr hf
      (st := { particle := { q with numSegments := q.numSegments +. one }, balance := b, extra := [] }) hqi.cell
      (by show q.energyGroup < _; rw [hfr.energyGroup]; exact hgp)
      (by
        show directXs data dom q.cell q.energyGroup = .ok q.totalCrossSection
        rw [hfr.cell, hfr.energyGroup, hxq]; exact hxs') hne
    exact ⟨keep, st', hr⟩

theorem gutsPrepare_fields {data : Data ℝ} {p q : Particle ℝ} (h : gutsPrepare data p = .ok q) :
    q.cell = p.cell ∧ q.numMeanFreePaths = p.numMeanFreePaths ∧
    q.timeToCensus = if p.timeToCensus ≤ 0 then p.timeToCensus + data.dt else p.timeToCensus := by
  simp only [gutsPrepare, bind_ok, pure_ok] at h
  obtain ⟨g, _, rfl⟩ := h
  by_cases hc : p.timeToCensus ≤ 0 <;> simp [hc]

section
variable {order : IterOrder} (ho : ∀ l, (order l).Perm l) {params : Params ℝ}
  {mats : List (Material ℝ)} (h : SingleUnit params mats) (hroot : params.rootCell < cells params.grid)
  (fuel : Nat) (hfuel : cells params.grid + 1 ≤ fuel) {dom : Domain ℝ}
  (hdom : initMesh order fuel params mats = .ok [dom])
include ho h hroot hfuel hdom

/-- A cell of the unit is a cell of the grid. -/
theorem cellAt_exists {i : Nat} (hi : i < dom.cells.length) : ∃ c, CellAt dom i c := by
  obtain ⟨bc, cs, nodeOf, hb, hlen, hat, _⟩ := unit_mesh ho h hroot fuel hfuel hdom
  have hl : cs.length = cells params.grid := by rw [hb.perm.length_eq, List.length_range]
  exact ⟨_, (hat i _).1 (List.getElem?_eq_getElem (by omega))⟩

variable {data : Data ℝ} {d : Domain ℝ} (hd : d.skeleton = dom.skeleton) (hs : SafeTracking data dom)
  (hpr : AllPresent data d) {X : ℝ} (hX : 1 / 10 ^ 76 ≤ X) (hXs : ∀ c gr xs, directXs data d c gr = .ok xs → xs ≤ X)
  (hdt : (Flt.lightSpeed : ℝ) * data.dt < 10 ^ 76) {cf : Nat} (hcf : 3 ≤ cf) {p : Particle ℝ}
  (hp : Reachable data dom cf p) (hall : ∀ q, Visits data d cf p q → Ordinary data d params.grid q)

include hs in
/-- What is known of every state of a run. -/
theorem reachable_facts {q : Particle ℝ} (hq : Reachable data dom cf q) :
    TimeOk q ∧ q.timeToCensus ≤ data.dt ∧ IsUnit3 q.direction ∧ IndexOk dom q ∧ q.energyGroup < dom.numGroups := by
  obtain ⟨h1, _, h2⟩ := C23_reachable hs.time hq
  exact ⟨h1, h2, C20_reachable (unit_planes ho h hroot fuel hfuel hdom) hq, reachable_index hs.mesh hq,
    (C27_reachable hs.energy hq).2.2⟩

include hd hs hpr hX hXs hdt hcf hp hall in
/-- The loop over the segments ends. -/
theorem loop_ends : ∀ (n : Nat) (q : Particle ℝ) (c : Nat), Visits data d cf p q → CellAt dom q.cell c →
    segmentsLeft params.grid X (params.grid.cellIdxToTuple c) q < n →
    ∃ H, directLoop data d cf n q = .ok H ∧
      (H.contribs.length : ℝ) ≤ segmentsLeft params.grid X (params.grid.cellIdxToTuple c) q + 1 ∧ ∀ r ∈ H.extra,
      (∀ r', gutsPrepare data r = .ok r' → Visits data d cf p r') ∧ r.timeToCensus ≠ 0 ∧
      Reachable data dom cf r ∧ collisionsLeft X r ≤ collisionsLeft X q - 1 := by
  have hX0 : 0 ≤ X := le_trans (by positivity) hX
  have hg := grid_box h
  have hsd := hs.skeleton hd
  intro n
  induction n with
  | zero =>
    intro q c hv hc hlt
    have hq := reachable_facts ho h hroot fuel hfuel hdom hs (hv.reachable hd hp)
    have := segmentsLeft_nonneg hg (cellAt_inGrid ho h hroot fuel hfuel hdom hc) hX0 hq.1
    push_cast at hlt
    linarith
  | succ n ih =>
    intro q c hv hc hlt
    have hrq := hv.reachable hd hp
    obtain ⟨q1, q2, q3, q4, q5⟩ := reachable_facts ho h hroot fuel hfuel hdom hs hrq
    have hreach : reachOf q < 10 ^ 76 :=
      lt_of_le_of_lt (mul_le_mul_of_nonneg_left q2 (constants_pos).2.le) hdt
    obtain ⟨o, r, hout, hev⟩ := segment_total hsd hpr hcf q1 (q4.skeleton hd)
      (by rw [numGroups_skeleton hd]; exact q5) (hall q hv)
    obtain ⟨keep, st', hev⟩ := hev { numSegments := 1 }
    obtain ⟨hk, hborn⟩ := segment_step ho h hroot fuel hfuel hdom hd hsd.time.tables hX hXs q1 q3 (hall q hv) hreach hc
      hout hev
    obtain ⟨tr, hmay⟩ := directOutcome_may hout
    have hb : ∀ x ∈ st'.extra, (∀ r', gutsPrepare data x = .ok r' → Visits data d cf p r') ∧ x.timeToCensus ≠ 0 ∧
        Reachable data dom cf x ∧ collisionsLeft X x ≤ collisionsLeft X q - 1 := by
      intro x hx
      obtain ⟨_, b2, _, b4⟩ := hborn x hx
      exact ⟨fun r' hr' => .born hv hout hev hx hr', b2,
        .event hd hrq hmay (fun _ _ _ => trivial) hev (List.nil_append _).symm (List.mem_cons_of_mem _ hx), b4⟩
    unfold directLoop
    rw [hout]
    dsimp only [bind, Except.bind]
    rw [hev]
    dsimp only
    have hnn := segmentsLeft_nonneg hg (cellAt_inGrid ho h hroot fuel hfuel hdom hc) hX0 q1
    cases keep with
    | false =>
      refine ⟨_, rfl, ?_, hb⟩
      simp only [List.length_cons, List.length_nil, zero_add, Nat.cast_one]
      linarith
    | true =>
      obtain ⟨_, k2, c', k3, k4⟩ := hk rfl
      push_cast at hlt
      obtain ⟨H, e1, e3, e2⟩ := ih st'.particle c' (.next hv hout hev) k3 (by linarith)
      rw [if_pos rfl, e1]
      refine ⟨_, rfl, ?_, ?_⟩
      · simp only [List.length_cons, Nat.cast_add, Nat.cast_one]
        linarith
      intro x hx
      rcases List.mem_append.1 hx with hx | hx
      · exact hb x hx
      · obtain ⟨a1, a2, a3, a4⟩ := e2 x hx
        exact ⟨a1, a2, a3, by linarith⟩

include hd hs hpr hX hXs hdt hcf hp hall in
/-- The tracking of a particle in a cycle ends. -/
theorem hist_ends (hb : segmentBound params.grid (Flt.lightSpeed * data.dt) X < cf) {r r' : Particle ℝ}
    (hr : gutsPrepare data r = .ok r') (hv : Visits data d cf p r') :
    ∃ H, directHist data d cf r = .ok H ∧
      (H.contribs.length : ℝ) ≤ segmentBound params.grid (Flt.lightSpeed * data.dt) X + 1 ∧ ∀ x ∈ H.extra,
      (∀ x', gutsPrepare data x = .ok x' → Visits data d cf p x') ∧ x.timeToCensus ≠ 0 ∧
      Reachable data dom cf x ∧ collisionsLeft X x ≤ collisionsLeft X r' - 1 := by
  have hX0 : 0 ≤ X := le_trans (by positivity) hX
  have hg := grid_box h
  obtain ⟨q1, q2, q3, q4, q5⟩ := reachable_facts ho h hroot fuel hfuel hdom hs (hv.reachable hd hp)
  obtain ⟨c, hc⟩ := cellAt_exists ho h hroot fuel hfuel hdom q4.cell
  have hreach : reachOf r' ≤ (Flt.lightSpeed : ℝ) * data.dt := mul_le_mul_of_nonneg_left q2 (constants_pos).2.le
  have hle : segmentBound params.grid (reachOf r') X ≤ segmentBound params.grid (Flt.lightSpeed * data.dt) X := by
    unfold segmentBound collisionBound
    have hlx := hg.lx
    have hly := hg.ly
    have hlz := hg.lz
    gcongr
  have hle2 := (segmentsLeft_le (X := X) hg (cellAt_inGrid ho h hroot fuel hfuel hdom hc) q1).trans hle
  obtain ⟨H, e1, e3, e2⟩ := loop_ends ho h hroot fuel hfuel hdom hd hs hpr hX hXs hdt hcf hp hall cf r' c hv hc
    (lt_of_le_of_lt hle2 hb)
  refine ⟨H, ?_, by linarith, e2⟩
  unfold directHist
  exact bind_ok.2 ⟨r', hr, e1⟩

omit hp hall in
include hd hs hpr hX hXs hdt hcf in
/-- The generations of particles of a tracking phase end. -/
theorem generations_end (hb : segmentBound params.grid (Flt.lightSpeed * data.dt) X < cf) : ∀ (n : Nat) (ps : List (Particle ℝ)),
    (∀ r ∈ ps, ∃ p, Reachable data dom cf p ∧ (∀ q, Visits data d cf p q → Ordinary data d params.grid q) ∧
      ∀ r', gutsPrepare data r = .ok r' → Visits data d cf p r' ∧ collisionsLeft X r' < n) →
    ∃ b surv cs, Generations data d cf ps b surv cs := by
  have hX0 : 0 ≤ X := le_trans (by positivity) hX
  intro n
  induction n with
  | zero =>
    intro ps hps
    cases ps with
    | nil => exact ⟨_, _, _, .done⟩
    | cons r ps =>
      obtain ⟨p, hp, hall, hr⟩ := hps r (by simp)
      obtain ⟨r', hr'⟩ := hs.prepare r
      obtain ⟨hv, hlt⟩ := hr r' hr'
      obtain ⟨q1, _⟩ := reachable_facts ho h hroot fuel hfuel hdom hs (hv.reachable hd hp)
      have := collisionsLeft_nonneg hX0 q1
      push_cast at hlt
      linarith
  | succ n ih =>
    intro ps hps
    cases hne : ps with
    | nil => exact ⟨_, _, _, .done⟩
    | cons a as =>
    rw [← hne]
    have hmap : ∃ hs, ps.mapM (directHist data d cf) = .ok hs ∧ ∀ H ∈ hs, ∀ x ∈ H.extra,
        ∃ p, Reachable data dom cf p ∧ (∀ q, Visits data d cf p q → Ordinary data d params.grid q) ∧
        ∀ x', gutsPrepare data x = .ok x' → Visits data d cf p x' ∧ collisionsLeft X x' < n := by
      clear hne
      induction ps with
      | nil => exact ⟨[], rfl, by simp⟩
      | cons r ps ihp =>
        obtain ⟨hs', e1, e2⟩ := ihp (fun r hr => hps r (by simp [hr]))
        obtain ⟨p, hp, hall, hr⟩ := hps r (by simp)
        obtain ⟨r', hr'⟩ := hs.prepare r
        obtain ⟨hv, hlt⟩ := hr r' hr'
        obtain ⟨H, f1, _, f2⟩ := hist_ends ho h hroot fuel hfuel hdom hd hs hpr hX hXs hdt hcf hp hall hb hr' hv
        refine ⟨H :: hs', ?_, ?_⟩
        · rw [List.mapM_cons, f1]
          dsimp only [bind, Except.bind]
          rw [e1]
          rfl
        · intro H' hH'
          rcases List.mem_cons.1 hH' with rfl | hH'
          · intro x hx
            obtain ⟨a1, a2, a3, a4⟩ := f2 x hx
            refine ⟨p, hp, hall, fun x' hx' => ⟨a1 x' hx', ?_⟩⟩
            obtain ⟨_, g2, g3⟩ := gutsPrepare_fields hx'
            obtain ⟨t1, _⟩ := reachable_facts ho h hroot fuel hfuel hdom hs a3
            rw [if_neg (not_le.2 (lt_of_le_of_ne t1.timeToCensus (Ne.symm a2)))] at g3
            rw [collisionsLeft_congr g3 g2]
            push_cast at hlt
            linarith
          · exact e2 H' hH'
    obtain ⟨hs', e1, e2⟩ := hmap
    obtain ⟨b, surv, cs, hgen⟩ := ih (hs'.flatMap (·.extra)) (fun x hx => by
      obtain ⟨H, hH, hx⟩ := List.mem_flatMap.1 hx
      exact e2 H hH x hx)
    exact ⟨_, _, _, .next (by rw [hne]; simp) e1 hgen⟩

end
