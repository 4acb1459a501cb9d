import Verif.Lemmas.Total
import Verif.Props.Segments
import Verif.Props.CycleReport
/-!
# Tracking goes through

The computations of the tracking of one particle give a result, over the reals, when the tables have the right
sizes and no negative entry.
-/
open Flt FltReal
attribute [local irreducible] Rng.lcg Rng.sample Rng.spawn

/-- What the tracking needs of its data and of the mesh of the unit. -/
structure SafeTracking (data : Data ℝ) (dom : Domain ℝ) : Prop where
  time : TimeHyps data dom
  energy : EnergyHyps data dom
  mesh : SoundMesh dom
  material : ∀ cs ∈ dom.cells, cs.material < data.materials.length
  isotope : ∀ m ∈ data.materials, ∀ iso ∈ m.iso, iso.gid < data.nuclear.isotopes.length
  sizes : ∀ rs ∈ data.nuclear.isotopes, ∀ r ∈ rs, r.crossSection.length = dom.numGroups
  nuBar : ∀ rs ∈ data.nuclear.isotopes, ∀ r ∈ rs, 0 ≤ r.nuBar ∧ r.nuBar < 4

theorem SafeTracking.skeleton {data : Data ℝ} {dom d : Domain ℝ} (h : SafeTracking data dom)
    (hd : d.skeleton = dom.skeleton) : SafeTracking data d where
  time := ⟨h.time.dt, h.time.eMin, h.time.eMin_le, h.time.mass, h.time.tables.skeleton hd⟩
  energy := by
    have hg := numGroups_skeleton hd
    refine ⟨h.energy.eMin_nonneg, h.energy.eMin_le, h.energy.eMax_ge, h.energy.mass, ?_, ?_, ?_⟩ <;> rw [hg]
    exacts [h.energy.groups, h.energy.levels, h.energy.last]
  mesh := h.mesh.skeleton hd
  material cs hcs := by
    obtain ⟨i, hi⟩ := List.getElem?_of_mem hcs
    obtain ⟨c', hc', he⟩ := cells_skeleton hd hi
    have : cs.material = c'.material := by
      have := congrArg (fun c : CellState ℝ => c.material) he
      exact this
    rw [this]
    exact h.material c' (List.mem_of_getElem? hc')
  isotope := h.isotope
  sizes := by rw [numGroups_skeleton hd]; exact h.sizes
  nuBar := h.nuBar

variable {data : Data ℝ} {dom : Domain ℝ}

theorem SafeTracking.group (h : SafeTracking data dom) (e : ℝ) :
    ∃ g, getEnergyGroups data.nuclear.energies e = .ok g := by
  have hne : data.nuclear.energies ≠ [] := by
    intro hn; have := h.energy.levels; rw [hn] at this; simp at this
  obtain ⟨g, hg, _⟩ := C26_lookup hne e
  exact ⟨g, hg⟩

theorem SafeTracking.prepare (h : SafeTracking data dom) (p : Particle ℝ) : ∃ q, gutsPrepare data p = .ok q := by
  obtain ⟨g, hg⟩ := h.group p.kineticEnergy
  have hk : (if Flt.le p.timeToCensus Flt.zero = true then
      ({ p with timeToCensus := Flt.add p.timeToCensus data.dt } : Particle ℝ) else p).kineticEnergy =
      p.kineticEnergy := by split <;> rfl
  unfold gutsPrepare
  dsimp only
  rw [hk, hg]
  exact ⟨_, rfl⟩

theorem SafeTracking.reactions (h : SafeTracking data dom) {k : Nat} {mat : Material ℝ}
    (hm : data.materials[k]? = some mat) {iso : Isotope ℝ} (hi : iso ∈ mat.iso) :
    ∃ rs, data.nuclear.isotopes[iso.gid]? = some rs :=
  ⟨_, List.getElem?_eq_getElem (h.isotope mat (List.mem_of_getElem? hm) iso hi)⟩

theorem SafeTracking.xs (h : SafeTracking data dom) {c g : Nat} (hc : c < dom.cells.length)
    (hg : g < dom.numGroups) : ∃ x, directXs data dom c g = .ok x := by
  refine ok_of_no_error fun e he => ?_
  simp only [directXs, weightedMacroXs, bind_error, pure_error, idx_error, idx_ok, and_false, exists_false,
    or_false] at he
  rcases he with ⟨he, _⟩ | ⟨cs, hcs, ⟨he, _⟩ | ⟨mat, hmat, he⟩⟩
  · omega
  · have := h.material cs (List.mem_of_getElem? hcs); omega
  · obtain ⟨i, hi, he⟩ := mapM_error he
    have hi := List.mem_range.1 hi
    simp only [macroscopicTotalXs, bind_error, idx_error, idx_ok] at he
    rcases he with ⟨he, _⟩ | ⟨iso, hiso, he⟩
    · omega
    · split at he
      · simp [pure_error] at he
      · simp only [NuclearData.getTotalCrossSection, groupCrossSections, bind_error, pure_error, idx_error, idx_ok,
          and_false, exists_false, or_false] at he
        rcases he with ⟨he, _⟩ | ⟨rs, hrs, he⟩
        · have := h.isotope mat (List.mem_of_getElem? hmat) iso (List.mem_of_getElem? hiso); omega
        · obtain ⟨r, hr, he⟩ := mapM_error he
          have := h.sizes rs (List.mem_of_getElem? hrs) r hr
          have := (idx_error.1 he).1
          omega

/-! ### The nearest facet -/

theorem nearestPositive_le (l : List (ℝ × Nat)) (init : NearestFacet ℝ) :
    (nearestPositive l init).distanceToFacet ≤ init.distanceToFacet := by
  induction l generalizing init with
  | nil => exact le_rfl
  | cons a l ih =>
    unfold nearestPositive at ih ⊢
    rw [List.foldl_cons]
    refine (ih _).trans ?_
    obtain ⟨d, i⟩ := a
    dsimp only
    split
    · rename_i h
      simp only [Bool.and_eq_true, le_eq, decide_eq_true_eq] at h
      exact h.2
    · exact le_rfl

theorem nearestNegative_le (l : List (ℝ × Nat)) (init : NearestFacet ℝ) (h0 : init.distanceToFacet ≤ 0) :
    (nearestNegative l init).distanceToFacet ≤ 0 := by
  induction l generalizing init with
  | nil => exact h0
  | cons a l ih =>
    unfold nearestNegative at ih ⊢
    rw [List.foldl_cons]
    refine ih _ ?_
    obtain ⟨d, i⟩ := a
    dsimp only
    split
    · rename_i h
      simp only [Bool.and_eq_true, le_eq, zero_eq, decide_eq_true_eq] at h
      exact h.1
    · exact h0

theorem computeNearest_le (dists : List ℝ) : (computeNearest dists).distanceToFacet ≤ 10 ^ 76 := by
  have h1 := nearestPositive_le dists.zipIdx (NearestFacet.default : NearestFacet ℝ)
  have hd : (NearestFacet.default : NearestFacet ℝ).distanceToFacet = 10 ^ 76 := huge_eq
  rw [hd] at h1
  unfold computeNearest
  dsimp only
  split
  · exact h1
  · split
    · refine (nearestNegative_le _ _ ?_).trans (by positivity)
      simp only [neg_eq, huge_eq]
      norm_num
    · exact h1

theorem nfLoop_ok (hm : SoundMesh dom) {planes : List (Plane ℝ)} (hp : planes.length = 24) (r d : Vec3 ℝ) (tol : ℝ) :
    ∀ (fuel it : Nat) (mf : ℝ) (p : Particle ℝ), p.cell < dom.cells.length → it < 1000 → 1000 ≤ fuel + it →
      ∃ nf q, nfLoop dom.mesh planes r d tol fuel it mf p = .ok (nf, q) ∧ nf.distanceToFacet ≤ 10 ^ 76 := by
  intro fuel
  induction fuel with
  | zero => intro it mf p _ h1 h2; omega
  | succ fuel ih =>
    intro it mf p hc h1 h2
    obtain ⟨l, hl⟩ := facetDistances_ok hm hc hp r d tol
    obtain ⟨ctr, hctr⟩ := hm.center _ hc
    unfold nfLoop
    rw [hl]
    dsimp only [bind, Except.bind]
    split
    · rw [hctr]
      dsimp only [bind, Except.bind]
      split
      · rename_i hne
        exact ih _ _ _ hc (by omega) (by omega)
      · exact ⟨_, _, rfl, computeNearest_le _⟩
    · exact ⟨_, _, rfl, computeNearest_le _⟩

theorem nearestFacet_ok (hm : SoundMesh dom) {p : Particle ℝ} (hc : p.cell < dom.cells.length) :
    ∃ nf q, nearestFacet dom.mesh p = .ok (nf, q) ∧ 0 ≤ nf.distanceToFacet ∧ nf.distanceToFacet ≤ 10 ^ 76 := by
  obtain ⟨planes, hp, hlen⟩ := hm.planes _ hc
  obtain ⟨nf, q, h, hle⟩ := nfLoop_ok hm hlen p.coordinate p.direction
    (Flt.mul (Flt.lit 1 (-16)) (Flt.add (Flt.add (Flt.mul p.coordinate.x p.coordinate.x)
      (Flt.mul p.coordinate.y p.coordinate.y)) (Flt.mul p.coordinate.z p.coordinate.z)))
    1000 0 (Flt.mul (Flt.lit 5 (-1)) Flt.small) p hc (by norm_num) (by norm_num)
  have hmax : Max.max nf.distanceToFacet 0 ≤ 10 ^ 76 := max_le hle (by positivity)
  refine ⟨{ nf with distanceToFacet := Flt.max nf.distanceToFacet zero }, q, ?_, ?_, ?_⟩
  · unfold nearestFacet mctNf3dg
    rw [idx_ok.2 hp]
    show (nfLoop dom.mesh planes p.coordinate p.direction _ 1000 0 _ p >>= _) = _
    rw [h]
    have hb : Flt.le (Flt.max nf.distanceToFacet zero) (Flt.huge : ℝ) = true := by
      simp only [le_eq, max_eq, zero_eq, huge_eq, decide_eq_true_eq]; exact hmax
    show (assertB (Flt.le (Flt.max nf.distanceToFacet zero) Flt.huge) >>= _) = _
    rw [hb]
    rfl
  · simp only [max_eq, zero_eq]; exact le_max_right _ _
  · simp only [max_eq, zero_eq]; exact hmax

/-! ### The segment -/

theorem applyOutcome_ok {p : Particle ℝ} {speed : ℝ} {force : Bool} {nf : NearestFacet ℝ}
    (h1 : force = false → 0 ≤ p.numMeanFreePaths * p.meanFreePath) (h2 : 0 ≤ speed * p.timeToCensus)
    (h3 : 0 ≤ nf.distanceToFacet) (h4 : nf.distanceToFacet ≤ 10 ^ 76) :
    ∃ o q, applyOutcome p speed force nf = .ok (o, q) := by
  unfold applyOutcome
  dsimp only
  generalize hh : (((DistanceHandler.default (T := ℝ)).update .collision
    (Flt.mul p.numMeanFreePaths p.meanFreePath)).update .census (Flt.mul speed p.timeToCensus)).update
    .facetCrossing nf.distanceToFacet = h'
  have hmin := (distances_spec _ _ _ h4 h' hh.symm).1
  simp only [mul_eq] at hmin
  have hpos : Flt.le zero (if force = true then h'.forceCollision else h').minDist = true := by
    cases force with
    | true =>
      simp only [if_true, DistanceHandler.forceCollision, le_eq, zero_eq, tiny_eq, decide_eq_true_eq]
      positivity
    | false =>
      simp only [Bool.false_eq_true, if_false, le_eq, zero_eq, decide_eq_true_eq, hmin]
      exact le_min (h1 rfl) (le_min h2 h3)
  generalize (if force = true then h'.forceCollision else h') = hd at hpos
  simp only [bind_ok, assertB_ok]
  obtain ⟨hc, hf, hce, hm, ho⟩ := hd
  cases ho <;> (dsimp only at hpos ⊢; split) <;> exact ⟨_, _, (), hpos, rfl⟩

theorem speed_nonneg (e : ℝ) : 0 ≤ Particle.speedOf e := by
  unfold Particle.speedOf
  simp only [mul_eq, sqrt_eq]
  refine mul_nonneg ?_ (Real.sqrt_nonneg _)
  simp only [lightSpeed, lit_eq]
  positivity

theorem prepareXs_path {p : Particle ℝ} (xs : ℝ) (hp : 0 ≤ p.numMeanFreePaths) :
    0 ≤ (prepareXs p xs).numMeanFreePaths ∧ (prepareXs p xs).timeToCensus = p.timeToCensus ∧
    (prepareXs p xs).meanFreePath = (if xs = 0 then 10 ^ 76 else 1 / xs) ∧
    (prepareXs p xs).totalCrossSection = xs := by
  unfold prepareXs
  simp only [beq_eq, zero_eq, huge_eq, one_eq, div_eq, decide_eq_true_eq]
  split
  · obtain ⟨s, n, hn, he⟩ := sampleNumMfp_spec { p with
      totalCrossSection := xs, meanFreePath := if xs = 0 then 10 ^ 76 else 1 / xs }
    rw [he]
    exact ⟨hn, rfl, rfl, rfl⟩
  · exact ⟨hp, rfl, rfl, rfl⟩

theorem outcomeWithXs_ok (hm : SoundMesh dom) {p : Particle ℝ} {speed xs : ℝ}
    (hc : p.cell < dom.cells.length) (hxs : 0 ≤ xs) (hs : 0 ≤ speed) (ht : 0 ≤ p.timeToCensus)
    (hp : 0 ≤ p.numMeanFreePaths) : ∃ o q, outcomeWithXs dom speed false p xs = .ok (o, q) := by
  have hcell : (prepareXs p xs).cell = p.cell := (prepareXs_frame p xs).cell
  obtain ⟨nf, q, hnf, h0, h1⟩ := nearestFacet_ok hm (p := prepareXs p xs) (by rw [hcell]; exact hc)
  have hframe := nearestFacet_frame hnf
  obtain ⟨p1, p2, p3, _⟩ := prepareXs_path xs hp
  obtain ⟨o, r, hr⟩ := applyOutcome_ok (p := q) (speed := speed) (force := false) (nf := nf)
    (fun _ => by
      rw [hframe]
      refine mul_nonneg p1 ?_
      show 0 ≤ (prepareXs p xs).meanFreePath
      rw [p3]
      split <;> positivity)
    (by rw [hframe]; exact mul_nonneg hs (by rw [p2]; exact ht)) h0 h1
  exact ⟨o, r, by unfold outcomeWithXs; dsimp only; rw [hnf]; exact hr⟩

theorem outcome_safe (h : SafeTracking data dom) {p : Particle ℝ} (hp : TimeOk p) (hc : p.cell < dom.cells.length)
    (hg : p.energyGroup < dom.numGroups) {G : Nat → ℝ → Prop} {nc nf : Nat} (hn : nc = tableSize dom) {e : Panic} :
    ¬ (outcome data dom p).MayFail G nc nf e := by
  intro hf
  have hi : p.cell * dom.numGroups + p.energyGroup < nc := by rw [hn]; exact index_lt hg hc
  have hforce : prepareForced p = (false, p) := by
    unfold prepareForced
    simp [not_lt.2 hp.opticalPath]
  unfold outcome at hf
  rw [hforce] at hf
  dsimp only at hf
  rcases hf.bind_inv with hf | ⟨tr, xs, hx, _, hf⟩
  · unfold cachedXs at hf
    cases hf with
    | loadOob h => exact h hi
    | load _ _ hf =>
      dsimp only at hf
      split at hf
      · exact hf.ret_inv
      · obtain ⟨x, hx⟩ := h.xs hc hg
        rw [hx] at hf
        cases hf with
        | storeOob h => exact h hi
        | store _ hf => exact hf.ret_inv
  · have hxs0 : 0 ≤ xs := by
      unfold cachedXs at hx
      cases hx with
      | @load _ _ v _ _ hl =>
        dsimp only at hl
        split at hl
        · rename_i hv
          have := (Prog.May.ret_inv hl).2
          subst this
          simp only [lt_eq, zero_eq, decide_eq_true_eq] at hv
          exact hv.le
        · split at hl
          · exact (Prog.May.fail_inv hl).elim
          · rename_i hd
            cases hl with
            | store hl =>
              have := (Prog.May.ret_inv hl).2
              subst this
              exact h.time.tables.directXs hd
    obtain ⟨o, q, ho⟩ := outcomeWithXs_ok h.mesh hc hxs0 (speed_nonneg p.kineticEnergy) hp.timeToCensus hp.opticalPath
    have := hf.ofExcept_inv
    unfold Particle.getSpeed at this
    rw [ho] at this
    cases this

/-! ### Collisions -/

theorem outcome_xs_nonneg (h : SafeTracking data dom) {p : Particle ℝ} (hp : TimeOk p) {tr : List (Ev ℝ)}
    {o : SegOutcome} {q : Particle ℝ} (hm : (outcome data dom p).May tr (o, q)) : 0 ≤ q.totalCrossSection := by
  have hforce : prepareForced p = (false, p) := by
    unfold prepareForced
    simp [not_lt.2 hp.opticalPath]
  unfold outcome at hm
  rw [hforce] at hm
  dsimp only at hm
  obtain ⟨t1, t2, xs, _, hx, h2⟩ := hm.bind_inv
  have hxs0 : 0 ≤ xs := by
    unfold cachedXs at hx
    cases hx with
    | @load _ _ v _ _ hl =>
      dsimp only at hl
      split at hl
      · rename_i hv
        have := (Prog.May.ret_inv hl).2
        subst this
        simp only [lt_eq, zero_eq, decide_eq_true_eq] at hv
        exact hv.le
      · split at hl
        · exact (Prog.May.fail_inv hl).elim
        · rename_i hd
          cases hl with
          | store hl =>
            have := (Prog.May.ret_inv hl).2
            subst this
            exact h.time.tables.directXs hd
  obtain ⟨_, h2⟩ := h2.ofExcept_inv
  simp only [outcomeWithXs, bind_ok, Prod.exists] at h2
  obtain ⟨nf, r, hr, h2⟩ := h2
  have hfr := nearestFacet_frame hr
  have hrx : r.totalCrossSection = xs := by rw [hfr]; exact (prepareXs_path xs hp.opticalPath).2.2.2
  have : q.totalCrossSection = r.totalCrossSection := by
    simp only [applyOutcome, bind_ok, assertB_ok] at h2
    obtain ⟨_, _, h2⟩ := h2
    generalize (if false = true then _ else _ : DistanceHandler ℝ) = hd at h2
    obtain ⟨hc, hf, hce, hm, ho⟩ := hd
    cases ho <;> (dsimp only at h2; split at h2) <;>
      (simp only [pure_ok, Prod.mk.injEq] at h2; obtain ⟨_, rfl⟩ := h2; rfl)
  rw [this, hrx]; exact hxs0

theorem scanReactions_safe {fraction density : ℝ} {group : Nat} {rs : List (Reaction ℝ)}
    (hr : ∀ r ∈ rs, group < r.crossSection.length) (xs : ℝ) (r0 : Option (Reaction ℝ)) :
    ∃ xs' r', scanReactions fraction density group rs xs r0 = .ok (xs', r') ∧
      (xs' < 0 → (xs < 0 ∧ r' = r0) ∨ ∃ r ∈ rs, r' = some r) := by
  induction rs generalizing xs with
  | nil => exact ⟨xs, r0, rfl, fun h => .inl ⟨h, rfl⟩⟩
  | cons c cs ih =>
    have main : ∀ x : ℝ, ∃ xs' r', (if (zero >. x) = true then (pure (x, some c) : Except Panic _)
        else scanReactions fraction density group cs x r0) = .ok (xs', r') ∧
        (xs' < 0 → (xs < 0 ∧ r' = r0) ∨ ∃ r ∈ c :: cs, r' = some r) := by
      intro x
      split
      · exact ⟨x, some c, rfl, fun _ => .inr ⟨c, by simp, rfl⟩⟩
      · rename_i hneg
        simp only [lt_eq, zero_eq, decide_eq_true_eq] at hneg
        obtain ⟨xs', r', h1, h2⟩ := ih (fun r h => hr r (by simp [h])) x
        refine ⟨xs', r', h1, fun h => ?_⟩
        rcases h2 h with ⟨h3, _⟩ | ⟨r, h3, h4⟩
        · exact absurd h3 hneg
        · exact .inr ⟨r, by simp [h3], h4⟩
    unfold scanReactions
    dsimp only
    split
    · exact main _
    · rw [idx_lt (hr c (by simp))]
      exact main _

/-- `r` is a reaction of some isotope of the tables. -/
def InTables (data : Data ℝ) (r : Reaction ℝ) : Prop := ∃ rs ∈ data.nuclear.isotopes, r ∈ rs

theorem SafeTracking.scan (h : SafeTracking data dom) {density : ℝ} {group : Nat} (hg : group < dom.numGroups)
    {isos : List (Isotope ℝ)} (hi : ∀ iso ∈ isos, iso.gid < data.nuclear.isotopes.length) (xs : ℝ)
    (r0 : Option (Reaction ℝ)) :
    ∃ xs' r', scanIsotopes data density group isos xs r0 = .ok (xs', r') ∧
      (xs' < 0 → xs < 0 ∨ ∃ r, r' = some r ∧ InTables data r) := by
  induction isos generalizing xs r0 with
  | nil => exact ⟨xs, r0, rfl, fun h => .inl h⟩
  | cons iso isos ih =>
    have hgid := hi iso (by simp)
    obtain ⟨x, r1, h1, h2⟩ := scanReactions_safe (fraction := iso.atomFraction) (density := density) (group := group)
      (rs := data.nuclear.isotopes[iso.gid]) (fun r hr => by
        rw [h.sizes _ (List.getElem_mem hgid) r hr]; exact hg) xs r0
    unfold scanIsotopes
    rw [idx_lt hgid]
    dsimp only [bind, Except.bind]
    rw [h1]
    dsimp only
    split
    · refine ⟨x, r1, rfl, fun hx => ?_⟩
      rcases h2 hx with ⟨h3, _⟩ | ⟨r, hr, h4⟩
      · exact .inl h3
      · exact .inr ⟨r, h4, _, List.getElem_mem hgid, hr⟩
    · rename_i hneg
      simp only [lt_eq, zero_eq, decide_eq_true_eq] at hneg
      obtain ⟨xs', r', h3, h4⟩ := ih (fun i hi' => hi i (by simp [hi'])) x r1
      refine ⟨xs', r', h3, fun hx => ?_⟩
      rcases h4 hx with h5 | h5
      · exact absurd h5 hneg
      · exact .inr h5

theorem SafeTracking.pick (h : SafeTracking data dom) {mat : Material ℝ} (hm : mat ∈ data.materials) {density : ℝ}
    {group : Nat} (hg : group < dom.numGroups) (fuel : Nat) (xs : ℝ) (r0 : Option (Reaction ℝ))
    (h0 : 0 ≤ xs ∨ ∃ r, r0 = some r ∧ InTables data r) :
    pickReaction data mat density group fuel xs r0 = .error .outOfFuel ∨
    ∃ r, pickReaction data mat density group fuel xs r0 = .ok (some r) ∧ InTables data r := by
  induction fuel generalizing xs r0 with
  | zero => exact .inl rfl
  | succ n ih =>
    unfold pickReaction
    split
    · rename_i hx
      simp only [le_eq, zero_eq, decide_eq_true_eq] at hx
      obtain ⟨xs', r', h1, h2⟩ := h.scan (density := density) hg (h.isotope mat hm) xs r0
      rw [h1]
      dsimp only [bind, Except.bind]
      refine ih xs' r' ?_
      rcases le_or_gt 0 xs' with h3 | h3
      · exact .inl h3
      · rcases h2 h3 with h4 | h4
        · exact absurd hx (not_le.2 h4)
        · exact .inr h4
    · rename_i hx
      simp only [le_eq, zero_eq, decide_eq_true_eq] at hx
      rcases h0 with h0 | ⟨r, rfl, hr⟩
      · exact absurd h0 hx
      · exact .inr ⟨r, rfl, hr⟩

theorem sampleCollision_safe {r : Reaction ℝ} (h0 : 0 ≤ r.nuBar) (h1 : r.nuBar < 4) (p : Particle ℝ) (mass : ℝ) :
    ∃ x, p.sampleCollision r mass = .ok x := by
  unfold Particle.sampleCollision
  split
  · exact ⟨_, rfl⟩
  · exact ⟨_, rfl⟩
  · obtain ⟨u0, u1⟩ := sample01 p.seed
    generalize Rng.sample (T := ℝ) p.seed = r1 at u0 u1 ⊢
    obtain ⟨u, s⟩ := r1
    dsimp only at u0 u1 ⊢
    have hU : Flt.toUsize (r.nuBar +. u) = some ⌊r.nuBar + u⌋₊ := by
      rw [toUsize_eq, add_eq, if_pos]
      constructor
      · linarith
      · have : (5 : ℝ) < 2 ^ 64 := by norm_num
        linarith
    have hlt : ⌊r.nuBar + u⌋₊ < 5 := by
      rw [Nat.floor_lt (by linarith)]
      push_cast
      linarith
    rw [hU]
    generalize ⌊r.nuBar + u⌋₊ = n at hlt ⊢
    dsimp only [unwrap, bind, Except.bind]
    split
    · exact ⟨_, rfl⟩
    · split
      · exact ⟨_, rfl⟩
      · have : decide (n < 5) = true := decide_eq_true hlt
        rw [this]
        exact ⟨_, rfl⟩

theorem SafeTracking.collision (h : SafeTracking data dom) {fuel : Nat} {st : TrackState ℝ}
    (hc : st.particle.cell < dom.cells.length) (hg : st.particle.energyGroup < dom.numGroups)
    (hx : 0 ≤ st.particle.totalCrossSection) {e : Panic} (he : collisionBranch data dom fuel st = .error e) :
    e = .outOfFuel := by
  unfold collisionBranch at he
  rw [idx_lt hc] at he
  have hmat := h.material _ (List.getElem_mem hc)
  generalize dom.cells[st.particle.cell] = cs at he hmat
  simp only [bind_error, pure_error, and_false, exists_false, or_false, reduceCtorEq, false_or, Except.ok.injEq,
    exists_eq_left'] at he
  rcases he with he | ⟨⟨keep, st1⟩, _, he⟩
  · unfold collisionEvent at he
    have hcx : 0 ≤ st.particle.getCurrentXs.1 ∧
        st.particle.getCurrentXs.2.energyGroup = st.particle.energyGroup := by
      obtain ⟨u0, u1⟩ := sample01 st.particle.seed
      unfold Particle.getCurrentXs
      generalize Rng.sample (T := ℝ) st.particle.seed = r1 at u0 u1 ⊢
      obtain ⟨u, s⟩ := r1
      exact ⟨mul_nonneg hx u0, rfl⟩
    generalize st.particle.getCurrentXs = xp at he hcx
    obtain ⟨xs, p⟩ := xp
    dsimp only at he hcx
    rw [idx_lt hmat] at he
    simp only [bind_error, reduceCtorEq, false_or, Except.ok.injEq, exists_eq_left'] at he
    rcases h.pick (List.getElem_mem hmat) (density := cs.cellNumberDensity) (group := p.energyGroup)
      (by rw [hcx.2]; exact hg) fuel xs none (.inl hcx.1) with hp | ⟨r, hp, rs, hrs, hr⟩
    · rw [hp] at he
      rcases he with he | ⟨_, he, _⟩
      · exact (Except.error.inj he).symm
      · cases he
    · rw [hp] at he
      rcases he with he | ⟨_, he', he⟩
      · cases he
      · cases he'
        dsimp only at he
        obtain ⟨n0, n1⟩ := h.nuBar rs hrs r hr
        obtain ⟨x, hx⟩ := sampleCollision_safe n0 n1 p data.materials[cs.material].mass
        rw [hx] at he
        cases he
  · obtain ⟨g, hg'⟩ := h.group st1.particle.kineticEnergy
    rw [hg'] at he
    cases he

/-- No step of the tracking of a particle that can exist panics. -/
theorem SafeTracking.particle {G : Nat → ℝ → Prop} {fuel nc nf : Nat} (h : SafeTracking data dom)
    {d : Domain ℝ} (hd : d.skeleton = dom.skeleton) {p : Particle ℝ} (hr : Reachable data dom fuel p)
    (hn : nc = tableSize d) (hf : nf = tableSize d) {e : Panic} (he : ParticleFails G data d fuel nc nf p e) :
    e = .outOfFuel := by
  have hs := h.skeleton hd
  obtain ⟨ht, _, _⟩ := C23_reachable h.time hr
  have hi := (reachable_index h.mesh hr).skeleton hd
  have hg : p.energyGroup < d.numGroups := by
    rw [numGroups_skeleton hd]; exact (C27_reachable h.energy hr).2.2
  cases he with
  | prepare he =>
    obtain ⟨q, hq⟩ := hs.prepare p
    rw [hq] at he; cases he
  | segment he => exact (outcome_safe hs ht hi.cell hg hn he).elim
  | flux ho _ hfl =>
    refine (hfl ?_).elim
    have hfr := outcome_frame ho
    rw [hf, hfr.cell, hfr.energyGroup]
    exact index_lt hg hi.cell
  | @event tr o q b ex _ ho _ he =>
    have hfr := outcome_frame ho
    have hq := outcome_index hs.mesh hi ho
    cases o with
    | census => cases he
    | facetCrossing =>
      obtain ⟨r, hr⟩ := facetBranch_ok hs.mesh (st := { particle := { q with numSegments := q.numSegments +. one }, balance := b, extra := ex })
        ⟨hq.1, hq.2, hq.3⟩
      have he : facetBranch d _ = _ := he
      rw [hr] at he; cases he
    | collision =>
      exact hs.collision (st := { particle := { q with numSegments := q.numSegments +. one }, balance := b, extra := ex })
        hq.cell (by show q.energyGroup < _; rw [hfr.energyGroup]; exact hg) 
        (by have := outcome_xs_nonneg hs ht ho; exact this) he
