import Verif.Spec.FloatProblem
import Verif.Lemmas.Groups
import Verif.Lemmas.Total
/-!
# Tracking goes through in floating-point arithmetic

The computations of the tracking of one particle give a result when rounded as IEEE 754 prescribes.  Positions and
directions are not constrained: they may become not-a-numbers without stopping the program.
-/
set_option linter.unusedSectionVars false
open Flt Ieee
attribute [local irreducible] Rng.lcg Rng.sample Rng.spawn
variable {T : Type} [Flt T]

/-! ### For any arithmetic -/

theorem bisect_total (l : List T) (e : T) : ∀ (fuel low high : Nat), high - low ≤ fuel → low < high →
    high < l.length → ∃ g, bisect l e fuel low high = .ok g ∧ g < high := by
  intro fuel
  induction fuel with
  | zero => intro low high h1 h2; omega
  | succ n ih =>
    intro low high h1 h2 h3
    unfold bisect
    by_cases h : high = low + 1
    · rw [if_pos h]; exact ⟨low, rfl, h2⟩
    · rw [if_neg h]
      have hm : (high + low) / 2 < l.length := by omega
      dsimp only
      rw [idx_lt hm]
      dsimp only [bind, Except.bind]
      split
      · obtain ⟨g, hg, hlt⟩ := ih low ((high + low) / 2) (by omega) (by omega) hm
        exact ⟨g, hg, by omega⟩
      · exact ih ((high + low) / 2) high (by omega) (by omega) h3

/-- With at least two levels the look-up answers; below the last level it gives one of the groups. -/
theorem energyGroups_total {l : List T} {last : T} {n : Nat} (hn : 0 < n) (hl : l.length = n + 1)
    (hlast : l[n]? = some last) (e : T) :
    ∃ g, getEnergyGroups l e = .ok g ∧ ((last <. e) = false → g < n) := by
  unfold getEnergyGroups
  dsimp only
  obtain ⟨e0, h0⟩ : ∃ e0, idx l 0 = .ok e0 := ⟨_, idx_lt (by omega : 0 < l.length)⟩
  rw [h0, hl, Nat.add_sub_cancel, idx_ok.2 hlast]
  dsimp only [bind, Except.bind]
  split
  · exact ⟨0, rfl, fun _ => hn⟩
  · split
    · rename_i h
      exact ⟨n, rfl, fun h' => by rw [h] at h'; cases h'⟩
    · obtain ⟨g, hg, hlt⟩ := bisect_total l e (n + 1) 0 n (by omega) hn (by omega)
      exact ⟨g, hg, fun _ => hlt⟩

theorem nfLoop_total {dom : Domain T} (hm : SoundMesh dom) {planes : List (Plane T)} (hp : planes.length = 24)
    (r d : Vec3 T) (tol : T) : ∀ (fuel it : Nat) (mf : T) (p : Particle T), p.cell < dom.cells.length →
      it < 1000 → 1000 ≤ fuel + it →
      ∃ dists q, nfLoop dom.mesh planes r d tol fuel it mf p = .ok (computeNearest dists, q) := by
  intro fuel
  induction fuel with
  | zero => intro it mf p _ h1 h2; omega
  | succ fuel ih =>
    intro it mf p hc h1 h2
    obtain ⟨l, hl⟩ := facetDistances_ok hm hc hp r d tol
    obtain ⟨ctr, hctr⟩ := hm.center _ hc
    unfold nfLoop
    rw [hl]
    dsimp only [bind, Except.bind]
    split
    · rw [hctr]
      dsimp only [bind, Except.bind]
      split
      · exact ih _ _ _ hc (by omega) (by omega)
      · exact ⟨l, _, rfl⟩
    · exact ⟨l, _, rfl⟩

theorem sample_ofSeed (s : BitVec 64) : ∃ s', (Rng.sample (T := T) s).1 = Flt.ofSeed s' := by
  unfold Rng.sample
  exact ⟨_, rfl⟩

/-! ### Rounded arithmetic -/
variable [Ieee T]

theorem fin_draw (s : BitVec 64) : ∃ u : ℝ, IsFin (Rng.sample (T := T) s).1 u ∧ 0 ≤ u ∧ u ≤ 1 := by
  obtain ⟨s', h⟩ := sample_ofSeed (T := T) s
  rw [h]
  exact fin_sample s'

theorem huge_refl : ((Flt.huge : T) <=. Flt.huge) = true := by
  obtain ⟨x, hx, _⟩ := val_huge (T := T)
  exact (le_fin hx hx).2 le_rfl

theorem nearestPositive_bound (l : List (T × Nat)) (init : NearestFacet T)
    (h : (init.distanceToFacet <=. Flt.huge) = true) :
    ((nearestPositive l init).distanceToFacet <=. Flt.huge) = true := by
  induction l generalizing init with
  | nil => exact h
  | cons a l ih =>
    unfold nearestPositive at ih ⊢
    rw [List.foldl_cons]
    refine ih _ ?_
    obtain ⟨d, i⟩ := a
    dsimp only
    split
    · rename_i hd
      rw [Bool.and_eq_true] at hd
      exact le_trans' hd.2 h
    · exact h

theorem nearestNegative_bound (l : List (T × Nat)) (init : NearestFacet T)
    (h : (init.distanceToFacet <=. zero) = true) :
    ((nearestNegative l init).distanceToFacet <=. zero) = true := by
  induction l generalizing init with
  | nil => exact h
  | cons a l ih =>
    unfold nearestNegative at ih ⊢
    rw [List.foldl_cons]
    refine ih _ ?_
    obtain ⟨d, i⟩ := a
    dsimp only
    split
    · rename_i hd
      rw [Bool.and_eq_true] at hd
      exact hd.1
    · exact h

theorem computeNearest_bound (dists : List T) : ((computeNearest dists).distanceToFacet <=. Flt.huge) = true := by
  have h1 := nearestPositive_bound dists.zipIdx (NearestFacet.default : NearestFacet T) huge_refl
  unfold computeNearest
  dsimp only
  split
  · exact h1
  · split
    · exact le_trans' (nearestNegative_bound _ _ neg_huge_le) le_huge_zero
    · exact h1

theorem le_max_huge {a : T} (h : (a <=. Flt.huge) = true) : (Flt.max a zero <=. Flt.huge) = true := by
  obtain ⟨x, y, hx, hy, hle⟩ := (le_iff _ _).1 h
  obtain ⟨z, hz, h0⟩ := val_huge (T := T)
  rw [hz] at hy
  cases hy
  refine (le_iff _ _).2 ⟨Max.max x 0, z, ?_, hz, max_le hle (by exact_mod_cast h0.le)⟩
  rw [val_max, hx, fin_zero]
  simp

theorem nearestFacet_total {dom : Domain T} (hm : SoundMesh dom) {p : Particle T} (hc : p.cell < dom.cells.length) :
    ∃ nf q, nearestFacet dom.mesh p = .ok (nf, q) ∧ Nn nf.distanceToFacet := by
  obtain ⟨planes, hp, hlen⟩ := hm.planes _ hc
  obtain ⟨dists, q, h⟩ := nfLoop_total hm hlen p.coordinate p.direction
    (Flt.mul (Flt.lit 1 (-16)) (Flt.add (Flt.add (Flt.mul p.coordinate.x p.coordinate.x)
      (Flt.mul p.coordinate.y p.coordinate.y)) (Flt.mul p.coordinate.z p.coordinate.z)))
    1000 0 (Flt.mul (Flt.lit 5 (-1)) Flt.small) p hc (by norm_num) (by norm_num)
  have hb := le_max_huge (computeNearest_bound dists)
  refine ⟨{ computeNearest dists with distanceToFacet := Flt.max (computeNearest dists).distanceToFacet zero }, q, ?_,
    nn_max _⟩
  unfold nearestFacet mctNf3dg
  rw [idx_ok.2 hp]
  show (nfLoop dom.mesh planes p.coordinate p.direction _ 1000 0 _ p >>= _) = _
  rw [h]
  show (assertB (Flt.le (Flt.max (computeNearest dists).distanceToFacet zero) Flt.huge) >>= _) = _
  rw [hb]
  rfl

/-! ### The segment -/

theorem update_minDist {h : DistanceHandler T} (h0 : (zero <=. h.minDist) = true) {d : T} (hd : Nn d)
    (o : SegOutcome) : (zero <=. (h.update o d).minDist) = true := by
  unfold DistanceHandler.update
  cases o <;> dsimp only <;> split <;> first | exact h0 | (rename_i hlt; exact hd.le_of_lt hlt)

theorem applyOutcome_total {p : Particle T} {speed : T} {force : Bool} {nf : NearestFacet T}
    (h1 : force = false → Nn (p.numMeanFreePaths *. p.meanFreePath)) (h2 : Nn (speed *. p.timeToCensus))
    (h3 : Nn nf.distanceToFacet) : ∃ o q, applyOutcome p speed force nf = .ok (o, q) := by
  unfold applyOutcome
  dsimp only
  have hpos : Flt.le zero (if force = true then ((((DistanceHandler.default (T := T)).update .collision
    (Flt.mul p.numMeanFreePaths p.meanFreePath)).update .census (Flt.mul speed p.timeToCensus)).update
    .facetCrossing nf.distanceToFacet).forceCollision else (((DistanceHandler.default (T := T)).update .collision
    (Flt.mul p.numMeanFreePaths p.meanFreePath)).update .census (Flt.mul speed p.timeToCensus)).update
    .facetCrossing nf.distanceToFacet).minDist = true := by
    cases force with
    | true => exact tiny_nonneg
    | false =>
      rw [if_neg (by simp)]
      exact update_minDist (update_minDist (update_minDist le_huge_zero (h1 rfl) _) h2 _) h3 _
  generalize (if force = true then _ else _ : DistanceHandler T) = hd at hpos
  simp only [bind_ok, assertB_ok]
  obtain ⟨hc, hf, hce, hm, ho⟩ := hd
  cases ho <;> (dsimp only at hpos ⊢; split) <;> exact ⟨_, _, (), hpos, rfl⟩

theorem speed_nn (e : T) : Nn (Particle.speedOf e) := by
  unfold Particle.speedOf
  exact (nn_lit _ _).mul (nn_sqrt _)

theorem prepareXs_nn {p : Particle T} {xs : T} (hp : Nn p.numMeanFreePaths) (hx : Usable xs) :
    Nn (prepareXs p xs).numMeanFreePaths ∧ (prepareXs p xs).timeToCensus = p.timeToCensus ∧
    Nn (prepareXs p xs).meanFreePath ∧ (prepareXs p xs).totalCrossSection = xs := by
  have hmfp : Nn (if (xs ==. zero) = true then (Flt.huge : T) else one /. xs) := by
    split
    · obtain ⟨x, hx, h0⟩ := val_huge (T := T)
      exact IsFin.nn hx h0.le
    · rename_i hz
      obtain ⟨v, hv, h0⟩ := hx
      refine nn_inv hv (lt_of_le_of_ne h0 fun h => hz ?_)
      subst h
      exact (beq_iff _ _).2 ⟨_, hv, fin_zero⟩
  unfold prepareXs
  dsimp only
  split
  · obtain ⟨u, hu, u0, u1⟩ := fin_draw (T := T) p.seed
    unfold Particle.sampleNumMfp
    dsimp only
    generalize Rng.sample (T := T) p.seed = r at hu ⊢
    obtain ⟨u', s⟩ := r
    exact ⟨nn_neg_ln hu u0 u1, rfl, hmfp, rfl⟩
  · exact ⟨hp, rfl, hmfp, rfl⟩

theorem prepareXs_time (p : Particle T) (xs : T) :
    (prepareXs p xs).timeToCensus = p.timeToCensus ∧ (prepareXs p xs).totalCrossSection = xs := by
  unfold prepareXs
  dsimp only
  split
  · unfold Particle.sampleNumMfp
    dsimp only
    generalize Rng.sample (T := T) p.seed = r
    obtain ⟨u', s⟩ := r
    exact ⟨rfl, rfl⟩
  · exact ⟨rfl, rfl⟩

theorem outcomeWithXs_total {dom : Domain T} (hm : SoundMesh dom) {p : Particle T} {speed xs : T} {force : Bool}
    (hc : p.cell < dom.cells.length) (hxs : Usable xs) (hs : Nn speed) (ht : Nn p.timeToCensus)
    (hp : force = false → Nn p.numMeanFreePaths) : ∃ o q, outcomeWithXs dom speed force p xs = .ok (o, q) := by
  have hcell : (prepareXs p xs).cell = p.cell := (prepareXs_frame p xs).cell
  obtain ⟨nf, q, hnf, h0⟩ := nearestFacet_total hm (p := prepareXs p xs) (by rw [hcell]; exact hc)
  have hframe := nearestFacet_frame hnf
  have htime := (prepareXs_time p xs).1
  obtain ⟨o, r, hr⟩ := applyOutcome_total (p := q) (speed := speed) (force := force) (nf := nf)
    (fun hf => by
      obtain ⟨p1, _, p3, _⟩ := prepareXs_nn (hp hf) hxs
      rw [hframe]
      exact p1.mul p3)
    (by rw [hframe]; exact hs.mul (by show Nn (prepareXs p xs).timeToCensus; rw [htime]; exact ht)) h0
  exact ⟨o, r, by unfold outcomeWithXs; dsimp only; rw [hnf]; exact hr⟩

theorem prepareForced_nn (p : Particle T) :
    (prepareForced p).1 = false → Nn (prepareForced p).2.numMeanFreePaths := by
  unfold prepareForced
  dsimp only
  intro h
  rw [h, if_neg (by simp)]
  exact nn_iff.1 h

theorem prepareForced_keeps (p : Particle T) : (prepareForced p).2.cell = p.cell ∧
    (prepareForced p).2.energyGroup = p.energyGroup ∧ (prepareForced p).2.timeToCensus = p.timeToCensus := by
  unfold prepareForced
  dsimp only
  split <;> exact ⟨rfl, rfl, rfl⟩

variable {data : Data T} {dom : Domain T}

theorem CacheAnswer.usable (h : FloatTracking data dom) {i : Nat} {v : T} (hv : CacheAnswer data dom i v) : Usable v := by
  rcases hv with rfl | ⟨c, g, _, hx⟩
  · exact ⟨0, fin_zero, le_rfl⟩
  · exact h.xs c g v hx

theorem cachedXs_usable (h : FloatTracking data dom) {c g : Nat} {tr : List (Ev T)} {xs : T}
    (hx : (cachedXs data dom c g).May tr xs) (hl : Ev.LoadsIn (CacheAnswer data dom) tr) : Usable xs := by
  unfold cachedXs at hx
  cases hx with
  | @load _ _ v _ _ hk =>
    have hv := hl _ v (List.mem_cons_self ..)
    dsimp only at hk
    split at hk
    · have := (Prog.May.ret_inv hk).2
      subst this
      exact hv.usable h
    · split at hk
      · exact (Prog.May.fail_inv hk).elim
      · rename_i hd
        cases hk with
        | store hk =>
          have := (Prog.May.ret_inv hk).2
          subst this
          exact h.xs _ _ _ hd

theorem directXs_total (h : FloatTracking data dom) {c g : Nat} (hc : c < dom.cells.length)
    (hg : g < dom.numGroups) : ∃ x, directXs data dom c g = .ok x := by
  refine ok_of_no_error fun e he => ?_
  simp only [directXs, weightedMacroXs, bind_error, pure_error, idx_error, idx_ok, and_false, exists_false,
    or_false] at he
  rcases he with ⟨he, _⟩ | ⟨cs, hcs, ⟨he, _⟩ | ⟨mat, hmat, he⟩⟩
  · omega
  · have := h.material cs (List.mem_of_getElem? hcs); omega
  · obtain ⟨i, hi, he⟩ := mapM_error he
    have hi := List.mem_range.1 hi
    simp only [macroscopicTotalXs, bind_error, idx_error, idx_ok] at he
    rcases he with ⟨he, _⟩ | ⟨iso, hiso, he⟩
    · omega
    · split at he
      · simp [pure_error] at he
      · simp only [NuclearData.getTotalCrossSection, groupCrossSections, bind_error, pure_error, idx_error, idx_ok,
          and_false, exists_false, or_false] at he
        rcases he with ⟨he, _⟩ | ⟨rs, hrs, he⟩
        · have := h.isotope mat (List.mem_of_getElem? hmat) iso (List.mem_of_getElem? hiso); omega
        · obtain ⟨r, hr, he⟩ := mapM_error he
          have := h.sizes rs (List.mem_of_getElem? hrs) r hr
          have := (idx_error.1 he).1
          omega

theorem outcome_total (h : FloatTracking data dom) {p : Particle T} (ht : Nn p.timeToCensus)
    (hc : p.cell < dom.cells.length) (hg : p.energyGroup < dom.numGroups) {nc nf : Nat} (hn : nc = tableSize dom)
    {e : Panic} : ¬ (outcome data dom p).MayFail (CacheAnswer data dom) nc nf e := by
  intro hf
  have hi : p.cell * dom.numGroups + p.energyGroup < nc := by rw [hn]; exact index_lt hg hc
  obtain ⟨k1, k2, k3⟩ := prepareForced_keeps p
  have hnn := prepareForced_nn p
  unfold outcome at hf
  dsimp only at hf
  generalize prepareForced p = fp at hf k1 k2 k3 hnn
  obtain ⟨force, q⟩ := fp
  dsimp only at hf k1 k2 k3 hnn
  rw [k1, k2] at hf
  rcases hf.bind_inv with hf | ⟨tr, xs, hx, hl, hf⟩
  · unfold cachedXs at hf
    cases hf with
    | loadOob h => exact h hi
    | load _ _ hf =>
      dsimp only at hf
      split at hf
      · exact hf.ret_inv
      · obtain ⟨x, hx⟩ := directXs_total h hc hg
        rw [hx] at hf
        cases hf with
        | storeOob h => exact h hi
        | store _ hf => exact hf.ret_inv
  · obtain ⟨o, r, ho⟩ := outcomeWithXs_total h.mesh (p := q) (by rw [k1]; exact hc) (cachedXs_usable h hx hl)
      (speed_nn p.kineticEnergy) (by rw [k3]; exact ht) hnn
    have := hf.ofExcept_inv
    unfold Particle.getSpeed at this
    rw [ho] at this
    cases this

/-- What is left of the time and of the cross-section after a segment. -/
theorem outcome_keeps (h : FloatTracking data dom) {p : Particle T} (ht : Nn p.timeToCensus) {tr : List (Ev T)}
    {o : SegOutcome} {q : Particle T} (hm : (outcome data dom p).May tr (o, q))
    (hl : Ev.LoadsIn (CacheAnswer data dom) tr) : Nn q.timeToCensus ∧ Usable q.totalCrossSection := by
  obtain ⟨k1, k2, k3⟩ := prepareForced_keeps p
  unfold outcome at hm
  dsimp only at hm
  generalize prepareForced p = fp at hm k1 k2 k3
  obtain ⟨force, p1⟩ := fp
  dsimp only at hm k1 k2 k3
  obtain ⟨t1, t2, xs, rfl, hx, h2⟩ := hm.bind_inv
  have hxs := cachedXs_usable h hx hl.left
  obtain ⟨_, h2⟩ := h2.ofExcept_inv
  simp only [outcomeWithXs, bind_ok, Prod.exists] at h2
  obtain ⟨nf, r, hr, h2⟩ := h2
  have hfr := nearestFacet_frame hr
  obtain ⟨e1, e2⟩ := prepareXs_time p1 xs
  have hrx : Usable r.totalCrossSection := by
    rw [hfr]; show Usable (prepareXs p1 xs).totalCrossSection; rw [e2]; exact hxs
  have hrt : Nn r.timeToCensus := by
    rw [hfr]; show Nn (prepareXs p1 xs).timeToCensus; rw [e1, k3]; exact ht
  simp only [applyOutcome, bind_ok, assertB_ok] at h2
  obtain ⟨_, _, h2⟩ := h2
  generalize (if force = true then _ else _ : DistanceHandler T) = hd at h2
  obtain ⟨hc, hf, hce, hm, ho⟩ := hd
  cases ho <;> (dsimp only at h2; split at h2) <;>
    (simp only [pure_ok, Prod.mk.injEq] at h2; obtain ⟨_, rfl⟩ := h2)
  · exact ⟨hrt, hrx⟩
  · exact ⟨nn_max _, hrx⟩
  · exact ⟨hrt, hrx⟩
  · exact ⟨nn_max _, hrx⟩
  · exact ⟨nn_min hrt, hrx⟩
  · exact ⟨nn_max _, hrx⟩
