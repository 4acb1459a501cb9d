import Verif.Lemmas.FloatInv
/-!
# Collisions go through in floating-point arithmetic
-/
set_option linter.unusedSectionVars false
open Flt Ieee
attribute [local irreducible] Rng.lcg Rng.sample Rng.spawn
variable {T : Type} [Flt T] [Ieee T] {data : Data T} {dom : Domain T}

/-- A finite number. -/
def Ieee.Finite (a : T) : Prop := ∃ x : ℝ, IsFin a x

theorem usable_lit20 : Usable (Flt.lit 1 (-20) : T) := by
  obtain ⟨x, hx, h0⟩ := lit_nonneg (T := T) 1 (-20)
  have h1 : x ≤ ((1 : ℝ) : EReal) := by
    rw [val_lit] at hx
    cases hx
    have h := rndLit_exact (T := T) 1 0 (by norm_num) (by norm_num) (by norm_num)
    have e : (((1 : ℕ) : ℝ) * 2 ^ (0 : ℤ) : ℝ) = 1 := by simp
    rw [e] at h
    rw [← h]
    refine rndLit_mono (EReal.coe_le_coe_iff.2 ?_)
    norm_num
  have hb : x ≠ ⊥ := by rintro rfl; simp at h0
  have ht : x ≠ ⊤ := by rintro rfl; exact EReal.coe_ne_top _ (top_le_iff.1 h1)
  lift x to ℝ using ⟨ht, hb⟩
  exact ⟨x, hx, by exact_mod_cast h0⟩

theorem not_neg_of_finite {a : T} {x : ℝ} (ha : IsFin a x) (h : ¬ (a <. zero) = true) : 0 ≤ x := by
  rw [lt_fin ha fin_zero] at h
  exact not_lt.1 h

theorem scanReactions_total {fraction density : T} {group : Nat} {rs : List (Reaction T)}
    (hr : ∀ r ∈ rs, group < r.crossSection.length)
    (hs : ∀ r ∈ rs, ∀ s ∈ r.crossSection, Usable (fraction *. density *. s)) (xs : T) (hx : Usable xs)
    (r0 : Option (Reaction T)) :
    ∃ xs' r', scanReactions fraction density group rs xs r0 = .ok (xs', r') ∧ Ieee.Finite xs' ∧
      ((xs' <. zero) = true → ∃ r ∈ rs, r' = some r) := by
  induction rs generalizing xs with
  | nil =>
    obtain ⟨x, hx, h0⟩ := hx
    refine ⟨xs, r0, rfl, ⟨x, hx⟩, fun h => ?_⟩
    rw [lt_fin hx fin_zero] at h
    linarith
  | cons c cs ih =>
    have main : ∀ x : T, Ieee.Finite x → ∃ xs' r', (if (zero >. x) = true then (pure (x, some c) : Except Panic _)
        else scanReactions fraction density group cs x r0) = .ok (xs', r') ∧ Ieee.Finite xs' ∧
        ((xs' <. zero) = true → ∃ r ∈ c :: cs, r' = some r) := by
      intro x hfin
      split
      · exact ⟨x, some c, rfl, hfin, fun _ => ⟨c, by simp, rfl⟩⟩
      · rename_i hneg
        obtain ⟨v, hv⟩ := hfin
        obtain ⟨xs', r', h1, h2, h3⟩ := ih (fun r h => hr r (by simp [h])) (fun r h => hs r (by simp [h])) x
          ⟨v, hv, not_neg_of_finite hv hneg⟩
        refine ⟨xs', r', h1, h2, fun h => ?_⟩
        obtain ⟨r, h4, h5⟩ := h3 h
        exact ⟨r, by simp [h4], h5⟩
    obtain ⟨v, hv, v0⟩ := hx
    have sub : ∀ b : T, Usable b → Ieee.Finite (xs -. b) := by
      rintro b ⟨y, hy, y0⟩
      obtain ⟨z, hz, _⟩ := sub_finite hv hy v0 y0
      exact ⟨z, hz⟩
    unfold scanReactions
    dsimp only
    split
    · exact main _ (sub _ usable_lit20)
    · rw [idx_lt (hr c (by simp))]
      exact main _ (sub _ (hs c (by simp) _ (List.getElem_mem _)))

/-- `r` is a reaction of some isotope of the tables. -/
def Tabulated (data : Data T) (r : Reaction T) : Prop := ∃ rs ∈ data.nuclear.isotopes, r ∈ rs

theorem FloatTracking.scan (h : FloatTracking data dom) {cs : CellState T} (hcs : cs ∈ dom.cells) {mat : Material T}
    (hm : mat ∈ data.materials) {group : Nat} (hg : group < dom.numGroups)
    {isos : List (Isotope T)} (hi : ∀ iso ∈ isos, iso ∈ mat.iso) (xs : T) (hx : Usable xs)
    (r0 : Option (Reaction T)) :
    ∃ xs' r', scanIsotopes data cs.cellNumberDensity group isos xs r0 = .ok (xs', r') ∧ Ieee.Finite xs' ∧
      ((xs' <. zero) = true → ∃ r, r' = some r ∧ Tabulated data r) := by
  induction isos generalizing xs r0 with
  | nil =>
    obtain ⟨x, hx, h0⟩ := hx
    refine ⟨xs, r0, rfl, ⟨x, hx⟩, fun h => ?_⟩
    rw [lt_fin hx fin_zero] at h
    linarith
  | cons iso isos ih =>
    have hgid := h.isotope mat hm iso (hi iso (by simp))
    obtain ⟨x, r1, h1, h2, h3⟩ := scanReactions_total (fraction := iso.atomFraction) (density := cs.cellNumberDensity)
      (group := group) (rs := data.nuclear.isotopes[iso.gid]) (fun r hr => by
        rw [h.sizes _ (List.getElem_mem hgid) r hr]; exact hg)
      (fun r hr s hs => h.reaction cs hcs mat hm iso (hi iso (by simp)) _ (List.getElem_mem hgid) r hr s hs) xs hx r0
    unfold scanIsotopes
    rw [idx_lt hgid]
    dsimp only [bind, Except.bind]
    rw [h1]
    dsimp only
    split
    · refine ⟨x, r1, rfl, h2, fun hx => ?_⟩
      obtain ⟨r, hr, h4⟩ := h3 hx
      exact ⟨r, h4, _, List.getElem_mem hgid, hr⟩
    · rename_i hneg
      obtain ⟨v, hv⟩ := h2
      exact ih (fun i hi' => hi i (by simp [hi'])) x ⟨v, hv, not_neg_of_finite hv hneg⟩ r1

theorem FloatTracking.pick (h : FloatTracking data dom) {cs : CellState T} (hcs : cs ∈ dom.cells) {mat : Material T}
    (hm : mat ∈ data.materials) {group : Nat} (hg : group < dom.numGroups) (fuel : Nat) (xs : T)
    (hf : Ieee.Finite xs) (r0 : Option (Reaction T))
    (h0 : (xs <. zero) = true → ∃ r, r0 = some r ∧ Tabulated data r) :
    pickReaction data mat cs.cellNumberDensity group fuel xs r0 = .error .outOfFuel ∨
    ∃ r, pickReaction data mat cs.cellNumberDensity group fuel xs r0 = .ok (some r) ∧ Tabulated data r := by
  induction fuel generalizing xs r0 with
  | zero => exact .inl rfl
  | succ n ih =>
    obtain ⟨v, hv⟩ := hf
    unfold pickReaction
    split
    · rename_i hx
      have hx : (zero <=. xs) = true := hx
      rw [le_fin fin_zero hv] at hx
      obtain ⟨xs', r', h1, h2, h3⟩ := h.scan hcs hm hg (fun _ h => h) xs ⟨v, hv, hx⟩ r0
      rw [h1]
      exact ih xs' h2 r' h3
    · rename_i hx
      have hx : ¬ (zero <=. xs) = true := hx
      rw [le_fin fin_zero hv, not_le] at hx
      obtain ⟨r, rfl, hr⟩ := h0 ((lt_fin hv fin_zero).2 hx)
      exact .inr ⟨r, rfl, hr⟩

theorem sampleCollision_total {r : Reaction T} (h0 : Usable r.nuBar) (h1 : (r.nuBar +. one <. Flt.ofNat 5) = true)
    (p : Particle T) (mass : T) : ∃ x, p.sampleCollision r mass = .ok x := by
  unfold Particle.sampleCollision
  split
  · exact ⟨_, rfl⟩
  · exact ⟨_, rfl⟩
  · obtain ⟨w, hu, u0, u1⟩ := fin_draw (T := T) p.seed
    generalize Rng.sample (T := T) p.seed = r1 at hu ⊢
    obtain ⟨u, s⟩ := r1
    dsimp only at hu ⊢
    obtain ⟨n, hn, n0⟩ := h0
    have h5 : IsFin (Flt.ofNat 5 : T) 5 := by simpa using fin_ofNat (T := T) (n := 5) (by norm_num)
    obtain ⟨x, y, hx, hy, hlt⟩ := (lt_iff _ _).1 h1
    rw [h5] at hy
    cases hy
    rw [fin_add hn fin_one] at hx
    cases hx
    have hle : rnd T ((n + w : ℝ) : EReal) ≤ rnd T ((n + 1 : ℝ) : EReal) :=
      rnd_mono (EReal.coe_le_coe_iff.2 (by linarith))
    have hub := lt_of_le_of_lt hle hlt
    have hlb : (0 : EReal) ≤ rnd T ((n + w : ℝ) : EReal) := rnd_nonneg (by exact_mod_cast (by linarith : 0 ≤ n + w))
    have hsum := fin_add hn hu
    have hb : rnd T ((n + w : ℝ) : EReal) ≠ ⊥ := fun hh => by rw [hh] at hlb; simp at hlb
    have ht : rnd T ((n + w : ℝ) : EReal) ≠ ⊤ := fun hh => by rw [hh] at hub; simp at hub
    generalize rnd T ((n + w : ℝ) : EReal) = z at hsum hub hlb hb ht
    lift z to ℝ using ⟨ht, hb⟩
    have z0 : 0 ≤ z := by exact_mod_cast hlb
    have z5 : z < 5 := by exact_mod_cast hub
    have hU : Flt.toUsize (r.nuBar +. u) = some ⌊z⌋₊ :=
      toUsize_eq _ z hsum z0 (z5.trans (by norm_num))
    have hlt : ⌊z⌋₊ < 5 := by
      rw [Nat.floor_lt z0]
      exact_mod_cast z5
    rw [hU]
    generalize ⌊z⌋₊ = n at hlt ⊢
    dsimp only [unwrap, bind, Except.bind]
    split
    · exact ⟨_, rfl⟩
    · split
      · exact ⟨_, rfl⟩
      · have : decide (n < 5) = true := decide_eq_true hlt
        rw [this]
        exact ⟨_, rfl⟩

theorem FloatTracking.collision (h : FloatTracking data dom) {fuel : Nat} {st : TrackState T}
    (hc : st.particle.cell < dom.cells.length) (hg : st.particle.energyGroup < dom.numGroups)
    (hx : Usable st.particle.totalCrossSection) {e : Panic} (he : collisionBranch data dom fuel st = .error e) :
    e = .outOfFuel := by
  unfold collisionBranch at he
  rw [idx_lt hc] at he
  have hmat := h.material _ (List.getElem_mem hc)
  have hcs : dom.cells[st.particle.cell] ∈ dom.cells := List.getElem_mem hc
  generalize dom.cells[st.particle.cell] = cs at he hmat hcs
  simp only [bind_error, pure_error, and_false, exists_false, or_false, reduceCtorEq, false_or, Except.ok.injEq,
    exists_eq_left'] at he
  rcases he with he | ⟨⟨keep, st1⟩, _, he⟩
  · unfold collisionEvent at he
    have hcx : Usable st.particle.getCurrentXs.1 ∧
        st.particle.getCurrentXs.2.energyGroup = st.particle.energyGroup := by
      obtain ⟨w, hu, u0, u1⟩ := fin_draw (T := T) st.particle.seed
      obtain ⟨v, hv, v0⟩ := hx
      unfold Particle.getCurrentXs
      generalize Rng.sample (T := T) st.particle.seed = r1 at hu ⊢
      obtain ⟨u, s⟩ := r1
      obtain ⟨z, hz, z0, _⟩ := scale hv hu v0 u0 u1
      exact ⟨⟨z, hz, z0⟩, rfl⟩
    generalize st.particle.getCurrentXs = xp at he hcx
    obtain ⟨xs, p⟩ := xp
    dsimp only at he hcx
    rw [idx_lt hmat] at he
    simp only [bind_error, reduceCtorEq, false_or, Except.ok.injEq, exists_eq_left'] at he
    obtain ⟨⟨v, hv, v0⟩, hgr⟩ := hcx
    rcases h.pick hcs (List.getElem_mem hmat) (group := p.energyGroup)
      (by rw [hgr]; exact hg) fuel xs ⟨v, hv⟩ none (fun hlt => by
        rw [lt_fin hv fin_zero] at hlt; linarith) with hp | ⟨r, hp, rs, hrs, hr⟩
    · rw [hp] at he
      rcases he with he | ⟨_, he, _⟩
      · exact (Except.error.inj he).symm
      · cases he
    · rw [hp] at he
      rcases he with he | ⟨_, he', he⟩
      · cases he
      · cases he'
        dsimp only at he
        obtain ⟨n0, n1⟩ := h.nuBar rs hrs r hr
        obtain ⟨x, hx⟩ := sampleCollision_total n0 n1 p data.materials[cs.material].mass
        rw [hx] at he
        cases he
  · obtain ⟨g, hg', _⟩ := h.group st1.particle.kineticEnergy
    rw [hg'] at he
    cases he

theorem FloatTracking.prepare (h : FloatTracking data dom) (p : Particle T) : ∃ q, gutsPrepare data p = .ok q := by
  obtain ⟨g, hg, _⟩ := h.group p.kineticEnergy
  have hk : (if Flt.le p.timeToCensus Flt.zero = true then
      ({ p with timeToCensus := Flt.add p.timeToCensus data.dt } : Particle T) else p).kineticEnergy =
      p.kineticEnergy := by split <;> rfl
  unfold gutsPrepare
  dsimp only
  rw [hk, hg]
  exact ⟨_, rfl⟩

/-- No step of the tracking of a particle that can exist panics. -/
theorem FloatTracking.particle {fuel nc nf : Nat} (h : FloatTracking data dom)
    {d : Domain T} (hd : d.skeleton = dom.skeleton) {p : Particle T}
    (hr : ReachableBy (CacheAnswer data) data dom fuel p)
    (hn : nc = tableSize d) (hf : nf = tableSize d) {e : Panic}
    (he : ParticleFails (CacheAnswer data d) data d fuel nc nf p e) : e = .outOfFuel := by
  have hs := h.skeleton hd
  have hok := floatOk_reachable h hr
  have hi := (reachable_index h.mesh hr).skeleton hd
  have hg : p.energyGroup < d.numGroups := by rw [numGroups_skeleton hd]; exact hok.group
  cases he with
  | prepare he =>
    obtain ⟨q, hq⟩ := hs.prepare p
    rw [hq] at he; cases he
  | segment he => exact (outcome_total hs hok.time hi.cell hg hn he).elim
  | flux ho _ hfl =>
    refine (hfl ?_).elim
    have hfr := outcome_frame ho
    rw [hf, hfr.cell, hfr.energyGroup]
    exact index_lt hg hi.cell
  | @event tr o q b ex _ ho hl he =>
    have hfr := outcome_frame ho
    have hq := outcome_index hs.mesh hi ho
    cases o with
    | census => cases he
    | facetCrossing =>
      obtain ⟨r, hr⟩ := facetBranch_ok hs.mesh
        (st := { particle := { q with numSegments := q.numSegments +. one }, balance := b, extra := ex })
        ⟨hq.1, hq.2, hq.3⟩
      have he : facetBranch d _ = _ := he
      rw [hr] at he; cases he
    | collision =>
      exact hs.collision
        (st := { particle := { q with numSegments := q.numSegments +. one }, balance := b, extra := ex })
        hq.cell (by show q.energyGroup < _; rw [hfr.energyGroup]; exact hg)
        (outcome_keeps hs hok.time ho hl).2 he
