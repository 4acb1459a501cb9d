import Verif.Lemmas.EndingLoop
import Verif.Lemmas.Sourced
import Verif.Props.Positions
import Verif.Props.SourceStrength
/-!
# Particles that reach the end of the cycle in one segment

Used for the concrete run beside the theorems on the end of a run.
-/
open Flt FltReal GridSpec MeshSpec Flooding
attribute [local irreducible] Rng.lcg Rng.sample Rng.spawn

/-- The fields that population control does not change. -/
structure SameFlight (p q : Particle ℝ) : Prop where
  coordinate : q.coordinate = p.coordinate
  direction : q.direction = p.direction
  cell : q.cell = p.cell
  numMeanFreePaths : q.numMeanFreePaths = p.numMeanFreePaths
  timeToCensus : q.timeToCensus = p.timeToCensus
  numSegments : q.numSegments = p.numSegments

theorem SameFlight.refl (p : Particle ℝ) : SameFlight p p := ⟨rfl, rfl, rfl, rfl, rfl, rfl⟩

theorem SameFlight.trans {p q r : Particle ℝ} (h : SameFlight p q) (h' : SameFlight q r) : SameFlight p r :=
  ⟨h'.1.trans h.1, h'.2.trans h.2, h'.3.trans h.3, h'.4.trans h.4, h'.5.trans h.5, h'.6.trans h.6⟩

theorem lowWeightRr_flight (p : Particle ℝ) (c w : ℝ) : SameFlight p (p.lowWeightRr c w).1 := by
  unfold Particle.lowWeightRr
  generalize Rng.sample (T := ℝ) p.seed = x
  obtain ⟨u, s⟩ := x
  dsimp only
  split
  · split <;> exact ⟨rfl, rfl, rfl, rfl, rfl, rfl⟩
  · exact .refl _

theorem overPopulatedRr_flight (p : Particle ℝ) (f : ℝ) : SameFlight p (p.overPopulatedRr f).1 := by
  unfold Particle.overPopulatedRr
  generalize Rng.sample (T := ℝ) p.seed = x
  obtain ⟨u, s⟩ := x
  dsimp only
  split <;> exact ⟨rfl, rfl, rfl, rfl, rfl, rfl⟩

theorem regulateOne_flight (f c w : ℝ) (p : Particle ℝ) : SameFlight p (regulateOne f c w p).1 := by
  unfold regulateOne
  exact (overPopulatedRr_flight p f).trans (lowWeightRr_flight _ c w)

theorem split_flight {f : ℝ} {p p' : Particle ℝ} {cs : List (Particle ℝ)} (h : p.underPopulatedSplit f = .ok (p', cs)) :
    ∀ q ∈ p' :: cs, SameFlight p q := by
  unfold Particle.underPopulatedSplit at h
  generalize Rng.sample (T := ℝ) p.seed = x at h
  obtain ⟨u, s⟩ := x
  obtain ⟨n, _, h⟩ := bind_ok.1 h
  generalize Particle.spawnSeeds n _ = y at h
  obtain ⟨seeds, s'⟩ := y
  cases pure_ok.1 h
  intro q hq
  rcases List.mem_cons.1 hq with rfl | hq
  · exact ⟨rfl, rfl, rfl, rfl, rfl, rfl⟩
  · obtain ⟨_, _, rfl⟩ := List.mem_map.1 hq
    exact ⟨rfl, rfl, rfl, rfl, rfl, rfl⟩

theorem splitAll_flight {f : ℝ} {l ps cs : List (Particle ℝ)} (h : splitAll f l = .ok (ps, cs)) :
    ∀ q ∈ ps ++ cs, ∃ p ∈ l, SameFlight p q := by
  induction l generalizing ps cs with
  | nil =>
    simp only [splitAll, Except.ok.injEq, Prod.mk.injEq] at h
    obtain ⟨rfl, rfl⟩ := h
    simp
  | cons p l ih =>
    simp only [splitAll, bind_ok, pure_ok, Prod.exists, Prod.mk.injEq] at h
    obtain ⟨q', c1, hq, ps1, cs1, h1, rfl, rfl⟩ := h
    have hi := ih h1
    have hs := split_flight hq
    intro q hq
    simp only [List.mem_append, List.mem_cons] at hq hi hs
    have hi' : q ∈ ps1 ∨ q ∈ cs1 → ∃ x ∈ p :: l, SameFlight x q := fun hx => by
      obtain ⟨x, h2, h3⟩ := hi q hx
      exact ⟨x, by simp [h2], h3⟩
    have hs' : q = q' ∨ q ∈ c1 → ∃ x ∈ p :: l, SameFlight x q := fun hx => ⟨p, by simp, hs q hx⟩
    rcases hq with (h | h) | h | h
    exacts [hs' (.inl h), hi' (.inl h), hs' (.inr h), hi' (.inr h)]

theorem retain_mem {α : Type} {f : α → α × Bool} {l : List α} {a : α} (h : a ∈ retainMut f l) :
    ∃ b ∈ l, a = (f b).1 := by
  unfold retainMut at h
  obtain ⟨b, hb, he⟩ := List.mem_filterMap.1 h
  dsimp only at he
  split at he
  · cases he; exact ⟨b, hb, rfl⟩
  · cases he

/-- When population control starts with no particle, the particles come from the source. -/
theorem populationControl_sourced {data : Data ℝ} {gn : Nat} {sw : ℝ} {u u' : UnitState ℝ} {c c' : Container ℝ}
    (hc : c.all = []) (h : populationControl data gn sw u c = .ok (u', c')) :
    ∃ u1 c1, sourceNow data sw u c = .ok (u1, c1) ∧ ∀ q ∈ c'.processing, ∃ p ∈ c1.processing, SameFlight p q := by
  simp only [Container.all, List.append_eq_nil_iff] at hc
  obtain ⟨⟨hc1, hc2⟩, hc3⟩ := hc
  unfold populationControl at h
  obtain ⟨⟨u1, c1⟩, h1, h⟩ := bind_ok.1 h
  obtain ⟨f, _, h⟩ := bind_ok.1 h
  refine ⟨u1, c1, h1, ?_⟩
  have hx : c1.extra = [] := by
    simp only [sourceNow, bind_ok, pure_ok, Prod.exists, Prod.mk.injEq] at h1
    obtain ⟨_, _, _, _, _, _, rfl⟩ := h1
    assumption
  unfold regulateOrSplit at h
  split at h
  · simp only [Container.regulate, Except.ok.injEq, Prod.mk.injEq] at h
    obtain ⟨_, rfl⟩ := h
    intro q hq
    obtain ⟨b, hb, rfl⟩ := retain_mem hq
    exact ⟨b, hb, regulateOne_flight _ _ _ _⟩
  · split at h
    · simp only [Container.split, Container.cleanExtra, bind_ok, pure_ok, Prod.exists, Prod.mk.injEq] at h
      obtain ⟨c3, b1, ⟨ps, cs, hs, rfl, rfl⟩, _, rfl⟩ := h
      intro q hq
      obtain ⟨b, hb, rfl⟩ := retain_mem hq
      rw [hx, List.nil_append] at hb
      obtain ⟨p, hp, hf⟩ := splitAll_flight hs b hb
      exact ⟨p, hp, hf.trans (lowWeightRr_flight _ _ _)⟩
    · simp only [Except.ok.injEq, Prod.mk.injEq] at h
      obtain ⟨_, rfl⟩ := h
      exact fun q hq => ⟨q, hq, .refl _⟩

/-- The position and the optical path of a sourced particle. -/
theorem sourceParticle_draws {data : Data ℝ} {dom : Domain ℝ} {w : ℝ} {i : Nat} {cell : CellState ℝ} {s0 : BitVec 64}
    {p : Particle ℝ} (h : sourceParticle data dom w i cell s0 = .ok p) :
    ∃ s, generateCoordinate3dg (Rng.spawn s0).1 dom.mesh i cell.volume = .ok (p.coordinate, s) ∧
      p.numMeanFreePaths = -Real.log (Rng.sample (T := ℝ) (Rng.sample (T := ℝ)
        (Rng.sample (T := ℝ) (Rng.sample (T := ℝ) s).2).2).2).1 ∧ p.numSegments = 0 ∧ p.cell = i := by
  unfold sourceParticle at h
  generalize Rng.spawn s0 = x at h ⊢
  obtain ⟨a, b⟩ := x
  dsimp only at h
  obtain ⟨⟨r, s⟩, h1, h⟩ := bind_ok.1 h
  refine ⟨s, ?_⟩
  cases pure_ok.1 h
  refine ⟨h1, ?_, ?_, ?_⟩
  · simp [Particle.sampleNumMfp, Particle.sampleIsotropic]
  · simp [Particle.sampleNumMfp, Particle.sampleIsotropic, Particle.default]
  · simp [Particle.sampleNumMfp, Particle.sampleIsotropic]

section
variable {order : IterOrder} (ho : ∀ l, (order l).Perm l) {params : Params ℝ}
  {mats : List (Material ℝ)} (h : SingleUnit params mats) (hroot : params.rootCell < cells params.grid)
  (fuel : Nat) (hfuel : cells params.grid + 1 ≤ fuel) {dom : Domain ℝ}
  (hdom : initMesh order fuel params mats = .ok [dom])
include ho h hroot hfuel hdom

/-- How far a drawn position is from the faces of the cell. -/
theorem position_margin {i c : Nat} (hi : CellAt dom i c) {st : CellState ℝ} (hst : dom.cells[i]? = some st)
    {seed s : BitVec 64} {r : Vec3 ℝ} (hr : generateCoordinate3dg seed dom.mesh i st.volume = .ok (r, s)) (f : Face) :
    ∃ (u r1 r2 r3 : ℝ) (s1 s2 s3 : BitVec 64), Rng.sample (T := ℝ) seed = (u, s1) ∧ Rng.sample (T := ℝ) s1 = (r1, s2) ∧
      Rng.sample (T := ℝ) s2 = (r2, s3) ∧ Rng.sample (T := ℝ) s3 = (r3, s) ∧
      beyond params.grid (params.grid.cellIdxToTuple c) r f ≤ -((foldBary r1 r2 r3).2.2.2 *
        (Min.min params.grid.dx (Min.min params.grid.dy params.grid.dz) / 2)) := by
  obtain ⟨k, p0, p1, p2, ctr, u, r1, r2, r3, s1, s2, s3, s4, e0, e1, e2, e3, hk, hp, hctr, _, hgen⟩ :=
    C58_tetrahedron ho h hroot fuel hfuel hdom hi hst seed
  rw [hgen] at hr
  cases hr
  refine ⟨u, r1, r2, r3, s1, s2, s3, e0, e1, e2, e3, ?_⟩
  obtain ⟨bc, cs, nodeOf, hb, _, hat, _⟩ := unit_mesh ho h hroot fuel hfuel hdom
  have hi' := (hat i c).2 hi
  have hc := hb.lt hi'
  have hg := grid_box h
  obtain ⟨l1, l2, l3⟩ := indirect_lt _ hk.1
  rw [hb.facetCoords hi' hk.1] at hp
  cases hp
  obtain ⟨⟨a1, a2⟩, ⟨a3, a4⟩, a5, a6⟩ := pointCoord_in hg hc l1
  obtain ⟨⟨b1, b2⟩, ⟨b3, b4⟩, b5, b6⟩ := pointCoord_in hg hc l2
  obtain ⟨⟨c1, c2⟩, ⟨c3, c4⟩, c5, c6⟩ := pointCoord_in hg hc l3
  generalize pointCoord params.grid c _ = p0 at *
  generalize pointCoord params.grid c _ = p1 at *
  generalize pointCoord params.grid c _ = p2 at *
  have h01 : ∀ s : BitVec 64, 0 ≤ (Rng.sample (T := ℝ) s).1 ∧ (Rng.sample (T := ℝ) s).1 ≤ 1 := fun s =>
    ⟨(C01_sample_range s).1, (C01_sample_range s).2.1⟩
  obtain ⟨a, b, d, e, hf, ha, hbb, hd, he, hsum⟩ := foldBary_spec (by have := h01 s1; rwa [e1] at this)
    (by have := h01 s2; rwa [e2] at this) (by have := h01 s3; rwa [e3] at this)
  rw [hf]
  dsimp only
  subst hctr
  generalize params.grid.cellIdxToTuple c = t at *
  have m1 : Min.min params.grid.dx (Min.min params.grid.dy params.grid.dz) ≤ params.grid.dx := min_le_left _ _
  have m2 : Min.min params.grid.dx (Min.min params.grid.dy params.grid.dz) ≤ params.grid.dy :=
    (min_le_right _ _).trans (min_le_left _ _)
  have m3 : Min.min params.grid.dx (Min.min params.grid.dy params.grid.dz) ≤ params.grid.dz :=
    (min_le_right _ _).trans (min_le_right _ _)
  generalize Min.min params.grid.dx (Min.min params.grid.dy params.grid.dz) = m at *
  have up : ∀ {l x y z w M : ℝ}, x ≤ l → y ≤ l → z ≤ l → w + M / 2 ≤ l → m ≤ M → a * x + b * y + d * z + e * w - l ≤ -(e * (m / 2)) := by
    intro l x y z w M h1 h2 h3 h4 h5
    have q1 := mul_le_mul_of_nonneg_left h1 ha
    have q2 := mul_le_mul_of_nonneg_left h2 hbb
    have q3 := mul_le_mul_of_nonneg_left h3 hd
    have q4 := mul_le_mul_of_nonneg_left (show w + m / 2 ≤ l by linarith) he
    have : l = a * l + b * l + d * l + e * l := by rw [← add_mul, ← add_mul, ← add_mul, hsum, one_mul]
    linarith
  have lo : ∀ {l x y z w M : ℝ}, l ≤ x → l ≤ y → l ≤ z → l ≤ w - M / 2 → m ≤ M → l - (a * x + b * y + d * z + e * w) ≤ -(e * (m / 2)) := by
    intro l x y z w M h1 h2 h3 h4 h5
    have q1 := mul_le_mul_of_nonneg_left h1 ha
    have q2 := mul_le_mul_of_nonneg_left h2 hbb
    have q3 := mul_le_mul_of_nonneg_left h3 hd
    have q4 := mul_le_mul_of_nonneg_left (show l ≤ w - m / 2 by linarith) he
    have : l = a * l + b * l + d * l + e * l := by rw [← add_mul, ← add_mul, ← add_mul, hsum, one_mul]
    linarith
  cases f <;> unfold beyond boxCenter <;> dsimp only
  · exact up a2 b2 c2 (by linarith) m1
  · exact lo a1 b1 c1 (by linarith) m1
  · exact up a4 b4 c4 (by linarith) m2
  · exact lo a3 b3 c3 (by linarith) m2
  · exact up a6 b6 c6 (by linarith) m3
  · exact lo a5 b5 c5 (by linarith) m3

variable {data : Data ℝ} {d : Domain ℝ} (hd : d.skeleton = dom.skeleton) (hx : NonnegTables data d)

include hd hx in
/-- A particle that is far enough from the faces and from its collision ends its cycle in one segment. -/
theorem census_only {q : Particle ℝ} (hq : TimeOk q) (hu : IsUnit3 q.direction) (hn : 0 < q.numMeanFreePaths)
    (hs : q.numSegments = 0) {c : Nat} (hi : CellAt dom q.cell c) {m X : ℝ}
    (hm : ∀ f, beyond params.grid (params.grid.cellIdxToTuple c) q.coordinate f ≤ -m) (hm' : reachOf q < m)
    (hXs : ∀ cell group xs, directXs data d cell group = .ok xs → xs ≤ X) (hX : X * reachOf q < q.numMeanFreePaths)
    (hb : reachOf q < 10 ^ 76) (hb' : reachOf q < q.numMeanFreePaths * 10 ^ 76) :
    Ordinary data d params.grid q ∧ ∀ o r, directOutcome data d q = .ok (o, r) → o = .census := by
  have hv := C37_speed.2.1 _ hq.energy
  change 0 < q.getSpeed ∧ q.getSpeed < _ at hv
  have hz : q.getSpeed * q.timeToCensus ≤ reachOf q := mul_le_mul_of_nonneg_right hv.2.le hq.timeToCensus
  have hp : pathOf q = q.numMeanFreePaths := by unfold pathOf; rw [if_neg hn.ne']
  have hcol : ∀ r, directOutcome data d q ≠ .ok (.collision, r) := by
    intro r hr
    obtain ⟨xs, nf, r', hxs, hxs0, _, _, _, _, _, _, _, he⟩ := direct_segment hx hq hr
    have hlt : Min.min (pathOf q * (if xs = 0 then 10 ^ 76 else 1 / xs))
        (Min.min (q.getSpeed * q.timeToCensus) nf.distanceToFacet) < 10 ^ 76 :=
      lt_of_le_of_lt ((min_le_right _ _).trans (min_le_left _ _)) (lt_of_le_of_lt hz hb)
    obtain ⟨h1, _⟩ := (he.outcome hlt).1.1 rfl
    rw [hp] at h1
    split at h1
    · linarith
    · rename_i hne
      have hpos : 0 < xs := lt_of_le_of_ne hxs0 (Ne.symm hne)
      have h2 : q.numMeanFreePaths ≤ reachOf q * xs := by
        rw [mul_one_div, div_le_iff₀ hpos] at h1
        exact h1.trans (mul_le_mul_of_nonneg_right hz hxs0)
      have h3 : reachOf q * xs ≤ reachOf q * X := mul_le_mul_of_nonneg_left (hXs _ _ _ hxs)
        ((mul_nonneg hv.1.le hq.timeToCensus).trans hz)
      linarith
  have hor : Ordinary data d params.grid q := by
    refine ⟨fun h0 => absurd h0 hn.ne', ?_, fun r hr => absurd hr (hcol r)⟩
    rintro c' _ ⟨h1, _⟩
    rw [hs] at h1
    norm_num at h1
  refine ⟨hor, ?_⟩
  intro o r hr
  cases o with
  | census => rfl
  | collision => exact absurd hr (hcol r)
  | facetCrossing =>
    exfalso
    obtain ⟨_, _, hco, f, _, _, _, _, hbf⟩ := facet_segment ho h hroot fuel hfuel hdom hd hx hq hor hb hi hr
    obtain ⟨xs, nf, r', hxs, hxs0, _, hnf, _, _, _, _, _, he⟩ := direct_segment hx hq hr
    have hlen : r.segmentPathLength ≤ reachOf q := by
      rw [he.length]
      exact ((min_le_right _ _).trans (min_le_left _ _)).trans hz
    have hlen0 : 0 ≤ r.segmentPathLength := by
      rw [he.length]
      refine le_min (mul_nonneg (hp ▸ hn.le) ?_) (le_min (mul_nonneg hv.1.le hq.timeToCensus) hnf)
      split <;> positivity
    rw [hco] at hbf
    have hmf := hm f
    have hu' : q.direction.x * q.direction.x + q.direction.y * q.direction.y + q.direction.z * q.direction.z = 1 := by
      have := hu
      unfold IsUnit3 at this
      nlinarith
    have dx : |q.direction.x| ≤ 1 := abs_le_of_sq_le_sq' (by nlinarith [sq_nonneg q.direction.y, sq_nonneg q.direction.z]) one_pos.le |> abs_le.2
    have dy : |q.direction.y| ≤ 1 := abs_le_of_sq_le_sq' (by nlinarith [sq_nonneg q.direction.x, sq_nonneg q.direction.z]) one_pos.le |> abs_le.2
    have dz : |q.direction.z| ≤ 1 := abs_le_of_sq_le_sq' (by nlinarith [sq_nonneg q.direction.x, sq_nonneg q.direction.y]) one_pos.le |> abs_le.2
    rw [abs_le] at dx dy dz
    generalize r.segmentPathLength = L at *
    have b1 := mul_le_mul_of_nonneg_left dx.1 hlen0
    have b2 := mul_le_mul_of_nonneg_left dx.2 hlen0
    have b3 := mul_le_mul_of_nonneg_left dy.1 hlen0
    have b4 := mul_le_mul_of_nonneg_left dy.2 hlen0
    have b5 := mul_le_mul_of_nonneg_left dz.1 hlen0
    have b6 := mul_le_mul_of_nonneg_left dz.2 hlen0
    clear hr he hco hor hcol hi hdom hx hd hu hu' hm
    cases f <;> unfold beyond along at hbf <;> unfold beyond at hmf <;> dsimp only at hbf hmf <;> linarith
end

/-- If the first segment ends with the cycle, there is no other state. -/
theorem visits_census {data : Data ℝ} {d : Domain ℝ} {fuel : Nat} {p : Particle ℝ}
    (h : ∀ q, gutsPrepare data p = .ok q → ∀ o r, directOutcome data d q = .ok (o, r) → o = .census) {q : Particle ℝ}
    (hv : Visits data d fuel p q) : gutsPrepare data p = .ok q := by
  induction hv with
  | start h' => exact h'
  | next _ ho he ih =>
    rw [h _ ih _ _ ho] at he
    simp [segmentEvent] at he
  | born _ ho he hc _ ih =>
    rw [h _ ih _ _ ho] at he
    simp only [segmentEvent, Except.ok.injEq, Prod.mk.injEq] at he
    rw [← he.2] at hc
    simp at hc
