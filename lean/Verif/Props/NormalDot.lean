import Verif.Props.Exit
import Verif.Model.Tracking
/-!
# C25: the normal product kept at a facet

A particle has a field for the "normal dot product value kept when crossing a facet", and the nearest facet one for the
"dot product between facet and direction vector" (`mc_particle.rs` 80, `facets.rs` 75).  Neither is ever computed.
-/
open Flt FltReal GridSpec MeshSpec Flooding
attribute [local irreducible] Rng.lcg Rng.sample Rng.spawn

section
variable {T : Type} [Flt T]

theorem nearestPositive_dot (l : List (T × Nat)) : ∀ init : NearestFacet T,
    (nearestPositive l init).dotProduct = init.dotProduct := by
  induction l with
  | nil => intro; rfl
  | cons a l ih =>
    intro init
    unfold nearestPositive at ih ⊢
    rw [List.foldl_cons, ih]
    dsimp only
    split <;> rfl

theorem nearestNegative_dot (l : List (T × Nat)) : ∀ init : NearestFacet T,
    (nearestNegative l init).dotProduct = init.dotProduct := by
  induction l with
  | nil => intro; rfl
  | cons a l ih =>
    intro init
    unfold nearestNegative at ih ⊢
    rw [List.foldl_cons, ih]
    dsimp only
    split <;> rfl

theorem computeNearest_dot (l : List T) : (computeNearest l).dotProduct = zero := by
  unfold computeNearest
  dsimp only
  split
  · rw [nearestPositive_dot]; rfl
  split
  · rw [nearestNegative_dot]; rfl
  · rw [nearestPositive_dot]; rfl

theorem nfLoop_dot {mesh : Mesh T} {planes : List (Plane T)} {r d : Vec3 T} {tol : T} : ∀ (fuel n : Nat) (move : T)
    (p q : Particle T) (nf : NearestFacet T), nfLoop mesh planes r d tol fuel n move p = .ok (nf, q) →
    nf.dotProduct = zero
  | 0, _, _, _, _, _, h => by cases h
  | fuel + 1, n, move, p, q, nf, h => by
    unfold nfLoop at h
    obtain ⟨dists, _, h⟩ := bind_ok.1 h
    dsimp only at h
    split at h
    · obtain ⟨r1, _, h⟩ := bind_ok.1 h
      split at h
      · exact nfLoop_dot fuel _ _ _ _ _ h
      · cases h
        exact computeNearest_dot _
    · cases h
      exact computeNearest_dot _

theorem nearestFacet_dot {mesh : Mesh T} {p q : Particle T} {nf : NearestFacet T}
    (h : nearestFacet mesh p = .ok (nf, q)) : nf.dotProduct = zero := by
  unfold nearestFacet at h
  obtain ⟨⟨nf', q'⟩, h1, h⟩ := bind_ok.1 h
  dsimp only at h
  obtain ⟨_, _, h⟩ := bind_ok.1 h
  cases h
  unfold mctNf3dg at h1
  obtain ⟨planes, _, h1⟩ := bind_ok.1 h1
  have := nfLoop_dot _ _ _ _ _ _ h1
  exact this

theorem applyOutcome_dot {p q : Particle T} {speed : T} {force : Bool} {nf : NearestFacet T} {o : SegOutcome}
    (h : applyOutcome p speed force nf = .ok (o, q)) : q.normalDot = nf.dotProduct := by
  unfold applyOutcome at h
  dsimp only at h
  revert h
  generalize (if force = true then _ else _ : DistanceHandler T) = hd
  intro h
  obtain ⟨_, _, h⟩ := bind_ok.1 h
  rcases ho : hd.outcome with _ | _ | _ <;> rw [ho] at h <;> dsimp only at h <;> split at h <;> cases h <;> rfl

/-- **C25**, the product is not kept.  Whatever the mesh, the particle and the arithmetic, after every segment the
normal product of the particle is zero. -/
theorem C25_normal_zero {dom : Domain T} {speed xs : T} {force : Bool} {p q : Particle T} {o : SegOutcome}
    (h : outcomeWithXs dom speed force p xs = .ok (o, q)) : q.normalDot = zero := by
  unfold outcomeWithXs at h
  obtain ⟨⟨nf, p'⟩, h1, h⟩ := bind_ok.1 h
  rw [applyOutcome_dot h, nearestFacet_dot h1]

end

/-- **C25**, the product is wrong.  On the mesh of the program, a particle that leaves its cell has a positive product
with the normal of the facet it leaves by, but the search reports, and every segment keeps, a smaller one: zero. -/
theorem C25_normal_violated {order : IterOrder} (ho : ∀ l, (order l).Perm l) {params : Params ℝ}
    {mats : List (Material ℝ)} (h : SingleUnit params mats) (hroot : params.rootCell < cells params.grid)
    (fuel : Nat) (hfuel : cells params.grid + 1 ≤ fuel) {dom : Domain ℝ}
    (hdom : initMesh order fuel params mats = .ok [dom]) {c : Nat} (p : Particle ℝ)
    (hi : CellAt dom p.cell c)
    (hd : p.direction.x ^ 2 + p.direction.y ^ 2 + p.direction.z ^ 2 = 1) {s : ℝ} (hs : 0 < s)
    (hexit : ExitsAt params.grid (params.grid.cellIdxToTuple c) p.coordinate p.direction s) :
    ∃ (nf : NearestFacet ℝ) (planes : List (Plane ℝ)) (pl : Plane ℝ),
      nearestFacet dom.mesh p = .ok (nf, p) ∧
      dom.mesh.cellGeometry[p.cell]? = some planes ∧ planes[nf.facet]? = some pl ∧
      nf.dotProduct < pl.cos p.direction ∧
      ∀ speed force o q, applyOutcome p speed force nf = .ok (o, q) → q.normalDot < pl.cos p.direction := by
  obtain ⟨nf, planes, pl, _, _, _, h1, _, _, h4, h5, _, h7, _⟩ :=
    C25_nearest_facet ho h hroot fuel hfuel hdom p hi hd hs hexit
  have hz : nf.dotProduct = 0 := (nearestFacet_dot h1).trans FltReal.zero_eq
  exact ⟨nf, planes, pl, h1, h4, h5, by rw [hz]; exact h7, fun _ _ _ _ ha => by
    rw [applyOutcome_dot ha, hz]; exact h7⟩

/-- In every cell of the default problem, a particle at its centre flying in the direction (2/3, -1/3, 2/3). -/
example (c : Nat) (hc : c < 1000) (q : Particle ℝ) : ∃ (dom : Domain ℝ) (p : Particle ℝ) (nf : NearestFacet ℝ)
    (planes : List (Plane ℝ)) (pl : Plane ℝ),
    initMesh id 1001 (defaultProblem 1029384756) defaultMats = .ok [dom] ∧ CellAt dom p.cell c ∧
    p.direction = ⟨2 / 3, -1 / 3, 2 / 3⟩ ∧ nearestFacet dom.mesh p = .ok (nf, p) ∧
    dom.mesh.cellGeometry[p.cell]? = some planes ∧ planes[nf.facet]? = some pl ∧
    nf.dotProduct < pl.cos p.direction := by
  have hs := default_single (seed := 1029384756) (by norm_num)
  obtain ⟨dom, cellAt, _, h1, _, h3, _, h5, _⟩ := C16_mesh (order := id) (fun _ => List.Perm.refl _)
    hs default_root 1001 (by rw [default_cells])
  obtain ⟨i, hi⟩ := List.getElem?_of_mem (h3.perm.mem_iff.2 (List.mem_range.2
    (show c < cells (defaultProblem 1029384756).grid by rw [default_cells]; exact hc)))
  have hg := grid_box hs
  have px := hg.dx_pos
  have py := hg.dy_pos
  have pz := hg.dz_pos
  let r := boxCenter (defaultProblem 1029384756).grid ((defaultProblem 1029384756).grid.cellIdxToTuple c)
  have hd : (2 / 3 : ℝ) ^ 2 + (-1 / 3) ^ 2 + (2 / 3) ^ 2 = 1 := by norm_num
  have hr : InOpenCell (defaultProblem 1029384756).grid ((defaultProblem 1029384756).grid.cellIdxToTuple c) r := by
    show InOpenCell _ _ (boxCenter _ _)
    unfold InOpenCell boxCenter
    refine ⟨⟨?_, ?_⟩, ⟨?_, ?_⟩, ?_, ?_⟩ <;> simp only <;> linarith
  obtain ⟨s, hs0, hexit⟩ := exit_exists hg hr (d := ⟨2 / 3, -1 / 3, 2 / 3⟩) hd
  obtain ⟨nf, planes, pl, k1, k2, k3, k4, _⟩ := C25_normal_violated (order := id) (fun _ => List.Perm.refl _) hs
    default_root 1001 (by rw [default_cells]) h1
    { q with cell := i, direction := ⟨2 / 3, -1 / 3, 2 / 3⟩, coordinate := r } ((h5 i c).1 hi) hd hs0 hexit
  exact ⟨dom, _, nf, planes, pl, h1, (h5 i c).1 hi, rfl, k1, k2, k3, k4⟩
