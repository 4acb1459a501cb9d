import Verif.Lemmas.MeshFloat
import Verif.Lemmas.StartFloat
import Verif.Lemmas.Consistency
import Verif.Lemmas.SafeStart
/-!
# The start of a run, with rounding
-/
open Flt Ieee GridSpec MeshSpec Config
attribute [local irreducible] Rng.lcg Rng.sample Rng.spawn
set_option linter.unusedSectionVars false

namespace Flooding
variable {T : Type} [Flt T] [Ieee T] {g : Grid T}

theorem sample_fin (s : BitVec 64) : ∃ u : ℝ, IsFin (Rng.sample (T := T) s).1 u ∧ 0 ≤ u ∧ u ≤ 1 := by
  have : (Rng.sample (T := T) s).1 = Flt.ofSeed (Rng.lcg s) := by unfold Rng.sample; rfl
  rw [this]
  exact fin_sample _

theorem draw_axis (s : BitVec 64) {n : Nat} (hn : n ≤ 2 ^ 10) :
    ∃ k, unwrap (Flt.toUsize (Flt.floor ((Rng.sample (T := T) s).1 *. Flt.ofNat n))) = .ok k ∧ k ≤ n := by
  obtain ⟨u, hu, u0, u1⟩ := sample_fin (T := T) s
  have hn0 : (0 : ℝ) ≤ n := Nat.cast_nonneg n
  have hn1 : (n : ℝ) ≤ 2 ^ 10 := by exact_mod_cast hn
  obtain ⟨z, hz, z0, z1⟩ := scale' (fin_ofNat (T := T) (n := n) (by omega)) hu hn0 u0 u1
  have hf := val_floor _ _ hz
  have f0 : (0 : ℝ) ≤ ((⌊z⌋ : ℤ) : ℝ) := by exact_mod_cast Int.floor_nonneg.2 z0
  have f1 : ((⌊z⌋ : ℤ) : ℝ) ≤ n := (Int.floor_le z).trans z1
  rw [toUsize_eq _ _ hf f0 (lt_of_le_of_lt (f1.trans hn1) (by norm_num))]
  refine ⟨_, rfl, ?_⟩
  have := Nat.floor_le_floor f1
  rwa [Nat.floor_natCast] at this

theorem drawn_tuple {x y z : Nat} (hy0 : 0 < g.ny) (hx : x ≤ g.nx) (hy : y ≤ g.ny) (hz : z ≤ g.nz) :
    (g.cellIdxToTuple (g.cellTupleToIdx (x, y, z))).2.2 ≤ g.nz + 2 := by
  show (x + g.nx * (y + g.ny * z)) / g.nx / g.ny ≤ _
  rw [Nat.div_div_eq_div_mul]
  refine Nat.div_le_of_le_mul ?_
  generalize g.nx = a at *
  generalize g.ny = b at *
  generalize g.nz = e at *
  have h1 : a * (y + b * z) ≤ a * (b + b * e) :=
    Nat.mul_le_mul_left _ (Nat.add_le_add hy (Nat.mul_le_mul_left _ hz))
  have h2 : a ≤ a * b := Nat.le_mul_of_pos_right _ hy0
  nlinarith

theorem Vb.vz {v : Vec3 T} {k : ℤ} (h : Vb v 0 (2 ^ k)) : Vz v k :=
  ⟨h.1.sz le_rfl le_rfl, h.2.1.sz le_rfl le_rfl, h.2.2.sz le_rfl le_rfl⟩

theorem centers_ok (hg : SizedGrid g) (seed : BitVec 64) :
    ∃ c0, initCenters g 1 seed = .ok [c0] ∧ Vb c0 0 (2 ^ (33 : ℤ)) := by
  unfold initCenters randomCenter
  obtain ⟨⟨_, x1⟩, ⟨y0, y1⟩, ⟨_, z1⟩⟩ := hg.counts
  generalize hs1 : Rng.sample (T := T) seed = r1
  have d1 := draw_axis (T := T) seed x1
  rw [hs1] at d1
  obtain ⟨f1, s1⟩ := r1
  dsimp only at d1 ⊢
  generalize hs2 : Rng.sample (T := T) s1 = r2
  have d2 := draw_axis (T := T) s1 y1
  rw [hs2] at d2
  obtain ⟨f2, s2⟩ := r2
  dsimp only at d2 ⊢
  generalize hs3 : Rng.sample (T := T) s2 = r3
  have d3 := draw_axis (T := T) s2 z1
  rw [hs3] at d3
  obtain ⟨f3, s3⟩ := r3
  dsimp only at d3 ⊢
  obtain ⟨i, hi, bi⟩ := d1
  obtain ⟨j, hj, bj⟩ := d2
  obtain ⟨k, hk, bk⟩ := d3
  have := drawn_tuple (g := g) y0 bi bj bk
  obtain ⟨c, hc, hb⟩ := cellCenter_bd hg (c := g.cellTupleToIdx (i, j, k)) (by omega)
  refine ⟨c, ?_, hb⟩
  dsimp only [bind, Except.bind]
  rw [hi]
  dsimp only
  rw [hj]
  dsimp only
  rw [hk]
  dsimp only
  rw [hc]
  rfl

end Flooding
open Flooding
variable {T : Type} [Flt T] [Ieee T]

/-- The state of a cell. -/
theorem FloatMesh.state {p : Params T} (h : FloatMesh p) {mats : List (Material T)}
    (hs : ∀ geom ∈ p.geometries, geom.shape ≠ .undefined)
    (hm : ∀ geom ∈ p.geometries, ∃ m ∈ mats, m.name = geom.materialName) {bc : List AdjEvent} {cs : List Nat}
    {nodeOf : Nat → Nat} {mesh : Mesh T} (hb : Built p.gridOf bc cs nodeOf mesh) {i c : Nat} (hi : cs[i]? = some c) :
    ∃ st r, cellStateOf p.gridOf p.geometries mats mesh i = .ok st ∧ p.gridOf.meanPoint c = .ok r ∧
      st.volume = volumeOf p.gridOf c r ∧ st.cellNumberDensity = one ∧ st.material < mats.length ∧
      (∃ m, p.gridOf.whichCell r = .ok (st.id / 2 ^ 32) ∧ mats[st.material]? = some m ∧
        findMaterialName p.geometries r = .ok m.name) := by
  have hg := h.sized
  have hc := hb.lt hi
  obtain ⟨r, hr, br⟩ := meanPoint_bd hg hc
  obtain ⟨geom, hgm, _, hn⟩ := findName_ok hs (h.covered c r hc hr)
  obtain ⟨k, m, hk, hk', hmn⟩ := lookup_name (hm geom hgm)
  have big : ∀ {a : T}, Bd a 0 (2 ^ (32 : ℤ)) → Bd a 0 (2 ^ (33 : ℤ)) := fun ha => ha.mono le_rfl (by norm_num)
  obtain ⟨n, hw⟩ := whichCell_ok hg (r := r) ⟨big br.1, big br.2.1, big br.2.2⟩
  refine ⟨{ material := k, volume := volumeOf p.gridOf c r, cellNumberDensity := one, id := n * 2 ^ 32,
            sourceTally := 0 }, r, ?_, hr, rfl, rfl, (List.getElem?_eq_some_iff.1 hk').1,
    m, by rw [hw]; dsimp only; rw [Nat.mul_div_cancel _ (by norm_num)], hk', by rw [hn, hmn]⟩
  unfold cellStateOf
  simp only [hb.positionOf hi, hb.centerOf hi, hr, hn, hk, hb.volumeOf hi hr, hw, unwrap, bind, Except.bind, pure,
    Except.pure]

/-- The mesh of an input is built, with rounding. -/
theorem FloatMesh.build {p : Params T} (h : FloatMesh p) {order : IterOrder} (ho : ∀ l, (order l).Perm l)
    {mats : List (Material T)} (hs : ∀ geom ∈ p.geometries, geom.shape ≠ .undefined)
    (hm : ∀ geom ∈ p.geometries, ∃ m ∈ mats, m.name = geom.materialName) (fuel : Nat)
    (hfuel : cells p.gridOf ≤ fuel) :
    ∃ dom, initMesh order fuel p mats = .ok [dom] ∧ consistencyCheck [dom] = .ok () ∧
      dom.numGroups = p.simulation.nGroups ∧ dom.cells.length = cells p.gridOf ∧
      ∀ st ∈ dom.cells, ∃ c r, c < cells p.gridOf ∧ p.gridOf.meanPoint c = .ok r ∧
        st.volume = volumeOf p.gridOf c r ∧ st.cellNumberDensity = one ∧ st.material < mats.length ∧
      (∃ m, p.gridOf.whichCell r = .ok (st.id / 2 ^ 32) ∧ mats[st.material]? = some m ∧
        findMaterialName p.geometries r = .ok m.name) := by
  have hg := h.sized
  obtain ⟨bc, hbc, _⟩ := border_list h.border
  obtain ⟨c0, hc0, b0⟩ := centers_ok hg (BitVec.ofNat 64 (p.simulation.seed + 1))
  obtain ⟨root, hroot⟩ := whichCell_ok hg b0
  have hlt : root < cells p.gridOf := h.root c0 root hc0 hroot
  obtain ⟨lo, dx, dy, dz, ha, hlo, fx, fy, fz⟩ := one_new (by norm_num) b0.vz
  obtain ⟨dom, cs, nodeOf, e1, e2, e3, e4, e5, e6⟩ := initMesh_total ho (params := p) (mats := mats) (g := p.gridOf) rfl
    h.units h.seed ⟨hg.counts.1.1, hg.counts.2.1.1, hg.counts.2.2.1⟩ hbc hc0 hroot hlt ha (by
      intro c hc
      obtain ⟨r, hr, br⟩ := cellCenter_bd hg (c := c) (by
        have h1 : (p.gridOf.cellIdxToTuple c).2.2 < p.gridOf.nz := (Grid.idx_inGrid hc).2.2
        have := hg.counts.2.2.2
        omega)
      exact ⟨r, hr, one_nearest (by norm_num) b0.vz br.vz hlo fx fy fz⟩)
    (fun mesh cs nodeOf hb i c hi => by
      obtain ⟨st, _, hst, _⟩ := h.state hs hm hb hi
      exact ⟨st, hst⟩) fuel hfuel
  refine ⟨dom, e1, e2.consistent dom rfl, e4, e5, fun st hst => ?_⟩
  obtain ⟨i, hi⟩ := List.getElem?_of_mem hst
  have : i < cs.length := by
    rw [e2.perm.length_eq, List.length_range, ← e5]; exact (List.getElem?_eq_some_iff.1 hi).1
  obtain ⟨st', s1, s2⟩ := e6 i _ (List.getElem?_eq_getElem this)
  rw [hi] at s1
  cases s1
  obtain ⟨st', r, s3, s4, s5, s6, s7⟩ := h.state hs hm e2 (List.getElem?_eq_getElem this)
  rw [s2] at s3
  cases s3
  exact ⟨_, r, e2.lt (List.getElem?_eq_getElem this), s4, s5, s6, s7⟩

/-- The small numbers of neutrons of a fission. -/
theorem nuBar_ceil {a : T} (h : Usable a) (h1 : (a +. one <. Flt.ofNat 5) = true) :
    ∃ n, Flt.toUsize (Flt.ceil a) = some n := by
  obtain ⟨x, hx, x0⟩ := h
  have hlt : x < 5 := by
    by_contra hn
    obtain ⟨u, v, hu, hv, huv⟩ := (lt_iff _ _).1 h1
    rw [fin_add hx fin_one] at hu
    have h5 := fin_ofNat (T := T) (n := 5) (by norm_num)
    rw [h5] at hv
    cases hu
    cases hv
    have := rnd_mono (T := T) (EReal.coe_le_coe_iff.2 (show ((5 : ℕ) : ℝ) ≤ x + 1 by push_cast; linarith [not_lt.1 hn]))
    rw [show rnd T (((5 : ℕ) : ℝ) : EReal) = _ from h5.rep] at this
    exact absurd huv (not_lt.2 this)
  have c0 : (0 : ℝ) ≤ ((⌈x⌉ : ℤ) : ℝ) := x0.trans (Int.le_ceil x)
  have c1 : ((⌈x⌉ : ℤ) : ℝ) < 2 ^ 64 := by
    have := Int.ceil_lt_add_one x
    refine lt_trans this ?_
    norm_num
    linarith
  exact ⟨_, toUsize_eq _ _ (val_ceil _ _ hx) c0 c1⟩

/-- With rounding, a run on one unit starts. -/
theorem FloatMesh.start {p : Params T} (h : FloatMesh p) (hn : NamedParams p) (hc : Consistent p) (hi : FloatInput p)
    (hpart : 10 * cells p.gridOf ≤ p.simulation.nParticles) {so : StrOrder} (hso : ∀ l, (so l).Perm l)
    {io : IterOrder} (hio : ∀ l, (io l).Perm l) (m : Machine) (fuel : Nat) (hfuel : cells p.gridOf ≤ fuel) :
    ∃ s, startRun so io m fuel p = .ok (some s) ∧
      ∀ st ∈ s.state.unit.dom.cells, ∃ c r, c < cells p.gridOf ∧ p.gridOf.meanPoint c = .ok r ∧
        st.volume = volumeOf p.gridOf c r ∧ st.cellNumberDensity = one ∧
        (∃ m, p.gridOf.whichCell r = .ok (st.id / 2 ^ 32) ∧ s.data.materials[st.material]? = some m ∧
          findMaterialName p.geometries r = .ok m.name) := by
  obtain ⟨nd, mats, e1, e2, e3, e4⟩ := initNuclearData_ok hn hc hso
  obtain ⟨⟨data, d1, d2, rates, d3⟩, _, hnu⟩ := C39_lookups hso hn ((C39_validation hso p).2 hc)
  have hdata : data = p.data nd mats := by
    unfold initData at d1
    obtain ⟨⟨nd', mats'⟩, f1, f2⟩ := bind_ok.1 d1
    rw [e1] at f1
    cases f1
    dsimp only at f2
    obtain ⟨_, _, f3⟩ := bind_ok.1 f2
    exact (pure_ok.1 f3).symm
  subst hdata
  obtain ⟨dom, a2, a3, a4, a5, a6⟩ := h.build hio (mats := mats) hc.shapes (fun geom hg => by
    obtain ⟨i, m, _, h2, h3⟩ := d2 geom hg
    exact ⟨m, List.mem_of_getElem? h2, h3⟩) fuel hfuel
  obtain ⟨n, hnu⟩ := hnu fun k mp x _ hx => nuBar_ceil (hi.nuBar _ _ hx).1 (hi.nuBar _ _ hx).2
  obtain ⟨info, b1, b2, b3, _⟩ : ∃ info, ProcInfo.new p.execSettings = .ok info ∧
      (info.info.policy = .sequential ∨ info.info.policy = .rayon) ∧ info.info.nUnits = 1 ∧ True := by
    have hu : p.execSettings.nUnits = 1 := h.units
    generalize p.execSettings = s at hu
    obtain ⟨u, t, c, b⟩ := s
    dsimp only at hu
    subst hu
    by_cases ht : t = 1
    · simp [ProcInfo.new, ProcInfo.default, assertB, ht, bind, Except.bind, pure, Except.pure]
    · exact ⟨⟨⟨.rayon, 1, t, c⟩, b⟩, by
        simp [ProcInfo.new, ProcInfo.default, assertB, ht, bind, Except.bind, pure, Except.pure], .inr rfl, rfl, trivial⟩
  have hcon : initContainers so p info.info = .ok { processing := [], processed := [], extra := [] } := by
    unfold initContainers
    rw [if_neg (by omega), hnu]
    rcases b2 with b2 | b2 <;> rw [b2] <;> rfl
  have hcells : p.simulation.nx * p.simulation.ny * p.simulation.nz = cells p.gridOf := rfl
  have hg := h.sized
  have hpos : 0 < cells p.gridOf := Nat.mul_pos (Nat.mul_pos hg.counts.1.1 hg.counts.2.1.1) hg.counts.2.2.1
  have hle : cells p.gridOf ≤ 2 ^ 30 := by
    have h1 : p.gridOf.nx * p.gridOf.ny ≤ 2 ^ 10 * 2 ^ 10 := Nat.mul_le_mul hg.counts.1.2 hg.counts.2.1.2
    have h2 : p.gridOf.nx * p.gridOf.ny * p.gridOf.nz ≤ 2 ^ 10 * 2 ^ 10 * 2 ^ 10 := Nat.mul_le_mul h1 hg.counts.2.2.2
    exact h2
  have hu : initUnits io fuel p mats = .ok [⟨dom, {},
      List.replicate (dom.cells.length * p.simulation.nGroups) zero,
      List.replicate (dom.cells.length * p.simulation.nGroups) zero, zero⟩] := by
    unfold initUnits
    rw [a2]
    dsimp only [bind, Except.bind]
    rw [a3]
    rfl
  have hstart : ∃ s, startRun so io m fuel p = .ok (some s) ∧ s.state.unit.dom = dom ∧ s.data.materials = mats := by
    unfold startRun
    dsimp only
    rw [hcells, if_neg (by omega), if_neg (by omega), if_neg (by
      rw [Nat.not_lt, Nat.le_div_iff_mul_le hpos]; exact hpart)]
    unfold initRun
    rw [b1, d1]
    dsimp only [bind, Except.bind]
    rw [hcon]
    dsimp only
    rw [show (p.data nd mats).materials = mats from rfl, hu]
    exact ⟨_, rfl, rfl, rfl⟩
  obtain ⟨s, s1, s2, s3⟩ := hstart
  refine ⟨s, s1, fun st hst => ?_⟩
  rw [s2] at hst
  obtain ⟨c, r, q1, q2, q3, q4, _, q5⟩ := a6 st hst
  exact ⟨c, r, q1, q2, q3, q4, by rw [s3]; exact q5⟩
