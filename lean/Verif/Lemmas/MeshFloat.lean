import Verif.Spec.FloatMesh
import Verif.Lemmas.NearestFloat
import Verif.Lemmas.StartTotal
import Verif.Lemmas.Startup
/-!
# The cells of the mesh, with rounding
-/
open Flt Ieee GridSpec MeshSpec
attribute [local irreducible] Rng.lcg Rng.sample Rng.spawn
set_option linter.unusedSectionVars false

namespace Flooding
section
variable {T : Type} [Flt T] {g : Grid T} {bc : List AdjEvent} {cs : List Nat} {nodeOf : Nat → Nat} {mesh : Mesh T}

theorem corner_mem {m : Nat} (hm : m < 14) : cornerOffset.getD m (0, 0, 0, 0) ∈ cornerOffset := by
  rw [List.getD_eq_getElem?_getD, List.getElem?_eq_getElem (show m < cornerOffset.length from hm)]
  exact List.getElem_mem _

theorem nodeCoordFromIdx_eq {c m : Nat} (hc : c < cells g) (hm : m < 14) :
    g.nodeCoordFromIdx (gid g c m) = .ok (pointOf g (g.cellIdxToTuple c) (cornerOffset.getD m (0, 0, 0, 0))) := by
  obtain ⟨b1, b2, b3, _⟩ := nodeTuple_in (Grid.idx_inGrid hc) (corner_mem hm)
  unfold Grid.nodeCoordFromIdx
  rw [gid_eq hm, Grid.node_tuple_idx b1 b2 b3]
  generalize g.cellIdxToTuple c = t
  interval_cases m <;> rfl

theorem pointCoord_of {c m : Nat} (hc : c < cells g) (hm : m < 14) :
    pointCoord g c m = pointOf g (g.cellIdxToTuple c) (cornerOffset.getD m (0, 0, 0, 0)) := by
  unfold pointCoord nodeCoord
  rw [nodeCoordFromIdx_eq hc hm]

/-- The points of a cell. -/
def pointsOf (g : Grid T) (c : Nat) : List (Vec3 T) := cornerOffset.map (pointOf g (g.cellIdxToTuple c))

theorem pointsOf_eq {c : Nat} (hc : c < cells g) : pointsOf g c = (List.range 14).map (pointCoord g c) := by
  have h2 : cornerOffset = (List.range 14).map fun m => cornerOffset.getD m (0, 0, 0, 0) := by decide
  unfold pointsOf
  rw [h2, List.map_map]
  refine List.map_congr_left fun m hm => ?_
  rw [pointCoord_of hc (List.mem_range.1 hm)]
  rfl

theorem Built.pointsOf (h : Built g bc cs nodeOf mesh) {i c : Nat} (hi : cs[i]? = some c) :
    idxAll mesh.node (connOf g bc cs nodeOf i c).point = .ok (pointsOf g c) := by
  unfold idxAll connOf
  simp only
  rw [pointsOf_eq (h.lt hi), nodeGids_range, List.map_map, List.mapM_map]
  refine mapM_ok_of_forall fun m hm => ?_
  have hm' := List.mem_range.1 hm
  simp only [Function.comp]
  rw [idx_ok.2 (h.node c (List.mem_of_getElem? hi) _ (gid_mem hm'))]
  rfl

theorem meanPoint_eq {c : Nat} (hc : c < cells g) :
    g.meanPoint c = (Vec3.sum (pointsOf g c)).sdiv (Flt.ofNat 14) := by
  unfold Grid.meanPoint
  have : (g.getNodeGids c).mapM g.nodeCoordFromIdx = .ok (pointsOf g c) := by
    rw [pointsOf_eq hc, nodeGids_range, List.mapM_map]
    refine mapM_ok_of_forall fun m hm => ?_
    have hm' := List.mem_range.1 hm
    simp only [Function.comp]
    rw [nodeCoordFromIdx_eq hc hm', pointCoord_of hc hm']
  rw [this]
  rfl

theorem Built.positionOf (h : Built g bc cs nodeOf mesh) {i c : Nat} (hi : cs[i]? = some c) :
    cellPosition3dg mesh i = g.meanPoint c := by
  unfold cellPosition3dg
  rw [idx_ok.2 (h.conn_get hi)]
  show (do let pts ← idxAll mesh.node (connOf g bc cs nodeOf i c).point; _) = _
  rw [h.pointsOf hi, meanPoint_eq (h.lt hi)]
  rfl

theorem Built.centerOf (h : Built g bc cs nodeOf mesh) {i c : Nat} (hi : cs[i]? = some c) :
    meshCellCenter mesh i = g.meanPoint c := by
  rw [← h.positionOf hi]
  unfold meshCellCenter cellPosition3dg
  rw [idx_ok.2 (h.conn_get hi)]
  show (do let pts ← idxAll mesh.node ((connOf g bc cs nodeOf i c).point.take 14); _)
    = (do let pts ← idxAll mesh.node (connOf g bc cs nodeOf i c).point; _)
  rw [List.take_of_length_le (by rw [connOf_point_length]), connOf_point_length]

theorem Built.volumeOf (h : Built g bc cs nodeOf mesh) {i c : Nat} (hi : cs[i]? = some c) {r : Vec3 T}
    (hr : g.meanPoint c = .ok r) : cellVolume mesh i = .ok (volumeOf g c r) := by
  have hc := List.mem_of_getElem? hi
  have hlt := h.lt hi
  unfold cellVolume
  rw [h.centerOf hi, hr]
  show (do let conn ← idx mesh.cellConnectivity i; _) = _
  rw [idx_ok.2 (h.conn_get hi)]
  have hni : nodeIndirect = (List.range 24).map fun n => nodeIndirect.getD n (0, 0, 0) := by decide
  have hm : (connOf g bc cs nodeOf i c).facet.mapM (fun f => do
      let p0 ← idx mesh.node f.point.1
      let p1 ← idx mesh.node f.point.2.1
      let p2 ← idx mesh.node f.point.2.2
      return Flt.abs ((p0.sub r).dot ((p1.sub r).cross (p2.sub r))))
      = .ok (nodeIndirect.map fun n =>
        Flt.abs (computeVolume (pointOf g (g.cellIdxToTuple c) (cornerOffset.getD n.1 (0, 0, 0, 0)))
          (pointOf g (g.cellIdxToTuple c) (cornerOffset.getD n.2.1 (0, 0, 0, 0)))
          (pointOf g (g.cellIdxToTuple c) (cornerOffset.getD n.2.2 (0, 0, 0, 0))) r)) := by
    unfold connOf
    simp only
    rw [List.mapM_map, hni, List.map_map]
    refine mapM_ok_of_forall fun n hn => ?_
    have hn' := List.mem_range.1 hn
    obtain ⟨l1, l2, l3⟩ := indirect_lt n hn'
    simp only [Function.comp, facetOf, idx_ok.2 (h.node c hc _ (gid_mem l1)), idx_ok.2 (h.node c hc _ (gid_mem l2)),
      idx_ok.2 (h.node c hc _ (gid_mem l3)), bind, Except.bind, pure, Except.pure]
    have e : ∀ {m : Nat}, m < 14 → nodeCoord g (gid g c m) =
        pointOf g (g.cellIdxToTuple c) (cornerOffset.getD m (0, 0, 0, 0)) := fun hm => pointCoord_of hlt hm
    rw [e l1, e l2, e l3]
    rfl
  simp only [bind, Except.bind, pure, Except.pure] at hm ⊢
  rw [hm]
  rfl

theorem isInside_ok {geom : GeometryParams T} (h : geom.shape ≠ .undefined) (r : Vec3 T) :
    ∃ b, isInside geom r = .ok b := by
  unfold isInside
  split
  · exact ⟨_, rfl⟩
  · exact ⟨_, rfl⟩
  · contradiction

/-- The material of a point in some region is the one of a region. -/
theorem findName_ok {geoms : List (GeometryParams T)} {r : Vec3 T} (hs : ∀ geom ∈ geoms, geom.shape ≠ .undefined)
    (h : ∃ geom ∈ geoms, isInside geom r = .ok true) :
    ∃ geom ∈ geoms, isInside geom r = .ok true ∧ findMaterialName geoms r = .ok geom.materialName := by
  induction geoms with
  | nil => obtain ⟨_, h, _⟩ := h; simp at h
  | cons a l ih =>
    have hstep : findMaterialName (a :: l) r = (do
        let name ← findMaterialName l r
        let b ← isInside a r
        return if b then a.materialName else name) := by
      unfold findMaterialName
      rw [List.reverse_cons, List.foldlM_append]
      simp
    have hl : ∃ name, findMaterialName l r = .ok name := by
      have : ∀ (l : List (GeometryParams T)) (s : String), (∀ geom ∈ l, geom.shape ≠ .undefined) →
          ∃ name, l.foldlM (fun name geom => do
            let b ← isInside geom r
            return if b then geom.materialName else name) s = .ok name := by
        intro l
        induction l with
        | nil => intro s _; exact ⟨s, rfl⟩
        | cons b l ih =>
          intro s hs
          obtain ⟨v, hv⟩ := isInside_ok (hs b (by simp)) r
          rw [List.foldlM_cons, hv]
          exact ih _ fun x hx => hs x (by simp [hx])
      refine this l.reverse "" fun x hx => hs x ?_
      simp at hx ⊢
      exact .inr hx
    obtain ⟨b, hb⟩ := isInside_ok (hs a (by simp)) r
    obtain ⟨name, hname⟩ := hl
    cases b with
    | true =>
      refine ⟨a, by simp, hb, ?_⟩
      rw [hstep, hname, hb]
      rfl
    | false =>
      obtain ⟨geom, hg, h1, h2⟩ := ih (fun x hx => hs x (by simp [hx])) (by
        obtain ⟨geom, hg, h1⟩ := h
        rcases List.mem_cons.1 hg with rfl | hg
        · rw [hb] at h1; cases h1
        · exact ⟨geom, hg, h1⟩)
      refine ⟨geom, by simp [hg], h1, ?_⟩
      rw [hstep, h2, hb]
      rfl

theorem vec_sum_x (l : List (Vec3 T)) : (Vec3.sum l).x = Flt.sum (l.map (·.x)) ∧
    (Vec3.sum l).y = Flt.sum (l.map (·.y)) ∧ (Vec3.sum l).z = Flt.sum (l.map (·.z)) := by
  have : ∀ (l : List (Vec3 T)) (v : Vec3 T), (l.foldl Vec3.add v).x = (l.map (·.x)).foldl Flt.add v.x ∧
      (l.foldl Vec3.add v).y = (l.map (·.y)).foldl Flt.add v.y ∧
      (l.foldl Vec3.add v).z = (l.map (·.z)).foldl Flt.add v.z := by
    intro l
    induction l with
    | nil => intro v; exact ⟨rfl, rfl, rfl⟩
    | cons a l ih => intro v; exact ih (v.add a)
  exact this l Vec3.zero

end

variable {T : Type} [Flt T] [Ieee T] {g : Grid T}

/-- Sums of bounded numbers. -/
theorem sum_bd {l : List T} {A B : ℝ} (h : ∀ a ∈ l, Bd a A B) (hA : ∀ j : ℕ, j ≤ l.length → Rep T (j * A))
    (hB : ∀ j : ℕ, j ≤ l.length → Rep T (j * B)) : Bd (Flt.sum l) (l.length * A) (l.length * B) := by
  have : ∀ (l : List T) (n : ℕ) (s : T), (∀ a ∈ l, Bd a A B) → Bd s (n * A) (n * B) →
      (∀ j : ℕ, j ≤ n + l.length → Rep T (j * A) ∧ Rep T (j * B)) →
      Bd (l.foldl Flt.add s) (((n + l.length : ℕ) : ℝ) * A) (((n + l.length : ℕ) : ℝ) * B) := by
    intro l
    induction l with
    | nil => intro n s _ hs _; simpa using hs
    | cons a l ih =>
      intro n s hl hs hr
      obtain ⟨r1, r2⟩ := hr (n + 1) (by rw [List.length_cons]; omega)
      have hs' : Bd (s +. a) (((n + 1 : ℕ) : ℝ) * A) (((n + 1 : ℕ) : ℝ) * B) :=
        hs.add (hl a (by simp)) r1 r2 (by push_cast; linarith) (by push_cast; linarith)
      have := ih (n + 1) (s +. a) (fun x hx => hl x (by simp [hx])) hs' (fun j hj => hr j (by rw [List.length_cons]; omega))
      rw [List.length_cons, show n + (l.length + 1) = n + 1 + l.length by omega]
      exact this
  have h0 := this l 0 zero h (by simpa using IsFin.bd (fin_zero (T := T))) fun j hj =>
    ⟨hA j (by simpa using hj), hB j (by simpa using hj)⟩
  rw [Nat.zero_add] at h0
  exact h0

theorem size_bd {l : T} {n : Nat} (hn : 0 < n ∧ n ≤ 2 ^ 10) (hl : Bd l (2 ^ (-10 : ℤ)) (2 ^ (20 : ℤ))) :
    Bd (l /. Flt.ofNat n) (2 ^ (-20 : ℤ)) (2 ^ (20 : ℤ)) := by
  have h1 : (1 : ℝ) ≤ n := by exact_mod_cast hn.1
  have h2 : (n : ℝ) ≤ 2 ^ 10 := by exact_mod_cast hn.2
  have := hl.div (IsFin.bd (fin_ofNat (T := T) (n := n) (by omega))) (rep_two_pow (k := -20) (by norm_num) (by norm_num))
    (rep_two_pow (k := 20) (by norm_num) (by norm_num)) (by positivity) (by linarith) (by norm_num; linarith)
    (by norm_num; linarith) (by positivity)
  exact this

theorem FloatMesh.sized {p : Params T} (h : FloatMesh p) : SizedGrid p.gridOf :=
  ⟨h.counts, size_bd h.counts.1 h.sizes.1, size_bd h.counts.2.1 h.sizes.2.1, size_bd h.counts.2.2 h.sizes.2.2⟩

theorem coord_bd {d : T} {t : Nat} (ht : t ≤ 2 ^ 11) (hd : Bd d (2 ^ (-20 : ℤ)) (2 ^ (20 : ℤ))) :
    Bd (Flt.ofNat t *. d) 0 (2 ^ (31 : ℤ)) := by
  have h2 : (t : ℝ) ≤ 2 ^ 11 := by exact_mod_cast ht
  have h3 : (0 : ℝ) ≤ t := Nat.cast_nonneg t
  exact (IsFin.bd (fin_ofNat (T := T) (n := t) (by omega))).mul hd rep_zero (rep_two_pow (k := 31) (by norm_num) (by norm_num))
    h3 (by positivity) (by positivity) (by norm_num; linarith)

theorem half_bd {d : T} (hd : Bd d (2 ^ (-20 : ℤ)) (2 ^ (20 : ℤ))) : Bd (d /. two) 0 (2 ^ (20 : ℤ)) :=
  hd.div (IsFin.bd fin_two) rep_zero (rep_two_pow (k := 20) (by norm_num) (by norm_num)) (by positivity) (by norm_num)
    (by norm_num) (by norm_num) le_rfl

theorem shift_bd {a b : T} (ha : Bd a 0 (2 ^ (31 : ℤ))) (hb : Bd b 0 (2 ^ (20 : ℤ))) :
    Bd (a +. b) 0 (2 ^ (32 : ℤ)) :=
  ha.add hb rep_zero (rep_two_pow (k := 32) (by norm_num) (by norm_num)) (by norm_num) (by norm_num)

theorem zero_bd {b : ℝ} (hb : 0 ≤ b) : Bd (zero : T) 0 b := ⟨0, fin_zero, le_rfl, hb⟩

/-- Bounds on the three coordinates. -/
def Vb (v : Vec3 T) (lo hi : ℝ) : Prop := Bd v.x lo hi ∧ Bd v.y lo hi ∧ Bd v.z lo hi

theorem offset_bd (hg : SizedGrid g) (k : Nat) : Vb (g.basisOffset.getD k Vec3.zero) 0 (2 ^ (20 : ℤ)) := by
  have z := zero_bd (T := T) (b := 2 ^ (20 : ℤ)) (by positivity)
  have hx := half_bd hg.dx
  have hy := half_bd hg.dy
  have hz := half_bd hg.dz
  rcases k with _ | _ | _ | _ | k
  · exact ⟨z, z, z⟩
  · exact ⟨z, hy, hz⟩
  · exact ⟨hx, z, hz⟩
  · exact ⟨hx, hy, z⟩
  · exact ⟨z, z, z⟩

theorem pointOf_bd (hg : SizedGrid g) {t : Nat × Nat × Nat} {o : Nat × Nat × Nat × Nat} (h1 : t.1 + o.1 ≤ 2 ^ 11)
    (h2 : t.2.1 + o.2.1 ≤ 2 ^ 11) (h3 : t.2.2 + o.2.2.1 ≤ 2 ^ 11) : Vb (pointOf g t o) 0 (2 ^ (32 : ℤ)) := by
  obtain ⟨a, b, c⟩ := offset_bd hg o.2.2.2
  exact ⟨shift_bd (coord_bd h1 hg.dx) a, shift_bd (coord_bd h2 hg.dy) b, shift_bd (coord_bd h3 hg.dz) c⟩

theorem points_bd (hg : SizedGrid g) {c : Nat} (hc : c < cells g) : ∀ v ∈ pointsOf g c, Vb v 0 (2 ^ (32 : ℤ)) := by
  intro v hv
  obtain ⟨o, ho, rfl⟩ := List.mem_map.1 hv
  obtain ⟨b1, b2, b3, _⟩ := nodeTuple_in (Grid.idx_inGrid hc) ho
  obtain ⟨⟨_, n1⟩, ⟨_, n2⟩, ⟨_, n3⟩⟩ := hg.counts
  unfold nodeTuple at b1 b2 b3
  dsimp only at b1 b2 b3
  exact pointOf_bd hg (by omega) (by omega) (by omega)

theorem mean_bd {l : List T} (hl : l.length = 14) (h : ∀ a ∈ l, Bd a 0 (2 ^ (32 : ℤ))) :
    Bd (Flt.sum l /. Flt.ofNat 14) 0 (2 ^ (32 : ℤ)) := by
  have h1 := sum_bd h (fun j _ => by rw [mul_zero]; exact rep_zero)
    (fun j hj => rep_scaled (by omega) (by norm_num) (by norm_num))
  rw [hl] at h1
  exact h1.div (IsFin.bd (fin_ofNat (n := 14) (by norm_num))) rep_zero (rep_two_pow (k := 32) (by norm_num) (by norm_num))
    (by norm_num) (by norm_num) (by norm_num) (by norm_num) le_rfl

theorem sdiv_of {v : Vec3 T} {d : T} {x : ℝ} (hd : IsFin d x) (h : x ≠ 0) : v.sdiv d = .ok ⟨v.x /. d, v.y /. d, v.z /. d⟩ := by
  unfold Vec3.sdiv
  rw [if_neg]
  rw [beq_iff]
  rintro ⟨y, h1, h2⟩
  rw [hd] at h1
  rw [fin_zero] at h2
  cases h1
  exact h (by exact_mod_cast Option.some.inj h2.symm)

theorem meanPoint_bd (hg : SizedGrid g) {c : Nat} (hc : c < cells g) :
    ∃ r, g.meanPoint c = .ok r ∧ Vb r 0 (2 ^ (32 : ℤ)) := by
  rw [meanPoint_eq hc, sdiv_of (fin_ofNat (T := T) (n := 14) (by norm_num)) (by norm_num)]
  have hlen : (pointsOf g c).length = 14 := by unfold pointsOf; rw [List.length_map]; rfl
  have hp := points_bd hg hc
  refine ⟨_, rfl, ?_, ?_, ?_⟩
  all_goals
    dsimp only
    first | rw [(vec_sum_x _).1] | rw [(vec_sum_x _).2.1] | rw [(vec_sum_x _).2.2]
    refine mean_bd (by rw [List.length_map, hlen]) fun a ha => ?_
    obtain ⟨v, hv, rfl⟩ := List.mem_map.1 ha
    first | exact (hp v hv).1 | exact (hp v hv).2.1 | exact (hp v hv).2.2

theorem axis_ok {a d : T} (ha : Bd a 0 (2 ^ (33 : ℤ))) (hd : Bd d (2 ^ (-20 : ℤ)) (2 ^ (20 : ℤ))) :
    ∃ n, unwrap (Flt.toUsize (a /. d)) = .ok n := by
  obtain ⟨x, hx, x0, x1⟩ := ha.div hd rep_zero (rep_two_pow (k := 60) (by norm_num) (by norm_num)) le_rfl
    (by positivity) (by norm_num) (by norm_num) le_rfl
  rw [toUsize_eq _ _ hx x0 (lt_of_le_of_lt x1 (by norm_num))]
  exact ⟨_, rfl⟩

theorem whichCell_ok (hg : SizedGrid g) {r : Vec3 T} (hr : Vb r 0 (2 ^ (33 : ℤ))) : ∃ n, g.whichCell r = .ok n := by
  obtain ⟨a, ha⟩ := axis_ok hr.1 hg.dx
  obtain ⟨b, hb⟩ := axis_ok hr.2.1 hg.dy
  obtain ⟨c, hc⟩ := axis_ok hr.2.2 hg.dz
  unfold Grid.whichCell
  rw [ha, hb, hc]
  exact ⟨_, rfl⟩

theorem cellCenter_bd (hg : SizedGrid g) {c : Nat} (hc : (g.cellIdxToTuple c).2.2 ≤ 2 ^ 11) :
    ∃ r, g.cellCenter c = .ok r ∧ Vb r 0 (2 ^ (33 : ℤ)) := by
  have h1 : (g.cellIdxToTuple c).1 ≤ 2 ^ 11 := by
    have : (g.cellIdxToTuple c).1 < g.nx := Nat.mod_lt _ hg.counts.1.1
    have := hg.counts.1.2; omega
  have h2 : (g.cellIdxToTuple c).2.1 ≤ 2 ^ 11 := by
    have : (g.cellIdxToTuple c).2.1 < g.ny := Nat.mod_lt _ hg.counts.2.1.1
    have := hg.counts.2.1.2; omega
  have hp := pointOf_bd hg (t := g.cellIdxToTuple c) (o := (0, 0, 0, 0)) h1 h2 hc
  have ad : ∀ {a b : T}, Bd a 0 (2 ^ (32 : ℤ)) → Bd b 0 (2 ^ (20 : ℤ)) → Bd (a +. b) 0 (2 ^ (33 : ℤ)) := fun ha hb =>
    ha.add hb rep_zero (rep_two_pow (k := 33) (by norm_num) (by norm_num)) (by norm_num) (by norm_num)
  exact ⟨_, rfl, ad hp.1 (half_bd hg.dx), ad hp.2.1 (half_bd hg.dy), ad hp.2.2 (half_bd hg.dz)⟩

end Flooding
