import Verif.Props.Init
import Verif.Props.CrossSections
import Verif.Model.XsFile
import Verif.Lemmas.Stats
/-!
# C53 and C54: the nuclear data of a run and the table of cross-sections

`Verif/Spec/Init.lean` says what the data of a material are (`MaterialFrom`) and `Verif/Spec/Reactions.lean` lists
the weighted reactions of a material (`MaterialTerms`).
-/
open Flt Config

set_option linter.unusedSectionVars false

section generic
variable {T : Type} [Flt T]

theorem MaterialsFrom.gids {p : Params T} {nd : NuclearData T} {n : Nat} {mps : List (MaterialParams T)}
    {ms : List (Material T)} (h : MaterialsFrom p nd n mps ms) :
    n ≤ nd.isotopes.length ∧
      ms.flatMap (fun m => m.iso.map (·.gid)) = List.range' n (nd.isotopes.length - n) := by
  induction h with
  | nil h => subst h; simp
  | @cons n mp mps m ms h _ ih =>
    obtain ⟨h1, h2⟩ := ih
    refine ⟨by omega, ?_⟩
    rw [List.flatMap_cons, h2, h.isotopes, List.map_map]
    have e : (List.range mp.nIsotopes).map ((fun i : Isotope T => i.gid) ∘ fun i =>
        ⟨n + i, one /. Flt.ofNat mp.nIsotopes⟩) = List.range' n mp.nIsotopes := by
      rw [List.range'_eq_map_range]; rfl
    rw [e]
    have e2 : nd.isotopes.length - n = mp.nIsotopes + (nd.isotopes.length - (n + mp.nIsotopes)) := by omega
    rw [e2, ← List.range'_append_1]

/-- **C53** (materials).  Whatever the order of the hash maps, the nuclear data of validated parameters are built.
There is one material by material of the input, in some order; it has its name, its mass, its number of isotopes
in equal proportions, and the reactions its parameters and the cross-sections they name describe.  No isotope is
shared and none is left over. -/
theorem C53_materials {order : StrOrder} (ho : ∀ l, (order l).Perm l) {p : Params T} (hp : NamedParams p)
    (hc : Consistent p) :
    ∃ nd mats, initNuclearData order p = .ok (nd, mats) ∧
      nd.energies = energyLevels p.simulation.nGroups p.simulation.eMin p.simulation.eMax ∧
      (mats.map (·.name)).Perm p.materials.keys ∧ (mats.map (·.name)).Nodup ∧
      (∀ k mp, p.materials.get? k = some mp → ∃ m ∈ mats, m.name = k ∧ ∃ first, MaterialFrom p nd first mp m) ∧
      mats.flatMap (fun m => m.iso.map (·.gid)) = List.range nd.isotopes.length := by
  obtain ⟨nd, mats, h1, _, h3, h4⟩ := initNuclearData_ok hp hc ho
  have hnames : mats.map (·.name) = order p.materials.keys := by
    rw [h4.names, hp.materials.values_names ho]
  refine ⟨nd, mats, h1, h3, hnames ▸ ho _, ?_, ?_, ?_⟩
  · rw [hnames]; exact (ho _).nodup_iff.2 hp.materials.nodup
  · intro k mp hk
    obtain ⟨m, hm, first, hf⟩ := h4.of_mem ((mem_valuesIn ho).2 ⟨k, hk⟩)
    exact ⟨m, hm, by rw [hf.name]; exact hp.materials.own _ _ hk, first, hf⟩
  · have := h4.gids.2
    rw [Nat.sub_zero, ← List.range_eq_range'] at this
    exact this

theorem IsotopeFrom.unique {p : Params T} {mp : MaterialParams T} {sp sp' : IsotopeSpec T} {nu nu' : T}
    (h : IsotopeFrom p mp sp nu) (h' : IsotopeFrom p mp sp' nu') : sp = sp' ∧ nu = nu' := by
  obtain ⟨a1, a2, ⟨a3, a4, a5⟩, ⟨xf, hf, a6, a7⟩, ⟨xs, hs, a8⟩, ⟨xa, ha, a9⟩⟩ := h
  obtain ⟨b1, b2, ⟨b3, b4, b5⟩, ⟨yf, gf, b6, b7⟩, ⟨ys, gs, b8⟩, ⟨ya, ga, b9⟩⟩ := h'
  rw [hf] at gf; cases gf
  rw [hs] at gs; cases gs
  rw [ha] at ga; cases ga
  refine ⟨?_, a7.trans b7.symm⟩
  cases sp; cases sp'
  simp only [IsotopeSpec.mk.injEq] at *
  exact ⟨a1.trans b1.symm, a2.trans b2.symm, a3.trans b3.symm, a4.trans b4.symm, a5.trans b5.symm,
    a6.trans b6.symm, a8.trans b8.symm, a9.trans b9.symm⟩

/-- The isotopes of a material as the transport sees them: proportion and reactions. -/
def isotopeView (nd : NuclearData T) (m : Material T) : List (T × Option (List (Reaction T))) :=
  m.iso.map fun i => (i.atomFraction, nd.isotopes[i.gid]?)

/-- **C53** (order of the hash maps).  Two runs on the same parameters number the materials and the isotopes as
their hash maps please, but a material of a given name has the same mass and the same isotopes in both. -/
theorem C53_order {o1 o2 : StrOrder} (ho1 : ∀ l, (o1 l).Perm l) (ho2 : ∀ l, (o2 l).Perm l) {p : Params T}
    (hp : NamedParams p) (hc : Consistent p) {nd1 nd2 : NuclearData T} {mats1 mats2 : List (Material T)}
    (h1 : initNuclearData o1 p = .ok (nd1, mats1)) (h2 : initNuclearData o2 p = .ok (nd2, mats2)) :
    nd1.energies = nd2.energies ∧ (mats1.map (·.name)).Perm (mats2.map (·.name)) ∧
    ∀ m1 ∈ mats1, ∀ m2 ∈ mats2, m1.name = m2.name →
      m1.mass = m2.mass ∧ isotopeView nd1 m1 = isotopeView nd2 m2 := by
  obtain ⟨nd, mats, e1, _, a3, a4⟩ := initNuclearData_ok hp hc ho1
  rw [h1] at e1; cases e1
  obtain ⟨nd, mats, e2, _, b3, b4⟩ := initNuclearData_ok hp hc ho2
  rw [h2] at e2; cases e2
  refine ⟨a3.trans b3.symm, ?_, ?_⟩
  · rw [a4.names, b4.names, hp.materials.values_names ho1, hp.materials.values_names ho2]
    exact (ho1 _).trans (ho2 _).symm
  · intro m1 hm1 m2 hm2 hn
    obtain ⟨mp1, hmp1, f1, hf1⟩ := a4.mem hm1
    obtain ⟨mp2, hmp2, f2, hf2⟩ := b4.mem hm2
    obtain ⟨k1, hk1⟩ := (mem_valuesIn ho1).1 hmp1
    obtain ⟨k2, hk2⟩ := (mem_valuesIn ho2).1 hmp2
    have hk : k1 = k2 := by
      rw [← hp.materials.own _ _ hk1, ← hp.materials.own _ _ hk2, ← hf1.name, ← hf2.name, hn]
    subst hk
    rw [hk1] at hk2; cases hk2
    refine ⟨hf1.mass.trans hf2.mass.symm, ?_⟩
    obtain ⟨sp1, nu1, s1, t1⟩ := hf1.tables
    obtain ⟨sp2, nu2, s2, t2⟩ := hf2.tables
    obtain ⟨rfl, rfl⟩ := s1.unique s2
    unfold isotopeView
    rw [hf1.isotopes, hf2.isotopes, List.map_map, List.map_map]
    apply List.map_congr_left
    intro i hi
    have hi := List.mem_range.1 hi
    simp only [Function.comp]
    rw [t1 i hi, t2 i hi, a3, b3]

theorem mapM_range_idx {α β : Type} (l : List α) (f : α → Except Panic β) :
    ((List.range l.length).mapM fun i => do let a ← idx l i; f a) = l.mapM f := by
  have : ∀ (n : Nat) (k : List α), (∀ j, k[j]? = l[n + j]?) →
      ((List.range' n k.length).mapM fun i => do let a ← idx l i; f a) = k.mapM f := by
    intro n k
    induction k generalizing n with
    | nil => intro _; rfl
    | cons a k ih =>
      intro hk
      rw [List.length_cons, List.range'_succ, List.mapM_cons, List.mapM_cons,
        ih (n + 1) (fun j => by rw [show n + 1 + j = n + (j + 1) by omega, ← hk]; rfl)]
      have h0 : l[n]? = some a := by rw [show n = n + 0 by omega, ← hk]; rfl
      rw [idx_ok.2 h0]
      rfl
  rw [List.range_eq_range']
  exact this 0 l (fun j => by rw [Nat.zero_add])

/-- The cross-section of a material depends only on its isotopes as seen by the transport. -/
theorem weightedMacroXs_view {data1 data2 : Data T} {i1 i2 : Nat} {m1 m2 : Material T}
    (h1 : data1.materials[i1]? = some m1) (h2 : data2.materials[i2]? = some m2)
    (hv : isotopeView data1.nuclear m1 = isotopeView data2.nuclear m2) (ρ : T) (g : Nat) :
    weightedMacroXs data1 i1 ρ g = weightedMacroXs data2 i2 ρ g := by
  let f : T × Option (List (Reaction T)) → Except Panic T := fun x =>
    if (x.1 ==. zero) || (ρ ==. zero) then .ok (Flt.lit 1 (-20)) else do
      let rs ← (match x.2 with
        | some rs => Except.ok rs
        | none => .error .indexOutOfBounds)
      let l ← groupCrossSections rs g
      return x.1 *. ρ *. Flt.sum l
  have key : ∀ (data : Data T) (i : Nat) (m : Material T), data.materials[i]? = some m →
      weightedMacroXs data i ρ g = (do
        let l ← (isotopeView data.nuclear m).mapM f
        return Flt.sum l) := by
    intro data i m hm
    unfold weightedMacroXs
    rw [idx_ok.2 hm]
    suffices hl : ((List.range m.iso.length).mapM fun i => macroscopicTotalXs data m i ρ g) =
        (isotopeView data.nuclear m).mapM f by
      show ((List.range m.iso.length).mapM fun i => macroscopicTotalXs data m i ρ g) >>= _ = _
      rw [hl]
    unfold isotopeView
    rw [List.mapM_map, ← mapM_range_idx m.iso]
    congr 1
    funext j
    unfold macroscopicTotalXs
    cases hj : m.iso[j]? with
    | none =>
      have : idx m.iso j = .error .indexOutOfBounds := by unfold idx; rw [hj]
      rw [this]; rfl
    | some iso =>
      rw [idx_ok.2 hj]
      show (if _ then _ else _) = (if _ then _ else _)
      split
      · rfl
      · unfold NuclearData.getTotalCrossSection idx
        dsimp only
        cases data.nuclear.isotopes[iso.gid]? with
        | none => rfl
        | some rs =>
          dsimp only [bind, Except.bind]
          cases groupCrossSections rs g <;> rfl
  rw [key _ _ _ h1, key _ _ _ h2, hv]

/-- **C53** (order of the hash maps, transport).  The cross-section of a material at any density and energy group
does not depend on the order of the hash maps. -/
theorem C53_order_xs {o1 o2 : StrOrder} (ho1 : ∀ l, (o1 l).Perm l) (ho2 : ∀ l, (o2 l).Perm l) {p : Params T}
    (hp : NamedParams p) (hc : Consistent p) {data1 data2 : Data T}
    (h1 : initData o1 p = .ok data1) (h2 : initData o2 p = .ok data2) {i1 i2 : Nat} {name : String}
    (hi1 : findMaterialIdx data1.materials name = some i1) (hi2 : findMaterialIdx data2.materials name = some i2)
    (ρ : T) (g : Nat) : weightedMacroXs data1 i1 ρ g = weightedMacroXs data2 i2 ρ g := by
  have inv : ∀ {o : StrOrder} {data : Data T}, initData o p = .ok data →
      ∃ nd mats, initNuclearData o p = .ok (nd, mats) ∧ data = p.data nd mats := by
    intro o data h
    unfold initData at h
    obtain ⟨⟨nd, mats⟩, e1, e2⟩ := bind_ok.1 h
    refine ⟨nd, mats, e1, ?_⟩
    dsimp only at e2
    obtain ⟨_, _, e3⟩ := bind_ok.1 e2
    exact (pure_ok.1 e3).symm
  obtain ⟨nd1, mats1, e1, rfl⟩ := inv h1
  obtain ⟨nd2, mats2, e2, rfl⟩ := inv h2
  obtain ⟨l1, v1, _⟩ := List.findIdx?_eq_some_iff_getElem.1 hi1
  obtain ⟨l2, v2, _⟩ := List.findIdx?_eq_some_iff_getElem.1 hi2
  obtain ⟨_, _, h3⟩ := C53_order ho1 ho2 hp hc e1 e2
  have n1 : (p.data nd1 mats1).materials[i1].name = name := by simpa using v1
  have n2 : (p.data nd2 mats2).materials[i2].name = name := by simpa using v2
  exact weightedMacroXs_view (List.getElem?_eq_getElem l1) (List.getElem?_eq_getElem l2)
    (h3 _ (List.getElem_mem l1) _ (List.getElem_mem l2) (n1.trans n2.symm)).2 ρ g

/-- A case: two orders really number the materials differently. -/
example : ∃ nd1 mats1 nd2 mats2, initNuclearData (T := Toy) id demoParams = .ok (nd1, mats1) ∧
    initNuclearData (T := Toy) List.reverse demoParams = .ok (nd2, mats2) ∧
    mats1.map (fun m => (m.name, m.iso.length)) = [("source_material", 10), ("fuel", 2)] ∧
    mats2.map (fun m => (m.name, m.iso.length)) = [("fuel", 2), ("source_material", 10)] :=
  ⟨_, _, _, _, rfl, rfl, by decide +kernel, by decide +kernel⟩

end generic

open FltReal

/-- **C53** (proportions).  The proportions of the isotopes of a material sum to one. -/
theorem C53_fractions {p : Params ℝ} {nd : NuclearData ℝ} {first : ℕ} {mp : MaterialParams ℝ} {m : Material ℝ}
    (h : MaterialFrom p nd first mp m) (hn : 0 < mp.nIsotopes) : (m.iso.map (·.atomFraction)).sum = 1 := by
  rw [h.isotopes, List.map_map]
  have : ((fun i : Isotope ℝ => i.atomFraction) ∘ fun i : ℕ =>
      (⟨first + i, one /. Flt.ofNat mp.nIsotopes⟩ : Isotope ℝ)) = fun _ => 1 / (mp.nIsotopes : ℝ) := by
    funext i; simp
  rw [this, List.map_const', List.sum_replicate, List.length_range, nsmul_eq_mul]
  have : (mp.nIsotopes : ℝ) ≠ 0 := by exact_mod_cast hn.ne'
  field_simp

/-! ## C54 -/

theorem foldlM_ok_inv' {ε α β : Type} {f : β → α → Except ε β} (P : β → Prop) {l : List α}
    (h : ∀ b a b', f b a = .ok b' → P b → P b') {b b' : β} (hb : P b) (hl : l.foldlM f b = .ok b') : P b' := by
  induction l generalizing b with
  | nil => cases hl; exact hb
  | cons a l ih =>
    rw [List.foldlM_cons] at hl
    obtain ⟨b1, h1, h2⟩ := bind_ok.1 hl
    exact ih (h _ _ _ h1 hb) h2

section table

theorem typeWeight_nil (ty : ReactionType) : typeWeight [] ty = 0 := rfl

theorem typeWeight_cons (t : ℝ × Reaction ℝ) (ts : List (ℝ × Reaction ℝ)) (ty : ReactionType) :
    typeWeight (t :: ts) ty = (if t.2.rtype = ty then t.1 else 0) + typeWeight ts ty := by
  unfold typeWeight
  rw [List.filter_cons]
  by_cases h : t.2.rtype = ty <;> simp [h]

theorem typeWeight_append (ts us : List (ℝ × Reaction ℝ)) (ty : ReactionType) :
    typeWeight (ts ++ us) ty = typeWeight ts ty + typeWeight us ty := by
  simp [typeWeight]

/-- Each reaction is of one of the three types. -/
theorem typeWeight_total (ts : List (ℝ × Reaction ℝ)) :
    typeWeight ts .absorption + typeWeight ts .fission + typeWeight ts .scatter = totalWeight ts := by
  induction ts with
  | nil => simp [typeWeight, totalWeight]
  | cons t ts ih =>
    have : totalWeight (t :: ts) = t.1 + totalWeight ts := by simp [totalWeight]
    rw [this, ← ih, typeWeight_cons, typeWeight_cons, typeWeight_cons]
    cases t.2.rtype <;> simp <;> ring

/-- A row of the table, increased by the weights of some reactions. -/
noncomputable def XsData.plus (x : XsData ℝ) (ts : List (ℝ × Reaction ℝ)) : XsData ℝ :=
  ⟨x.abs + typeWeight ts .absorption, x.fis + typeWeight ts .fission, x.sca + typeWeight ts .scatter⟩

theorem XsData.plus_append (x : XsData ℝ) (ts us : List (ℝ × Reaction ℝ)) :
    x.plus (ts ++ us) = (x.plus ts).plus us := by
  simp only [XsData.plus, typeWeight_append, add_assoc]

theorem XsData.plus_nil (x : XsData ℝ) : x.plus [] = x := by
  simp [XsData.plus, typeWeight_nil]

theorem XsData.plus_cons (x : XsData ℝ) (v : ℝ) (r : Reaction ℝ) (ts : List (ℝ × Reaction ℝ)) :
    x.plus ((v, r) :: ts) = (x.add r.rtype v).plus ts := by
  simp only [XsData.plus, typeWeight_cons, XsData.add]
  cases r.rtype <;> simp [add_assoc]

theorem xsAddReaction_row {n : ℝ} {rows rows' : List (XsData ℝ)} {r : Reaction ℝ}
    (h : xsAddReaction n rows r = .ok rows') {i : ℕ} {row : XsData ℝ} (hi : rows[i]? = some row) :
    ∃ σ, r.crossSection[i]? = some σ ∧ rows'[i]? = some (row.add r.rtype (σ / n)) := by
  unfold xsAddReaction at h
  obtain ⟨b, hb, h1⟩ := mapM_ok_getElem h (i := i) (a := (row, i)) (by
    rw [List.getElem?_zipIdx, hi]; simp)
  dsimp only at h1
  obtain ⟨σ, h2, h3⟩ := bind_ok.1 h1
  refine ⟨σ, idx_ok.1 h2, ?_⟩
  rw [hb, ← pure_ok.1 h3]
  simp

theorem xsReactions_row {n : ℝ} {i : ℕ} : ∀ {rs : List (Reaction ℝ)} {rows rows' : List (XsData ℝ)}
    {row : XsData ℝ}, rs.foldlM (xsAddReaction n) rows = .ok rows' → rows[i]? = some row →
    ∃ ts, List.Forall₂ (fun r t => ∃ σ, r.crossSection[i]? = some σ ∧ t = (σ / n, r)) rs ts ∧
      rows'[i]? = some (row.plus ts) := by
  intro rs
  induction rs with
  | nil =>
    intro rows rows' row h hi
    cases h
    exact ⟨[], .nil, by rw [XsData.plus_nil]; exact hi⟩
  | cons r rs ih =>
    intro rows rows' row h hi
    rw [List.foldlM_cons] at h
    obtain ⟨rows1, h1, h2⟩ := bind_ok.1 h
    obtain ⟨σ, h3, h4⟩ := xsAddReaction_row h1 hi
    obtain ⟨ts, h5, h6⟩ := ih h2 h4
    exact ⟨(σ / n, r) :: ts, .cons ⟨σ, h3, rfl⟩ h5, by rw [XsData.plus_cons]; exact h6⟩

/-- **C54** (rows).  In each energy group the three columns of a material are the sums, by type, of the weights of
its reactions at unit density. -/
theorem C54_rows {data : Data ℝ} {m : Material ℝ} (hf : ∀ iso ∈ m.iso, iso.atomFraction = 1 / m.iso.length)
    {nGroups : ℕ} {rows : List (XsData ℝ)} (h : xsMaterial data.nuclear nGroups m = .ok rows) {i : ℕ}
    (hi : i < nGroups) :
    ∃ ts, MaterialTerms data 1 i m ts ∧
      rows[i]? = some ⟨typeWeight ts .absorption, typeWeight ts .fission, typeWeight ts .scatter⟩ := by
  have key : ∀ (isos : List (Isotope ℝ)), (∀ iso ∈ isos, iso.atomFraction = 1 / m.iso.length) →
      ∀ (rows0 rows : List (XsData ℝ)) (row : XsData ℝ),
      (isos.foldlM (fun rows iso => do
        let rs ← idx data.nuclear.isotopes iso.gid
        rs.foldlM (xsAddReaction (Flt.ofNat m.iso.length)) rows) rows0) = .ok rows →
      rows0[i]? = some row →
      ∃ tss, List.Forall₂ (IsotopeTerms data 1 i) isos tss ∧ rows[i]? = some (row.plus tss.flatten) := by
    intro isos
    induction isos with
    | nil =>
      intro _ rows0 rows row h h0
      cases h
      exact ⟨[], .nil, by rw [List.flatten_nil, XsData.plus_nil]; exact h0⟩
    | cons iso isos ih =>
      intro hfr rows0 rows row h h0
      rw [List.foldlM_cons] at h
      obtain ⟨rows1, h1, h2⟩ := bind_ok.1 h
      obtain ⟨rs, h3, h4⟩ := bind_ok.1 h1
      obtain ⟨ts, h5, h6⟩ := xsReactions_row h4 h0
      obtain ⟨tss, h7, h8⟩ := ih (fun iso h => hfr iso (by simp [h])) rows1 rows _ h2 h6
      refine ⟨ts :: tss, .cons ⟨rs, idx_ok.1 h3, ?_⟩ h7, ?_⟩
      · refine h5.imp fun r t ht => ?_
        obtain ⟨σ, hσ, rfl⟩ := ht
        refine ⟨σ, hσ, ?_⟩
        rw [hfr iso (by simp)]
        simp only [ofNat_eq, Prod.mk.injEq, and_true]
        ring
      · rw [List.flatten_cons, XsData.plus_append]
        exact h8
  unfold xsMaterial at h
  obtain ⟨tss, h1, h2⟩ := key m.iso hf _ _ ⟨0, 0, 0⟩ h (by simp [hi])
  exact ⟨_, ⟨tss, h1, rfl⟩, by rw [h2]; simp [XsData.plus]⟩

/-- Weights are proportional to the density. -/
theorem MaterialTerms.scale {data : Data ℝ} {i : ℕ} {m : Material ℝ} {ts : List (ℝ × Reaction ℝ)}
    (h : MaterialTerms data 1 i m ts) (ρ : ℝ) :
    MaterialTerms data ρ i m (ts.map fun t => (ρ * t.1, t.2)) := by
  obtain ⟨tss, h1, rfl⟩ := h
  refine ⟨tss.map (List.map fun t => (ρ * t.1, t.2)), ?_, by rw [List.map_flatten]⟩
  rw [List.forall₂_map_right_iff]
  refine h1.imp fun iso ts ht => ?_
  obtain ⟨rs, hrs, ht⟩ := ht
  refine ⟨rs, hrs, ?_⟩
  rw [List.forall₂_map_right_iff]
  refine ht.imp fun r t ht => ?_
  obtain ⟨σ, hσ, rfl⟩ := ht
  exact ⟨σ, hσ, by simp only [Prod.mk.injEq, and_true]; ring⟩

/-- **C54** (transport).  The three columns of a material sum to the cross-section the transport uses, divided by
the density. -/
theorem C54_transport {data : Data ℝ} {k : ℕ} {m : Material ℝ} (hk : data.materials[k]? = some m)
    (hf : ∀ iso ∈ m.iso, iso.atomFraction = 1 / m.iso.length)
    {nGroups : ℕ} {rows : List (XsData ℝ)} (h : xsMaterial data.nuclear nGroups m = .ok rows) {i : ℕ}
    (hi : i < nGroups) {ρ : ℝ} (hρ : ρ ≠ 0) :
    ∃ row, rows[i]? = some row ∧ weightedMacroXs data k ρ i = .ok (ρ * (row.abs + row.fis + row.sca)) := by
  obtain ⟨ts, h1, h2⟩ := C54_rows hf h hi
  refine ⟨_, h2, (C29_sum hk ⟨hρ, fun iso hiso => ?_⟩ i _).2 ⟨_, h1.scale ρ, ?_⟩⟩
  · rw [hf iso hiso]
    have : (m.iso.length : ℝ) ≠ 0 := by exact_mod_cast (List.length_pos_of_mem hiso).ne'
    exact one_div_ne_zero this
  · simp only [typeWeight_total, totalWeight, List.map_map, Function.comp_def]
    rw [List.sum_map_mul_left]

/-- What is written for a value: zero when it is below `1e-13`. -/
noncomputable def shown (v : ℝ) : ℝ := if v < 1 / 10 ^ 13 then 0 else v

theorem XsData.cut_shown (x : XsData ℝ) : x.cut = ⟨shown x.abs, shown x.fis, shown x.sca⟩ := by
  simp only [XsData.cut, shown, tiny_eq, lt_eq, zero_eq, decide_eq_true_eq]

/-- **C54** (table).  For validated parameters, the table of cross-sections is computed.  It has one entry by
material of the input and one row by energy group; the energy of a row is the middle of its group; its values, below
`1e-13` replaced by zero, are three numbers that sum to the cross-section the transport uses for this material and
this group, by unit of density. -/
theorem C54_table {order : StrOrder} (ho : ∀ l, (order l).Perm l) {p : Params ℝ} (hp : NamedParams p)
    (hc : Consistent p) {nd : NuclearData ℝ} {mats : List (Material ℝ)}
    (h : initNuclearData order p = .ok (nd, mats)) :
    ∃ es t, crossSectionTable nd mats p.simulation.nGroups = .ok (es, t) ∧
      t.keys.Perm p.materials.keys ∧ es.length = p.simulation.nGroups ∧
      (∀ i < p.simulation.nGroups, ∃ a b, nd.energies[i]? = some a ∧ nd.energies[i + 1]? = some b ∧
        es[i]? = some ((a + b) / 2)) ∧
      ∀ (k : ℕ) (m : Material ℝ), mats[k]? = some m → ∃ rows : List (XsData ℝ), t.get? m.name = some rows ∧
        rows.length = p.simulation.nGroups ∧
        ∀ i < p.simulation.nGroups, ∃ a f s, rows[i]? = some ⟨shown a, shown f, shown s⟩ ∧
          ∀ ρ ≠ 0, weightedMacroXs (p.data nd mats) k ρ i = .ok (ρ * (a + f + s)) := by
  obtain ⟨nd', mats', e1, _, h3, h4⟩ := initNuclearData_ok hp hc ho
  rw [h] at e1; cases e1
  have hnames : mats.map (·.name) = order p.materials.keys := by
    rw [h4.names, hp.materials.values_names ho]
  have hnd : (mats.map (·.name)).Nodup := by
    rw [hnames]; exact (ho _).nodup_iff.2 hp.materials.nodup
  obtain ⟨⟨es, t⟩, ht⟩ := crossSectionTable_ok (g := p.simulation.nGroups) (by rw [h3, energyLevels_length]) h4
  refine ⟨es, t, ht, ?_⟩
  unfold crossSectionTable at ht
  obtain ⟨es', he, ht1⟩ := bind_ok.1 ht
  obtain ⟨rows, hr, ht2⟩ := bind_ok.1 ht1
  cases pure_ok.1 ht2
  have hrows : rows.map Prod.fst = mats.map (·.name) := by
    apply List.ext_getElem?
    intro i
    rw [List.getElem?_map, List.getElem?_map]
    have hl := mapM_ok_length hr
    cases hm : mats[i]? with
    | none =>
      rw [List.getElem?_eq_none_iff] at hm
      rw [List.getElem?_eq_none_iff.2 (by omega)]; rfl
    | some m =>
      obtain ⟨b, hb, h1⟩ := mapM_ok_getElem hr _ _ hm
      obtain ⟨r, _, h2⟩ := bind_ok.1 h1
      rw [hb, ← pure_ok.1 h2]; rfl
  -- insertion of entries with distinct names
  have hfold : ∀ (l : List (String × List (XsData ℝ))) (t : HMap String (List (XsData ℝ))),
      (l.map Prod.fst).Nodup → (∀ e ∈ l, e.1 ∉ t.keys) →
      l.foldl (fun t e => HMap.insert t e.1 e.2) t = t ++ l := by
    intro l
    induction l with
    | nil => intro t _ _; simp
    | cons e l ih =>
      intro t hn ht
      rw [List.foldl_cons, HMap.insert_new (ht e (by simp))]
      rw [List.map_cons, List.nodup_cons] at hn
      rw [ih _ hn.2]
      · simp
      · intro e' he' hk
        rw [HMap.keys, List.map_append, List.mem_append] at hk
        rcases hk with hk | hk
        · exact ht e' (by simp [he']) hk
        · simp only [List.map_cons, List.map_nil, List.mem_singleton] at hk
          exact hn.1 (hk ▸ List.mem_map_of_mem he')
  have ht' : rows.foldl (fun t e => HMap.insert t e.1 e.2) [] = rows := by
    rw [hfold rows [] (by rw [hrows]; exact hnd) (by simp [HMap.keys])]; rfl
  rw [ht']
  refine ⟨?_, ?_, ?_, ?_⟩
  · show (rows.map Prod.fst).Perm _
    rw [hrows, hnames]
    exact ho _
  · have := mapM_ok_length he
    simpa using this
  · intro i hi
    obtain ⟨b, hb, h1⟩ := mapM_ok_getElem he (i := i) (a := i) (by simp [hi])
    obtain ⟨x, h5, h6⟩ := bind_ok.1 h1
    obtain ⟨y, h7, h8⟩ := bind_ok.1 h6
    refine ⟨x, y, idx_ok.1 h5, idx_ok.1 h7, ?_⟩
    rw [hb, ← pure_ok.1 h8]
    simp
  · intro k m hm
    obtain ⟨b, hb, h1⟩ := mapM_ok_getElem hr _ _ hm
    obtain ⟨r, h5, h6⟩ := bind_ok.1 h1
    have hb' : b = (m.name, r.map XsData.cut) := (pure_ok.1 h6).symm
    subst hb'
    obtain ⟨mp, _, first, hf⟩ := h4.mem (List.mem_of_getElem? hm)
    have hlen : m.iso.length = mp.nIsotopes := by rw [hf.isotopes]; simp
    have hfr : ∀ iso ∈ m.iso, iso.atomFraction = 1 / (m.iso.length : ℝ) := by
      obtain ⟨sp, nu, _, h7⟩ := hf.reactions
      intro iso hi
      rw [(h7 iso hi).1, hlen]; simp
    have hrl : r.length = p.simulation.nGroups := by
      have hinv := foldlM_ok_inv' (fun rows : List (XsData ℝ) => rows.length = p.simulation.nGroups)
        (fun rows iso rows' hstep hrows => ?_) (by simp) h5
      · exact hinv
      · obtain ⟨rs, _, h9⟩ := bind_ok.1 hstep
        refine foldlM_ok_inv' (fun rows : List (XsData ℝ) => rows.length = p.simulation.nGroups)
          (fun rows r rows' hstep hrows => ?_) hrows h9
        rw [mapM_ok_length hstep, List.length_zipIdx, hrows]
    refine ⟨r.map XsData.cut, HMap.get?_of_mem (by
      show (rows.map Prod.fst).Nodup
      rw [hrows]; exact hnd) (List.mem_of_getElem? hb), by simp [hrl], fun i hi => ?_⟩
    have hk : (p.data nd mats).materials[k]? = some m := hm
    obtain ⟨row, h7⟩ : ∃ row, r[i]? = some row := ⟨_, List.getElem?_eq_getElem (by omega)⟩
    refine ⟨row.abs, row.fis, row.sca, ?_, fun ρ hρ => ?_⟩
    · rw [List.getElem?_map, h7, Option.map_some, XsData.cut_shown]
    · obtain ⟨row', h8, h9⟩ := C54_transport hk hfr (nGroups := p.simulation.nGroups) h5 hi hρ
      rw [h7] at h8; cases h8
      exact h9

end table

/-! ### The text of the file -/

theorem splitFields_count (sep : Char) (l : List Char) : (splitFields sep l).length = l.count sep + 1 := by
  induction l with
  | nil => simp [splitFields]
  | cons c l ih =>
    unfold splitFields
    split
    · rename_i h; subst h; simp [ih]
    · rename_i h
      rw [List.count_cons_of_ne (by exact h)]
      split
      · rename_i h2; rw [h2] at ih; simp at ih
      · rename_i h2; rw [h2] at ih; simpa using ih

/-- **C54** (file, one material).  With one material the columns of the first line are the ones expected. -/
theorem C54_header {n : String} (h : '|' ∉ n.toList) :
    splitFields '|' (xsHeaderLine [n]) = ["group ".toList, "           energy ".toList,
      ("  " ++ n ++ "_absorb ").toList, ("  " ++ n ++ "_fission ").toList, ("  " ++ n ++ "_scatter").toList] := by
  have e1 : "group |           energy |  ".toList =
      "group ".toList ++ '|' :: "           energy ".toList ++ '|' :: "  ".toList := by decide +kernel
  have e2 : "_absorb |  ".toList = "_absorb ".toList ++ '|' :: "  ".toList := by decide +kernel
  have e3 : "_fission |  ".toList = "_fission ".toList ++ '|' :: "  ".toList := by decide +kernel
  have b1 : '|' ∉ "group ".toList := by decide +kernel
  have b2 : '|' ∉ "           energy ".toList := by decide +kernel
  have b3 : '|' ∉ "  ".toList := by decide +kernel
  have b4 : '|' ∉ "_absorb ".toList := by decide +kernel
  have b5 : '|' ∉ "_fission ".toList := by decide +kernel
  have b6 : '|' ∉ "_scatter".toList := by decide +kernel
  unfold xsHeaderLine
  simp only [String.toList_append, List.flatMap_cons, List.flatMap_nil, List.append_nil]
  rw [e1, e2, e3]
  clear e1 e2 e3
  generalize "group ".toList = a1 at *
  generalize "           energy ".toList = a2 at *
  generalize "  ".toList = a3 at *
  generalize "_absorb ".toList = a4 at *
  generalize "_fission ".toList = a5 at *
  generalize "_scatter".toList = a6 at *
  have := split_join (sep := '|') (fs := [a1, a2, a3 ++ n.toList ++ a4, a3 ++ n.toList ++ a5, a3 ++ n.toList ++ a6])
    (by simp) (by simp [*])
  rw [← this]
  congr 1
  simp [joinFields]

/-- **C54 fails** (file, several materials).  The last column of a material and the first of the next one are not
separated: with `k` materials the first line has `2k + 3` columns instead of `3k + 2`. -/
theorem C54_columns_violated {names : List String} (hn : ∀ n ∈ names, '|' ∉ n.toList) :
    (splitFields '|' (xsHeaderLine names)).length = 2 * names.length + 3 := by
  have h1 : ("_absorb |  ".toList).count '|' = 1 := by decide +kernel
  have h2 : ("_fission |  ".toList).count '|' = 1 := by decide +kernel
  have h3 : ("_scatter".toList).count '|' = 0 := by decide +kernel
  have h4 : ("group |           energy |  ".toList).count '|' = 2 := by decide +kernel
  rw [splitFields_count]
  unfold xsHeaderLine
  simp only [String.toList_append, List.count_append]
  generalize "_absorb |  ".toList = a1 at *
  generalize "_fission |  ".toList = a2 at *
  generalize "_scatter".toList = a3 at *
  generalize "group |           energy |  ".toList = a4 at *
  have : (names.flatMap fun n => n.toList ++ a1 ++ n.toList ++ a2 ++ n.toList ++ a3).count '|' =
      2 * names.length := by
    induction names with
    | nil => rfl
    | cons n l ih =>
      rw [List.flatMap_cons, List.count_append, ih fun n h => hn n (by simp [h])]
      have h0 := List.count_eq_zero.2 (hn n (by simp))
      simp only [List.count_append, h0, List.length_cons]
      omega
  omega

/-- **C54 fails** (file, several materials).  The same is true of the lines of numbers. -/
theorem C54_line_violated {T : Type} (fmt : XsFormat T) (hg : ∀ i, '|' ∉ fmt.group i) (he : ∀ x, '|' ∉ fmt.energy x)
    (hf : ∀ x, '|' ∉ fmt.first x) (ho : ∀ x, '|' ∉ fmt.other x) (i : ℕ) (e : T) (rows : List (XsData T)) :
    (splitFields '|' (xsDataLine fmt i e rows)).length = 2 * rows.length + 3 := by
  have h1 : (" |  ".toList).count '|' = 1 := by decide +kernel
  have h2 : (" |   ".toList).count '|' = 1 := by decide +kernel
  have g1 := List.count_eq_zero.2 (hg i)
  have g2 := List.count_eq_zero.2 (he e)
  rw [splitFields_count]
  unfold xsDataLine
  simp only [List.count_append, g1, g2]
  generalize " |   ".toList = a2 at *
  generalize " |  ".toList = a1 at *
  have : (rows.flatMap fun x => fmt.first x.abs ++ a1 ++ fmt.other x.fis ++ a1 ++ fmt.other x.sca).count '|' =
      2 * rows.length := by
    induction rows with
    | nil => rfl
    | cons x l ih =>
      have h3 := List.count_eq_zero.2 (hf x.abs)
      have h4 := List.count_eq_zero.2 (ho x.fis)
      have h5 := List.count_eq_zero.2 (ho x.sca)
      rw [List.flatMap_cons, List.count_append, ih]
      simp only [List.count_append, h3, h4, h5, List.length_cons]
      omega
  omega

/-- Two materials: the names of two columns run together. -/
example : "  a_scatterb_absorb ".toList ∈ splitFields '|' (xsHeaderLine ["a", "b"]) := by decide +kernel

/-! ### A concrete case -/

/-- The parameters of a run without an input file. -/
def builtinParams {T : Type} [Flt T] (s : SimulationParams T) : Params T := Params.supplyDefaults ⟨s, [], [], []⟩

theorem builtin_named {T : Type} [Flt T] (s : SimulationParams T) : NamedParams (builtinParams s) := by
  have h1 := Named.insert (Named.nil (name := MaterialParams.name (T := T))) (MaterialParams.mk "source_material"
    (Flt.lit 1000 0) (MaterialParams.default (T := T)).totalCrossSection (MaterialParams.default (T := T)).nIsotopes
    (MaterialParams.default (T := T)).nReactions (Flt.lit 1 10) "flat" "flat" "flat"
    (MaterialParams.default (T := T)).scatteringCrossSectionRatio
    (MaterialParams.default (T := T)).absorptionCrossSectionRatio (Flt.lit 1 (-1)))
  have h2 := Named.insert (Named.nil (name := CrossSectionParams.name (T := T)))
    { CrossSectionParams.default with name := "flat" }
  exact ⟨h1, h2⟩

theorem builtin_consistent {T : Type} [Flt T] (s : SimulationParams T) : Consistent (builtinParams s) := by
  have hx : ∃ x, (builtinParams s).crossSections.get? "flat" = some x := ⟨_, rfl⟩
  refine ⟨List.cons_ne_nil _ _, ?_, ?_, ?_⟩
  · intro g hg
    rw [List.mem_singleton.1 hg]
    exact fun h => by cases h
  · intro g hg
    rw [List.mem_singleton.1 hg]
    exact ⟨_, rfl⟩
  · intro k m hm
    obtain ⟨mp, hmp⟩ : ∃ mp, (builtinParams s).materials = [("source_material", mp)] ∧
      mp.absorptionCrossSection = "flat" ∧ mp.scatteringCrossSection = "flat" ∧ mp.fissionCrossSection = "flat" :=
      ⟨_, rfl, rfl, rfl, rfl⟩
    rw [hmp.1, HMap.get?_cons] at hm
    split at hm
    · cases hm
      rw [hmp.2.1, hmp.2.2.1, hmp.2.2.2]
      exact ⟨hx, hx, hx⟩
    · cases hm

/-- The built-in problem meets the hypotheses: its table has one material and a row by energy group. -/
example (s : SimulationParams ℝ) : ∃ nd mats es t, initNuclearData id (builtinParams s) = .ok (nd, mats) ∧
    crossSectionTable nd mats s.nGroups = .ok (es, t) ∧ t.keys = ["source_material"] := by
  obtain ⟨nd, mats, h, _⟩ := C53_materials (order := id) (fun l => .refl _) (builtin_named s) (builtin_consistent s)
  obtain ⟨es, t, h1, h2, _⟩ := C54_table (order := id) (fun l => .refl _) (builtin_named s) (builtin_consistent s) h
  exact ⟨nd, mats, es, t, h, h1, List.perm_singleton.1 h2⟩
