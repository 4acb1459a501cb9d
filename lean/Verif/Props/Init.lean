import Verif.Lemmas.Init
/-!
# C39 (look-ups) and the nuclear data

`Verif/Spec/Init.lean` says what the initialisation builds from the parameters.  Everything here holds for every
number type and every order of the hash maps.
-/
open Flt Config

set_option linter.unusedSectionVars false

variable {T : Type} [Flt T]

section named

theorem applyBlock_named {tr : TextReaders T} {p p' : Params T} {raw : List Char} (hp : NamedParams p)
    (h : applyBlock tr p raw = .ok (.ok p')) : NamedParams p' := by
  unfold applyBlock at h
  split at h
  · cases h; exact hp
  · obtain ⟨b, _, h2⟩ := bind_ok.1 h
    clear h
    split at h2
    · split at h2
      · cases h2; exact ⟨hp.materials, hp.crossSections⟩
      · cases h2
      · cases h2
    · have h3 := pure_ok.1 h2
      cases hb : GeometryParams.fromBlock tr.float b with
      | error e => rw [hb] at h3; cases h3
      | ok g => rw [hb] at h3; cases h3; exact ⟨hp.materials, hp.crossSections⟩
    · have h3 := pure_ok.1 h2
      cases hb : MaterialParams.fromBlock tr.float b with
      | error e => rw [hb] at h3; cases h3
      | ok g => rw [hb] at h3; cases h3; exact ⟨hp.materials.insert g, hp.crossSections⟩
    · have h3 := pure_ok.1 h2
      cases hb : CrossSectionParams.fromBlock tr.float b with
      | error e => rw [hb] at h3; cases h3
      | ok g => rw [hb] at h3; cases h3; exact ⟨hp.materials, hp.crossSections.insert g⟩
    · cases h2

theorem applyBlocks_named {tr : TextReaders T} : ∀ {l : List (List Char)} {p p' : Params T} {es : List InputError},
    NamedParams p → applyBlocks tr p l = .ok (p', es) → NamedParams p' := by
  intro l
  induction l with
  | nil => intro p p' es hp h; cases h; exact hp
  | cons raw l ih =>
    intro p p' es hp h
    unfold applyBlocks at h
    obtain ⟨r, h1, h2⟩ := bind_ok.1 h
    cases r with
    | ok q => exact ih (applyBlock_named hp h1) h2
    | error e =>
      obtain ⟨⟨q, es'⟩, h3, h4⟩ := bind_ok.1 h2
      cases pure_ok.1 h4
      exact ih hp h3

/-- The maps of the parameters of a run are indexed by name. -/
theorem getParameters_named {order : StrOrder} {tr : TextReaders T} {files : String → FileContent} {cli : Cli T}
    {p : Params T} (h : getParameters order tr files cli = .ok (.ok p)) : NamedParams p := by
  unfold getParameters at h
  obtain ⟨read, h1, h2⟩ := bind_ok.1 h
  clear h
  cases read with
  | error es => cases h2
  | ok q =>
    have hq : NamedParams q := by
      unfold readParameters at h1
      dsimp only at h1
      have h0 : ∀ s : SimulationParams T, NamedParams (Params.mk s [] [] []) := fun s => ⟨.nil, .nil⟩
      split at h1
      · unfold parseInputFile at h1
        split at h1
        · cases h1
        · cases h1
        · obtain ⟨⟨q', es⟩, h3, h4⟩ := bind_ok.1 h1
          have h5 := pure_ok.1 h4
          split at h5
          · cases h5; exact applyBlocks_named (h0 _) h3
          · cases h5
      · cases h1; exact h0 _
    have h2 : finishParameters order cli q = .ok p := Except.ok.inj h2
    unfold finishParameters at h2
    dsimp only at h2
    split at h2
    · cases h2
    · cases h2
      unfold Params.supplyDefaults
      dsimp only
      split
      · have h1 := hq.materials.insert (MaterialParams.mk "source_material" (Flt.lit 1000 0)
          (MaterialParams.default (T := T)).totalCrossSection (MaterialParams.default (T := T)).nIsotopes
          (MaterialParams.default (T := T)).nReactions (Flt.lit 1 10) "flat" "flat" "flat"
          (MaterialParams.default (T := T)).scatteringCrossSectionRatio
          (MaterialParams.default (T := T)).absorptionCrossSectionRatio (Flt.lit 1 (-1)))
        have h2 := hq.crossSections.insert { CrossSectionParams.default with name := "flat" }
        exact ⟨h1, h2⟩
      · exact ⟨hq.materials, hq.crossSections⟩

end named

theorem foldlM_ok_inv {ε α β : Type} {f : β → α → Except ε β} (P : β → Prop) {l : List α}
    (h : ∀ b a, a ∈ l → P b → ∃ b', f b a = .ok b' ∧ P b') {b : β} (hb : P b) :
    ∃ b', l.foldlM f b = .ok b' ∧ P b' := by
  induction l generalizing b with
  | nil => exact ⟨b, rfl, hb⟩
  | cons a l ih =>
    obtain ⟨b1, h1, h2⟩ := h b a (by simp) hb
    obtain ⟨b2, h3, h4⟩ := ih (fun b a ha => h b a (by simp [ha])) h2
    exact ⟨b2, by rw [List.foldlM_cons, h1]; exact h3, h4⟩

/-- The table of cross-sections can be written for the data of every consistent parameter set. -/
theorem crossSectionTable_ok {p : Params T} {nd : NuclearData T} {n : Nat} {mps : List (MaterialParams T)}
    {mats : List (Material T)} {g : Nat} (he : nd.energies.length = g + 1) (hm : MaterialsFrom p nd n mps mats) :
    ∃ t, crossSectionTable nd mats g = .ok t := by
  have h1 : ∃ es, xsEnergies nd g = .ok es := by
    refine mapM_ok_exists fun i hi => ?_
    have hi := List.mem_range.1 hi
    rw [idx_ok.2 (List.getElem?_eq_getElem (by omega)), idx_ok.2 (List.getElem?_eq_getElem (by omega))]
    exact ⟨_, rfl⟩
  obtain ⟨es, h1⟩ := h1
  have h2 : ∃ rows, (mats.mapM fun m => do
      let r ← xsMaterial nd g m
      return (m.name, r.map XsData.cut)) = .ok rows := by
    refine mapM_ok_exists fun m hmem => ?_
    obtain ⟨mp, _, first, hf⟩ := hm.mem hmem
    obtain ⟨sp, nu, _, hiso⟩ := hf.reactions
    have h3 : ∃ rows, xsMaterial nd g m = .ok rows ∧ rows.length = g := by
      unfold xsMaterial
      refine foldlM_ok_inv (fun rows : List (XsData T) => rows.length = g) (fun rows iso hi hr => ?_) (by simp)
      rw [idx_ok.2 (hiso iso hi).2]
      refine foldlM_ok_inv (fun rows : List (XsData T) => rows.length = g) (fun rows r hr' hrows => ?_) hr
      have hlen := isotopeReactions_length hr'
      have h4 : ∃ l, xsAddReaction (Flt.ofNat m.iso.length) rows r = .ok l := by
        refine mapM_ok_exists fun x hx => ?_
        obtain ⟨row, i⟩ := x
        have hi := List.mem_zipIdx' hx
        simp only
        rw [idx_ok.2 (List.getElem?_eq_getElem (by omega))]
        exact ⟨_, rfl⟩
      obtain ⟨l, h4⟩ := h4
      exact ⟨l, h4, by rw [mapM_ok_length h4, List.length_zipIdx, hrows]⟩
    obtain ⟨rows, h3, _⟩ := h3
    exact ⟨_, by rw [h3]; rfl⟩
  obtain ⟨rows, h2⟩ := h2
  refine ⟨(es, rows.foldl (fun t e => HMap.insert t e.1 e.2) []), ?_⟩
  unfold crossSectionTable
  exact bind_ok.2 ⟨es, h1, bind_ok.2 ⟨rows, h2, rfl⟩⟩

/-- **C39** (look-ups).  After validation, whatever the order of the hash maps: the read-only data are built, with
the optional table of cross-sections; each region finds its material; each material finds its source rate; and the
size of the containers is computed unless a number of fission neutrons is not the size of anything. -/
theorem C39_lookups {order : StrOrder} (ho : ∀ l, (order l).Perm l) {p : Params T} (hp : NamedParams p)
    (hc : p.checkIntegrity order = .ok ()) :
    (∃ data, initData order p = .ok data ∧
      (∀ g ∈ p.geometries, ∃ i m, findMaterialIdx data.materials g.materialName = some i ∧
        data.materials[i]? = some m ∧ m.name = g.materialName) ∧
      (∃ rates, sourceRateList data = .ok rates)) ∧
    ((∃ n, maxNuBar order p = .ok n) ↔
      ∀ k mp x, p.materials.get? k = some mp → p.crossSections.get? mp.fissionCrossSection = some x →
        ∃ n, Flt.toUsize (Flt.ceil x.nuBar) = some n) := by
  have hc := (C39_validation ho p).1 hc
  obtain ⟨nd, mats, h1, h2, h3, h4⟩ := initNuclearData_ok hp hc ho
  have hnames : mats.map (·.name) = order p.materials.keys := by
    rw [h4.names, hp.materials.values_names ho]
  constructor
  · refine ⟨p.data nd mats, ?_, ?_, ?_⟩
    · have hx : ∃ x, crossSectionOutput p nd mats = .ok x := by
        unfold crossSectionOutput
        split
        · obtain ⟨t, ht⟩ := crossSectionTable_ok (g := p.simulation.nGroups)
            (by rw [h3, energyLevels_length]) h4
          exact ⟨_, by rw [ht]; rfl⟩
        · exact ⟨_, rfl⟩
      obtain ⟨x, hx⟩ := hx
      unfold initData
      rw [h1]
      dsimp only [bind, Except.bind]
      rw [hx]
      rfl
    · intro g hg
      obtain ⟨mp, hmp⟩ := hc.materials g hg
      have hk : g.materialName ∈ mats.map (·.name) := by
        rw [hnames]
        exact (ho _).mem_iff.2 (HMap.get?_isSome.2 ⟨mp, hmp⟩)
      obtain ⟨m, hm, hmn⟩ := List.mem_map.1 hk
      show ∃ i m, mats.findIdx? _ = _ ∧ mats[i]? = _ ∧ _
      cases hf : mats.findIdx? (fun m => m.name == g.materialName) with
      | none =>
        have := List.findIdx?_eq_none_iff.1 hf m hm
        simp [hmn] at this
      | some i =>
        obtain ⟨hi, hv, _⟩ := List.findIdx?_eq_some_iff_getElem.1 hf
        exact ⟨i, mats[i], rfl, List.getElem?_eq_getElem hi, by simpa using hv⟩
    · refine mapM_ok_exists fun m hm => ?_
      have hk : m.name ∈ p.materials.keys := by
        rw [← (ho p.materials.keys).mem_iff, ← hnames]
        exact List.mem_map.2 ⟨m, hm, rfl⟩
      have : ∃ r, (p.data nd mats).sourceRates.lookup m.name = some r := by
        show ∃ r, (p.materials.map fun e => (e.1, e.2.sourceRate)).lookup m.name = some r
        generalize p.materials = l at hk
        clear h1 h4 hnames hc hp
        induction l with
        | nil => cases hk
        | cons e l ih =>
          rw [List.map_cons, List.lookup_cons]
          by_cases he : m.name = e.1
          · exact ⟨e.2.sourceRate, by simp [he]⟩
          · have he' : (m.name == e.1) = false := by simpa using he
            rw [he']
            refine ih ?_
            simp only [HMap.keys, List.map_cons, List.mem_cons] at hk
            exact hk.resolve_left he
      obtain ⟨r, hr⟩ := this
      rw [hr]
      exact ⟨r, rfl⟩
  · constructor
    · rintro ⟨n, hn⟩ k mp x hk hx
      unfold maxNuBar at hn
      obtain ⟨l, hl, _⟩ := bind_ok.1 hn
      obtain ⟨i, hi, hget⟩ := List.getElem_of_mem ((mem_valuesIn ho).2 ⟨k, hk⟩)
      have hlen := mapM_ok_length hl
      have := mapM_ok_getElem hl (i := i) (a := mp) (by rw [List.getElem?_eq_getElem hi, hget])
      obtain ⟨b, _, hb⟩ := this
      rw [HMap.index_ok.2 hx] at hb
      exact ⟨b, unwrap_ok.1 hb⟩
    · intro hall
      have : ∃ l, ((p.materials.valuesIn order).mapM fun mp => do
          let xs ← HMap.index p.crossSections mp.fissionCrossSection
          unwrap (Flt.toUsize (Flt.ceil xs.nuBar))) = .ok l := by
        refine mapM_ok_exists fun mp hmem => ?_
        obtain ⟨k, hk⟩ := (mem_valuesIn ho).1 hmem
        obtain ⟨x, hx⟩ := (hc.crossSections _ _ hk).2.2
        obtain ⟨n, hn⟩ := hall k mp x hk hx
        rw [HMap.index_ok.2 hx]
        exact ⟨n, unwrap_ok.2 hn⟩
      obtain ⟨l, hl⟩ := this
      have hne : l ≠ [] := by
        rintro rfl
        have hlen := mapM_ok_length hl
        obtain ⟨g, hg⟩ := List.exists_mem_of_ne_nil _ hc.geometry
        obtain ⟨mp, hmp⟩ := hc.materials g hg
        have := List.length_pos_of_mem ((mem_valuesIn ho).2 ⟨_, hmp⟩)
        simp at hlen
        rw [← hlen] at this
        simp at this
      obtain ⟨m, hm⟩ := Option.ne_none_iff_exists'.1 (fun h => hne (List.max?_eq_none_iff.1 h))
      refine ⟨m, ?_⟩
      unfold maxNuBar
      rw [hl]
      exact unwrap_ok.2 hm

/-! ## A concrete case -/

/-- The built-in problem, with a second material of which the input file names all three cross-sections. -/
def demoParams : Params Toy :=
  let p := Params.supplyDefaults emptyParams
  { p with
    materials := p.materials.insert "fuel" { MaterialParams.default with
      name := "fuel", nIsotopes := 2, nReactions := 4, scatteringCrossSection := "flat",
      absorptionCrossSection := "flat", fissionCrossSection := "flat" } }

theorem demoParams_named : NamedParams demoParams := by
  have h0 : NamedParams (Params.supplyDefaults emptyParams) := by
    have h1 := Named.insert (Named.nil (name := MaterialParams.name (T := Toy))) (MaterialParams.mk "source_material"
      (Flt.lit 1000 0) (MaterialParams.default (T := Toy)).totalCrossSection (MaterialParams.default (T := Toy)).nIsotopes
      (MaterialParams.default (T := Toy)).nReactions (Flt.lit 1 10) "flat" "flat" "flat"
      (MaterialParams.default (T := Toy)).scatteringCrossSectionRatio
      (MaterialParams.default (T := Toy)).absorptionCrossSectionRatio (Flt.lit 1 (-1)))
    have h2 := Named.insert (Named.nil (name := CrossSectionParams.name (T := Toy)))
      { CrossSectionParams.default with name := "flat" }
    exact ⟨h1, h2⟩
  exact ⟨h0.materials.insert { MaterialParams.default with
      name := "fuel", nIsotopes := 2, nReactions := 4, scatteringCrossSection := "flat",
      absorptionCrossSection := "flat", fissionCrossSection := "flat" }, h0.crossSections⟩

/-- It is accepted, and its data are built: two materials with ten and two isotopes. -/
example : demoParams.checkIntegrity id = .ok () := by decide +kernel

/-- The same parameters without the cross-section are rejected, and the initialisation would panic. -/
example : ({ demoParams with crossSections := [] } : Params Toy).checkIntegrity id ≠ .ok () ∧
    initData id ({ demoParams with crossSections := [] } : Params Toy) = .error .unwrapNone := by
  constructor
  · decide +kernel
  · rfl
