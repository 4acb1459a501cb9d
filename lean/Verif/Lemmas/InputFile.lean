import Verif.Lemmas.Input
import Verif.Lemmas.HMap
import Mathlib.Tactic.Convert
/-!
# Lemmas on the reading of input files
-/
open Flt Config
set_option linter.unusedSectionVars false

/-! ## Cutting the text -/

/-- The leftmost split of a text into pieces; the mirror image of `Separated`. -/
structure LeftCut (pieces : List (List Char)) : Prop where
  nonempty : pieces ≠ []
  inside : ∀ b ∈ pieces, ¬ ['\n', '\n'] <:+: b
  ends : ∀ b ∈ pieces.dropLast, b.getLast? ≠ some '\n'

theorem splitBlank_ne_nil (s : List Char) : splitBlank s ≠ [] := by
  induction s using splitBlank.induct with
  | case1 => simp [splitBlank]
  | case2 => simp [splitBlank]
  | case3 c d r h ih => simp [splitBlank, h]
  | case4 c d r h ih1 ih =>
    rw [splitBlank, if_neg h]
    split <;> simp
  | case5 c d r h hd tl hs ih =>
    rw [splitBlank, if_neg h, hs]
    simp

theorem splitBlank_text (s : List Char) : fileText (splitBlank s) = s := by
  induction s using splitBlank.induct with
  | case1 => rfl
  | case2 => rfl
  | case3 c d r h ih =>
    rw [splitBlank, if_pos h]
    obtain ⟨b, bs, hb⟩ := List.exists_cons_of_ne_nil (splitBlank_ne_nil r)
    rw [hb] at ih ⊢
    rw [fileText, ih, h.1, h.2]
    · rfl
    · simp
  | case4 c d r h ih1 ih => exact absurd ih1 (splitBlank_ne_nil _)
  | case5 c d r h hd tl hs ih =>
    rw [splitBlank, if_neg h, hs]
    rw [hs] at ih
    cases tl with
    | nil =>
      simp only [fileText] at ih ⊢
      rw [ih]
    | cons t ts =>
      simp only [fileText] at ih ⊢
      rw [List.cons_append, ih]

theorem splitBlank_head {c : Char} {s : List Char} {p : List Char} {ps : List (List Char)}
    (h : splitBlank (c :: s) = p :: ps) : p = [] ∨ ∃ q, p = c :: q := by
  cases s with
  | nil => simp [splitBlank] at h; exact .inr ⟨[], h.1.symm⟩
  | cons d r =>
    rw [splitBlank] at h
    split at h
    · simp at h; exact .inl h.1
    · split at h
      · simp at h; exact .inr ⟨[], h.1.symm⟩
      · simp at h; exact .inr ⟨_, h.1.symm⟩

theorem splitBlank_cut (s : List Char) : LeftCut (splitBlank s) := by
  induction s using splitBlank.induct with
  | case1 => exact ⟨by simp [splitBlank], by simp [splitBlank], by simp [splitBlank]⟩
  | case2 c =>
    refine ⟨by simp [splitBlank], ?_, by simp [splitBlank]⟩
    intro b hb h
    simp [splitBlank] at hb
    have := h.length_le
    subst hb
    simp at this
  | case3 c d r h ih =>
    rw [splitBlank, if_pos h]
    refine ⟨by simp, ?_, ?_⟩
    · intro b hb
      rcases List.mem_cons.1 hb with rfl | hb
      · intro h; have := h.length_le; simp at this
      · exact ih.inside b hb
    · intro b hb
      rw [List.dropLast_cons_of_ne_nil (splitBlank_ne_nil _)] at hb
      rcases List.mem_cons.1 hb with rfl | hb
      · simp
      · exact ih.ends b hb
  | case4 c d r h ih1 ih => exact absurd ih1 (splitBlank_ne_nil _)
  | case5 c d r h hd tl hs ih =>
    rw [splitBlank, if_neg h, hs]
    rw [hs] at ih
    have hhd := splitBlank_head hs
    refine ⟨by simp, ?_, ?_⟩
    · intro b hb
      rcases List.mem_cons.1 hb with rfl | hb
      · intro hi
        rcases List.infix_cons_iff.1 hi with hp | hi
        · rcases hhd with rfl | ⟨q, rfl⟩
          · have := hp.length_le; simp at this
          · rw [List.cons_prefix_cons, List.cons_prefix_cons] at hp
            exact h ⟨hp.1.symm, hp.2.1.symm⟩
        · exact ih.inside hd List.mem_cons_self hi
      · exact ih.inside b (List.mem_cons_of_mem _ hb)
    · intro b hb
      cases tl with
      | nil => simp at hb
      | cons t ts =>
        rw [List.dropLast_cons_of_ne_nil (by simp)] at hb
        rcases List.mem_cons.1 hb with rfl | hb
        · rcases hhd with rfl | ⟨q, rfl⟩
          · -- the rest starts with a blank line
            simp only [List.getLast?_singleton, ne_eq, Option.some.injEq]
            rintro rfl
            have := splitBlank_text (d :: r)
            rw [hs] at this
            simp only [fileText, List.nil_append, List.cons.injEq] at this
            exact h ⟨rfl, this.1.symm⟩
          · rw [List.getLast?_cons_cons]
            exact ih.ends (d :: q) (by simp)
        · exact ih.ends b (by rw [List.dropLast_cons_of_ne_nil (by simp)]; exact List.mem_cons_of_mem _ hb)

theorem cons_cut {c : Char} {p : List Char} {ps : List (List Char)} (h : LeftCut ((c :: p) :: ps)) :
    LeftCut (p :: ps) := by
  refine ⟨by simp, ?_, ?_⟩
  · intro b hb
    rcases List.mem_cons.1 hb with rfl | hb
    · intro hi
      exact h.inside (c :: b) List.mem_cons_self (hi.trans (List.suffix_cons c b).isInfix)
    · exact h.inside b (List.mem_cons_of_mem _ hb)
  · intro b hb
    cases ps with
    | nil => simp at hb
    | cons t ts =>
      rw [List.dropLast_cons_of_ne_nil (by simp)] at hb
      rcases List.mem_cons.1 hb with rfl | hb
      · have := h.ends (c :: b) (by simp)
        cases b with
        | nil => simp
        | cons d q => rwa [List.getLast?_cons_cons] at this
      · exact h.ends b (by rw [List.dropLast_cons_of_ne_nil (by simp)]; exact List.mem_cons_of_mem _ hb)

theorem splitBlank_unique : ∀ {pieces : List (List Char)}, LeftCut pieces →
    splitBlank (fileText pieces) = pieces := by
  intro pieces h
  generalize hs : fileText pieces = s
  induction s using splitBlank.induct generalizing pieces with
  | case1 =>
    match pieces, hs with
    | [], _ => exact absurd rfl h.nonempty
    | [b], hs => simp only [fileText] at hs; subst hs; rfl
    | b :: b' :: bs, hs => simp [fileText] at hs
  | case2 c =>
    match pieces, hs with
    | [], _ => exact absurd rfl h.nonempty
    | [b], hs => simp only [fileText] at hs; subst hs; rfl
    | b :: b' :: bs, hs =>
      have := congrArg List.length hs
      simp [fileText] at this
      omega
  | case3 c d r hcd ih =>
    obtain ⟨rfl, rfl⟩ := hcd
    rw [splitBlank, if_pos ⟨rfl, rfl⟩]
    match pieces, hs with
    | [], _ => exact absurd rfl h.nonempty
    | [b], hs =>
      simp only [fileText] at hs
      subst hs
      exact absurd ⟨[], r, rfl⟩ (h.inside _ List.mem_cons_self)
    | [] :: b' :: bs, hs =>
      simp only [fileText, List.nil_append, List.cons.injEq, true_and] at hs
      rw [ih ?_ hs]
      exact ⟨by simp, fun b hb => h.inside b (List.mem_cons_of_mem _ hb), fun b hb => h.ends b (by
        rw [List.dropLast_cons_of_ne_nil (by simp)]; exact List.mem_cons_of_mem _ hb)⟩
    | [x] :: b' :: bs, hs =>
      simp only [fileText, List.cons_append, List.nil_append, List.cons.injEq] at hs
      have := h.ends [x] (by simp)
      rw [hs.1] at this
      simp at this
    | (x :: y :: q) :: b' :: bs, hs =>
      simp only [fileText, List.cons_append, List.cons.injEq] at hs
      obtain ⟨rfl, rfl, hs⟩ := hs
      exact absurd ⟨[], q, rfl⟩ (h.inside _ List.mem_cons_self)
  | case4 c d r h' ih1 ih => exact absurd ih1 (splitBlank_ne_nil _)
  | case5 c d r hcd hd tl hs' ih =>
    rw [splitBlank, if_neg hcd]
    match pieces, hs with
    | [], _ => exact absurd rfl h.nonempty
    | [] :: [], hs => simp [fileText] at hs
    | (x :: q) :: [], hs =>
      simp only [fileText, List.cons.injEq] at hs
      obtain ⟨rfl, hq⟩ := hs
      rw [ih (cons_cut h) (by simpa [fileText] using hq)]
    | [] :: b' :: bs, hs =>
      simp only [fileText, List.nil_append, List.cons.injEq] at hs
      exact absurd ⟨hs.1.symm, hs.2.1.symm⟩ hcd
    | (x :: q) :: b' :: bs, hs =>
      simp only [fileText, List.cons_append, List.cons.injEq] at hs
      obtain ⟨rfl, hq⟩ := hs
      rw [ih (cons_cut h) (by simpa [fileText] using hq)]

theorem fileText_reverse (pieces : List (List Char)) :
    (fileText pieces).reverse = fileText (pieces.map List.reverse).reverse := by
  have snoc : ∀ (l : List (List Char)) (b : List Char), l ≠ [] →
      fileText (l ++ [b]) = fileText l ++ '\n' :: '\n' :: b := by
    intro l
    induction l with
    | nil => intro _ h; exact absurd rfl h
    | cons a l ih =>
      intro b _
      cases l with
      | nil => rfl
      | cons a' l =>
        rw [List.cons_append]
        simp only [fileText, List.cons_append] at ih ⊢
        rw [ih b (by simp)]
        simp
  induction pieces with
  | nil => rfl
  | cons b bs ih =>
    cases bs with
    | nil => rfl
    | cons b' bs =>
      rw [List.map_cons, List.reverse_cons, snoc _ _ (by simp), ← ih]
      simp [fileText]

theorem infix_reverse {b : List Char} : ['\n', '\n'] <:+: b.reverse ↔ ['\n', '\n'] <:+: b := by
  rw [← List.reverse_infix, List.reverse_reverse]
  rfl

/-- The pieces found from the right end are those of the specification, in the opposite order. -/
theorem rsplitBlank_eq {pieces : List (List Char)} (h : Separated pieces) :
    rsplitBlank (fileText pieces) = pieces.reverse := by
  unfold rsplitBlank
  rw [fileText_reverse, splitBlank_unique]
  · rw [List.map_reverse, List.map_map]
    simp
  · refine ⟨by simpa using h.nonempty, ?_, ?_⟩
    · intro b hb
      simp only [List.mem_reverse, List.mem_map] at hb
      obtain ⟨a, ha, rfl⟩ := hb
      rw [infix_reverse]
      exact h.inside a ha
    · intro b hb
      rw [List.dropLast_reverse, List.mem_reverse, ← List.map_tail] at hb
      obtain ⟨a, ha, rfl⟩ := List.mem_map.1 hb
      rw [List.getLast?_reverse]
      exact h.starts a ha

/-- Every text has such pieces. -/
theorem separated_exists (s : List Char) : ∃ pieces, Separated pieces ∧ fileText pieces = s := by
  have h := splitBlank_cut s.reverse
  refine ⟨((splitBlank s.reverse).map List.reverse).reverse, ⟨?_, ?_, ?_⟩, ?_⟩
  · simpa using h.nonempty
  · intro b hb
    simp only [List.mem_reverse, List.mem_map] at hb
    obtain ⟨a, ha, rfl⟩ := hb
    rw [infix_reverse]
    exact h.inside a ha
  · intro b hb
    rw [List.tail_reverse, List.mem_reverse, ← List.map_dropLast] at hb
    obtain ⟨a, ha, rfl⟩ := List.mem_map.1 hb
    rw [List.head?_reverse]
    exact h.ends a ha
  · rw [← fileText_reverse, splitBlank_text, List.reverse_reverse]

/-! ## Blocks -/

theorem splitHeader_none {raw : List Char} : splitHeader raw = none ↔ '\n' ∉ raw := by
  induction raw with
  | nil => simp [splitHeader]
  | cons c r ih =>
    unfold splitHeader
    by_cases h : c = '\n'
    · simp [h]
    · have h' : ¬ '\n' = c := fun e => h e.symm
      simp [h, h', ih]

theorem splitHeader_some {raw h b : List Char} :
    splitHeader raw = some (h, b) ↔ raw = h ++ '\n' :: b ∧ '\n' ∉ h := by
  induction raw generalizing h with
  | nil => simp [splitHeader]
  | cons c r ih =>
    unfold splitHeader
    by_cases hc : c = '\n'
    · subst hc
      simp only [if_true, Option.some.injEq, Prod.mk.injEq]
      constructor
      · rintro ⟨rfl, rfl⟩; simp
      · rintro ⟨h1, h2⟩
        cases h with
        | nil => simp at h1; exact ⟨rfl, h1⟩
        | cons d h => simp at h1 h2; exact absurd h1.1 h2.1
    · simp only [if_neg hc, Option.map_eq_some_iff]
      constructor
      · rintro ⟨⟨h', b'⟩, h1, h2⟩
        simp only [Prod.mk.injEq] at h2
        obtain ⟨rfl, rfl⟩ := h2
        obtain ⟨rfl, h3⟩ := ih.1 h1
        simp only [List.cons_append, List.mem_cons, not_or, true_and]
        exact ⟨fun e => hc e.symm, h3⟩
      · rintro ⟨h1, h2⟩
        cases h with
        | nil => simp at h1; exact absurd h1.1 hc
        | cons d h =>
          simp only [List.cons_append, List.cons.injEq, List.mem_cons, not_or] at h1 h2
          obtain ⟨rfl, h1⟩ := h1
          exact ⟨(h, b), ih.2 ⟨h1, h2.2⟩, rfl⟩

theorem withHeader_split {hd : String} {body : List Char} (h : '\n' ∉ hd.toList) :
    splitHeader (withHeader hd body) = some (hd.toList, body) := splitHeader_some.2 ⟨rfl, h⟩

section
variable {T : Type} [Flt T] {tr : TextReaders T}

/-- The YAML reader gives mappings: no key is repeated. -/
def Mappings (tr : TextReaders T) : Prop := ∀ body b, tr.yaml body = some b → (b.map (·.1)).Nodup

theorem textOf_eq {b : Block} (hn : (b.map (·.1)).Nodup) : lastVal b = textOf b :=
  funext fun k => lastVal_lookup hn k

theorem GeometryParams.fromBlock_iff {b : Block} (hn : (b.map (·.1)).Nodup) {pf : String → Option T}
    {g : GeometryParams T} : GeometryParams.fromBlock pf b = .ok g ↔
      (∀ kv ∈ b, kv.1 ∈ geometryKeys) ∧ GeometryRead pf (textOf b) absentGeometry g := by
  rw [← textOf_eq hn]
  exact foldKeys_iff (set := fun g k v => GeometryParams.setKey pf g k v) (R := GeometryRead pf)
    GeometryRead.refl GeometryRead.trans GeometryParams.setKey_ok GeometryRead.unique (fun h hk hv => h.enabled hk hv) hn

theorem MaterialParams.fromBlock_iff {b : Block} (hn : (b.map (·.1)).Nodup) {pf : String → Option T}
    {m : MaterialParams T} : MaterialParams.fromBlock pf b = .ok m ↔
      (∀ kv ∈ b, kv.1 ∈ materialKeys) ∧ MaterialRead pf (textOf b) absentMaterial m := by
  rw [← textOf_eq hn]
  exact foldKeys_iff (set := fun g k v => MaterialParams.setKey pf g k v) (R := MaterialRead pf)
    MaterialRead.refl MaterialRead.trans MaterialParams.setKey_ok MaterialRead.unique (fun h hk hv => h.enabled hk hv) hn

theorem CrossSectionParams.fromBlock_iff {b : Block} (hn : (b.map (·.1)).Nodup) {pf : String → Option T}
    {x : CrossSectionParams T} : CrossSectionParams.fromBlock pf b = .ok x ↔
      (∀ kv ∈ b, kv.1 ∈ crossSectionKeys) ∧ CrossSectionRead pf (textOf b) absentCrossSection x := by
  rw [← textOf_eq hn]
  exact foldKeys_iff (set := fun g k v => CrossSectionParams.setKey pf g k v) (R := CrossSectionRead pf)
    CrossSectionRead.refl CrossSectionRead.trans CrossSectionParams.setKey_ok CrossSectionRead.unique
    (fun h hk hv => h.enabled hk hv) hn

theorem SimulationParams.update_iff {b : Block} (hn : (b.map (·.1)).Nodup) {pf : String → Option T}
    {d s : SimulationParams T} : d.update pf b = .ok s ↔
      (∀ kv ∈ b, kv.1 ∈ simulationKeys) ∧ SimulationRead pf (textOf b) d s := by
  rw [← textOf_eq hn]
  exact foldKeys_iff (set := fun g k v => SimulationParams.setKey pf g k v) (R := SimulationRead pf)
    SimulationRead.refl SimulationRead.trans SimulationParams.setKey_ok SimulationRead.unique
    (fun h hk hv => h.enabled hk hv) hn

theorem GeometryParams.fromBlock_error {b : Block} {pf : String → Option T} {e : InputError}
    (h : GeometryParams.fromBlock pf b = .error e) : e = .badGeometryBlock :=
  foldKeys_error (set := fun g k v => GeometryParams.setKey pf g k v) (P := fun _ e => e = .badGeometryBlock)
    id GeometryParams.setKey_error h

theorem MaterialParams.fromBlock_error {b : Block} {pf : String → Option T} {e : InputError}
    (h : MaterialParams.fromBlock pf b = .error e) : e = .badMaterialBlock :=
  foldKeys_error (set := fun g k v => MaterialParams.setKey pf g k v) (P := fun _ e => e = .badMaterialBlock)
    id MaterialParams.setKey_error h

theorem CrossSectionParams.fromBlock_error {b : Block} {pf : String → Option T} {e : InputError}
    (h : CrossSectionParams.fromBlock pf b = .error e) : e = .badCrossSectionBlock :=
  foldKeys_error (set := fun g k v => CrossSectionParams.setKey pf g k v)
    (P := fun _ e => e = .badCrossSectionBlock) id CrossSectionParams.setKey_error h

theorem SimulationParams.update_error {b : Block} {pf : String → Option T} {d : SimulationParams T} {e : Stop}
    (h : d.update pf b = .error e) : e = .input .badSimulationBlock ∨
      (e = .panic .indexOutOfBounds ∧ ∃ k ∈ flagKeys, (k, "") ∈ b) :=
  foldKeys_error (set := fun g k v => SimulationParams.setKey pf g k v)
    (P := fun b e => e = .input .badSimulationBlock ∨
      (e = .panic .indexOutOfBounds ∧ ∃ k ∈ flagKeys, (k, "") ∈ b))
    (fun h => h.imp id fun ⟨h1, k, h2, h3⟩ => ⟨h1, k, h2, List.mem_cons_of_mem _ h3⟩)
    (fun h => (SimulationParams.setKey_error h).imp id fun ⟨h1, h2, h3⟩ =>
      ⟨h1, _, h2, by rw [← h3]; exact List.mem_cons_self⟩) h

/-- Reading does not depend on the parameters read before. -/
theorem Config.SimulationRead.exists_any {pf : String → Option T} {v : String → Option String} {d s : SimulationParams T}
    (h : SimulationRead pf v d s) (d' : SimulationParams T) : ∃ s', SimulationRead pf v d' s' := by
  have pick : ∀ {α : Type} {read : String → Option α} {t : Option String} {a b : α} (a' : α),
      Given read t a b → ∃ b', Given read t a' b' := by
    intro α read t a b a' h
    cases t with
    | some s => exact ⟨b, h⟩
    | none => exact ⟨a', rfl⟩
  obtain ⟨x1, h1⟩ := pick d'.inputFile h.inputFile
  obtain ⟨x2, h2⟩ := pick d'.energySpectrum h.energySpectrum
  obtain ⟨x3, h3⟩ := pick d'.crossSectionsOut h.crossSectionsOut
  obtain ⟨x4, h4⟩ := pick d'.boundaryCondition h.boundaryCondition
  obtain ⟨x5, h5⟩ := pick d'.loadBalance h.loadBalance
  obtain ⟨x6, h6⟩ := pick d'.debugThreads h.debugThreads
  obtain ⟨x7, h7⟩ := pick d'.coralBenchmark h.coralBenchmark
  obtain ⟨x8, h8⟩ := pick d'.nParticles h.nParticles
  obtain ⟨x9, h9⟩ := pick d'.nSteps h.nSteps
  obtain ⟨x10, h10⟩ := pick d'.nx h.nx
  obtain ⟨x11, h11⟩ := pick d'.ny h.ny
  obtain ⟨x12, h12⟩ := pick d'.nz h.nz
  obtain ⟨x13, h13⟩ := pick d'.seed h.seed
  obtain ⟨x14, h14⟩ := pick d'.dt h.dt
  obtain ⟨x15, h15⟩ := pick d'.lx h.lx
  obtain ⟨x16, h16⟩ := pick d'.ly h.ly
  obtain ⟨x17, h17⟩ := pick d'.lz h.lz
  obtain ⟨x18, h18⟩ := pick d'.eMin h.eMin
  obtain ⟨x19, h19⟩ := pick d'.eMax h.eMax
  obtain ⟨x20, h20⟩ := pick d'.nGroups h.nGroups
  obtain ⟨x21, h21⟩ := pick d'.lowWeightCutoff h.lowWeightCutoff
  exact ⟨⟨x1, x2, x3, x4, x5, d'.csv, x6, x8, d'.chunkSize, d'.nRayonThreads, d'.bindThreads, d'.nUnits, x9, x10,
    x11, x12, x13, x14, x15, x16, x17, x18, x19, x20, x21, x7⟩, h1, h2, h3, h4, h5, h6, h7, h8, h9, h10, h11, h12,
    h13, h14, h15, h16, h17, h18, h19, h20, h21, rfl, rfl, rfl, rfl, rfl⟩

theorem Config.FileRead.nil (p : Params T) : FileRead tr [] p p :=
  ⟨SimulationRead.refl _, by simp, by simp, by simp⟩

theorem Config.FileRead.append {i1 i2 : List (Item T)} {p p1 p2 : Params T} (h1 : FileRead tr i1 p p1)
    (h2 : FileRead tr i2 p1 p2) : FileRead tr (i2 ++ i1) p p2 := by
  constructor
  · have := h1.simulation.trans h2.simulation
    convert this using 2
    rw [List.filterMap_append, List.head?_append]
  · rw [h2.geometries, h1.geometries, List.filterMap_append, List.reverse_append, List.append_assoc]
  · intro name
    rw [h2.materials, h1.materials, List.filterMap_append, List.find?_append, Option.or_assoc]
  · intro name
    rw [h2.crossSections, h1.crossSections, List.filterMap_append, List.find?_append, Option.or_assoc]

theorem applyBlock_ok (hy : Mappings tr) {p p' : Params T} {raw : List Char}
    (h : applyBlock tr p raw = .ok (.ok p')) : ∃ i, Reads tr raw i ∧ FileRead tr [i] p p' := by
  unfold applyBlock at h
  split at h
  · rename_i hs
    cases h
    exact ⟨.nothing, .nothing (splitHeader_none.1 hs), ⟨SimulationRead.refl _, by simp [Item.geometry?],
      by simp [Item.material?], by simp [Item.crossSection?]⟩⟩
  · rename_i header body hs
    obtain ⟨rfl, hnl⟩ := splitHeader_some.1 hs
    obtain ⟨b, hb, h'⟩ := bind_ok.1 h
    clear h
    have h := h'
    clear h'
    have hb := unwrap_ok.1 hb
    have hn := hy _ _ hb
    split at h
    · rename_i hh
      have hh : header = "Simulation:".toList := by rw [← hh, String.toList_ofList]
      subst hh
      split at h
      · rename_i s hu
        cases h
        obtain ⟨h1, h2⟩ := (SimulationParams.update_iff hn).1 hu
        refine ⟨.simulation b, .simulation hb h1 h2.exists_any, ⟨?_, by simp [Item.geometry?],
          by simp [Item.material?], by simp [Item.crossSection?]⟩⟩
        convert h2 using 2
        simp [Item.text?, List.filterMap_cons]
        split <;> simp_all
      · cases h
      · cases h
    · rename_i hh
      have hh : header = "Geometry:".toList := by rw [← hh, String.toList_ofList]
      subst hh
      cases hg : GeometryParams.fromBlock tr.float b with
      | error e => rw [hg] at h; cases h
      | ok g =>
        rw [hg] at h
        cases h
        obtain ⟨h1, h2⟩ := (GeometryParams.fromBlock_iff hn).1 hg
        exact ⟨.geometry g, .geometry hb h1 h2, ⟨SimulationRead.refl _, by simp [Item.geometry?],
          by simp [Item.material?], by simp [Item.crossSection?]⟩⟩
    · rename_i hh
      have hh : header = "Material:".toList := by rw [← hh, String.toList_ofList]
      subst hh
      cases hg : MaterialParams.fromBlock tr.float b with
      | error e => rw [hg] at h; cases h
      | ok m =>
        rw [hg] at h
        cases h
        obtain ⟨h1, h2⟩ := (MaterialParams.fromBlock_iff hn).1 hg
        refine ⟨.material m, .material hb h1 h2, ⟨SimulationRead.refl _, by simp [Item.geometry?], ?_,
          by simp [Item.crossSection?]⟩⟩
        intro name
        rw [HMap.get?_insert]
        by_cases hm : m.name = name <;> simp [Item.material?, hm]
    · rename_i hh
      have hh : header = "CrossSection:".toList := by rw [← hh, String.toList_ofList]
      subst hh
      cases hg : CrossSectionParams.fromBlock tr.float b with
      | error e => rw [hg] at h; cases h
      | ok m =>
        rw [hg] at h
        cases h
        obtain ⟨h1, h2⟩ := (CrossSectionParams.fromBlock_iff hn).1 hg
        refine ⟨.crossSection m, .crossSection hb h1 h2, ⟨SimulationRead.refl _, by simp [Item.geometry?],
          by simp [Item.material?], ?_⟩⟩
        intro name
        rw [HMap.get?_insert]
        by_cases hm : m.name = name <;> simp [Item.crossSection?, hm]
    · cases h

theorem Config.Reads.applies (hy : Mappings tr) {raw : List Char} {i : Item T} (h : Reads tr raw i) (p : Params T) :
    ∃ p', applyBlock tr p raw = .ok (.ok p') ∧ FileRead tr [i] p p' := by
  cases h with
  | nothing h =>
    unfold applyBlock
    rw [splitHeader_none.2 h]
    exact ⟨_, rfl, ⟨SimulationRead.refl _, by simp [Item.geometry?], by simp [Item.material?], by simp [Item.crossSection?]⟩⟩
  | @simulation body b hb hk he =>
    obtain ⟨s, hs⟩ := he p.simulation
    have := (SimulationParams.update_iff (hy _ _ hb)).2 ⟨hk, hs⟩
    unfold applyBlock
    rw [withHeader_split (by decide)]
    simp only [hb, unwrap, bind, Except.bind, String.ofList_toList, this]
    refine ⟨_, rfl, ⟨?_, by simp [Item.geometry?], by simp [Item.material?], by simp [Item.crossSection?]⟩⟩
    convert hs using 2
    simp [Item.text?, List.filterMap_cons]
    split <;> simp_all
  | @geometry body b g hb hk hg =>
    have := (GeometryParams.fromBlock_iff (hy _ _ hb)).2 ⟨hk, hg⟩
    unfold applyBlock
    rw [withHeader_split (by decide)]
    simp only [hb, unwrap, bind, Except.bind, String.ofList_toList, this]
    exact ⟨_, rfl, ⟨SimulationRead.refl _, by simp [Item.geometry?], by simp [Item.material?], by simp [Item.crossSection?]⟩⟩
  | @material body b g hb hk hg =>
    have := (MaterialParams.fromBlock_iff (hy _ _ hb)).2 ⟨hk, hg⟩
    unfold applyBlock
    rw [withHeader_split (by decide)]
    simp only [hb, unwrap, bind, Except.bind, String.ofList_toList, this]
    refine ⟨_, rfl, ⟨SimulationRead.refl _, by simp [Item.geometry?], fun name => ?_, by simp [Item.crossSection?]⟩⟩
    rw [HMap.get?_insert]
    by_cases hm : g.name = name <;> simp [Item.material?, hm]
  | @crossSection body b g hb hk hg =>
    have := (CrossSectionParams.fromBlock_iff (hy _ _ hb)).2 ⟨hk, hg⟩
    unfold applyBlock
    rw [withHeader_split (by decide)]
    simp only [hb, unwrap, bind, Except.bind, String.ofList_toList, this]
    refine ⟨_, rfl, ⟨SimulationRead.refl _, by simp [Item.geometry?], by simp [Item.material?], fun name => ?_⟩⟩
    rw [HMap.get?_insert]
    by_cases hm : g.name = name <;> simp [Item.crossSection?, hm]

theorem applyBlock_error (hy : Mappings tr) {p : Params T} {raw : List Char} {e : InputError}
    (h : applyBlock tr p raw = .ok (.error e)) : Rejects tr raw e := by
  refine ⟨?_, ?_⟩
  · rintro ⟨i, hi⟩
    obtain ⟨p', hp', _⟩ := hi.applies hy p
    rw [h] at hp'
    cases hp'
  · unfold applyBlock at h
    split at h
    · cases h
    · rename_i header body hs
      obtain ⟨rfl, hnl⟩ := splitHeader_some.1 hs
      obtain ⟨b, hb, h⟩ := bind_ok.1 h
      refine ⟨String.ofList header, body, b, by rw [withHeader, String.toList_ofList],
        by rwa [String.toList_ofList], unwrap_ok.1 hb, ?_⟩
      split at h
      · rename_i hh
        rw [hh]
        split at h
        · cases h
        · rename_i e' hu
          cases h
          rcases SimulationParams.update_error hu with hu | ⟨hu, _⟩ <;> cases hu
          rfl
        · cases h
      · rename_i hh
        rw [hh]
        cases hg : GeometryParams.fromBlock tr.float b with
        | error e => rw [hg] at h; cases h; rw [GeometryParams.fromBlock_error hg]; rfl
        | ok g => rw [hg] at h; cases h
      · rename_i hh
        rw [hh]
        cases hg : MaterialParams.fromBlock tr.float b with
        | error e => rw [hg] at h; cases h; rw [MaterialParams.fromBlock_error hg]; rfl
        | ok g => rw [hg] at h; cases h
      · rename_i hh
        rw [hh]
        cases hg : CrossSectionParams.fromBlock tr.float b with
        | error e => rw [hg] at h; cases h; rw [CrossSectionParams.fromBlock_error hg]; rfl
        | ok g => rw [hg] at h; cases h
      · rename_i h1 h2 h3 h4
        cases h
        unfold errorOf
        rw [if_neg h1, if_neg h2, if_neg h3, if_neg h4]

theorem applyBlock_panic {p : Params T} {raw : List Char} {e : Panic}
    (h : applyBlock tr p raw = .error e) : Breaks tr raw e := by
  unfold applyBlock at h
  split at h
  · cases h
  · rename_i header body hs
    obtain ⟨rfl, hnl⟩ := splitHeader_some.1 hs
    refine ⟨String.ofList header, body, by rw [withHeader, String.toList_ofList], by rwa [String.toList_ofList], ?_⟩
    cases hb : tr.yaml body with
    | none => rw [hb] at h; cases h; exact .inl ⟨rfl, rfl⟩
    | some b =>
      rw [hb] at h
      simp only [unwrap, bind, Except.bind] at h
      split at h
      · rename_i hh
        split at h
        · cases h
        · cases h
        · rename_i e' hu
          cases h
          rcases SimulationParams.update_error hu with hu | ⟨hu, k, hk, hm⟩
          · cases hu
          · cases hu
            simp only [flagKeys, List.mem_cons, List.not_mem_nil, or_false] at hk
            exact .inr ⟨b, k, hh, rfl, hm, rfl, hk⟩
      all_goals cases h

/-- The result for one piece of the file. -/
inductive PieceResult (tr : TextReaders T) (raw : List Char) : Option InputError → Prop where
  | reads {i} : Reads tr raw i → PieceResult tr raw none
  | rejects {e} : Rejects tr raw e → PieceResult tr raw (some e)

theorem applyBlocks_ok (hy : Mappings tr) {l : List (List Char)} {p p' : Params T}
    (h : applyBlocks tr p l = .ok (p', [])) :
    ∃ items, List.Forall₂ (Reads tr) l items ∧ FileRead tr items.reverse p p' := by
  induction l generalizing p with
  | nil => cases h; exact ⟨[], .nil, FileRead.nil _⟩
  | cons raw l ih =>
    unfold applyBlocks at h
    obtain ⟨r, h1, h2⟩ := bind_ok.1 h
    cases r with
    | ok p1 =>
      obtain ⟨i, hi, hf⟩ := applyBlock_ok hy h1
      obtain ⟨items, h3, h4⟩ := ih h2
      refine ⟨i :: items, .cons hi h3, ?_⟩
      rw [List.reverse_cons]
      exact hf.append h4
    | error e =>
      obtain ⟨⟨q, es⟩, _, h4⟩ := bind_ok.1 h2
      cases h4

theorem applyBlocks_reads (hy : Mappings tr) {l : List (List Char)} {items : List (Item T)}
    (h : List.Forall₂ (Reads tr) l items) (p : Params T) :
    ∃ p', applyBlocks tr p l = .ok (p', []) ∧ FileRead tr items.reverse p p' := by
  induction h generalizing p with
  | nil => exact ⟨p, rfl, FileRead.nil _⟩
  | cons hi _ ih =>
    obtain ⟨p1, h1, f1⟩ := hi.applies hy p
    obtain ⟨p2, h2, f2⟩ := ih p1
    refine ⟨p2, ?_, by rw [List.reverse_cons]; exact f1.append f2⟩
    unfold applyBlocks
    exact bind_ok.2 ⟨_, h1, h2⟩

theorem applyBlocks_results (hy : Mappings tr) {l : List (List Char)} {p p' : Params T} {es : List InputError}
    (h : applyBlocks tr p l = .ok (p', es)) :
    ∃ rs, List.Forall₂ (PieceResult tr) l rs ∧ es = rs.filterMap id := by
  induction l generalizing p p' es with
  | nil => cases h; exact ⟨[], .nil, rfl⟩
  | cons raw l ih =>
    unfold applyBlocks at h
    obtain ⟨r, h1, h2⟩ := bind_ok.1 h
    cases r with
    | ok p1 =>
      obtain ⟨i, hi, hf⟩ := applyBlock_ok hy h1
      obtain ⟨rs, h3, rfl⟩ := ih h2
      exact ⟨none :: rs, .cons (.reads hi) h3, by simp⟩
    | error e =>
      obtain ⟨⟨q, es'⟩, h3, h4⟩ := bind_ok.1 h2
      obtain ⟨rs, h5, rfl⟩ := ih h3
      cases h4
      exact ⟨some e :: rs, .cons (.rejects (applyBlock_error hy h1)) h5, by simp⟩

theorem applyBlocks_panic {l : List (List Char)} {p : Params T} {e : Panic}
    (h : applyBlocks tr p l = .error e) : ∃ raw ∈ l, Breaks tr raw e := by
  induction l generalizing p with
  | nil => cases h
  | cons raw l ih =>
    unfold applyBlocks at h
    cases hr : applyBlock tr p raw with
    | error e' =>
      rw [hr] at h
      cases h
      exact ⟨raw, List.mem_cons_self, applyBlock_panic hr⟩
    | ok r =>
      rw [hr] at h
      have key : ∀ q, applyBlocks tr q l = .error e → ∃ raw' ∈ raw :: l, Breaks tr raw' e := fun q hq => by
        obtain ⟨raw', h1, h2⟩ := ih hq
        exact ⟨raw', List.mem_cons_of_mem _ h1, h2⟩
      cases r with
      | ok p1 => exact key p1 h
      | error e' =>
        simp only [bind, Except.bind] at h
        cases hq : applyBlocks tr p l with
        | error e'' => rw [hq] at h; cases h; exact key p hq
        | ok q => rw [hq] at h; cases h

end
