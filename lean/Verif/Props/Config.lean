import Verif.Lemmas.InputFile
import Verif.Props.Locate
import Verif.Model.ToyInst
/-!
# Reading the parameters (C39, C40, C41) and the order of the geometries in a file (C38)

`Verif/Spec/Config.lean` says what blocks, files and options mean.  The theorems hold for every number type and all
readers of numbers and YAML; the only assumption is that a YAML mapping has no repeated key (`Mappings`).
-/
open Flt Config
set_option linter.unusedSectionVars false

section
variable {T : Type} [Flt T] {tr : TextReaders T}

/-- **C41** (geometry, material and cross-section blocks).  A block is accepted exactly when all its keys are known
and their texts readable, and then holds those values and the defaults; otherwise the error of its kind is
returned. -/
theorem C41_blocks (b : Block) (hn : (b.map (·.1)).Nodup) (pf : String → Option T) :
    ((∀ g, GeometryParams.fromBlock pf b = .ok g ↔
        (∀ kv ∈ b, kv.1 ∈ geometryKeys) ∧ GeometryRead pf (textOf b) absentGeometry g) ∧
      (∀ e, GeometryParams.fromBlock pf b = .error e → e = .badGeometryBlock)) ∧
    ((∀ m, MaterialParams.fromBlock pf b = .ok m ↔
        (∀ kv ∈ b, kv.1 ∈ materialKeys) ∧ MaterialRead pf (textOf b) absentMaterial m) ∧
      (∀ e, MaterialParams.fromBlock pf b = .error e → e = .badMaterialBlock)) ∧
    ((∀ x, CrossSectionParams.fromBlock pf b = .ok x ↔
        (∀ kv ∈ b, kv.1 ∈ crossSectionKeys) ∧ CrossSectionRead pf (textOf b) absentCrossSection x) ∧
      (∀ e, CrossSectionParams.fromBlock pf b = .error e → e = .badCrossSectionBlock)) :=
  ⟨⟨fun _ => GeometryParams.fromBlock_iff hn, fun _ => GeometryParams.fromBlock_error⟩,
   ⟨fun _ => MaterialParams.fromBlock_iff hn, fun _ => MaterialParams.fromBlock_error⟩,
   ⟨fun _ => CrossSectionParams.fromBlock_iff hn, fun _ => CrossSectionParams.fromBlock_error⟩⟩

/-- **C41** (simulation blocks).  The same; a block that is not accepted gives the error of its kind, or a panic when
one of three keys has an empty text. -/
theorem C41_simulation_block (b : Block) (hn : (b.map (·.1)).Nodup) (pf : String → Option T)
    (d : SimulationParams T) :
    (∀ s, d.update pf b = .ok s ↔ (∀ kv ∈ b, kv.1 ∈ simulationKeys) ∧ SimulationRead pf (textOf b) d s) ∧
    (∀ e, d.update pf b = .error e → e = .input .badSimulationBlock ∨
      (e = .panic .indexOutOfBounds ∧
        (("loadBalance", "") ∈ b ∨ ("debugThreads", "") ∈ b ∨ ("coralBenchmark", "") ∈ b))) := by
  refine ⟨fun _ => SimulationParams.update_iff hn, fun e h => ?_⟩
  rcases SimulationParams.update_error h with h | ⟨h, k, hk, hm⟩
  · exact .inl h
  · simp only [flagKeys, List.mem_cons, List.not_mem_nil, or_false] at hk
    rcases hk with rfl | rfl | rfl
    · exact .inr ⟨h, .inl hm⟩
    · exact .inr ⟨h, .inr (.inl hm)⟩
    · exact .inr ⟨h, .inr (.inr hm)⟩

theorem except_ext {E A : Type} {x y : Except E A} {e0 : E} (h : ∀ a, x = .ok a ↔ y = .ok a)
    (hx : ∀ e, x = .error e → e = e0) (hy : ∀ e, y = .error e → e = e0) : x = y := by
  cases x with
  | ok a => exact ((h a).1 rfl).symm
  | error e =>
    cases y with
    | ok a => exact (h a).2 rfl
    | error e' => rw [hx e rfl, hy e' rfl]

/-- **C41** (order).  The result of reading a block does not depend on the order of its keys.  For a simulation block
this holds when no value is empty. -/
theorem C41_order {b b' : Block} (hn : (b.map (·.1)).Nodup) (hp : b.Perm b') (pf : String → Option T) :
    GeometryParams.fromBlock pf b = GeometryParams.fromBlock pf b' ∧
    MaterialParams.fromBlock pf b = MaterialParams.fromBlock pf b' ∧
    CrossSectionParams.fromBlock pf b = CrossSectionParams.fromBlock pf b' ∧
    (∀ d : SimulationParams T, (∀ kv ∈ b, kv.2 ≠ "") → d.update pf b = d.update pf b') ∧
    (∀ d s : SimulationParams T, d.update pf b = .ok s ↔ d.update pf b' = .ok s) := by
  have hn' : (b'.map (·.1)).Nodup := (hp.map _).nodup_iff.1 hn
  have ht : textOf b' = textOf b := by rw [← textOf_eq hn', ← textOf_eq hn, lastVal_perm hn hp]
  have hk : ∀ keys : List String, (∀ kv ∈ b, kv.1 ∈ keys) ↔ ∀ kv ∈ b', kv.1 ∈ keys := fun keys =>
    ⟨fun h kv hkv => h kv (hp.mem_iff.2 hkv), fun h kv hkv => h kv (hp.mem_iff.1 hkv)⟩
  have hsim : ∀ d s : SimulationParams T, d.update pf b = .ok s ↔ d.update pf b' = .ok s := fun d s => by
    rw [SimulationParams.update_iff hn, SimulationParams.update_iff hn', ht, hk]
  refine ⟨?_, ?_, ?_, ?_, hsim⟩
  · refine except_ext (fun g => ?_) (fun _ => GeometryParams.fromBlock_error)
      (fun _ => GeometryParams.fromBlock_error)
    rw [GeometryParams.fromBlock_iff hn, GeometryParams.fromBlock_iff hn', ht, hk]
  · refine except_ext (fun g => ?_) (fun _ => MaterialParams.fromBlock_error)
      (fun _ => MaterialParams.fromBlock_error)
    rw [MaterialParams.fromBlock_iff hn, MaterialParams.fromBlock_iff hn', ht, hk]
  · refine except_ext (fun g => ?_) (fun _ => CrossSectionParams.fromBlock_error)
      (fun _ => CrossSectionParams.fromBlock_error)
    rw [CrossSectionParams.fromBlock_iff hn, CrossSectionParams.fromBlock_iff hn', ht, hk]
  · intro d hne
    refine except_ext (e0 := .input .badSimulationBlock) (hsim d) (fun e h => ?_) (fun e h => ?_)
    · rcases SimulationParams.update_error h with h | ⟨_, k, _, hm⟩
      · exact h
      · exact absurd rfl (hne _ hm)
    · rcases SimulationParams.update_error h with h | ⟨_, k, _, hm⟩
      · exact h
      · exact absurd rfl (hne _ (hp.mem_iff.2 hm))

/-- **C41**, violated in a corner: with an unknown key and an empty flag in one simulation block, the order of the
hash map decides between an error and a panic. -/
theorem C41_order_violated (pf : String → Option T) (d : SimulationParams T) :
    d.update pf [("colour", "red"), ("loadBalance", "")] = .error (.input .badSimulationBlock) ∧
    d.update pf [("loadBalance", ""), ("colour", "red")] = .error (.panic .indexOutOfBounds) := ⟨rfl, rfl⟩

/-- **C41** (cutting).  Every text has exactly one division into pieces at its blank lines. -/
theorem C41_cut (s : List Char) : ∃ pieces, (Separated pieces ∧ fileText pieces = s) ∧
    ∀ pieces', Separated pieces' ∧ fileText pieces' = s → pieces' = pieces := by
  obtain ⟨pieces, h1, h2⟩ := separated_exists s
  refine ⟨pieces, ⟨h1, h2⟩, ?_⟩
  rintro pieces' ⟨h3, h4⟩
  have := rsplitBlank_eq h3
  rw [h4, ← h2, rsplitBlank_eq h1] at this
  exact (List.reverse_injective this).symm

theorem forall₂_reverse {α β : Type} {R : α → β → Prop} {l : List α} {m : List β} (h : List.Forall₂ R l m) :
    List.Forall₂ R l.reverse m.reverse := by
  induction h with
  | nil => exact .nil
  | cons h _ ih =>
    rw [List.reverse_cons, List.reverse_cons]
    exact List.rel_append ih (.cons h .nil)

/-- **C41** (files).  A file is accepted exactly when every piece is readable, and then the parameters are those
of the specification: the first text or definition of the file counts, geometries are listed from the last to the
first. -/
theorem C41_file (hy : Mappings tr) {pieces : List (List Char)} (hs : Separated pieces) (p : Params T) :
    (∀ p', parseInputFile tr (.text (fileText pieces)) p = .ok (.ok p') →
      ∃ items, List.Forall₂ (Reads tr) pieces items ∧ FileRead tr items p p') ∧
    (∀ items, List.Forall₂ (Reads tr) pieces items →
      ∃ p', parseInputFile tr (.text (fileText pieces)) p = .ok (.ok p') ∧ FileRead tr items p p') := by
  constructor
  · intro p' h
    simp only [parseInputFile, rsplitBlank_eq hs] at h
    obtain ⟨⟨q, es⟩, h1, h2⟩ := bind_ok.1 h
    simp only [pure_ok] at h2
    split at h2
    · rename_i he
      have he : es = [] := by simpa using he
      subst he
      cases h2
      obtain ⟨items, h3, h4⟩ := applyBlocks_ok hy h1
      refine ⟨items.reverse, ?_, h4⟩
      have := forall₂_reverse h3
      rwa [List.reverse_reverse] at this
    · cases h2
  · intro items h
    obtain ⟨p', hp', hf⟩ := applyBlocks_reads hy (forall₂_reverse h) p
    rw [List.reverse_reverse] at hf
    refine ⟨p', ?_, hf⟩
    simp only [parseInputFile, rsplitBlank_eq hs]
    exact bind_ok.2 ⟨_, hp', rfl⟩

/-- **C41** (errors).  When a file is refused with errors, they are exactly the errors of its unreadable pieces,
from the last piece to the first; a panic is due to a piece that is not YAML or has an empty flag. -/
theorem C41_errors (hy : Mappings tr) {pieces : List (List Char)} (hs : Separated pieces) (p : Params T) :
    (∀ es, parseInputFile tr (.text (fileText pieces)) p = .ok (.error es) →
      ∃ rs, List.Forall₂ (fun raw r => match r with
          | none => ∃ i, Reads tr raw i
          | some e => Rejects tr raw e) pieces rs ∧
        es = (rs.filterMap id).reverse ∧ es ≠ []) ∧
    (∀ e, parseInputFile tr (.text (fileText pieces)) p = .error e → ∃ raw ∈ pieces, Breaks tr raw e) := by
  constructor
  · intro es h
    simp only [parseInputFile, rsplitBlank_eq hs] at h
    obtain ⟨⟨q, es'⟩, h1, h2⟩ := bind_ok.1 h
    simp only [pure_ok] at h2
    split at h2
    · cases h2
    · rename_i he
      cases h2
      obtain ⟨rs, h3, h4⟩ := applyBlocks_results hy h1
      refine ⟨rs.reverse, ?_, ?_, by simpa using he⟩
      · have := forall₂_reverse h3
        rw [List.reverse_reverse] at this
        refine this.imp fun raw r hr => ?_
        cases hr with
        | reads h => exact ⟨_, h⟩
        | rejects h => exact h
      · rw [List.filterMap_reverse, List.reverse_reverse]; exact h4
  · intro e h
    simp only [parseInputFile, rsplitBlank_eq hs] at h
    cases ha : applyBlocks tr p pieces.reverse with
    | error e' =>
      rw [ha] at h
      cases h
      obtain ⟨raw, h1, h2⟩ := applyBlocks_panic ha
      exact ⟨raw, List.mem_reverse.1 h1, h2⟩
    | ok r => rw [ha] at h; cases h

/-- **C40**.  The parameters of a run without an input file, and of a run with one. -/
theorem C40_precedence (hy : Mappings tr) {order : StrOrder} {files : String → FileContent} {cli : Cli T}
    {p : Params T} (h : getParameters order tr files cli = .ok (.ok p)) :
    (cli.inputFile = none → Precedence tr.float cli (fun _ => none) p.simulation) ∧
    (∀ f, cli.inputFile = some f → ∃ pieces items, Separated pieces ∧ files f = .text (fileText pieces) ∧
      List.Forall₂ (Reads tr) pieces items ∧
      Precedence tr.float cli (fun k => (items.filterMap (Item.text? k)).head?) p.simulation) := by
  have hsd : ∀ q : Params T, q.supplyDefaults.simulation = q.simulation := fun q => by
    unfold Params.supplyDefaults
    split <;> rfl
  have key : ∀ (txt : String → Option String) (s : SimulationParams T),
      SimulationRead tr.float txt (SimulationParams.fromCli cli) s →
      Precedence tr.float cli txt { s with
        energySpectrum := cli.energySpectrum.getD s.energySpectrum
        crossSectionsOut := cli.crossSectionsOut.getD s.crossSectionsOut } := by
    intro txt s hr
    have hout : ∀ {t : Option String} {o : Option String} {x : String}, Given some t (o.getD "") x →
        o.getD x = o.getD (t.getD "") := by
      intro t o x hg
      cases o with
      | some v => rfl
      | none =>
        cases t with
        | some s => exact (Option.some.inj hg).symm
        | none => exact hg
    exact ⟨hr.inputFile, hr.loadBalance, hr.debugThreads, hr.nParticles, hr.nSteps, hr.nx, hr.ny, hr.nz, hr.seed,
      hr.dt, hr.lx, hr.ly, hr.lz, hr.boundaryCondition, hr.eMin, hr.eMax, hr.nGroups, hr.lowWeightCutoff,
      hr.coralBenchmark, hout hr.energySpectrum, hout hr.crossSectionsOut, hr.csv, hr.chunkSize, hr.nRayonThreads,
      hr.bindThreads, hr.nUnits⟩
  unfold getParameters at h
  obtain ⟨read, h1, h2⟩ := bind_ok.1 h
  cases read with
  | error es => cases h2
  | ok q =>
    have hp : p.simulation = { q.simulation with
        energySpectrum := cli.energySpectrum.getD q.simulation.energySpectrum
        crossSectionsOut := cli.crossSectionsOut.getD q.simulation.crossSectionsOut } := by
      have h2 : finishParameters order cli q = .ok p := Except.ok.inj h2
      unfold finishParameters at h2
      dsimp only at h2
      split at h2
      · cases h2
      · cases h2
        rw [hsd]
    rw [hp]
    constructor
    · intro hc
      unfold readParameters at h1
      rw [hc] at h1
      cases h1
      exact key _ _ (SimulationRead.refl _)
    · intro f hf
      unfold readParameters at h1
      rw [hf] at h1
      dsimp only at h1
      cases hfile : files f with
      | missing => rw [hfile] at h1; cases h1
      | notText => rw [hfile] at h1; cases h1
      | text s =>
        obtain ⟨pieces, hs, rfl⟩ := separated_exists s
        rw [hfile] at h1
        obtain ⟨items, h3, h4⟩ := (C41_file hy hs _).1 _ h1
        exact ⟨pieces, items, hs, rfl, h3, key _ _ h4.simulation⟩

/-- The values of a map, in any order. -/
theorem mem_valuesIn {V : Type} {order : StrOrder} (ho : ∀ l, (order l).Perm l) {m : HMap String V} {v : V} :
    v ∈ m.valuesIn order ↔ ∃ k, m.get? k = some v := by
  unfold HMap.valuesIn
  rw [List.mem_filterMap]
  constructor
  · rintro ⟨k, _, h⟩; exact ⟨k, h⟩
  · rintro ⟨k, h⟩
    exact ⟨k, (ho _).mem_iff.2 (HMap.get?_isSome.2 ⟨v, h⟩), h⟩

theorem hasKey_false {V : Type} {m : HMap String V} {k : String} : ¬ m.hasKey k = true ↔ m.get? k = none := by
  rw [HMap.hasKey_iff, HMap.get?_isSome]
  cases m.get? k <;> simp

/-- **C39** (reports).  Validation fails exactly when something is wrong, and the list of errors holds all that is
wrong and nothing else, whatever the order of the hash maps. -/
theorem C39_reports {order : StrOrder} (ho : ∀ l, (order l).Perm l) (p : Params T) :
    (p.checkIntegrity order = .ok () ↔ ∀ e, ¬ Violation p e) ∧
    (∀ es, p.checkIntegrity order = .error es → ∀ e, e ∈ es ↔ Violation p e) := by
  have hmem : ∀ e, e ∈ (if p.geometries.isEmpty then [.noGeometry] else []) ++
      p.geometries.flatMap p.geometryErrors ++ (p.materials.valuesIn order).flatMap p.materialErrors ↔
      Violation p e := by
    intro e
    simp only [List.mem_append, List.mem_flatMap, Params.geometryErrors, Params.materialErrors]
    constructor
    · rintro ((h | ⟨g, hg, h | h⟩) | ⟨m, hm, (h | h) | h⟩)
      · split at h
        · rename_i he
          cases List.mem_singleton.1 h
          exact .noGeometry (by simpa using he)
        · cases h
      · split at h
        · rename_i he
          cases List.mem_singleton.1 h
          exact .undefinedGeometry hg he
        · cases h
      · split at h
        · cases h
        · rename_i he
          cases List.mem_singleton.1 h
          exact .missingMaterial hg (hasKey_false.1 he)
      all_goals
        obtain ⟨k, hk⟩ := (mem_valuesIn ho).1 hm
        split at h
        · cases h
        · rename_i he
          cases List.mem_singleton.1 h
          refine .missingCrossSection hk ?_ (hasKey_false.1 he)
          first
            | exact .inl rfl
            | exact .inr (.inl rfl)
            | exact .inr (.inr rfl)
    · intro h
      cases h with
      | noGeometry h => left; left; simp [h]
      | undefinedGeometry hg h => exact .inl (.inr ⟨_, hg, .inl (by simp [h])⟩)
      | missingMaterial hg h => exact .inl (.inr ⟨_, hg, .inr (by rw [if_neg (hasKey_false.2 h)]; simp)⟩)
      | missingCrossSection hm hx h =>
        refine .inr ⟨_, (mem_valuesIn ho).2 ⟨_, hm⟩, ?_⟩
        rcases hx with rfl | rfl | rfl
        · exact .inl (.inl (by rw [if_neg (hasKey_false.2 h)]; simp))
        · exact .inl (.inr (by rw [if_neg (hasKey_false.2 h)]; simp))
        · exact .inr (by rw [if_neg (hasKey_false.2 h)]; simp)
  unfold Params.checkIntegrity
  dsimp only
  generalize (if p.geometries.isEmpty then [ParameterError.noGeometry] else []) ++
    p.geometries.flatMap p.geometryErrors ++ (p.materials.valuesIn order).flatMap p.materialErrors = l at hmem ⊢
  constructor
  · constructor
    · intro h
      split at h
      · rename_i he
        have he : l = [] := by simpa only [List.isEmpty_iff] using he
        intro e hv
        have := (hmem e).2 hv
        rw [he] at this
        cases this
      · cases h
    · intro h
      rw [if_pos]
      rw [List.isEmpty_iff, List.eq_nil_iff_forall_not_mem]
      exact fun e he => h e ((hmem e).1 he)
  · intro es h
    split at h
    · cases h
    · cases h
      exact hmem

/-- Nothing is wrong with consistent parameters, and only with them. -/
theorem consistent_iff (p : Params T) : Consistent p ↔ ∀ e, ¬ Violation p e := by
  have hsome : ∀ {V : Type} {o : Option V}, (∃ v, o = some v) ↔ ¬ o = none := by
    intro V o
    cases o <;> simp
  constructor
  · rintro h e hv
    cases hv with
    | noGeometry h1 => exact h.geometry h1
    | undefinedGeometry hg h1 => exact h.shapes _ hg h1
    | missingMaterial hg h1 => exact hsome.1 (h.materials _ hg) h1
    | missingCrossSection hm hx h1 =>
      obtain ⟨h2, h3, h4⟩ := h.crossSections _ _ hm
      rcases hx with rfl | rfl | rfl
      · exact hsome.1 h2 h1
      · exact hsome.1 h3 h1
      · exact hsome.1 h4 h1
  · intro h
    exact ⟨fun h1 => h _ (.noGeometry h1), fun g hg h1 => h _ (.undefinedGeometry hg h1),
      fun g hg => hsome.2 fun h1 => h _ (.missingMaterial hg h1),
      fun k m hm => ⟨hsome.2 fun h1 => h _ (.missingCrossSection hm (.inl rfl) h1),
        hsome.2 fun h1 => h _ (.missingCrossSection hm (.inr (.inl rfl)) h1),
        hsome.2 fun h1 => h _ (.missingCrossSection hm (.inr (.inr rfl)) h1)⟩⟩

/-- **C39**.  Validation accepts exactly the consistent parameters. -/
theorem C39_validation {order : StrOrder} (ho : ∀ l, (order l).Perm l) (p : Params T) :
    p.checkIntegrity order = .ok () ↔ Consistent p := by
  rw [(C39_reports ho p).1, consistent_iff]

/-- The parameters a run starts with are consistent. -/
theorem C39_start {order : StrOrder} (ho : ∀ l, (order l).Perm l) {files : String → FileContent} {cli : Cli T}
    {p : Params T} (h : getParameters order tr files cli = .ok (.ok p)) : Consistent p := by
  unfold getParameters at h
  obtain ⟨read, _, h2⟩ := bind_ok.1 h
  cases read with
  | error es => cases h2
  | ok q =>
    have h2 : finishParameters order cli q = .ok p := Except.ok.inj h2
    unfold finishParameters at h2
    dsimp only at h2
    split at h2
    · cases h2
    · rename_i hc
      cases h2
      exact (C39_validation ho _).1 hc

end

/-! ## Concrete files -/

/-- **C38** (files).  After a file is read, the material of a point is that of the last geometry block of the file
whose region contains it. -/
theorem C38_file_order {tr : TextReaders ℝ} {items : List (Item ℝ)} {p p' : Params ℝ} (hr : FileRead tr items p p')
    (hp : p.geometries = []) (hs : ∀ g, Item.geometry g ∈ items → g.shape ≠ .undefined) (r : Vec3 ℝ)
    {pre post : List (Item ℝ)} {g : GeometryParams ℝ} (hi : items = pre ++ .geometry g :: post)
    (hg : InRegion g r) (hlast : ∀ h, Item.geometry h ∈ post → ¬ InRegion h r) :
    findMaterialName p'.geometries r = .ok g.materialName := by
  have hmem : ∀ {l : List (Item ℝ)} {h : GeometryParams ℝ}, h ∈ l.filterMap Item.geometry? → Item.geometry h ∈ l := by
    intro l h hh
    obtain ⟨i, h1, h2⟩ := List.mem_filterMap.1 hh
    cases i <;> simp [Item.geometry?] at h2
    rwa [← h2]
  rw [hr.geometries, hp, List.nil_append]
  refine (C38_material _ (fun h hh => hs h (hmem (List.mem_reverse.1 hh))) r).1
    (post.filterMap Item.geometry?).reverse g (pre.filterMap Item.geometry?).reverse ?_ hg
    (fun h hh => hlast h (hmem (List.mem_reverse.1 hh)))
  rw [hi, List.filterMap_append, List.filterMap_cons]
  simp [Item.geometry?]

/-- A reader for lines `key: value` and natural numbers. -/
def demoReaders : TextReaders Toy where
  float s := (parseU64 s).map Flt.ofNat
  yaml body := (body.splitOn '\n').filter (· ≠ []) |>.mapM fun line =>
    match line.splitOn ':' with
    | [k, ' ' :: v] => some (String.ofList k, String.ofList v)
    | [k, []] => some (String.ofList k, "")
    | _ => none

/-- Two values for `nx`, two geometries and two materials of one name. -/
def demoFile : List (List Char) :=
  ["Simulation:\nnx: 5\ncycleTimers: 1", "Geometry:\nmaterial: steel\nshape: brick\nxMax: 3",
   "Geometry:\nmaterial: steel\nshape: sphere\nradius: 2", "Material:\nname: steel\nmass: 7\nnIsotopes: 3",
   "Material:\nname: steel\nmass: 8", "", "Simulation:\nnx: 6\nny: 9\n"].map String.toList

def emptyParams : Params Toy :=
  { simulation := SimulationParams.default, geometries := [], materials := [], crossSections := [] }

example : Separated demoFile := by
  refine ⟨by decide, ?_, ?_⟩
  · intro b hb
    have : demoFile.all (fun b => ! decide (['\n', '\n'] <:+: b)) = true := by decide +kernel
    simpa using List.all_eq_true.1 this b hb
  · intro b hb
    have : demoFile.tail.all (fun b => decide (b.head? ≠ some '\n')) = true := by decide +kernel
    simpa using List.all_eq_true.1 this b hb

/-- What is read from the file: sizes, shapes and the material. -/
def demoResult : Option ((Nat × Nat × Nat) × List Shape × Option (Nat × Nat)) :=
  match parseInputFile demoReaders (.text (fileText demoFile)) emptyParams with
  | .ok (.ok p) => some ((p.simulation.nx, p.simulation.ny, p.simulation.nz), p.geometries.map (·.shape),
        (p.materials.get? "steel").map fun m => (m.nIsotopes, m.nReactions))
  | _ => none

/-- The first `nx` counts, the first definition of the material counts, the last geometry comes first. -/
example : demoResult = some ((5, 9, 10), [.sphere, .brick], some (3, 9)) := by decide +kernel

/-- Two unreadable blocks: both errors are reported, the last of the file first. -/
example : (match parseInputFile demoReaders
      (.text "Geometry:\ncolour: red\n\nMaterial:\nname: steel\n\nVolume:\nx: 1".toList) emptyParams with
    | .ok (.error es) => some es
    | _ => none) = some [.badBlockType, .badGeometryBlock] := by decide +kernel

/-- A run with options and a file: the file wins for `nx`, the option for the output name. -/
example : (match getParameters id demoReaders (fun _ => .text "Simulation:\nnx: 5\nenergySpectrum: a".toList)
      { inputFile := some "f", nx := some 4, ny := some 3, energySpectrum := some "b" } with
    | .ok (.ok p) => some (p.simulation.nx, p.simulation.ny, p.simulation.nz, p.simulation.energySpectrum,
        p.geometries.length)
    | _ => none) = some (5, 3, 10, "b", 1) := by decide +kernel
