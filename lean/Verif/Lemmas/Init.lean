import Verif.Spec.Init
import Verif.Lemmas.Except
import Verif.Lemmas.HMap
import Verif.Props.Config
/-!
# Lemmas on the initialisation
-/
open Flt Config

set_option linter.unusedSectionVars false

variable {T : Type} [Flt T]

namespace HMap
variable {K V : Type} [DecidableEq K]

theorem keys_insert_nodup {m : HMap K V} {k : K} {v : V} (h : m.keys.Nodup) : (m.insert k v).keys.Nodup := by
  by_cases hk : k ∈ m.keys
  · rw [keys_insert_old hk]; exact h
  · rw [insert_new hk]
    unfold keys at *
    rw [List.map_append, List.nodup_append]
    refine ⟨h, by simp, ?_⟩
    intro a ha b hb
    simp only [List.map_cons, List.map_nil, List.mem_singleton] at hb
    subst hb
    exact fun he => hk (he ▸ ha)

theorem index_ok {m : HMap K V} {k : K} {v : V} : m.index k = .ok v ↔ m.get? k = some v := by
  unfold index
  cases m.get? k <;> simp

end HMap

section named
variable {V : Type} {name : V → String} {m : HMap String V}

theorem Named.nil : Named name ([] : HMap String V) := ⟨List.nodup_nil, fun k v h => by cases h⟩

theorem Named.insert (h : Named name m) (v : V) : Named name (m.insert (name v) v) := by
  refine ⟨HMap.keys_insert_nodup h.nodup, fun k w hw => ?_⟩
  rw [HMap.get?_insert] at hw
  split at hw
  · rename_i hk
    cases hw
    exact hk
  · exact h.own _ _ hw

/-- The values of a map of named values, in any order. -/
theorem Named.values_names (h : Named name m) {order : StrOrder} (ho : ∀ l, (order l).Perm l) :
    (m.valuesIn order).map name = order m.keys := by
  unfold HMap.valuesIn
  have : ∀ l : List String, (∀ k ∈ l, k ∈ m.keys) →
      (l.filterMap fun k => m.get? k).map name = l := by
    intro l hl
    induction l with
    | nil => rfl
    | cons k l ih =>
      obtain ⟨v, hv⟩ := HMap.get?_isSome.1 (hl k (by simp))
      rw [List.filterMap_cons, hv]
      simp only [List.map_cons]
      rw [ih fun k hk => hl k (by simp [hk]), h.own _ _ hv]
  exact this _ fun k hk => (ho _).mem_iff.1 hk

/-- Values inserted under their names. -/
theorem foldl_insert_get? {W : Type} (f : V → W) (k : String) (v : V) :
    ∀ (l : List V) (t : HMap String W), (∀ x ∈ l, name x = k → x = v) →
      (l.foldl (fun t x => HMap.insert t (name x) (f x)) t).get? k =
        if (∃ x ∈ l, name x = k) then some (f v) else t.get? k := by
  intro l
  induction l with
  | nil => intro t _; simp
  | cons x l ih =>
    intro t hl
    rw [List.foldl_cons, ih _ (fun y hy => hl y (by simp [hy])), HMap.get?_insert]
    by_cases h1 : ∃ y ∈ l, name y = k
    · rw [if_pos h1, if_pos]
      obtain ⟨y, hy, h2⟩ := h1
      exact ⟨y, by simp [hy], h2⟩
    · rw [if_neg h1]
      by_cases h2 : name x = k
      · rw [if_pos h2, if_pos ⟨x, by simp, h2⟩, hl x (by simp) h2]
      · rw [if_neg h2, if_neg]
        rintro ⟨y, hy, h3⟩
        rcases List.mem_cons.1 hy with rfl | hy
        · exact h2 h3
        · exact h1 ⟨y, hy, h3⟩

end named

/-- The polynomials are those of the parameters. -/
theorem polynomialMap_get? {p : Params T} (hp : NamedParams p) {order : StrOrder} (ho : ∀ l, (order l).Perm l)
    {k : String} {x : CrossSectionParams T} (hx : p.crossSections.get? k = some x) :
    (polynomialMap order p).get? k = some x.poly := by
  have hk := hp.crossSections.own _ _ hx
  have := foldl_insert_get? (name := CrossSectionParams.name) CrossSectionParams.poly k x
    (p.crossSections.valuesIn order) [] (fun y hy hn => by
      obtain ⟨k', hk'⟩ := (mem_valuesIn ho).1 hy
      have h1 := hp.crossSections.own _ _ hk'
      rw [← h1, hn, hx] at hk'
      exact (Option.some.inj hk').symm)
  rw [if_pos ⟨x, (mem_valuesIn ho).2 ⟨k, hx⟩, hk⟩] at this
  exact this

/-- The look-ups of an isotope. -/
theorem isotopeSpec_ok {p : Params T} (hp : NamedParams p) (hc : Consistent p) {order : StrOrder}
    (ho : ∀ l, (order l).Perm l) {k : String} {mp : MaterialParams T} (hm : p.materials.get? k = some mp) :
    ∃ x sp, p.crossSections.get? mp.fissionCrossSection = some x ∧
      isotopeSpec (polynomialMap order p) mp = .ok sp ∧ IsotopeFrom p mp sp x.nuBar := by
  obtain ⟨⟨xa, ha⟩, ⟨xs, hs⟩, ⟨xf, hf⟩⟩ := hc.crossSections _ _ hm
  refine ⟨xf, ⟨mp.nReactions, mp.totalCrossSection, mp.fissionCrossSectionRatio, mp.scatteringCrossSectionRatio,
      mp.absorptionCrossSectionRatio, xf.poly, xs.poly, xa.poly⟩, hf, ?_,
    ⟨rfl, rfl, ⟨rfl, rfl, rfl⟩, ⟨xf, hf, rfl, rfl⟩, ⟨xs, hs, rfl⟩, ⟨xa, ha, rfl⟩⟩⟩
  unfold isotopeSpec
  rw [HMap.index_ok.2 (polynomialMap_get? hp ho hf), HMap.index_ok.2 (polynomialMap_get? hp ho hs),
    HMap.index_ok.2 (polynomialMap_get? hp ho ha)]
  rfl

/-- The isotopes of one material. -/
theorem addIsotopes_ok {p : Params T} {polys : HMap String (Polynomial5 T)} {mp : MaterialParams T}
    {x : CrossSectionParams T} {sp : IsotopeSpec T} (hx : p.crossSections.get? mp.fissionCrossSection = some x)
    (hs : isotopeSpec polys mp = .ok sp) : ∀ (n : Nat) (nd : NuclearData T) (iso : List (Isotope T)),
    addIsotopes p polys mp n nd iso = .ok
      ({ nd with isotopes := nd.isotopes ++ List.replicate n (isotopeReactions nd.energies sp x.nuBar) },
       iso ++ (List.range n).map fun i =>
        { gid := nd.isotopes.length + i, atomFraction := one /. Flt.ofNat mp.nIsotopes }) := by
  intro n
  induction n with
  | zero => intro nd iso; simp [addIsotopes]
  | succ n ih =>
    intro nd iso
    unfold addIsotopes
    rw [HMap.index_ok.2 hx, hs]
    show addIsotopes p polys mp n _ _ = _
    rw [ih]
    simp only [List.append_assoc, List.length_append, List.length_cons, List.length_nil]
    have h1 : ∀ {α : Type} (a : α), [a] ++ List.replicate n a = List.replicate (n + 1) a := by
      intro α a; rfl
    rw [h1, List.range_succ_eq_map, List.map_cons, List.map_map]
    congr 3
    show _ = [_] ++ _
    congr 1
    apply List.map_congr_left
    intro i _
    simp only [Function.comp, Isotope.mk.injEq, and_true]
    omega

theorem MaterialFrom.mono {p : Params T} {nd nd' : NuclearData T} {n : Nat} {mp : MaterialParams T}
    {m : Material T} (h : MaterialFrom p nd n mp m) (he : nd'.energies = nd.energies)
    (hi : nd.isotopes <+: nd'.isotopes) : MaterialFrom p nd' n mp m := by
  refine ⟨h.name, h.mass, h.isotopes, ?_⟩
  obtain ⟨sp, nu, h1, h2⟩ := h.tables
  refine ⟨sp, nu, h1, fun i hlt => ?_⟩
  rw [he]
  have h3 := h2 i hlt
  obtain ⟨l, hl⟩ := hi
  rw [← hl, List.getElem?_append_left]
  · exact h3
  · exact (List.getElem?_eq_some_iff.1 h3).1

/-- The loop over the materials succeeds and builds what the parameters describe. -/
theorem addMaterials_ok {p : Params T} (hp : NamedParams p) (hc : Consistent p) {order : StrOrder}
    (ho : ∀ l, (order l).Perm l) : ∀ (mps : List (MaterialParams T)) (nd : NuclearData T) (mats : List (Material T)),
    (∀ mp ∈ mps, ∃ k, p.materials.get? k = some mp) →
    ∃ nd' ms, addMaterials p (polynomialMap order p) mps nd mats = .ok (nd', mats ++ ms) ∧
      nd'.energies = nd.energies ∧ nd'.numEnergyGroups = nd.numEnergyGroups ∧ nd.isotopes <+: nd'.isotopes ∧
      MaterialsFrom p nd' nd.isotopes.length mps ms := by
  intro mps
  induction mps with
  | nil =>
    intro nd mats _
    exact ⟨nd, [], by simp [addMaterials], rfl, rfl, List.prefix_rfl, .nil rfl⟩
  | cons mp mps ih =>
    intro nd mats hm
    obtain ⟨k, hk⟩ := hm mp (by simp)
    obtain ⟨x, sp, hx, hs, hf⟩ := isotopeSpec_ok hp hc ho hk
    have hadd := addIsotopes_ok hx hs mp.nIsotopes nd []
    unfold addMaterials
    rw [hadd]
    let nd1 : NuclearData T := ⟨nd.numEnergyGroups, nd.isotopes ++ List.replicate mp.nIsotopes
      (isotopeReactions nd.energies sp x.nuBar), nd.energies⟩
    let m1 : Material T := ⟨mp.name, mp.mass, (List.range mp.nIsotopes).map fun i =>
        ⟨nd.isotopes.length + i, one /. Flt.ofNat mp.nIsotopes⟩⟩
    obtain ⟨nd', ms, h1, h2, h3, h4, h5⟩ := ih nd1
      (mats ++ [m1]) (fun mp' h => hm mp' (by simp [h]))
    refine ⟨nd', m1 :: ms, ?_, h2, h3, (List.prefix_append _ _).trans h4, .cons ?_ ?_⟩
    · show addMaterials p (polynomialMap order p) mps _ _ = _
      rw [List.append_assoc] at h1
      exact h1
    · refine MaterialFrom.mono (nd := nd1) ⟨rfl, rfl, rfl, sp, _, hf, ?_⟩ h2 h4
      intro i hi
      show (nd.isotopes ++ _)[nd.isotopes.length + i]? = _
      rw [List.getElem?_append_right (by omega)]
      simp [hi, nd1]
    · have : nd.isotopes.length + mp.nIsotopes = (nd.isotopes ++ List.replicate mp.nIsotopes
          (isotopeReactions nd.energies sp x.nuBar)).length := by simp
      rw [this]
      exact h5

/-- Nuclear data are built from every consistent parameter set. -/
theorem initNuclearData_ok {p : Params T} (hp : NamedParams p) (hc : Consistent p) {order : StrOrder}
    (ho : ∀ l, (order l).Perm l) :
    ∃ nd mats, initNuclearData order p = .ok (nd, mats) ∧ nd.numEnergyGroups = p.simulation.nGroups ∧
      nd.energies = energyLevels p.simulation.nGroups p.simulation.eMin p.simulation.eMax ∧
      MaterialsFrom p nd 0 (p.materials.valuesIn order) mats := by
  obtain ⟨nd, ms, h1, h2, h3, _, h5⟩ := addMaterials_ok hp hc ho (p.materials.valuesIn order)
    (NuclearData.new p.simulation.nGroups p.simulation.eMin p.simulation.eMax) []
    (fun mp h => (mem_valuesIn ho).1 h)
  exact ⟨nd, ms, h1, h3, h2, h5⟩

theorem MaterialsFrom.names {p : Params T} {nd : NuclearData T} {n : Nat} {mps : List (MaterialParams T)}
    {ms : List (Material T)} (h : MaterialsFrom p nd n mps ms) : ms.map (·.name) = mps.map (·.name) := by
  induction h with
  | nil _ => rfl
  | cons h _ ih => rw [List.map_cons, List.map_cons, h.name, ih]

theorem MaterialsFrom.mem {p : Params T} {nd : NuclearData T} {n : Nat} {mps : List (MaterialParams T)}
    {ms : List (Material T)} (h : MaterialsFrom p nd n mps ms) {m : Material T} (hm : m ∈ ms) :
    ∃ mp ∈ mps, ∃ first, MaterialFrom p nd first mp m := by
  induction h with
  | nil _ => cases hm
  | cons h _ ih =>
    rcases List.mem_cons.1 hm with rfl | hm
    · exact ⟨_, by simp, _, h⟩
    · obtain ⟨mp, h1, h2⟩ := ih hm
      exact ⟨mp, by simp [h1], h2⟩

theorem MaterialsFrom.of_mem {p : Params T} {nd : NuclearData T} {n : Nat} {mps : List (MaterialParams T)}
    {ms : List (Material T)} (h : MaterialsFrom p nd n mps ms) {mp : MaterialParams T} (hm : mp ∈ mps) :
    ∃ m ∈ ms, ∃ first, MaterialFrom p nd first mp m := by
  induction h with
  | nil _ => cases hm
  | cons h _ ih =>
    rcases List.mem_cons.1 hm with rfl | hm
    · exact ⟨_, by simp, _, h⟩
    · obtain ⟨mp, h1, h2⟩ := ih hm
      exact ⟨mp, by simp [h1], h2⟩

/-- The material of each isotope points into the list of isotopes. -/
theorem MaterialFrom.reactions {p : Params T} {nd : NuclearData T} {n : Nat} {mp : MaterialParams T}
    {m : Material T} (h : MaterialFrom p nd n mp m) : ∃ sp nuBar, IsotopeFrom p mp sp nuBar ∧
    ∀ iso ∈ m.iso, iso.atomFraction = one /. Flt.ofNat mp.nIsotopes ∧
      nd.isotopes[iso.gid]? = some (isotopeReactions nd.energies sp nuBar) := by
  obtain ⟨sp, nu, h1, h2⟩ := h.tables
  refine ⟨sp, nu, h1, fun iso hi => ?_⟩
  rw [h.isotopes] at hi
  obtain ⟨i, hj, rfl⟩ := List.mem_map.1 hi
  exact ⟨rfl, h2 i (List.mem_range.1 hj)⟩

theorem rawCrossSections_length (q : Polynomial5 T) : ∀ (l : List T) (n : Wide T),
    (rawCrossSections q l n).1.length = l.length - 1 := by
  intro l
  induction l with
  | nil => intro n; rfl
  | cons a l ih =>
    intro n
    cases l with
    | nil => rfl
    | cons b l =>
      unfold rawCrossSections
      simp only [List.length_cons]
      rw [ih]
      simp

/-- Every table of a built isotope has one value by group. -/
theorem isotopeReactions_length {energies : List T} {sp : IsotopeSpec T} {nu : T} {r : Reaction T}
    (h : r ∈ isotopeReactions energies sp nu) : r.crossSection.length = energies.length - 1 := by
  unfold isotopeReactions at h
  dsimp only at h
  obtain ⟨i, _, rfl⟩ := List.mem_map.1 h
  split <;> simp [Reaction.new, rawCrossSections_length]

theorem energyLevels_length (n : Nat) (a b : T) : (energyLevels n a b).length = n + 1 := by
  simp [energyLevels]
