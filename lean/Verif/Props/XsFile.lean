import Verif.Props.NuclearData
import Verif.Lemmas.Report
/-!
# C54: the file of cross-sections

The table of `C54_table` is written in a file when a name is given for it, and only then.
-/
open Flt Config

/-- The numbers of a file of cross-sections are written without a bar. -/
structure XsFormat.NoBar {T : Type} (fmt : XsFormat T) : Prop where
  group : ∀ i, '|' ∉ fmt.group i
  energy : ∀ x, '|' ∉ fmt.energy x
  first : ∀ x, '|' ∉ fmt.first x
  other : ∀ x, '|' ∉ fmt.other x

theorem trimSpaces_left (s : List Char) : trimSpaces (' ' :: s) = trimSpaces s := by
  simp [trimSpaces]

theorem trimSpaces_right (s : List Char) : trimSpaces (s ++ [' ']) = trimSpaces s := by
  unfold trimSpaces
  induction s with
  | nil => rfl
  | cons c l ih =>
    by_cases hc : c = ' '
    · subst hc; simpa using ih
    · simp [hc]

/-- **C54** (file, lines).  With one material, the cells of a line are the number of the group, its energy, and the
values of absorption, fission and scattering, in the order of the first line. -/
theorem C54_line {T : Type} {fmt : XsFormat T} (hf : fmt.NoBar) (i : ℕ) (e : T) (x : XsData T) :
    barCells (xsDataLine fmt i e [x]) = [trimSpaces (fmt.group i), trimSpaces (fmt.energy e),
      trimSpaces (fmt.first x.abs), trimSpaces (fmt.other x.fis), trimSpaces (fmt.other x.sca)] := by
  have b1 : " |  ".toList = [' ', '|', ' ', ' '] := by decide
  have b2 : " |   ".toList = [' ', '|', ' ', ' ', ' '] := by decide
  have e1 : xsDataLine fmt i e [x] = joinFields '|' [fmt.group i ++ [' '], ' ' :: ' ' :: (fmt.energy e ++ [' ']),
      ' ' :: ' ' :: ' ' :: (fmt.first x.abs ++ [' ']), ' ' :: ' ' :: (fmt.other x.fis ++ [' ']),
      ' ' :: ' ' :: fmt.other x.sca] := by
    simp [xsDataLine, joinFields, b1, b2]
  rw [e1, barCells, split_join (by simp) (by
    have h1 := hf.group i
    have h2 := hf.energy e
    have h3 := hf.first x.abs
    have h4 := hf.other x.fis
    have h5 := hf.other x.sca
    simp [h1, h2, h3, h4, h5])]
  simp only [List.map_cons, List.map_nil, trimSpaces_left, trimSpaces_right]

/-- **C54** (file).  For validated parameters, a file is written exactly when a name is given for it; its name is the
one given followed by `.dat`.  Its first line names the materials of the input in some order, and it has one more line
by energy group: the number of the group, the middle of the group and, for each material in the order of the first
line, three values that sum to the cross-section the transport uses for this material and this group, by unit of
density. -/
theorem C54_file {so wo : StrOrder} (hso : ∀ l, (so l).Perm l) (hwo : ∀ l, (wo l).Perm l) {p : Params ℝ}
    (hp : NamedParams p) (hc : Consistent p) {nd : NuclearData ℝ} {mats : List (Material ℝ)}
    (h : initNuclearData so p = .ok (nd, mats)) (fmt : XsFormat ℝ) :
    (p.simulation.crossSectionsOut = "" → crossSectionFile fmt wo p nd mats = .ok none) ∧
    (p.simulation.crossSectionsOut ≠ "" → ∃ names lines,
      crossSectionFile fmt wo p nd mats =
        .ok (some (p.simulation.crossSectionsOut ++ ".dat", xsHeaderLine names :: lines)) ∧
      names.Perm p.materials.keys ∧ lines.length = p.simulation.nGroups ∧
      ∀ i < p.simulation.nGroups, ∃ a b rows, nd.energies[i]? = some a ∧ nd.energies[i + 1]? = some b ∧
        lines[i]? = some (xsDataLine fmt i ((a + b) / 2) rows) ∧ rows.length = names.length ∧
        ∀ (j : ℕ) (n : String), names[j]? = some n → ∃ (k : ℕ) (m : Material ℝ) (a f s : ℝ),
          mats[k]? = some m ∧ m.name = n ∧ rows[j]? = some ⟨shown a, shown f, shown s⟩ ∧
          ∀ ρ ≠ 0, weightedMacroXs (p.data nd mats) k ρ i = .ok (ρ * (a + f + s))) := by
  constructor
  · intro hn
    simp [crossSectionFile, crossSectionOutput, hn, bind, Except.bind, pure, Except.pure]
  · intro hn
    obtain ⟨es, t, h1, h2, h3, h4, h5⟩ := C54_table hso hp hc h
    have hkeys : (wo t.keys).Perm p.materials.keys := (hwo _).trans h2
    have hnames : mats.map (·.name) = so p.materials.keys := by
      obtain ⟨nd', mats', e1, _, _, e4⟩ := initNuclearData_ok hp hc hso
      rw [h] at e1; cases e1
      rw [e4.names, hp.materials.values_names hso]
    -- the row of a material
    have hrow : ∀ n ∈ wo t.keys, ∃ k m rows, mats[k]? = some m ∧ m.name = n ∧ t.get? n = some rows ∧
        rows.length = p.simulation.nGroups ∧
        ∀ i < p.simulation.nGroups, ∃ a f s, rows[i]? = some ⟨shown a, shown f, shown s⟩ ∧
          ∀ ρ ≠ 0, weightedMacroXs (p.data nd mats) k ρ i = .ok (ρ * (a + f + s)) := by
      intro n hn
      have hm : n ∈ mats.map (·.name) := by
        rw [hnames]
        exact (hso _).mem_iff.2 (hkeys.mem_iff.1 hn)
      obtain ⟨k, hk⟩ := List.getElem?_of_mem hm
      rw [List.getElem?_map] at hk
      cases hmk : mats[k]? with
      | none => rw [hmk] at hk; cases hk
      | some m =>
        rw [hmk] at hk
        have hmn : m.name = n := by simpa using hk
        obtain ⟨rows, r1, r2, r3⟩ := h5 k m hmk
        exact ⟨k, m, rows, hmk, hmn, hmn ▸ r1, r2, r3⟩
    have hcell : ∀ i < p.simulation.nGroups, ∃ rows, ((wo t.keys).mapM fun n => do
        let r ← HMap.index t n
        idx r i) = .ok rows ∧ ∀ (j : ℕ) (n : String), (wo t.keys)[j]? = some n →
          ∃ (k : ℕ) (m : Material ℝ) (a f s : ℝ),
          mats[k]? = some m ∧ m.name = n ∧ rows[j]? = some ⟨shown a, shown f, shown s⟩ ∧
          ∀ ρ ≠ 0, weightedMacroXs (p.data nd mats) k ρ i = .ok (ρ * (a + f + s)) := by
      intro i hi
      have hex : ∃ rows, ((wo t.keys).mapM fun n => do
          let r ← HMap.index t n
          idx r i) = .ok rows := by
        refine mapM_ok_exists fun n hn => ?_
        obtain ⟨k, m, rows, _, _, g1, g2, _⟩ := hrow n hn
        refine ⟨rows[i]'(by omega), bind_ok.2 ⟨rows, by unfold HMap.index; rw [g1], ?_⟩⟩
        exact idx_ok.2 (List.getElem?_eq_getElem (by omega))
      obtain ⟨rows, hr⟩ := hex
      refine ⟨rows, hr, fun j n hj => ?_⟩
      obtain ⟨b, q1, q2⟩ := mapM_ok_getElem hr j n hj
      obtain ⟨r, q3, q4⟩ := bind_ok.1 q2
      obtain ⟨k, m, rows', g0, g1, g2, g3, g4⟩ := hrow n (List.mem_of_getElem? hj)
      unfold HMap.index at q3
      rw [g2] at q3
      cases q3
      obtain ⟨a, f, s, g5, g6⟩ := g4 i hi
      have q5 := idx_ok.1 q4
      rw [g5] at q5
      cases q5
      exact ⟨k, m, a, f, s, g0, g1, q1, g6⟩
    have hlines : ∃ lines, ((List.range p.simulation.nGroups).mapM fun i => do
        let e ← idx es i
        let rows ← (wo t.keys).mapM fun n => do
          let r ← HMap.index t n
          idx r i
        return xsDataLine fmt i e rows) = .ok lines := by
      refine mapM_ok_exists fun i hi => ?_
      obtain ⟨rows, hr, _⟩ := hcell i (List.mem_range.1 hi)
      obtain ⟨a, b, _, _, he⟩ := h4 i (List.mem_range.1 hi)
      exact ⟨_, bind_ok.2 ⟨_, idx_ok.2 he, bind_ok.2 ⟨rows, hr, rfl⟩⟩⟩
    obtain ⟨lines, hl⟩ := hlines
    refine ⟨wo t.keys, lines, ?_, hkeys, by simpa using mapM_ok_length hl, fun i hi => ?_⟩
    · unfold crossSectionFile
      refine bind_ok.2 ⟨some (p.simulation.crossSectionsOut ++ ".dat", es, t), ?_, ?_⟩
      · unfold crossSectionOutput
        rw [if_pos hn, h1]; rfl
      · dsimp only
        refine bind_ok.2 ⟨xsHeaderLine (wo t.keys) :: lines, ?_, rfl⟩
        unfold xsFileLines
        exact bind_ok.2 ⟨lines, hl, rfl⟩
    · obtain ⟨rows, hr, hcells⟩ := hcell i hi
      obtain ⟨a, b, ha, hb, he⟩ := h4 i hi
      obtain ⟨l, q1, q2⟩ := mapM_ok_getElem hl i i (by simp [hi])
      obtain ⟨e, q3, q4⟩ := bind_ok.1 q2
      obtain ⟨rows', q5, q6⟩ := bind_ok.1 q4
      rw [hr] at q5
      cases q5
      have q7 := idx_ok.1 q3
      rw [he] at q7
      cases q7
      cases pure_ok.1 q6
      exact ⟨a, b, rows, ha, hb, q1, mapM_ok_length hr, hcells⟩

/-- Non-vacuity: the built-in problem with a name writes a file. -/
example (s : SimulationParams ℝ) (hs : s.crossSectionsOut = "xs") (fmt : XsFormat ℝ) : ∃ nd mats lines,
    initNuclearData id (builtinParams s) = .ok (nd, mats) ∧
    crossSectionFile fmt id (builtinParams s) nd mats =
      .ok (some ("xs.dat", xsHeaderLine ["source_material"] :: lines)) ∧ lines.length = s.nGroups := by
  obtain ⟨nd, mats, h, _⟩ := C53_materials (order := id) (fun l => .refl _) (builtin_named s) (builtin_consistent s)
  have hs' : (builtinParams s).simulation.crossSectionsOut = "xs" := hs
  obtain ⟨names, lines, h1, h2, h3, _⟩ := (C54_file (so := id) (wo := id) (fun l => .refl _) (fun l => .refl _)
    (builtin_named s) (builtin_consistent s) h fmt).2 (by rw [hs']; decide)
  have hn : names = ["source_material"] := List.perm_singleton.1 h2
  subst hn
  rw [hs'] at h1
  exact ⟨nd, mats, lines, h, h1, h3⟩

/-- Non-vacuity: a line read back. -/
example : barCells (xsDataLine (T := Nat) ⟨fun n => padLeft 5 (Nat.toDigits 10 n), fun n => padLeft 15 (Nat.toDigits 10 n),
    fun n => padLeft 20 (Nat.toDigits 10 n), fun n => padLeft 22 (Nat.toDigits 10 n)⟩ 3 12 [⟨1, 2, 30⟩]) =
    ["3".toList, "12".toList, "1".toList, "2".toList, "30".toList] := by decide +kernel
