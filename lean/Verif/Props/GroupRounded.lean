import Verif.Props.Rounded
import Verif.Props.Census
import Verif.Props.Report
import Verif.Props.RoundedCase
/-!
# C26 and C55 with rounding: the energy group holds the energy

The look-up only compares, so it can be trusted in any arithmetic, even when the levels are not in order.
-/
open Flt Ieee Flooding Config
set_option linter.unusedSectionVars false

section
variable {T : Type} [Flt T]

theorem bisect_any {l : List T} {e : T} (fuel low high : Nat) (hf : high - low ≤ fuel) (hlh : low < high)
    (hh : high < l.length) (hlo : low = 0 ∨ ∃ a, l[low]? = some a ∧ (e <. a) = false)
    (hhi : high = l.length - 1 ∨ ∃ b, l[high]? = some b ∧ (e <. b) = true) :
    ∃ g, bisect l e fuel low high = .ok g ∧ ∃ a b, l[g]? = some a ∧ l[g + 1]? = some b ∧
      (g = 0 ∨ (e <. a) = false) ∧ (g + 1 = l.length - 1 ∨ (e <. b) = true) := by
  induction fuel generalizing low high with
  | zero => omega
  | succ n ih =>
    unfold bisect
    by_cases h : high = low + 1
    · rw [if_pos h]
      subst h
      refine ⟨low, rfl, _, _, List.getElem?_eq_getElem (by omega), List.getElem?_eq_getElem hh, ?_, ?_⟩
      · rcases hlo with h | ⟨a, ha, hae⟩
        · exact .inl h
        · rw [List.getElem?_eq_getElem (by omega)] at ha
          cases ha
          exact .inr hae
      · rcases hhi with h | ⟨b, hb, heb⟩
        · exact .inl h
        · rw [List.getElem?_eq_getElem hh] at hb
          cases hb
          exact .inr heb
    · rw [if_neg h]
      have hm : (high + low) / 2 < l.length := by omega
      have hget := List.getElem?_eq_getElem hm
      dsimp only
      rw [idx_ok.2 hget]
      show ∃ g, (if (e <. l[(high + low) / 2]) = true then _ else _) = _ ∧ _
      by_cases hc : (e <. l[(high + low) / 2]) = true
      · rw [if_pos hc]
        exact ih low _ (by omega) (by omega) hm hlo (.inr ⟨_, hget, hc⟩)
      · rw [if_neg hc]
        exact ih _ high (by omega) (by omega) hh (.inr ⟨_, hget, by simpa using hc⟩) hhi

/-- **C26** (any arithmetic).  With at least two levels the look-up answers for every energy, whatever the arithmetic and
the order of the levels: group 0 for an energy that is at or below the first level, the extra index for one above the last
level, and otherwise a group whose lower level (if it is not the first) is not above the energy, and whose upper level (if
it is not the last) is. -/
theorem C26_any {l : List T} (hl : 2 ≤ l.length) (e : T) :
    ∃ g first last, getEnergyGroups l e = .ok g ∧ l[0]? = some first ∧ l[l.length - 1]? = some last ∧
      ((e <=. first) = true → g = 0) ∧
      ((e <=. first) = false → (last <. e) = true → g = l.length - 1) ∧
      ((e <=. first) = false → (last <. e) = false → ∃ a b, l[g]? = some a ∧ l[g + 1]? = some b ∧
        (g = 0 ∨ (e <. a) = false) ∧ (g + 1 = l.length - 1 ∨ (e <. b) = true)) := by
  have h0 := List.getElem?_eq_getElem (show 0 < l.length by omega)
  have h1 := List.getElem?_eq_getElem (show l.length - 1 < l.length by omega)
  obtain ⟨g, hg, hs⟩ := bisect_any (l := l) (e := e) l.length 0 (l.length - 1) (by omega) (by omega) (by omega)
    (.inl rfl) (.inl rfl)
  have key : getEnergyGroups l e = if (e <=. l[0]) = true then .ok 0 else
      if (l[l.length - 1] <. e) = true then .ok (l.length - 1) else .ok g := by
    unfold getEnergyGroups
    dsimp only
    rw [idx_ok.2 h0, idx_ok.2 h1, hg]
    rfl
  rw [key, h0, h1]
  by_cases c0 : (e <=. l[0]) = true
  · rw [if_pos c0]
    exact ⟨0, _, _, rfl, rfl, rfl, fun _ => rfl, fun h => (by rw [c0] at h; cases h),
      fun h => (by rw [c0] at h; cases h)⟩
  · rw [if_neg c0]
    by_cases c1 : (l[l.length - 1] <. e) = true
    · rw [if_pos c1]
      exact ⟨_, _, _, rfl, rfl, rfl, fun h => absurd h c0, fun _ _ => rfl, fun _ h => (by rw [c1] at h; cases h)⟩
    · rw [if_neg c1]
      exact ⟨g, _, _, rfl, rfl, rfl, fun h => absurd h c0, fun _ h => absurd h c1, fun _ _ => hs⟩

end

section
variable {T : Type} [Flt T] [Ieee T]

/-- **C26** (rounded).  In an arithmetic of IEEE 754, for an energy and levels that are numbers, the energy lies between the
exact values of the two levels of the group, unless it is at or below the first level or above the last one. -/
theorem C26_rounded {l : List T} (hl : 2 ≤ l.length) {e : T} {x : EReal} (he : val e = some x)
    (hn : ∀ a ∈ l, val a ≠ none) :
    ∃ g first last, getEnergyGroups l e = .ok g ∧ l[0]?.bind val = some first ∧ l[l.length - 1]?.bind val = some last ∧
      (x ≤ first → g = 0) ∧ (first < x → last < x → g = l.length - 1) ∧
      (first < x → x ≤ last → ∃ a b, l[g]?.bind val = some a ∧ l[g + 1]?.bind val = some b ∧ a ≤ x ∧
        (x < b ∨ (x = b ∧ g + 1 = l.length - 1))) := by
  obtain ⟨g, f, t, hg, hf, ht, h1, h2, h3⟩ := C26_any hl e
  obtain ⟨first, vf⟩ := Option.ne_none_iff_exists'.1 (hn f (List.mem_of_getElem? hf))
  obtain ⟨last, vt⟩ := Option.ne_none_iff_exists'.1 (hn t (List.mem_of_getElem? ht))
  have le1 : (e <=. f) = true ↔ x ≤ first := by
    rw [le_iff]
    exact ⟨fun ⟨_, _, a, b, c⟩ => by rw [he] at a; rw [vf] at b; cases a; cases b; exact c, fun h => ⟨_, _, he, vf, h⟩⟩
  have lt1 : ∀ {a : T} {y : EReal}, val a = some y → ((e <. a) = true ↔ x < y) := fun va => by
    rw [lt_iff]
    exact ⟨fun ⟨_, _, a, b, c⟩ => by rw [he] at a; rw [va] at b; cases a; cases b; exact c, fun h => ⟨_, _, he, va, h⟩⟩
  have lt2 : (t <. e) = true ↔ last < x := by
    rw [lt_iff]
    exact ⟨fun ⟨_, _, a, b, c⟩ => by rw [vt] at a; rw [he] at b; cases a; cases b; exact c, fun h => ⟨_, _, vt, he, h⟩⟩
  have no : ∀ {b : Bool} {P : Prop}, (b = true ↔ P) → ¬ P → b = false := fun h n => by
    cases hb : ‹Bool› with
    | false => rfl
    | true => exact absurd (h.1 hb) n
  refine ⟨g, first, last, hg, by rw [hf]; exact vf, by rw [ht]; exact vt, fun h => h1 (le1.2 h),
    fun a b => h2 (no le1 (not_le.2 a)) (lt2.2 b), fun a b => ?_⟩
  obtain ⟨p, q, hp, hq, c1, c2⟩ := h3 (no le1 (not_le.2 a)) (no lt2 (not_lt.2 b))
  obtain ⟨y, vp⟩ := Option.ne_none_iff_exists'.1 (hn p (List.mem_of_getElem? hp))
  obtain ⟨z, vq⟩ := Option.ne_none_iff_exists'.1 (hn q (List.mem_of_getElem? hq))
  refine ⟨y, z, by rw [hp]; exact vp, by rw [hq]; exact vq, ?_, ?_⟩
  · rcases c1 with rfl | c1
    · rw [hf] at hp
      cases hp
      rw [vf] at vp
      cases vp
      exact a.le
    · by_contra hlt
      have := (lt1 vp).2 (not_le.1 hlt)
      rw [c1] at this
      cases this
  · rcases c2 with c2 | c2
    · rw [c2, ht] at hq
      cases hq
      rw [vt] at vq
      cases vq
      rcases lt_or_eq_of_le b with h | h
      · exact .inl h
      · exact .inr ⟨h, c2⟩
    · exact .inl ((lt1 vq).1 c2)

/-- **C55** (rounded).  After any number of cycles of a run with rounding, the energy of every particle lies in its energy
group, between the levels of the group as the program computed them: not below the lower one (unless the group is the
first), and below the upper one (or at most at it, in the last group). -/
theorem C55_rounded {so : StrOrder} (hso : ∀ l, (so l).Perm l) {io : IterOrder} (hio : ∀ l, (io l).Perm l)
    {m : Machine} {fuel : Nat} {p : Params T} (hn : NamedParams p) (hc : Consistent p) (hroot : RootInGrid p)
    (hi : FloatInput p) {s : Started T} (hs : startRun so io m fuel p = .ok (some s))
    (ht : FloatTables s.data s.state.unit.dom)
    (hlev : ∀ a ∈ energyLevels p.simulation.nGroups p.simulation.eMin p.simulation.eMax, val a ≠ none)
    {fuel' n : Nat} (hle : n ≤ p.simulation.nSteps) {s1 : SimState T}
    (hcyc : Cycles s.data s.exec s.opts fuel' n s.state s1) (q : Particle T) (hq : q ∈ s1.container.all) :
    ∃ (e : ℝ) (a b : EReal), val q.kineticEnergy = some (e : EReal) ∧ q.energyGroup < p.simulation.nGroups ∧
      (energyLevels p.simulation.nGroups p.simulation.eMin p.simulation.eMax)[q.energyGroup]?.bind val = some a ∧
      (energyLevels p.simulation.nGroups p.simulation.eMin p.simulation.eMax)[q.energyGroup + 1]?.bind val = some b ∧
      (a ≤ e ∧ (e < b ∨ (e = b ∧ q.energyGroup + 1 = p.simulation.nGroups)) ∨ ((e : EReal) ≤ a ∧ q.energyGroup = 0)) := by
  obtain ⟨⟨e, hi', ve, vm, e0, e1⟩, _, hgr, _⟩ := C65_ranges hso hio hn hc hroot hi hs ht hle hcyc q hq
  obtain ⟨_, hset, _⟩ := C64_started hs
  obtain ⟨nd, mats, _, _, a1, a2, _⟩ := startRun_parts hs
  obtain ⟨nd', mats', b1, _, b3, _⟩ := initNuclearData_ok hn hc hso
  rw [a1] at b1
  cases b1
  have hl : s.data.nuclear.energies = energyLevels p.simulation.nGroups p.simulation.eMin p.simulation.eMax := by
    rw [a2]; exact b3
  have hg := C55_run (started_start hs) (by rw [hset.nSteps]; exact hle) hcyc q hq
  unfold GroupOk at hg
  rw [hl] at hg
  set l := energyLevels p.simulation.nGroups p.simulation.eMin p.simulation.eMax with hld
  have hlen : l.length = p.simulation.nGroups + 1 := by rw [hld]; simp [energyLevels]
  obtain ⟨g, first, last, h1, h2, h3, h4, h5, h6⟩ := C26_rounded (l := l) (by omega) ve hlev
  rw [hg] at h1
  cases h1
  obtain ⟨b, vb⟩ := Option.ne_none_iff_exists'.1 (hlev _ (List.getElem_mem (show q.energyGroup + 1 < l.length by omega)))
  refine ⟨e, ?_⟩
  by_cases c0 : (e : EReal) ≤ first
  · have := h4 c0
    refine ⟨first, b, ve, hgr, by rw [this]; exact h2, by rw [List.getElem?_eq_getElem (by omega)]; exact vb, .inr ⟨c0, this⟩⟩
  · have c0 := not_le.1 c0
    have c1 : (e : EReal) ≤ last := by
      by_contra hcon
      have := h5 c0 (not_le.1 hcon)
      omega
    obtain ⟨a, b, ha, hb, g1, g2⟩ := h6 c0 c1
    refine ⟨a, b, ve, hgr, ha, hb, .inl ⟨g1, ?_⟩⟩
    rcases g2 with g2 | ⟨g2, g3⟩
    · exact .inl g2
    · exact .inr ⟨g2, by omega⟩

end

/-! ## The theorems speak about something -/

/-- Three levels of integers: an energy below, inside and above. -/
example : getEnergyGroups ([1, 5, 9] : List Toy) 0 = .ok 0 ∧ getEnergyGroups ([1, 5, 9] : List Toy) 5 = .ok 1 ∧
    getEnergyGroups ([1, 5, 9] : List Toy) 9 = .ok 1 ∧ getEnergyGroups ([1, 5, 9] : List Toy) 10 = .ok 2 := by
  decide

/-- The built-in problem in `f64` meets the conditions of `C55_rounded`. -/
example : ∃ (p : Params (Num binary64)) (s : Started (Num binary64)), NamedParams p ∧ Consistent p ∧
    RootInGrid p ∧ FloatInput p ∧ startRun id id ⟨8, false⟩ 1000 p = .ok (some s) ∧
    FloatTables s.data s.state.unit.dom ∧ p.simulation.nGroups = 230 ∧
    ∀ a ∈ energyLevels p.simulation.nGroups p.simulation.eMin p.simulation.eMax, val a ≠ none := by
  obtain ⟨s, h1, h2⟩ := builtin_start (threads := 8) (steps := 10) (builtin_sourced binary64)
    (so := id) (fun l => .refl _) (io := id) (fun l => .refl _) ⟨8, false⟩ le_rfl
  refine ⟨_, s, builtin_named _, builtin_consistent _, builtin_floatMesh.root,
    builtin_floatInput (builtin_sourced _), h1, h2, rfl, fun a ha => ?_⟩
  obtain ⟨y, hy, _⟩ := level_range builtin_eMin builtin_eMax (by norm_num : 230 < 2 ^ 19) ha
  rw [hy]
  simp
