import Verif.Lemmas.UnitsCover
import Mathlib.Tactic.IntervalCases
/-!
# C77: the cells are shared between several units

`Verif/Spec/Units.lean` says which cells a unit meets while it grows from its root cell, and what it has to know of
them at the end.
-/
open Flt GridSpec Units FltReal

/-- **C77.**  For every grid, any number of units with a root cell each, and every iteration order of the maps: the
partitions are built without panic; the cells of a unit are the cells it meets that are nearest to its root; they are
numbered from 0; and each unit knows the unit and the number of every cell of another unit that it faces, the unit of
the other cells it meets, and nothing else. -/
theorem C77_units {order : IterOrder} (ho : ∀ l, (order l).Perm l) {g : Grid ℝ} {roots : List Nat} (h : Rooted g roots)
    (fuel : Nat) (hfuel : cells g ≤ fuel) :
    ∃ (near : Nat → Nat) (start last : Comm) (cellsOf : Nat → List Nat),
      (∀ c < cells g, IsNearest (roots.map (centre g)) (centre g c) (near c)) ∧
      Comm.new ((List.range roots.length).map fun i => Partition.new i 0) = .ok start ∧
      buildPartitions order fuel g (roots.map (centre g)) (List.range roots.length) start = .ok last ∧
      last.partition.length = roots.length ∧
      ∀ (u : Nat) p, last.partition[u]? = some p → Knows g near (fun u => roots.getD u 0) cellsOf u p := by
  obtain ⟨near, hn, hs⟩ := h.setup
  obtain ⟨start, c1, c2, c3⟩ := comm_new roots.length
  have hlen : (roots.map (centre g)).length = roots.length := by simp
  obtain ⟨last, num, b1, b2⟩ := build_all ho hs fuel hfuel roots.length (k := 0) (by simp)
    (Built.start _ (by rw [hlen]; exact c2) (by rw [hlen]; exact c3))
  rw [← List.range_eq_range'] at b1
  exact ⟨near, start, last, num, hn, c1, b1, by rw [b2.length, hlen], fun u p hp => b2.knows hp⟩

/-- **C77, each cell in one unit at most.** -/
theorem C77_once {order : IterOrder} (ho : ∀ l, (order l).Perm l) {g : Grid ℝ} {roots : List Nat} (h : Rooted g roots)
    (fuel : Nat) (hfuel : cells g ≤ fuel) :
    ∃ start last, Comm.new ((List.range roots.length).map fun i => Partition.new i 0) = .ok start ∧
      buildPartitions order fuel g (roots.map (centre g)) (List.range roots.length) start = .ok last ∧
      ∀ (u v : Nat) p q c, last.partition[u]? = some p → last.partition[v]? = some q → Holds p c → Holds q c → u = v := by
  obtain ⟨near, start, last, cellsOf, hn, h1, h2, h3, h4⟩ := C77_units ho h fuel hfuel
  refine ⟨start, last, h1, h2, fun u v p q c hp hq hu hv => ?_⟩
  have hn' : ∀ c < cells g, near c < roots.length := fun c hc => by
    obtain ⟨x, hx, _⟩ := hn c hc
    simpa using (List.getElem?_eq_some_iff.1 hx).1
  exact ((Knows.holds h3 hn' h4 hp c).1 hu).2.symm.trans ((Knows.holds h3 hn' h4 hq c).1 hv).2

/-- **C77, two units.**  With two different root cells every cell of the grid belongs to exactly one unit. -/
theorem C77_two_units {order : IterOrder} (ho : ∀ l, (order l).Perm l) {g : Grid ℝ} {r s : Nat} (h : Rooted g [r, s])
    (hrs : r ≠ s) (fuel : Nat) (hfuel : cells g ≤ fuel) :
    ∃ start last, Comm.new ((List.range 2).map fun i => Partition.new i 0) = .ok start ∧
      buildPartitions order fuel g [centre g r, centre g s] (List.range 2) start = .ok last ∧
      ∀ c < cells g, ∃! u : Nat, ∃ p, last.partition[u]? = some p ∧ Holds p c := by
  obtain ⟨near, start, last, cellsOf, hn, h1, h2, h3, h4⟩ := C77_units ho h fuel hfuel
  have hn' : ∀ c < cells g, near c < [r, s].length := fun c hc => by
    obtain ⟨x, hx, _⟩ := hn c hc
    simpa using (List.getElem?_eq_some_iff.1 hx).1
  refine ⟨start, last, h1, h2, fun c hc => ?_⟩
  obtain ⟨_, how⟩ := owned_two h.box (h.inside r (by simp)) (h.inside s (by simp)) hrs hn hc
  have hv : near c < last.partition.length := by rw [h3]; exact hn' c hc
  refine ⟨near c, ⟨_, List.getElem?_eq_getElem hv, ?_⟩, ?_⟩
  · exact (Knows.holds h3 hn' h4 (List.getElem?_eq_getElem hv) c).2 how
  · rintro u ⟨p, hp, hh⟩
    exact ((Knows.holds h3 hn' h4 hp c).1 hh).2.symm

namespace Units

/-- A grid of 11 by 3 by 1 cells of size 1 by 4 by 1. -/
noncomputable def wide : Grid ℝ := { nx := 11, ny := 3, nz := 1, lx := 11, ly := 12, lz := 1, dx := 1, dy := 4, dz := 1 }

theorem wide_box : BoxGrid wide := by
  constructor <;> norm_num [wide]

theorem wide_tuple (c : Nat) : wide.cellIdxToTuple c = (c % 11, c / 11 % 3, c / 11 / 3) := rfl

theorem wide_cells : cells wide = 33 := rfl

theorem wide_rooted : Rooted wide [20, 6, 32] := by
  refine ⟨wide_box, by norm_num [wide], by simp, ?_, 12, by norm_num, by norm_num [wide], by norm_num [wide],
    by norm_num [wide], by norm_num⟩
  intro r hr
  rw [wide_cells]
  fin_cases hr <;> norm_num

theorem wide_two : Rooted wide [20, 6] := by
  refine ⟨wide_box, by norm_num [wide], by simp, ?_, 12, by norm_num, by norm_num [wide], by norm_num [wide],
    by norm_num [wide], by norm_num⟩
  intro r hr
  rw [wide_cells]
  fin_cases hr <;> norm_num

theorem wide_dist (c d : Nat) : sqDist (centre wide c) (centre wide d) = (((c % 11 : Nat) : ℝ) - (d % 11 : Nat)) ^ 2 +
    16 * (((c / 11 % 3 : Nat) : ℝ) - (d / 11 % 3 : Nat)) ^ 2 + (((c / 11 / 3 : Nat) : ℝ) - (d / 11 / 3 : Nat)) ^ 2 := by
  simp only [sqDist, centre, boxCenter, wide_tuple]
  simp only [wide]
  ring

/-- The first unit never meets the cells 22 and 23. -/
theorem wide_unmet {near : Nat → Nat}
    (hn : ∀ c < cells wide, IsNearest ([20, 6, 32].map (centre wide)) (centre wide c) (near c)) {c : Nat}
    (h : Met wide near (fun u => [20, 6, 32].getD u 0) 0 c) : c ≠ 22 ∧ c ≠ 23 := by
  have far : ∀ d < 33, (d = 11 ∨ d = 12 ∨ d = 13 ∨ d = 24) → near d ≠ 0 := by
    intro d hd hdd e
    obtain ⟨x, hx, hmin⟩ := hn d hd
    rw [e] at hx
    cases hx
    have m1 := hmin (centre wide 6) (by simp)
    have m2 := hmin (centre wide 32) (by simp)
    rw [wide_dist, wide_dist] at m1 m2
    rcases hdd with rfl | rfl | rfl | rfl
    · norm_num at m1
    · norm_num at m1
    · norm_num at m1
    · norm_num at m2
  have close : ∀ d < 33, ∀ c, (c = 22 ∨ c = 23) → d ≠ 22 → d ≠ 23 → Touch wide d c →
      d = 11 ∨ d = 12 ∨ d = 13 ∨ d = 24 := by
    intro d hd c hc h1 h2 ht
    obtain ⟨_, _, _, ⟨t1, _⟩, ⟨_, t2⟩, _⟩ := ht
    rw [wide_tuple, wide_tuple] at t1 t2
    dsimp only at t1 t2
    rcases hc with rfl | rfl <;> omega
  induction h with
  | root => simp
  | around ht =>
    obtain ⟨_, _, _, ⟨t1, _⟩, _⟩ := ht
    rw [wide_tuple, wide_tuple] at t1
    have e20 : ([20, 6, 32] : List Nat).getD 0 0 = 20 := rfl
    rw [e20] at t1
    dsimp only at t1
    constructor <;> rintro rfl <;> omega
  | grow _ hd ht ih =>
    by_contra hc
    have := close _ ht.1 _ (by tauto) ih.1 ih.2 ht
    exact far _ ht.1 this hd

end Units

/-- **C77 fails for three units**: in a grid of 33 cells with three different root cells, two cells belong to no
unit. -/
theorem C77_violated_coverage {order : IterOrder} (ho : ∀ l, (order l).Perm l) (fuel : Nat) (hfuel : 33 ≤ fuel) :
    Rooted wide [20, 6, 32] ∧
    ∃ start last, Comm.new ((List.range 3).map fun i => Partition.new i 0) = .ok start ∧
      buildPartitions order fuel wide ([20, 6, 32].map (centre wide)) (List.range 3) start = .ok last ∧
      ∀ p ∈ last.partition, ∀ c, (c = 22 ∨ c = 23) → ¬ Holds p c := by
  refine ⟨wide_rooted, ?_⟩
  obtain ⟨near, start, last, cellsOf, hn, h1, h2, h3, h4⟩ := C77_units ho wide_rooted fuel (by rw [wide_cells]; exact hfuel)
  refine ⟨start, last, h1, h2, fun p hp c hc hh => ?_⟩
  obtain ⟨u, hu⟩ := List.getElem?_of_mem hp
  have hn' : ∀ c < cells wide, near c < [20, 6, 32].length := fun c hc => by
    obtain ⟨x, hx, _⟩ := hn c hc
    simpa using (List.getElem?_eq_some_iff.1 hx).1
  obtain ⟨hmet, hnear⟩ := (Knows.holds h3 hn' h4 hu c).1 hh
  have hzero : near c = 0 := by
    have hcl : c < cells wide := by rw [wide_cells]; omega
    obtain ⟨x, hx, hmin⟩ := hn c hcl
    have hlt := hn' c hcl
    have m := hmin (centre wide 20) (by simp)
    have : near c = 0 ∨ near c = 1 ∨ near c = 2 := by
      have : near c < 3 := hlt
      omega
    rcases this with e | e | e
    · exact e
    all_goals
      rw [e] at hx
      cases hx
      rw [wide_dist, wide_dist] at m
      rcases hc with rfl | rfl <;> norm_num at m
  rw [← hnear, hzero] at hmet
  have := wide_unmet hn hmet
  omega

/-- Two units on the same grid share its 33 cells. -/
example : ∃ start last, Comm.new ((List.range 2).map fun i => Partition.new i 0) = .ok start ∧
    buildPartitions id 33 wide [centre wide 20, centre wide 6] (List.range 2) start = .ok last ∧
    ∀ c < 33, ∃! u : Nat, ∃ p, last.partition[u]? = some p ∧ Holds p c :=
  C77_two_units (fun _ => .refl _) wide_two (by decide) 33 (le_of_eq wide_cells)

/-! ## Crossing to a neighbour -/

/-- **C77**, crossing.  A particle that crosses a facet towards a cell, be it of its own unit or of another one, is put
in the domain and cell on the other side, on the facet on the other side; only the recorded event tells the two cases
apart, and nothing else of the particle changes.  If one of the three is not known, the crossing panics. -/
theorem C77_crossing {T : Type} (p : Particle T) (adj : SubfacetAdj)
    (h : adj.event = .transitOnProcessor ∨ adj.event = .transitOffProcessor) :
    (∀ d c f, adj.adjacent = ⟨some d, some c, some f⟩ → ∃ q, facetCrossingEvent p adj = .ok q ∧
      q.domain = d ∧ q.cell = c ∧ q.facet = f ∧
      (q.lastEvent = .facetCrossingTransitExit ↔ adj.event = .transitOnProcessor) ∧
      (q.lastEvent = .facetCrossingCommunication ↔ adj.event = .transitOffProcessor) ∧
      { q with
        domain := p.domain
        cell := p.cell
        facet := p.facet
        lastEvent := p.lastEvent } = p) ∧
    (adj.adjacent.domain = none ∨ adj.adjacent.cell = none ∨ adj.adjacent.facet = none →
      facetCrossingEvent p adj = .error .unwrapNone) := by
  obtain ⟨ev, cur, ⟨d, c, f⟩, _, _, _⟩ := adj
  dsimp only at h
  constructor
  · rintro d c f he
    cases he
    rcases h with rfl | rfl <;>
      exact ⟨_, rfl, rfl, rfl, rfl, by simp, by simp, rfl⟩
  · intro hn
    rcases h with rfl | rfl <;> rcases d with _ | d <;> rcases c with _ | c <;> rcases f with _ | f <;>
      first | rfl | simp at hn

/-- The neighbour is cell 4 of domain 0, entered by its facet 7, and belongs to another unit. -/
example (p : Particle ℝ) : ∃ q, facetCrossingEvent p
      { event := .transitOffProcessor, adjacent := ⟨some 0, some 4, some 7⟩ } = .ok q ∧
    q.domain = 0 ∧ q.cell = 4 ∧ q.facet = 7 := by
  obtain ⟨q, h1, h2, h3, h4, _⟩ := (C77_crossing p
    { event := .transitOffProcessor, adjacent := ⟨some 0, some 4, some 7⟩ } (.inr rfl)).1 0 4 7 rfl
  exact ⟨q, h1, h2, h3, h4⟩
