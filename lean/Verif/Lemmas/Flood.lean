import Verif.Lemmas.HMap
import Verif.Lemmas.Grid
import Verif.Lemmas.Except
import Verif.Model.Partition
import Mathlib.Data.List.Perm.Subperm
/-!
# The flood of the mesh partition: helper lemmas
-/
open Flt GridSpec
set_option linter.unusedSectionVars false

namespace Flooding
variable {T : Type} [Flt T] {g : Grid T}

theorem addWet_foldl (l : List Nat) (q w : List Nat) :
    ∃ new, l.foldl addWet (q, w) = (q ++ new, new.reverse ++ w) ∧ new.Nodup ∧
      (∀ x ∈ new, x ∈ l ∧ x ∉ w) ∧ ∀ x ∈ l, x ∈ new ∨ x ∈ w := by
  induction l generalizing q w with
  | nil => exact ⟨[], by simp, by simp, by simp, by simp⟩
  | cons x l ih =>
    rw [List.foldl_cons]
    by_cases hx : x ∈ w
    · have : addWet (q, w) x = (q, w) := by simp [addWet, hx]
      rw [this]
      obtain ⟨new, h1, h2, h3, h4⟩ := ih q w
      refine ⟨new, h1, h2, fun y hy => ⟨by simp [(h3 y hy).1], (h3 y hy).2⟩, ?_⟩
      intro y hy
      rcases List.mem_cons.1 hy with rfl | hy
      · exact Or.inr hx
      · exact h4 y hy
    · have : addWet (q, w) x = (q ++ [x], x :: w) := by simp [addWet, hx]
      rw [this]
      obtain ⟨new, h1, h2, h3, h4⟩ := ih (q ++ [x]) (x :: w)
      refine ⟨x :: new, ?_, ?_, ?_, ?_⟩
      · rw [h1]; simp
      · rw [List.nodup_cons]
        exact ⟨fun h => (h3 x h).2 (by simp), h2⟩
      · intro y hy
        rcases List.mem_cons.1 hy with rfl | hy
        · exact ⟨by simp, hx⟩
        · obtain ⟨a, b⟩ := h3 y hy
          exact ⟨by simp [a], fun h => b (by simp [h])⟩
      · intro y hy
        rcases List.mem_cons.1 hy with rfl | hy
        · simp
        · rcases h4 y hy with h | h
          · simp [h]
          · rcases List.mem_cons.1 h with rfl | h
            · simp
            · exact Or.inr h

/-- What is recorded for a cell found by the flood of the only domain. -/
def found : CellInfo := { domainGid := some 0 }

/-- The flood of a domain that is the nearest of every cell it meets. -/
theorem floodLoop_spec (L : List Nat) (a : Assigner T) (p0 : Partition) (hgid : p0.domainGid = 0)
    (hL : ∀ c ∈ L, ∀ o ∈ nbrCoords, g.shifted c o ∈ L)
    (hnear : ∀ c ∈ L, ∃ rr, g.cellCenter c = .ok rr ∧ a.nearestCenter rr = .ok (0, a))
    (fuel : Nat) (popped q w : List Nat) (hw : w.Perm (popped ++ q)) (hn : (popped ++ q).Nodup)
    (hok : ∀ c ∈ popped ++ q, c ∈ L) (hcl : ∀ c ∈ popped, ∀ o ∈ nbrCoords, g.shifted c o ∈ w)
    (hfuel : L.length ≤ popped.length + fuel) :
    ∃ popped' w' : List Nat, floodLoop g fuel ⟨{ p0 with cellInfoMap := popped.map fun c => (c, found) }, a, q, w⟩
        = .ok ⟨{ p0 with cellInfoMap := popped'.map fun c => (c, found) }, a, [], w'⟩ ∧
      popped'.Nodup ∧ (∀ c ∈ popped ++ q, c ∈ popped') ∧ (∀ c ∈ popped', c ∈ L) ∧
      ∀ c ∈ popped', ∀ o ∈ nbrCoords, g.shifted c o ∈ popped' := by
  induction fuel generalizing popped q w with
  | zero =>
    cases q with
    | nil =>
      rw [List.append_nil] at hw hn hok
      refine ⟨popped, w, ?_, hn, by simp, hok, fun c hc o ho => hw.mem_iff.1 (hcl c hc o ho)⟩
      unfold floodLoop; rfl
    | cons c q =>
      exfalso
      have hle : (popped ++ c :: q).length ≤ L.length :=
        (List.subperm_of_subset hn hok).length_le
      simp at hle
      omega
  | succ fuel ih =>
    cases q with
    | nil =>
      rw [List.append_nil] at hw hn hok
      refine ⟨popped, w, ?_, hn, by simp, hok, fun c hc o ho => hw.mem_iff.1 (hcl c hc o ho)⟩
      unfold floodLoop; rfl
    | cons c q =>
      have hcL : c ∈ L := hok c (by simp)
      obtain ⟨rr, h1, h2⟩ := hnear c hcL
      obtain ⟨new, a1, a2, a3, a4⟩ := addWet_foldl (nbrCoords.map (g.shifted c)) q w
      have hcnew : c ∉ popped := by
        have := List.nodup_append.1 hn
        intro h
        exact this.2.2 c h c (by simp) rfl
      have hmap : HMap.orInsert (popped.map fun c => (c, found)) c { domainGid := some 0 }
          = (popped ++ [c]).map fun c => (c, found) := by
        rw [HMap.orInsert_new]
        · simp [found]
        · unfold HMap.keys
          rw [List.map_map]
          simpa using hcnew
      have hstep : floodStep g ⟨{ p0 with cellInfoMap := popped.map fun c => (c, found) }, a, q, w⟩ c
          = .ok ⟨{ p0 with cellInfoMap := (popped ++ [c]).map fun c => (c, found) }, a, q ++ new,
              new.reverse ++ w⟩ := by
        unfold floodStep
        simp only [h1, h2, bind, Except.bind, hgid, if_true, addNbrsToFlood, a1, hmap, pure,
          Except.pure]
      obtain ⟨popped', w', b1, b2, b3, b4, b5⟩ := ih (popped ++ [c]) (q ++ new) (new.reverse ++ w)
        (by
          have e1 : (new.reverse ++ w).Perm (w ++ new) :=
            ((List.reverse_perm new).append_right w).trans List.perm_append_comm
          refine e1.trans ((hw.append_right new).trans ?_)
          simp)
        (by
          have e : (popped ++ [c]) ++ (q ++ new) = (popped ++ c :: q) ++ new := by simp
          rw [e, List.nodup_append]
          refine ⟨hn, a2, ?_⟩
          rintro x hx y hy rfl
          exact (a3 x hy).2 (hw.mem_iff.2 hx))
        (by
          intro x hx
          have e : (popped ++ [c]) ++ (q ++ new) = (popped ++ c :: q) ++ new := by simp
          rw [e] at hx
          rcases List.mem_append.1 hx with hx | hx
          · exact hok x hx
          · obtain ⟨o, ho, rfl⟩ := List.mem_map.1 (a3 x hx).1
            exact hL c hcL o ho)
        (by
          intro x hx o ho
          rcases List.mem_append.1 hx with hx | hx
          · exact List.mem_append_right _ (hcl x hx o ho)
          · rw [List.mem_singleton.1 hx]
            rcases a4 _ (List.mem_map.2 ⟨o, ho, rfl⟩) with h | h
            · exact List.mem_append_left _ (List.mem_reverse.2 h)
            · exact List.mem_append_right _ h)
        (by simp; omega)
      refine ⟨popped', w', ?_, b2, ?_, b4, b5⟩
      · unfold floodLoop
        simp only [hstep, bind, Except.bind]
        exact b1
      · intro x hx
        refine b3 x ?_
        have e : (popped ++ [c]) ++ (q ++ new) = (popped ++ c :: q) ++ new := by simp
        rw [e]
        exact List.mem_append_left _ hx

/-- A non-empty set of cells closed by the six face neighbours is the whole grid. -/
theorem connected {S : Nat → Prop} (t : Nat × Nat × Nat) (ht : InGrid g t)
    (h0 : S (g.cellTupleToIdx t))
    (hcl : ∀ t f, InGrid g t → ¬ OnBorder g t f → S (g.cellTupleToIdx t) →
      S (g.cellTupleToIdx (across t f)))
    (u : Nat × Nat × Nat) (hu : InGrid g u) : S (g.cellTupleToIdx u) := by
  obtain ⟨x, y, z⟩ := t
  obtain ⟨hx, hy, hz⟩ := ht
  simp only at hx hy hz
  have d1 : ∀ n, n ≤ x → S (g.cellTupleToIdx (x - n, y, z)) := by
    intro n
    induction n with
    | zero => intro _; exact h0
    | succ n ih =>
      intro hn
      have := hcl (x - n, y, z) .xm ⟨by dsimp only; omega, hy, hz⟩ (by simp only [OnBorder]; omega)
        (ih (by omega))
      have e : x - n - 1 = x - (n + 1) := by omega
      simpa only [across, e] using this
  have d2 : ∀ n, n ≤ y → S (g.cellTupleToIdx (0, y - n, z)) := by
    intro n
    induction n with
    | zero => intro _; have := d1 x le_rfl; simpa using this
    | succ n ih =>
      intro hn
      have := hcl (0, y - n, z) .ym ⟨by dsimp only; omega, by dsimp only; omega, hz⟩
        (by simp only [OnBorder]; omega) (ih (by omega))
      have e : y - n - 1 = y - (n + 1) := by omega
      simpa only [across, e] using this
  have d3 : ∀ n, n ≤ z → S (g.cellTupleToIdx (0, 0, z - n)) := by
    intro n
    induction n with
    | zero => intro _; have := d2 y le_rfl; simpa using this
    | succ n ih =>
      intro hn
      have := hcl (0, 0, z - n) .zm
        ⟨by dsimp only; omega, by dsimp only; omega, by dsimp only; omega⟩
        (by simp only [OnBorder]; omega) (ih (by omega))
      have e : z - n - 1 = z - (n + 1) := by omega
      simpa only [across, e] using this
  obtain ⟨a, b, c⟩ := u
  obtain ⟨ha, hb, hc⟩ := hu
  simp only at ha hb hc
  have u3 : ∀ n, n ≤ c → S (g.cellTupleToIdx (0, 0, n)) := by
    intro n
    induction n with
    | zero => intro _; have := d3 z le_rfl; simpa using this
    | succ n ih =>
      intro hn
      exact hcl (0, 0, n) .zp ⟨by dsimp only; omega, by dsimp only; omega, by dsimp only; omega⟩
        (by simp only [OnBorder]; omega) (ih (by omega))
  have u2 : ∀ n, n ≤ b → S (g.cellTupleToIdx (0, n, c)) := by
    intro n
    induction n with
    | zero => intro _; exact u3 c le_rfl
    | succ n ih =>
      intro hn
      exact hcl (0, n, c) .yp ⟨by dsimp only; omega, by dsimp only; omega, hc⟩
        (by simp only [OnBorder]; omega) (ih (by omega))
  have u1 : ∀ n, n ≤ a → S (g.cellTupleToIdx (n, b, c)) := by
    intro n
    induction n with
    | zero => intro _; exact u2 b le_rfl
    | succ n ih =>
      intro hn
      exact hcl (n, b, c) .xp ⟨by dsimp only; omega, hb, hc⟩
        (by simp only [OnBorder]; omega) (ih (by omega))
  exact u1 a le_rfl

theorem shifted_lt_any (hpos : 0 < g.nx ∧ 0 < g.ny ∧ 0 < g.nz) (i : Nat) (o : Int × Int × Int) :
    g.shifted i o < cells g := Grid.tuple_lt (Grid.snap_inGrid _ hpos)

/-- The cells met by the flood: the whole grid, and the root if it is outside. -/
def reached (g : Grid T) (root : Nat) : List Nat :=
  if root < cells g then List.range (cells g) else root :: List.range (cells g)

theorem root_reached (root : Nat) : root ∈ reached g root := by
  unfold reached; split
  · simpa
  · simp

theorem lt_reached {root i : Nat} (h : i < cells g) : i ∈ reached g root := by
  unfold reached; split <;> simp [h]

theorem reached_nodup (root : Nat) : (reached g root).Nodup := by
  unfold reached; split
  · exact List.nodup_range
  · rename_i h
    rw [List.nodup_cons]
    exact ⟨by simpa using h, List.nodup_range⟩

/-- A list of cells without repetition that holds the root and the neighbours of its cells, and nothing outside of
the grid but the root. -/
theorem closed_perm (hpos : 0 < g.nx ∧ 0 < g.ny ∧ 0 < g.nz) {root : Nat} {l : List Nat} (b2 : l.Nodup)
    (b4 : ∀ c ∈ l, c ∈ reached g root) (hrootl : root ∈ l)
    (b5 : ∀ c ∈ l, ∀ o ∈ nbrCoords, g.shifted c o ∈ l) : l.Perm (reached g root) := by
  refine (List.perm_ext_iff_of_nodup b2 (reached_nodup root)).2 fun c => ⟨b4 c, ?_⟩
  -- the visited cells contain an interior cell and are closed by neighbours
  have hin : ∃ t, InGrid g t ∧ g.cellTupleToIdx t ∈ l := by
    have hm : g.shifted root (0, 0, 1) ∈ l := b5 root hrootl _ (by decide)
    exact ⟨_, Grid.snap_inGrid _ hpos, hm⟩
  obtain ⟨t, ht, htl⟩ := hin
  have hall : ∀ u, InGrid g u → g.cellTupleToIdx u ∈ l := by
    intro u hu
    refine connected (S := fun i => i ∈ l) t ht htl ?_ u hu
    intro s f hs hb hsl
    have hnb : ∀ o : Int × Int × Int, o ∈ nbrCoords → g.cellTupleToIdx (g.snapTurtle
        ((s.1 : Int) + o.1, (s.2.1 : Int) + o.2.1, (s.2.2 : Int) + o.2.2)) ∈ l := by
      intro o ho
      have := b5 _ hsl o ho
      unfold Grid.shifted at this
      rw [Grid.tuple_idx hs.1 hs.2.1] at this
      exact this
    obtain ⟨s1, s2, s3⟩ := s
    obtain ⟨h1, h2, h3⟩ := hs
    simp only at h1 h2 h3
    cases f
    · have := hnb (1, 0, 0) (by decide)
      simp only [OnBorder] at hb
      simpa [Grid.snapTurtle, Grid.snap1_succ h1, hb, Grid.snap1_id h2, Grid.snap1_id h3, across]
        using this
    · have := hnb (-1, 0, 0) (by decide)
      simpa [Grid.snapTurtle, Grid.snap1_pred h1, Grid.snap1_id h2, Grid.snap1_id h3, across]
        using this
    · have := hnb (0, 1, 0) (by decide)
      simp only [OnBorder] at hb
      simpa [Grid.snapTurtle, Grid.snap1_succ h2, hb, Grid.snap1_id h1, Grid.snap1_id h3, across]
        using this
    · have := hnb (0, -1, 0) (by decide)
      simpa [Grid.snapTurtle, Grid.snap1_pred h2, Grid.snap1_id h1, Grid.snap1_id h3, across]
        using this
    · have := hnb (0, 0, 1) (by decide)
      simp only [OnBorder] at hb
      simpa [Grid.snapTurtle, Grid.snap1_succ h3, hb, Grid.snap1_id h1, Grid.snap1_id h2, across]
        using this
    · have := hnb (0, 0, -1) (by decide)
      simpa [Grid.snapTurtle, Grid.snap1_pred h3, Grid.snap1_id h1, Grid.snap1_id h2, across]
        using this
  intro hc
  by_cases hr : root < cells g
  · rw [reached, if_pos hr, List.mem_range] at hc
    have := hall _ (Grid.idx_inGrid hc)
    rwa [Grid.idx_tuple] at this
  · rw [reached, if_neg hr] at hc
    rcases List.mem_cons.1 hc with rfl | hc
    · exact hrootl
    · have := hall _ (Grid.idx_inGrid (List.mem_range.1 hc))
      rwa [Grid.idx_tuple] at this

/-- The flood of the only domain: every cell of the grid exactly once. -/
theorem assignCells_spec (hpos : 0 < g.nx ∧ 0 < g.ny ∧ 0 < g.nz) (a : Assigner T) (c0 : Vec3 T)
    (p0 : Partition) (hgid : p0.domainGid = 0) (hmap : p0.cellInfoMap = [])
    (ha : Assigner.new [c0] = .ok a) (root : Nat) (hroot : g.whichCell c0 = .ok root)
    (hnear : ∀ c ∈ reached g root, ∃ rr, g.cellCenter c = .ok rr ∧ a.nearestCenter rr = .ok (0, a))
    (fuel : Nat) (hfuel : (reached g root).length ≤ fuel) :
    ∃ l : List Nat, assignCellsToDomain fuel g [c0] p0
        = .ok { p0 with cellInfoMap := l.map fun c => (c, found) } ∧
      l.Perm (reached g root) := by
  set L := reached g root with hL
  have hLcl : ∀ c ∈ L, ∀ o ∈ nbrCoords, g.shifted c o ∈ L := fun c _ o _ =>
    lt_reached (shifted_lt_any hpos c o)
  obtain ⟨new, a1, a2, a3, a4⟩ := addWet_foldl (nbrCoords.map (g.shifted root)) [root] [root]
  obtain ⟨l, w', b1, b2, b3, b4, b5⟩ := floodLoop_spec (g := g) L a p0 hgid hLcl hnear fuel []
    ([root] ++ new) (new.reverse ++ [root])
    (by
      rw [List.nil_append]
      exact ((List.reverse_perm new).append_right _).trans List.perm_append_comm)
    (by
      rw [List.nil_append, List.nodup_append]
      refine ⟨by simp, a2, ?_⟩
      rintro x hx y hy rfl
      exact (a3 x hy).2 hx)
    (by
      intro c hc
      rw [List.nil_append] at hc
      rcases List.mem_append.1 hc with hc | hc
      · rw [List.mem_singleton.1 hc]; exact root_reached root
      · obtain ⟨o, ho, rfl⟩ := List.mem_map.1 (a3 c hc).1
        exact lt_reached (shifted_lt_any hpos root o))
    (by simp) (by simpa using hfuel)
  refine ⟨l, ?_, ?_⟩
  · unfold assignCellsToDomain
    have hidx : idx [c0] p0.domainGid = .ok c0 := by rw [hgid]; rfl
    simp only [ha, hidx, hroot, bind, Except.bind, addNbrsToFlood, a1]
    have hp0 : p0 = { p0 with cellInfoMap := ([] : List Nat).map fun c => (c, found) } := by
      obtain ⟨d, f, m, n⟩ := p0
      simp only at hmap
      rw [hmap]; rfl
    rw [hp0, b1]
    rfl
  · exact closed_perm hpos b2 b4 (b3 root (by simp)) b5

end Flooding
