import Verif.Lemmas.Indices
import Verif.Lemmas.Fails
import Verif.Lemmas.ReachCache
import Verif.Lemmas.Groups
/-!
# Steps that give a result in any arithmetic

With tables of the right sizes, these computations do not panic, whatever the operations on numbers give.
-/
set_option linter.unusedSectionVars false
open Flt
attribute [local irreducible] Rng.lcg Rng.sample Rng.spawn
variable {T : Type} [Flt T] {data : Data T} {dom : Domain T}

theorem idx_lt {α : Type} {l : List α} {i : Nat} (h : i < l.length) : idx l i = .ok l[i] :=
  idx_ok.2 (List.getElem?_eq_getElem h)

theorem ok_of_no_error {ε α : Type} {x : Except ε α} (h : ∀ e, x ≠ .error e) : ∃ a, x = .ok a := by
  cases x with
  | error e => exact absurd rfl (h e)
  | ok a => exact ⟨a, rfl⟩

theorem facetDistances_ok (hm : SoundMesh dom) {c : Nat} (hc : c < dom.cells.length) {planes : List (Plane T)}
    (hp : planes.length = 24) (r d : Vec3 T) (tol : T) :
    ∃ l, facetDistances dom.mesh c r d tol planes = .ok l := by
  unfold facetDistances
  refine mapM_ok_exists fun x hx => ?_
  obtain ⟨pl, i⟩ := x
  have hi := (List.mem_zipIdx' hx).1
  rw [hp] at hi
  obtain ⟨pts, hpts⟩ := hm.coords c hc i hi
  refine ok_of_no_error fun e he => ?_
  dsimp only at he
  unfold facetDistance at he
  dsimp only at he
  split at he
  · simp [pure_error] at he
  · simp only [bind_error, hpts] at he
    rcases he with he | ⟨_, _, he⟩
    · cases he
    · split at he <;> simp [pure_error] at he

theorem updateSpectrum_ok {on : Bool} {c : Container T} {sp : List Nat} {k : Nat} (hk : sp.length = k)
    (h : ∀ p ∈ c.all, p.energyGroup < k) :
    ∃ sp', updateSpectrum on c sp = .ok sp' ∧ sp'.length = k := by
  unfold updateSpectrum
  split
  · obtain ⟨t1, h1⟩ := countSpectrum_ok c.processing sp (fun p hp => by
      rw [hk]; exact h p (by simp [Container.all, hp]))
    have l1 := (countSpectrum_spec h1).1
    obtain ⟨t2, h2⟩ := countSpectrum_ok c.processed t1 (fun p hp => by
      rw [l1, hk]; exact h p (by simp [Container.all, hp]))
    have l2 := (countSpectrum_spec h2).1
    refine ⟨t2, ?_, by rw [l2, l1, hk]⟩
    rw [h1]
    exact h2
  · exact ⟨sp, rfl, hk⟩

theorem findFacet_ok (hm : SoundMesh dom) {c : Nat} (hc : c < dom.cells.length) (ctr : Vec3 T) (which : T)
    {fs : List Nat} (hfs : ∀ f ∈ fs, f < 24) (cur : T) (last : Vec3 T × Vec3 T × Vec3 T) :
    ∃ pts, findFacet dom.mesh c ctr which fs cur last = .ok pts := by
  induction fs generalizing cur last with
  | nil => exact ⟨last, rfl⟩
  | cons f fs ih =>
    obtain ⟨pts, hpts⟩ := hm.coords c hc f (hfs f (by simp))
    unfold findFacet
    rw [hpts]
    dsimp only [bind, Except.bind]
    split
    · exact ⟨_, rfl⟩
    · exact ih (fun f h => hfs f (by simp [h])) _ _

theorem generateCoordinate_ok (hm : SoundMesh dom) {c : Nat} (hc : c < dom.cells.length) (seed : BitVec 64)
    (vol : T) : ∃ x, generateCoordinate3dg seed dom.mesh c vol = .ok x := by
  obtain ⟨ctr, hctr⟩ := hm.center c hc
  unfold generateCoordinate3dg
  rw [hctr]
  dsimp only [bind, Except.bind]
  generalize Rng.sample (T := T) seed = r1
  obtain ⟨u, s⟩ := r1
  dsimp only
  obtain ⟨pts, hpts⟩ := findFacet_ok hm hc ctr (u *. Flt.ofNat 6 *. vol) (fs := List.range 24)
    (fun f h => List.mem_range.1 h) zero (Vec3.zero, Vec3.zero, Vec3.zero)
  rw [hpts]
  obtain ⟨p0, p1, p2⟩ := pts
  dsimp only
  generalize Rng.sample (T := T) s = r1
  obtain ⟨u1, s1⟩ := r1
  dsimp only
  generalize Rng.sample (T := T) s1 = r1
  obtain ⟨u2, s2⟩ := r1
  dsimp only
  generalize Rng.sample (T := T) s2 = r1
  obtain ⟨u3, s3⟩ := r1
  exact ⟨_, rfl⟩

theorem sourceParticle_ok (hm : SoundMesh dom) {c : Nat} (hc : c < dom.cells.length) (sw : T) (cell : CellState T)
    (seed : BitVec 64) : ∃ p, sourceParticle data dom sw c cell seed = .ok p := by
  unfold sourceParticle
  generalize Rng.spawn seed = r1
  obtain ⟨a, b⟩ := r1
  dsimp only
  obtain ⟨⟨x, s⟩, hx⟩ := generateCoordinate_ok hm hc a cell.volume
  rw [hx]
  exact ⟨_, rfl⟩

theorem sourceCells_ok (hm : SoundMesh dom) {rates : List T} {sw : T} {cells : List (CellState T)}
    (hn : ∀ cell ∈ cells, ∃ n, cellSourceCount data rates sw cell = .ok n) {i : Nat}
    (hi : i + cells.length ≤ dom.cells.length) : ∃ x, sourceCells data dom rates sw cells i = .ok x := by
  induction cells generalizing i with
  | nil => exact ⟨_, rfl⟩
  | cons cell cells ih =>
    simp only [List.length_cons] at hi
    obtain ⟨n, h1⟩ := hn cell (by simp)
    obtain ⟨ps, h2⟩ : ∃ ps, (cellSeeds cell.sourceTally cell.id n).mapM (sourceParticle data dom sw i cell) =
        .ok ps := mapM_ok_exists fun sd _ => sourceParticle_ok hm (by omega) sw cell sd
    obtain ⟨⟨cs, ps'⟩, h3⟩ := ih (fun c h => hn c (by simp [h])) (i := i + 1) (by omega)
    unfold sourceCells
    rw [h1]
    dsimp only [bind, Except.bind]
    rw [h2]
    dsimp only
    rw [h3]
    exact ⟨_, rfl⟩

