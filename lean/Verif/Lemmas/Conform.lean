import Verif.Spec.Direct
import Verif.Lemmas.Prog
import Verif.Lemmas.Counting
/-!
Programs that conform to a direct result: whatever good values their loads return, they never fail,
make the given flux contributions, push the given particles and return the given result within a
bounded number of accesses.
-/
set_option linter.unusedSectionVars false
set_option linter.unnecessarySeqFocus false
attribute [local irreducible] Rng.lcg Rng.sample Rng.spawn
open Flt
variable {T : Type} [Flt T]

/-- `v` is the cross-section that belongs to cache entry `i`. -/
def XsAt (data : Data T) (dom : Domain T) (i : Nat) (v : T) : Prop :=
  ∃ cell group, group < dom.numGroups ∧ cell < dom.cells.length ∧
    i = cell * dom.numGroups + group ∧ directXs data dom cell group = .ok v

/-- A legitimate content of cache entry `i`: empty (not positive) or the right value. -/
def GoodEntry (data : Data T) (dom : Domain T) (i : Nat) (v : T) : Prop :=
  (v >. zero) = false ∨ XsAt data dom i v

/-- Number of entries of the cache and flux tables. -/
def tableSize (dom : Domain T) : Nat := dom.cells.length * dom.numGroups

/-- What follows the load of entry `i`: a positive value is used as it is, otherwise the right value is
stored and used. -/
def LazyRead (data : Data T) (dom : Domain T) {α : Type} (i : Nat) (k : T → Prog T α) : Prop :=
  ∃ (x : T) (K : T → Prog T α), XsAt data dom i x ∧ (∀ v, (v >. zero) = true → k v = K v) ∧
    ∀ v, (v >. zero) = false → k v = .store i x (fun _ => K x)

/-- See the file header; `n` bounds the number of accesses. -/
inductive Conforms (data : Data T) (dom : Domain T) {α : Type} :
    Nat → Prog T α → List (Nat × T) → List (Particle T) → α → Prop where
  | ret {n a} : Conforms data dom n (.ret a) [] [] a
  | load {n i k cs ps a} : i < tableSize dom → LazyRead data dom i k →
      (∀ v, GoodEntry data dom i v → Conforms data dom n (k v) cs ps a) →
      Conforms data dom (n + 1) (.load i k) cs ps a
  | store {n i v k cs ps a} : i < tableSize dom → XsAt data dom i v →
      Conforms data dom n (k ()) cs ps a → Conforms data dom (n + 1) (.store i v k) cs ps a
  | addFlux {n i v k cs ps a} : i < tableSize dom → Conforms data dom n (k ()) cs ps a →
      Conforms data dom (n + 1) (.addFlux i v k) ((i, v) :: cs) ps a
  | pushExtra {n qs k cs ps a} : Conforms data dom n (k ()) cs ps a →
      Conforms data dom (n + 1) (.pushExtra qs k) cs (qs ++ ps) a

namespace Conforms
variable {data : Data T} {dom : Domain T} {α β : Type}

theorem mono {n m : Nat} {p : Prog T α} {cs ps a} (h : Conforms data dom n p cs ps a) (hnm : n ≤ m) :
    Conforms data dom m p cs ps a := by
  induction h generalizing m with
  | ret => exact .ret
  | load hi hz _ ih =>
    obtain ⟨m, rfl⟩ : ∃ k, m = k + 1 := ⟨m - 1, by omega⟩
    exact .load hi hz fun v hv => ih v hv (by omega)
  | store hi hx _ ih =>
    obtain ⟨m, rfl⟩ : ∃ k, m = k + 1 := ⟨m - 1, by omega⟩
    exact .store hi hx (ih (by omega))
  | addFlux hi _ ih =>
    obtain ⟨m, rfl⟩ : ∃ k, m = k + 1 := ⟨m - 1, by omega⟩
    exact .addFlux hi (ih (by omega))
  | pushExtra _ ih =>
    obtain ⟨m, rfl⟩ : ∃ k, m = k + 1 := ⟨m - 1, by omega⟩
    exact .pushExtra (ih (by omega))

theorem bind {n m : Nat} {p : Prog T α} {f : α → Prog T β} {cs ps a cs' ps' b}
    (h : Conforms data dom n p cs ps a) (h' : Conforms data dom m (f a) cs' ps' b) :
    Conforms data dom (n + m) (p.bind f) (cs ++ cs') (ps ++ ps') b := by
  induction h with
  | ret => simpa [Prog.bind] using h'.mono (by omega)
  | @load n i k cs ps a hi hz _ ih =>
    simp only [Prog.bind]
    rw [show n + 1 + m = n + m + 1 by omega]
    refine .load hi ?_ fun v hv => ih v hv h'
    obtain ⟨x, K, hx, h1, h2⟩ := hz
    exact ⟨x, fun v => (K v).bind f, hx, fun v hv => by dsimp only; rw [h1 v hv],
      fun v hv => by dsimp only; rw [h2 v hv]; rfl⟩
  | @store n i v k cs ps a hi hx _ ih =>
    simp only [Prog.bind]
    rw [show n + 1 + m = n + m + 1 by omega]
    exact .store hi hx (ih h')
  | @addFlux n i v k cs ps a hi _ ih =>
    simp only [Prog.bind]
    rw [show n + 1 + m = n + m + 1 by omega]
    exact .addFlux hi (ih h')
  | @pushExtra n qs k cs ps a _ ih =>
    simp only [Prog.bind]
    rw [show n + 1 + m = n + m + 1 by omega, List.append_assoc]
    exact .pushExtra (ih h')

theorem ofExcept {e : Except Panic α} {a : α} (h : e = .ok a) :
    Conforms data dom 0 (Prog.ofExcept e) [] [] a := by
  subst h; exact .ret

theorem not_fail {n : Nat} {e : Panic} {cs ps} {a : α}
    (h : Conforms data dom n (.fail e : Prog T α) cs ps a) : False := by
  cases h

end Conforms

/-- The energy group of every successful direct look-up is within the table. -/
def GroupsChecked (data : Data T) (dom : Domain T) : Prop :=
  ∀ cell group v, directXs data dom cell group = .ok v → group < dom.numGroups

theorem directXs_cell {data : Data T} {dom : Domain T} {cell group : Nat} {v : T}
    (h : directXs data dom cell group = .ok v) : cell < dom.cells.length := by
  simp only [directXs, bind_ok, idx_ok] at h
  obtain ⟨cs, h1, _⟩ := h
  exact (List.getElem?_eq_some_iff.1 h1).1

theorem index_lt {cell group ng n : Nat} (hg : group < ng) (hc : cell < n) :
    cell * ng + group < n * ng := by
  have : (cell + 1) * ng ≤ n * ng := Nat.mul_le_mul_right _ hc
  rw [Nat.add_mul, Nat.one_mul] at this
  omega

theorem index_inj {c g c' g' ng : Nat} (hg : g < ng) (hg' : g' < ng)
    (h : c * ng + g = c' * ng + g') : c = c' ∧ g = g' := by
  have h1 : (c * ng + g) / ng = c := by
    rw [Nat.mul_comm, Nat.mul_add_div (by omega), Nat.div_eq_of_lt hg]; rfl
  have h2 : (c' * ng + g') / ng = c' := by
    rw [Nat.mul_comm, Nat.mul_add_div (by omega), Nat.div_eq_of_lt hg']; rfl
  have : c = c' := by rw [← h1, ← h2, h]
  subst this
  exact ⟨rfl, by omega⟩

/-- The cached look-up conforms to direct computation. -/
theorem cachedXs_conforms {data : Data T} {dom : Domain T} (hgc : GroupsChecked data dom)
    {cell group : Nat} {xs : T} (h : directXs data dom cell group = .ok xs) :
    Conforms data dom 2 (cachedXs data dom cell group) [] [] xs := by
  have hg := hgc _ _ _ h
  have hc := directXs_cell h
  have hi : cell * dom.numGroups + group < tableSize dom := index_lt hg hc
  unfold cachedXs
  refine .load hi ⟨xs, .ret, ⟨cell, group, hg, hc, rfl, h⟩, fun v hv => if_pos hv, fun v hv => ?_⟩
    fun v hv => ?_
  · dsimp only; rw [if_neg (by rw [hv]; decide), h]
  by_cases hpos : (v >. zero) = true
  · rw [if_pos hpos]
    rcases hv with hv | ⟨cell', group', hg', hc', he, hx⟩
    · rw [hpos] at hv; cases hv
    · obtain ⟨rfl, rfl⟩ := index_inj hg hg' he
      rw [h] at hx
      cases hx
      exact .ret
  · rw [if_neg hpos, h]
    exact .store hi ⟨cell, group, hg, hc, rfl, h⟩ .ret

theorem outcome_conforms {data : Data T} {dom : Domain T} (hgc : GroupsChecked data dom)
    {p : Particle T} {r : SegOutcome × Particle T} (h : directOutcome data dom p = .ok r) :
    Conforms data dom 2 (outcome data dom p) [] [] r := by
  unfold directOutcome at h
  unfold outcome
  dsimp only at h ⊢
  rw [bind_ok] at h
  obtain ⟨xs, hx, h⟩ := h
  have hb := Conforms.bind (cachedXs_conforms hgc hx)
    (f := fun xs => Prog.ofExcept (outcomeWithXs dom p.getSpeed (prepareForced p).1 (prepareForced p).2 xs))
    (Conforms.ofExcept h)
  exact hb

theorem directOutcome_frame {data : Data T} {dom : Domain T} {p q : Particle T} {o : SegOutcome}
    (h : directOutcome data dom p = .ok (o, q)) : SegFrame (prepareForced p).2 q ∧
      ∃ xs, directXs data dom (prepareForced p).2.cell (prepareForced p).2.energyGroup = .ok xs := by
  unfold directOutcome at h
  dsimp only at h
  rw [bind_ok] at h
  obtain ⟨xs, hx, h⟩ := h
  simp only [outcomeWithXs, bind_ok, Prod.exists] at h
  obtain ⟨nf, q1, hq, h2⟩ := h
  have hf := nearestFacet_frame hq
  have hq' : SegFrame (prepareXs (prepareForced p).2 xs) q1 := by
    rw [hf]; constructor <;> rfl
  exact ⟨(prepareXs_frame _ xs).trans (hq'.trans (applyOutcome_frame h2)), xs, hx⟩

/-- The flux entry of a segment is within the table. -/
theorem directOutcome_index {data : Data T} {dom : Domain T} (hgc : GroupsChecked data dom)
    {p q : Particle T} {o : SegOutcome} (h : directOutcome data dom p = .ok (o, q)) :
    fluxIndex dom.numGroups q.cell q.energyGroup < tableSize dom := by
  obtain ⟨hf, xs, hx⟩ := directOutcome_frame h
  rw [fluxIndex, hf.cell, hf.energyGroup]
  exact index_lt (hgc _ _ _ hx) (directXs_cell hx)

/-! ### Additivity of events -/

/-- Add a previous balance and previous extra particles. -/
def TrackState.after (b : Balance) (ex : List (Particle T)) (st : TrackState T) : TrackState T :=
  { particle := st.particle, balance := b.add st.balance, extra := ex ++ st.extra }

theorem tallyCollision_after (b b0 : Balance) (t : ReactionType) (n : Nat) :
    tallyCollision (b.add b0) t n = b.add (tallyCollision b0 t n) := by
  cases t <;> simp only [tallyCollision, Balance.add] <;> ext <;> simp only [] <;> omega

theorem collisionEvent_after {data : Data T} {fuel mat : Nat} {d : T} {st st' : TrackState T}
    {keep : Bool} (b : Balance) (ex : List (Particle T))
    (h : collisionEvent data fuel mat d st = .ok (keep, st')) :
    collisionEvent data fuel mat d (st.after b ex) = .ok (keep, st'.after b ex) := by
  unfold collisionEvent at h ⊢
  simp only [TrackState.after]
  generalize st.particle.getCurrentXs = xp at h
  obtain ⟨xs, p⟩ := xp
  dsimp only at h ⊢
  rw [bind_ok] at h
  obtain ⟨m, hm, h⟩ := h
  rw [hm]
  simp only [bind_ok] at h
  obtain ⟨r, hr, h⟩ := h
  simp only [bind, Except.bind, hr]
  cases r with
  | none => simp at h
  | some r =>
    simp only [bind_ok, Prod.exists] at h
    obtain ⟨n, p', e, hs, h⟩ := h
    simp only [hs]
    simp only [pure_ok, Prod.mk.injEq] at h
    obtain ⟨rfl, rfl⟩ := h
    simp only [pure, Except.pure, tallyCollision_after, List.append_assoc]

theorem segmentEvent_after {data : Data T} {dom : Domain T} {fuel : Nat} {o : SegOutcome}
    {st st' : TrackState T} {keep : Bool} (b : Balance) (ex : List (Particle T))
    (h : segmentEvent data dom fuel o st = .ok (keep, st')) :
    segmentEvent data dom fuel o (st.after b ex) = .ok (keep, st'.after b ex) := by
  cases o with
  | census =>
    simp only [segmentEvent, Except.ok.injEq, Prod.mk.injEq] at h ⊢
    obtain ⟨rfl, rfl⟩ := h
    refine ⟨rfl, ?_⟩
    simp only [TrackState.after, Balance.add, TrackState.mk.injEq, and_true, true_and]
    ext <;> simp only [] <;> omega
  | collision =>
    simp only [segmentEvent, collisionBranch, bind_ok, pure_ok, Prod.exists, Prod.mk.injEq] at h ⊢
    obtain ⟨cs, hcs, k, st1, hce, g, hg, rfl, rfl⟩ := h
    exact ⟨cs, hcs, k, _, collisionEvent_after b ex hce, g, hg, rfl, rfl⟩
  | facetCrossing =>
    simp only [segmentEvent, facetBranch, bind_ok] at h ⊢
    obtain ⟨conn, hconn, fa, hfa, p, hp, h⟩ := h
    refine ⟨conn, hconn, fa, hfa, p, hp, ?_⟩
    split at h
    · simp only [pure_ok, Prod.mk.injEq] at h ⊢
      obtain ⟨rfl, rfl⟩ := h
      exact ⟨rfl, rfl⟩
    · simp only [bind_ok, pure_ok, Prod.mk.injEq] at h ⊢
      obtain ⟨pls, hpls, pl, hpl, rfl, rfl⟩ := h
      exact ⟨pls, hpls, pl, hpl, rfl, rfl⟩
    · cases h
    · simp only [pure_ok, Prod.mk.injEq] at h ⊢
      obtain ⟨rfl, rfl⟩ := h
      refine ⟨rfl, ?_⟩
      simp only [TrackState.after, Balance.add, TrackState.mk.injEq, and_true, true_and]
      ext <;> simp only [] <;> omega
    · cases h

/-! ### Tracking -/

theorem trackLoop_conforms {data : Data T} {dom : Domain T} (hgc : GroupsChecked data dom)
    {cfuel fuel : Nat} {p : Particle T} {h : Hist T} (hd : directLoop data dom cfuel fuel p = .ok h)
    (b : Balance) (ex : List (Particle T)) :
    Conforms data dom (3 * fuel) (trackLoop data dom cfuel fuel { particle := p, balance := b, extra := ex })
      h.contribs [] { particle := h.particle, balance := b.add h.balance, extra := ex ++ h.extra } := by
  induction fuel generalizing p h b ex with
  | zero => simp [directLoop] at hd
  | succ n ih =>
    unfold directLoop at hd
    rw [bind_ok] at hd
    obtain ⟨⟨o, q⟩, ho, hd⟩ := hd
    dsimp only at hd
    rw [bind_ok] at hd
    obtain ⟨⟨keep, st⟩, hev, hd⟩ := hd
    dsimp only at hd
    unfold trackLoop
    have hi := directOutcome_index hgc ho
    have hev' := segmentEvent_after b ex hev
    have hstep : Conforms data dom 3
        (trackStep data dom cfuel { particle := p, balance := b, extra := ex })
        [(fluxIndex dom.numGroups q.cell q.energyGroup, q.segmentPathLength *. q.weight)] []
        (keep, st.after b ex) := by
      unfold trackStep
      refine Conforms.bind (n := 2) (m := 1) (cs := []) (ps := []) (a := (o, q))
        (outcome_conforms hgc ho) ?_
      refine Conforms.addFlux (n := 0) hi ?_
      apply Conforms.ofExcept
      rw [← hev']
      congr 1
      simp only [TrackState.after, List.append_nil, TrackState.mk.injEq, and_true, true_and]
      rfl
    cases keep with
    | false =>
      simp only [Bool.false_eq_true, if_false, pure_ok] at hd
      subst hd
      have := Conforms.bind (m := 0) hstep (f := fun x =>
        if x.1 = true then trackLoop data dom cfuel n x.2 else .ret x.2) (cs' := []) (ps' := [])
        (b := st.after b ex) (by simpa using Conforms.ret)
      exact (this.mono (by omega))
    | true =>
      simp only [if_true, bind_ok, pure_ok] at hd
      obtain ⟨h2, hd2, rfl⟩ := hd
      have hrec := ih hd2 (b.add st.balance) (ex ++ st.extra)
      have := Conforms.bind hstep (f := fun x =>
        if x.1 = true then trackLoop data dom cfuel n x.2 else .ret x.2)
        (cs' := h2.contribs) (ps' := [])
        (b := ⟨h2.particle, (b.add st.balance).add h2.balance, (ex ++ st.extra) ++ h2.extra⟩)
        (by rw [if_pos rfl]; exact hrec)
      rw [Balance.add_assoc, List.append_assoc] at this
      exact this.mono (by omega)

theorem trackGuts_conforms {data : Data T} {dom : Domain T} (hgc : GroupsChecked data dom)
    {fuel : Nat} {p : Particle T} {h : Hist T} (hd : directHist data dom fuel p = .ok h)
    (b : Balance) (ex : List (Particle T)) :
    Conforms data dom (3 * fuel) (trackGuts data dom fuel { particle := p, balance := b, extra := ex })
      h.contribs [] { particle := h.particle, balance := b.add h.balance, extra := ex ++ h.extra } := by
  unfold directHist at hd
  rw [bind_ok] at hd
  obtain ⟨q, hq, hd⟩ := hd
  unfold trackGuts
  have := Conforms.bind (Conforms.ofExcept (data := data) (dom := dom) hq)
    (f := fun q => trackLoop data dom fuel fuel { particle := q, balance := b, extra := ex })
    (trackLoop_conforms hgc hd b ex)
  simpa using this

theorem Balance.sum_cons (b : Balance) (l : List Balance) :
    Balance.sum (b :: l) = b.add (Balance.sum l) := by
  have : ∀ (l : List Balance) (a c : Balance), l.foldl Balance.add (a.add c) = a.add (l.foldl Balance.add c) := by
    intro l
    induction l with
    | nil => intro a c; rfl
    | cons d l ih => intro a c; simp only [List.foldl_cons]; rw [Balance.add_assoc, ih]
  unfold Balance.sum
  rw [List.foldl_cons, Balance.zero_add]
  have h := this l b {}
  rw [Balance.add_zero] at h
  exact h

theorem trackAll_conforms {data : Data T} {dom : Domain T} (hgc : GroupsChecked data dom)
    {fuel : Nat} {ps : List (Particle T)} {hs : List (Hist T)}
    (hd : ps.mapM (directHist data dom fuel) = .ok hs) (b : Balance) (ex : List (Particle T)) :
    Conforms data dom (3 * fuel * ps.length) (trackAll data dom fuel ps b ex)
      (hs.flatMap (·.contribs)) []
      (hs.map (·.particle), b.add (Balance.sum (hs.map (·.balance))), ex ++ hs.flatMap (·.extra)) := by
  induction ps generalizing hs b ex with
  | nil =>
    simp only [List.mapM_nil, pure_ok] at hd
    subst hd
    simp only [List.map_nil, Balance.sum, List.foldl_nil, Balance.add_zero, List.flatMap_nil,
      List.append_nil]
    exact .ret
  | cons p ps ih =>
    simp only [List.mapM_cons, bind_ok, pure_ok] at hd
    obtain ⟨h, hp, hs', hps, rfl⟩ := hd
    unfold trackAll
    have h1 := trackGuts_conforms hgc hp b ex
    have h2 := ih hps (b.add h.balance) (ex ++ h.extra)
    have h3 := Conforms.bind h2 (f := fun x : List (Particle T) × Balance × List (Particle T) =>
      (.ret (h.particle :: x.1, x.2.1, x.2.2) : Prog T _)) (m := 0) (cs' := []) (ps' := []) .ret
    have h4 := Conforms.bind h1 (f := fun st => (trackAll data dom fuel ps st.balance st.extra).bind
      fun x => .ret (st.particle :: x.1, x.2.1, x.2.2)) h3
    simp only [List.append_nil, List.append_assoc, Balance.add_assoc] at h4
    simp only [List.flatMap_cons, List.map_cons, List.length_cons, Balance.sum_cons]
    refine Conforms.mono h4 ?_
    rw [Nat.mul_add, Nat.mul_one]; omega

theorem chunkProg_conforms {data : Data T} {dom : Domain T} (hgc : GroupsChecked data dom)
    {fuel : Nat} {ps : List (Particle T)} {hs : List (Hist T)}
    (hd : ps.mapM (directHist data dom fuel) = .ok hs) :
    Conforms data dom (3 * fuel * ps.length + 1) (chunkProg data dom fuel ps)
      (hs.flatMap (·.contribs)) (hs.flatMap (·.extra))
      (hs.map (·.particle), Balance.sum (hs.map (·.balance))) := by
  unfold chunkProg
  have h1 := trackAll_conforms hgc hd {} []
  rw [Balance.zero_add, List.nil_append] at h1
  have h2 := Conforms.bind h1 (f := fun x : List (Particle T) × Balance × List (Particle T) =>
    (.pushExtra x.2.2 fun _ => .ret (x.1, x.2.1) : Prog T _)) (.pushExtra (n := 0) .ret)
  simpa using h2

/-! ### Execution of a pool of conforming programs -/

/-- The shared memory is consistent: the tables have the right size and the cache holds only
legitimate values. -/
structure MemOk (data : Data T) (dom : Domain T) (m : Shared T) : Prop where
  cacheLen : m.cache.length = tableSize dom
  fluxLen : m.flux.length = tableSize dom
  cache : ∀ (i : Nat) (v : T), m.cache[i]? = some v → GoodEntry data dom i v

theorem addContribs_length (flux : List T) (cs : List (Nat × T)) :
    (addContribs flux cs).length = flux.length := by
  induction cs generalizing flux with
  | nil => rfl
  | cons c cs ih =>
    have := ih (flux.modify c.1 (fun x => x +. c.2))
    rw [List.length_modify] at this
    exact this

theorem addContribs_append (flux : List T) (a b : List (Nat × T)) :
    addContribs flux (a ++ b) = addContribs (addContribs flux a) b := by
  unfold addContribs; rw [List.foldl_append]

theorem set_eq_modify {α : Type} (l : List α) (i : Nat) (x : α) (f : α → α) (h : l[i]? = some x) :
    l.set i (f x) = l.modify i f := by
  apply List.ext_getElem?
  intro j
  rw [List.getElem?_modify, List.getElem?_set]
  by_cases hij : i = j
  · subst hij
    have h1 := (List.getElem?_eq_some_iff.1 h).1
    rw [if_pos rfl, if_pos h1, h]
    simp
  · simp [hij]

/-- One step of a conforming program. -/
theorem Conforms.step {data : Data T} {dom : Domain T} {α : Type} {n : Nat} {p p' : Prog T α}
    {cs ps a} {m m' : Shared T} (h : Conforms data dom n p cs ps a) (hm : MemOk data dom m)
    (hs : Prog.Step p m p' m') :
    MemOk data dom m' ∧ ∃ n' dcs dps cs' ps', n = n' + 1 ∧ cs = dcs ++ cs' ∧ ps = dps ++ ps' ∧
      m'.flux = addContribs m.flux dcs ∧ m'.extra = m.extra ++ dps ∧
      Conforms data dom n' p' cs' ps' a := by
  cases h with
  | ret => cases hs
  | @load n i k cs ps a hi _ hk =>
    cases hs with
    | load hv => exact ⟨hm, n, [], [], cs, ps, rfl, rfl, rfl, rfl, by simp, hk _ (hm.cache _ _ hv)⟩
    | loadOob hv =>
      rw [List.getElem?_eq_none_iff, hm.cacheLen] at hv
      omega
  | @store n i v k cs ps a hi hx hk =>
    cases hs with
    | store hv =>
      refine ⟨⟨by simpa using hm.cacheLen, hm.fluxLen, ?_⟩, n, [], [], cs, ps, rfl, rfl, rfl, rfl,
        by simp, hk⟩
      intro j w hw
      dsimp only at hw
      rw [List.getElem?_set] at hw
      split at hw
      · next hij =>
        cases hw; subst hij; exact .inr hx
      · exact hm.cache j w hw
    | storeOob hv =>
      rw [hm.cacheLen] at hv
      omega
  | @addFlux n i v k cs ps a hi hk =>
    cases hs with
    | @addFlux _ _ _ _ x hv =>
      refine ⟨⟨hm.cacheLen, by simpa using hm.fluxLen, hm.cache⟩, n, [(i, v)], [], cs, ps, rfl, rfl,
        rfl, ?_, by simp, hk⟩
      exact set_eq_modify m.flux i x (fun x => x +. v) hv
    | addFluxOob hv =>
      rw [List.getElem?_eq_none_iff, hm.fluxLen] at hv
      omega
  | @pushExtra n qs k cs ps a hk =>
    cases hs with
    | pushExtra =>
      exact ⟨⟨hm.cacheLen, hm.fluxLen, hm.cache⟩, n, [], qs, cs, ps, rfl, rfl, rfl, rfl, rfl, hk⟩

/-- A conforming program that is not finished can make a step. -/
theorem Conforms.progress {data : Data T} {dom : Domain T} {α : Type} {n : Nat} {p : Prog T α}
    {cs ps a} {m : Shared T} (h : Conforms data dom n p cs ps a) (hm : MemOk data dom m) :
    p = .ret a ∨ ∃ p' m', Prog.Step p m p' m' := by
  cases h with
  | ret => exact .inl rfl
  | load hi _ _ =>
    have hi' := hi
    rw [← hm.cacheLen] at hi'
    exact .inr ⟨_, _, .load (List.getElem?_eq_getElem hi')⟩
  | store hi _ _ => exact .inr ⟨_, _, .store (by rw [hm.cacheLen]; exact hi)⟩
  | addFlux hi _ =>
    have hi' := hi
    rw [← hm.fluxLen] at hi'
    exact .inr ⟨_, _, .addFlux (List.getElem?_eq_getElem hi')⟩
  | pushExtra _ => exact .inr ⟨_, _, .pushExtra⟩

/-- What a worker still has to do. -/
structure Job (T : Type) (α : Type) where
  steps : Nat
  contribs : List (Nat × T)
  pushes : List (Particle T)
  result : α

/-- Every worker conforms to its job. -/
def PoolConforms (data : Data T) (dom : Domain T) {α : Type} (pool : List (Prog T α))
    (jobs : List (Job T α)) : Prop :=
  pool.length = jobs.length ∧ ∀ (j : Nat) (p : Prog T α) (w : Job T α), pool[j]? = some p →
    jobs[j]? = some w → Conforms data dom w.steps p w.contribs w.pushes w.result

/-- Replacing one item of a list by two of its parts. -/
theorem flatMap_set_perm {α β : Type} (l : List α) (f : α → List β) (j : Nat) (x y : α) (d : List β)
    (h : l[j]? = some x) (hf : f x = d ++ f y) :
    (l.flatMap f).Perm (d ++ (l.set j y).flatMap f) := by
  induction l generalizing j with
  | nil => simp at h
  | cons a l ih =>
    cases j with
    | zero =>
      simp only [List.getElem?_cons_zero, Option.some.injEq] at h
      subst h
      simp only [List.set_cons_zero, List.flatMap_cons, hf, List.append_assoc]
      exact .refl _
    | succ j =>
      simp only [List.set_cons_succ, List.flatMap_cons]
      refine ((ih j (by simpa using h)).append_left _).trans ?_
      rw [← List.append_assoc, ← List.append_assoc]
      exact List.perm_append_comm.append_right _

theorem sum_set_succ (l : List Nat) (j n : Nat) (h : l[j]? = some (n + 1)) :
    l.sum = (l.set j n).sum + 1 := by
  induction l generalizing j with
  | nil => simp at h
  | cons a l ih =>
    cases j with
    | zero =>
      simp only [List.getElem?_cons_zero, Option.some.injEq] at h
      subst h
      simp; omega
    | succ j =>
      have := ih j (by simpa using h)
      simp only [List.set_cons_succ, List.sum_cons]
      omega

/-- One step of a conforming pool. -/
theorem PoolConforms.step {data : Data T} {dom : Domain T} {α : Type} {pool pool' : List (Prog T α)}
    {jobs : List (Job T α)} {m m' : Shared T} (h : PoolConforms data dom pool jobs)
    (hm : MemOk data dom m) (hs : PoolStep pool m pool' m') :
    MemOk data dom m' ∧ ∃ jobs' dcs dps, PoolConforms data dom pool' jobs' ∧
      jobs'.map (·.result) = jobs.map (·.result) ∧
      (jobs.map (·.steps)).sum = (jobs'.map (·.steps)).sum + 1 ∧
      (jobs.flatMap (·.contribs)).Perm (dcs ++ jobs'.flatMap (·.contribs)) ∧
      (jobs.flatMap (·.pushes)).Perm (dps ++ jobs'.flatMap (·.pushes)) ∧
      m'.flux = addContribs m.flux dcs ∧ m'.extra = m.extra ++ dps := by
  obtain ⟨hlen, hc⟩ := h
  cases hs with
  | @mk j p p' _ hj hstep =>
    have hjlt := (List.getElem?_eq_some_iff.1 hj).1
    have hw : jobs[j]? = some jobs[j] := List.getElem?_eq_getElem (by omega)
    have hcj := hc j p _ hj hw
    obtain ⟨hm', n', dcs, dps, cs', ps', e1, e2, e3, e4, e5, hc'⟩ := hcj.step hm hstep
    refine ⟨hm', jobs.set j ⟨n', cs', ps', jobs[j].result⟩, dcs, dps, ⟨by simpa using hlen, ?_⟩,
      ?_, ?_, ?_, ?_, e4, e5⟩
    · intro i q w hq hwi
      rw [List.getElem?_set] at hq hwi
      by_cases hij : j = i
      · subst hij
        rw [if_pos rfl, if_pos hjlt] at hq
        rw [if_pos rfl, if_pos (by omega)] at hwi
        cases hq; cases hwi
        exact hc'
      · rw [if_neg hij] at hq hwi
        exact hc i q w hq hwi
    · apply List.ext_getElem?
      intro i
      simp only [List.getElem?_map, List.getElem?_set]
      by_cases hij : j = i
      · subst hij
        rw [if_pos rfl, if_pos (by omega), hw]
        rfl
      · rw [if_neg hij]
    · rw [List.map_set]
      apply sum_set_succ
      rw [List.getElem?_map, hw, Option.map_some, e1]
    · exact flatMap_set_perm jobs _ j _ _ dcs hw e2
    · exact flatMap_set_perm jobs _ j _ _ dps hw e3

/-- Any execution of a conforming pool, finished or not. -/
theorem PoolConforms.steps {data : Data T} {dom : Domain T} {α : Type} {pool pool' : List (Prog T α)}
    {jobs : List (Job T α)} {m m' : Shared T} (h : PoolConforms data dom pool jobs)
    (hm : MemOk data dom m) (hs : PoolSteps pool m pool' m') :
    MemOk data dom m' ∧ ∃ jobs' dcs dps, PoolConforms data dom pool' jobs' ∧
      jobs'.map (·.result) = jobs.map (·.result) ∧
      (jobs.flatMap (·.contribs)).Perm (dcs ++ jobs'.flatMap (·.contribs)) ∧
      (jobs.flatMap (·.pushes)).Perm (dps ++ jobs'.flatMap (·.pushes)) ∧
      m'.flux = addContribs m.flux dcs ∧ m'.extra = m.extra ++ dps := by
  induction hs with
  | refl => exact ⟨hm, jobs, [], [], h, rfl, .refl _, .refl _, rfl, by simp⟩
  | tail _ hst ih =>
    obtain ⟨hm1, jobs1, dcs1, dps1, hc1, hr1, hp1, hq1, hf1, he1⟩ := ih
    obtain ⟨hm2, jobs2, dcs2, dps2, hc2, hr2, _, hp2, hq2, hf2, he2⟩ := hc1.step hm1 hst
    refine ⟨hm2, jobs2, dcs1 ++ dcs2, dps1 ++ dps2, hc2, hr2.trans hr1, ?_, ?_, ?_, ?_⟩
    · rw [List.append_assoc]; exact hp1.trans (hp2.append_left _)
    · rw [List.append_assoc]; exact hq1.trans (hq2.append_left _)
    · rw [addContribs_append, ← hf1]; exact hf2
    · rw [he2, he1, List.append_assoc]

/-- A finished conforming pool has done its jobs. -/
theorem PoolConforms.finished {data : Data T} {dom : Domain T} {α : Type} {results : List α}
    {jobs : List (Job T α)} (h : PoolConforms data dom (results.map Prog.ret) jobs) :
    results = jobs.map (·.result) ∧ jobs.flatMap (·.contribs) = [] ∧ jobs.flatMap (·.pushes) = [] := by
  obtain ⟨hlen, hc⟩ := h
  rw [List.length_map] at hlen
  have key : ∀ (j : Nat) (w : Job T α), jobs[j]? = some w → ∃ r, results[j]? = some r ∧
      w.result = r ∧ w.contribs = [] ∧ w.pushes = [] := by
    intro j w hw
    have hj := (List.getElem?_eq_some_iff.1 hw).1
    have hr : results[j]? = some results[j] := List.getElem?_eq_getElem (by omega)
    have := hc j (.ret results[j]) w (by rw [List.getElem?_map, hr]; rfl) hw
    generalize hst : w.steps = st at this
    generalize hcs : w.contribs = cs at this
    generalize hps : w.pushes = ps at this
    generalize hres : w.result = res at this
    cases this
    exact ⟨_, hr, rfl, rfl, rfl⟩
  refine ⟨?_, ?_, ?_⟩
  · apply List.ext_getElem?
    intro j
    rw [List.getElem?_map]
    by_cases hj : j < jobs.length
    · have hw : jobs[j]? = some jobs[j] := List.getElem?_eq_getElem hj
      obtain ⟨r, hr, he, _⟩ := key j _ hw
      rw [hr, hw, Option.map_some, he]
    · rw [List.getElem?_eq_none (by omega), List.getElem?_eq_none (by omega)]
      rfl
  · rw [List.flatMap_eq_nil_iff]
    intro w hw
    obtain ⟨j, hj⟩ := List.mem_iff_getElem?.1 hw
    obtain ⟨_, _, _, h, _⟩ := key j w hj
    exact h
  · rw [List.flatMap_eq_nil_iff]
    intro w hw
    obtain ⟨j, hj⟩ := List.mem_iff_getElem?.1 hw
    obtain ⟨_, _, _, _, h⟩ := key j w hj
    exact h

/-- A conforming pool is finished or can make a step. -/
theorem PoolConforms.progress {data : Data T} {dom : Domain T} {α : Type} {pool : List (Prog T α)}
    {jobs : List (Job T α)} {m : Shared T} (h : PoolConforms data dom pool jobs)
    (hm : MemOk data dom m) :
    (∃ results : List α, pool = results.map Prog.ret) ∨ ∃ pool' m', PoolStep pool m pool' m' := by
  by_cases hall : ∀ (j : Nat) (p : Prog T α), pool[j]? = some p → ∃ a, p = .ret a
  · left
    clear h
    induction pool with
    | nil => exact ⟨[], rfl⟩
    | cons p pool ih =>
      obtain ⟨a, rfl⟩ := hall 0 p rfl
      obtain ⟨rs, rfl⟩ := ih (fun j q hq => hall (j + 1) q (by simpa using hq))
      exact ⟨a :: rs, rfl⟩
  · right
    simp only [not_forall] at hall
    obtain ⟨j, p, hj, hp⟩ := hall
    obtain ⟨hlen, hc⟩ := h
    have hjlt := (List.getElem?_eq_some_iff.1 hj).1
    have hw : jobs[j]? = some jobs[j] := List.getElem?_eq_getElem (by omega)
    rcases (hc j p _ hj hw).progress hm with h1 | ⟨p', m', hs⟩
    · exact (hp ⟨_, h1⟩).elim
    · exact ⟨_, _, .mk hj hs⟩

/-- The number of steps of a conforming pool is bounded. -/
theorem PoolConforms.bound {data : Data T} {dom : Domain T} {α : Type} {k : Nat}
    {pool pool' : List (Prog T α)} {jobs : List (Job T α)} {m m' : Shared T}
    (h : PoolConforms data dom pool jobs) (hm : MemOk data dom m) (hs : PoolRun k pool m pool' m') :
    k ≤ (jobs.map (·.steps)).sum := by
  induction hs generalizing jobs with
  | refl => omega
  | head hst _ ih =>
    obtain ⟨hm1, jobs1, _, _, hc1, _, hsum, _⟩ := h.step hm hst
    have := ih hc1 hm1
    omega

/-- Every execution of a conforming pool can be completed. -/
theorem PoolConforms.complete {data : Data T} {dom : Domain T} {α : Type}
    {pool : List (Prog T α)} {jobs : List (Job T α)} {m : Shared T}
    (h : PoolConforms data dom pool jobs) (hm : MemOk data dom m) :
    ∃ (results : List α) (m' : Shared T), PoolSteps pool m (results.map Prog.ret) m' := by
  generalize hn : (jobs.map (·.steps)).sum = n
  induction n generalizing pool jobs m with
  | zero =>
    rcases h.progress hm with ⟨rs, rfl⟩ | ⟨pool', m', hs⟩
    · exact ⟨rs, m, .refl⟩
    · obtain ⟨_, _, _, _, _, _, hsum, _⟩ := h.step hm hs
      omega
  | succ n ih =>
    rcases h.progress hm with ⟨rs, rfl⟩ | ⟨pool', m', hs⟩
    · exact ⟨rs, m, .refl⟩
    · obtain ⟨hm1, jobs1, _, _, hc1, _, hsum, _⟩ := h.step hm hs
      obtain ⟨rs, m2, hss⟩ := ih hc1 hm1 (by omega)
      exact ⟨rs, m2, PoolSteps.head hs hss⟩

/-- A sequential run of a conforming program. -/
theorem Conforms.run {data : Data T} {dom : Domain T} {α : Type} {n : Nat} {p : Prog T α}
    {cs ps a} {m : Shared T} (h : Conforms data dom n p cs ps a) (hm : MemOk data dom m) :
    ∃ m', p.run m = .ok (a, m') ∧ MemOk data dom m' ∧ m'.flux = addContribs m.flux cs ∧
      m'.extra = m.extra ++ ps := by
  induction h generalizing m with
  | ret => exact ⟨m, rfl, hm, rfl, by simp⟩
  | load hi _ _ ih =>
    have hi' := hi
    rw [← hm.cacheLen] at hi'
    have hv := List.getElem?_eq_getElem hi'
    simp only [Prog.run, hv]
    exact ih _ (hm.cache _ _ hv) hm
  | @store n i v k cs ps a hi hx hk ih =>
    have hs : Prog.Step (.store i v k) m (k ()) { m with cache := m.cache.set i v } :=
      .store (by rw [hm.cacheLen]; exact hi)
    obtain ⟨hm1, _⟩ := (Conforms.store hi hx hk).step hm hs
    simp only [Prog.run, if_pos (show i < m.cache.length by rw [hm.cacheLen]; exact hi)]
    exact ih hm1
  | @addFlux n i v k cs ps a hi hk ih =>
    have hi' := hi
    rw [← hm.fluxLen] at hi'
    have hv := List.getElem?_eq_getElem hi'
    have hs : Prog.Step (.addFlux i v k) m (k ()) _ := .addFlux hv
    obtain ⟨hm1, _⟩ := (Conforms.addFlux hi hk).step hm hs
    simp only [Prog.run, hv]
    obtain ⟨m', h1, h2, h3, h4⟩ := ih hm1
    refine ⟨m', h1, h2, ?_, h4⟩
    rw [h3]
    change addContribs (m.flux.set i _) cs = addContribs (m.flux.modify i _) cs
    rw [set_eq_modify m.flux i _ (fun x => x +. v) hv]
  | @pushExtra n qs k cs ps a hk ih =>
    simp only [Prog.run]
    obtain ⟨m', h1, h2, h3, h4⟩ := ih (m := { m with extra := m.extra ++ qs })
      ⟨hm.cacheLen, hm.fluxLen, hm.cache⟩
    exact ⟨m', h1, h2, h3, by rw [h4, List.append_assoc]⟩
