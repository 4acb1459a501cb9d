import Verif.Model.Prog
/-!
# Traces of programs

`Prog.May p tr a`: with *some* answers to its loads, program `p` performs the accesses `tr` and
returns `a`.  Every execution, sequential or concurrent, projects to such a trace.
-/

/-- An access to the shared memory, with the value seen by a load. -/
inductive Ev (T : Type) where
  | load (i : Nat) (v : T)
  | store (i : Nat) (v : T)
  | add (i : Nat) (v : T)
  | push (ps : List (Particle T))

set_option linter.unusedSectionVars false
namespace Prog
variable {T α β : Type}

/-- Possible traces and results. -/
inductive May : Prog T α → List (Ev T) → α → Prop where
  | ret {a} : May (.ret a) [] a
  | load {i k v tr a} : May (k v) tr a → May (.load i k) (.load i v :: tr) a
  | store {i v k tr a} : May (k ()) tr a → May (.store i v k) (.store i v :: tr) a
  | addFlux {i v k tr a} : May (k ()) tr a → May (.addFlux i v k) (.add i v :: tr) a
  | pushExtra {ps k tr a} : May (k ()) tr a → May (.pushExtra ps k) (.push ps :: tr) a

theorem May.ret_inv {a : α} {tr : List (Ev T)} {b : α} (h : May (.ret a) tr b) : tr = [] ∧ b = a := by
  cases h; exact ⟨rfl, rfl⟩

theorem May.fail_inv {e : Panic} {tr : List (Ev T)} {b : α} (h : May (.fail e) tr b) : False := by
  cases h

theorem May.bind {p : Prog T α} {f : α → Prog T β} {t1 t2 : List (Ev T)} {a : α} {b : β}
    (h1 : May p t1 a) (h2 : May (f a) t2 b) : May (p.bind f) (t1 ++ t2) b := by
  induction h1 with
  | ret => simpa [Prog.bind] using h2
  | load _ ih => exact .load (ih h2)
  | store _ ih => exact .store (ih h2)
  | addFlux _ ih => exact .addFlux (ih h2)
  | pushExtra _ ih => exact .pushExtra (ih h2)

theorem May.bind_inv {p : Prog T α} {f : α → Prog T β} {tr : List (Ev T)} {b : β}
    (h : May (p.bind f) tr b) :
    ∃ t1 t2 a, tr = t1 ++ t2 ∧ May p t1 a ∧ May (f a) t2 b := by
  induction p generalizing tr with
  | ret a => exact ⟨[], tr, a, rfl, .ret, h⟩
  | fail e => exact (May.fail_inv h).elim
  | load i k ih =>
    simp only [Prog.bind] at h
    cases h with
    | load h' =>
      obtain ⟨t1, t2, a, rfl, h1, h2⟩ := ih _ h'
      exact ⟨_ :: t1, t2, a, rfl, .load h1, h2⟩
  | store i v k ih =>
    simp only [Prog.bind] at h
    cases h with
    | store h' =>
      obtain ⟨t1, t2, a, rfl, h1, h2⟩ := ih _ h'
      exact ⟨_ :: t1, t2, a, rfl, .store h1, h2⟩
  | addFlux i v k ih =>
    simp only [Prog.bind] at h
    cases h with
    | addFlux h' =>
      obtain ⟨t1, t2, a, rfl, h1, h2⟩ := ih _ h'
      exact ⟨_ :: t1, t2, a, rfl, .addFlux h1, h2⟩
  | pushExtra ps k ih =>
    simp only [Prog.bind] at h
    cases h with
    | pushExtra h' =>
      obtain ⟨t1, t2, a, rfl, h1, h2⟩ := ih _ h'
      exact ⟨_ :: t1, t2, a, rfl, .pushExtra h1, h2⟩

theorem May.ofExcept_inv {e : Except Panic α} {tr : List (Ev T)} {a : α}
    (h : May (Prog.ofExcept e) tr a) : tr = [] ∧ e = .ok a := by
  cases e with
  | error e => exact (May.fail_inv h).elim
  | ok b =>
    obtain ⟨h1, h2⟩ := May.ret_inv h
    exact ⟨h1, by rw [h2]⟩

/-- The effect of an access on the memory. -/
inductive _root_.Ev.Effect [Flt T] : Ev T → Shared T → Shared T → Prop where
  | load {i v m} : m.cache[i]? = some v → Effect (.load i v) m m
  | store {i v m} : i < m.cache.length → Effect (.store i v) m { m with cache := m.cache.set i v }
  | add {i v m x} : m.flux[i]? = some x →
      Effect (.add i v) m { m with flux := m.flux.set i (Flt.add x v) }
  | push {ps m} : Effect (.push ps) m { m with extra := m.extra ++ ps }

/-- The effect of a list of accesses. -/
inductive _root_.Ev.Effects [Flt T] : List (Ev T) → Shared T → Shared T → Prop where
  | nil {m} : Effects [] m m
  | cons {e es m m1 m2} : Ev.Effect e m m1 → Effects es m1 m2 → Effects (e :: es) m m2

variable [Flt T]

/-- A sequential run is a trace. -/
theorem run_may {p : Prog T α} {m : Shared T} {a : α} {m' : Shared T}
    (h : p.run m = .ok (a, m')) : ∃ tr, May p tr a ∧ Ev.Effects tr m m' := by
  induction p generalizing m with
  | ret b =>
    simp only [run, Except.ok.injEq, Prod.mk.injEq] at h
    obtain ⟨rfl, rfl⟩ := h
    exact ⟨[], .ret, .nil⟩
  | fail e => simp [run] at h
  | load i k ih =>
    simp only [run] at h
    split at h
    · next v hv =>
      obtain ⟨tr, h1, h2⟩ := ih _ h
      exact ⟨_, .load h1, .cons (.load hv) h2⟩
    · simp at h
  | store i v k ih =>
    simp only [run] at h
    split at h
    · next hi =>
      obtain ⟨tr, h1, h2⟩ := ih _ h
      exact ⟨_, .store h1, .cons (.store hi) h2⟩
    · simp at h
  | addFlux i v k ih =>
    simp only [run] at h
    split at h
    · next x hx =>
      obtain ⟨tr, h1, h2⟩ := ih _ h
      exact ⟨_, .addFlux h1, .cons (.add hx) h2⟩
    · simp at h
  | pushExtra ps k ih =>
    simp only [run] at h
    obtain ⟨tr, h1, h2⟩ := ih _ h
    exact ⟨_, .pushExtra h1, .cons .push h2⟩

/-- Accesses of worker `j` in a global trace. -/
def _root_.Ev.proj (g : List (Nat × Ev T)) (j : Nat) : List (Ev T) :=
  (g.filter (fun x => x.1 == j)).map Prod.snd

/-- Head-first induction for `PoolSteps`. -/
theorem _root_.PoolSteps.head_cases {a c : List (Prog T α)} {m m'' : Shared T}
    (h : PoolSteps a m c m'') :
    (a = c ∧ m = m'') ∨ ∃ b m', PoolStep a m b m' ∧ PoolSteps b m' c m'' := by
  induction h with
  | refl => exact .inl ⟨rfl, rfl⟩
  | tail h1 h2 ih =>
    rcases ih with ⟨rfl, rfl⟩ | ⟨b, m', hs, hss⟩
    · exact .inr ⟨_, _, h2, .refl⟩
    · exact .inr ⟨b, m', hs, .tail hss h2⟩

theorem _root_.PoolSteps.head {a b c : List (Prog T α)} {m m' m'' : Shared T}
    (h : PoolStep a m b m') (h2 : PoolSteps b m' c m'') : PoolSteps a m c m'' := by
  induction h2 with
  | refl => exact .tail .refl h
  | tail _ h3 ih => exact .tail ih h3

/-- Number of steps version of `PoolSteps`, head first. -/
inductive _root_.PoolRun : Nat → List (Prog T α) → Shared T → List (Prog T α) → Shared T → Prop where
  | refl {pool m} : PoolRun 0 pool m pool m
  | head {n a m b m' c m''} : PoolStep a m b m' → PoolRun n b m' c m'' → PoolRun (n + 1) a m c m''

theorem _root_.PoolRun.snoc {n : Nat} {a b c : List (Prog T α)} {m m' m'' : Shared T}
    (h : PoolRun n a m b m') (h2 : PoolStep b m' c m'') : PoolRun (n + 1) a m c m'' := by
  induction h with
  | refl => exact .head h2 .refl
  | head h _ ih => exact .head h (ih h2)

theorem _root_.PoolSteps.toRun {a c : List (Prog T α)} {m m'' : Shared T}
    (h : PoolSteps a m c m'') : ∃ n, PoolRun n a m c m'' := by
  induction h with
  | refl => exact ⟨0, .refl⟩
  | tail _ h2 ih => obtain ⟨n, hn⟩ := ih; exact ⟨n + 1, hn.snoc h2⟩

/-- One step of a program that eventually finishes is one event. -/
theorem Step.event {p p' : Prog T α} {m m' : Shared T} (h : Step p m p' m') :
    (∃ e, p' = .fail e) ∨ ∃ e, Ev.Effect e m m' ∧ ∀ tr a, May p' tr a → May p (e :: tr) a := by
  cases h with
  | load h => exact .inr ⟨_, .load h, fun _ _ h => .load h⟩
  | loadOob => exact .inl ⟨_, rfl⟩
  | store h => exact .inr ⟨_, .store h, fun _ _ h => .store h⟩
  | storeOob => exact .inl ⟨_, rfl⟩
  | addFlux h => exact .inr ⟨_, .add h, fun _ _ h => .addFlux h⟩
  | addFluxOob => exact .inl ⟨_, rfl⟩
  | pushExtra => exact .inr ⟨_, .push, fun _ _ h => .pushExtra h⟩

/-- A complete concurrent execution is a global trace whose projections are traces of the workers. -/
theorem pool_trace {pool : List (Prog T α)} {m m' : Shared T} {results : List α}
    (h : PoolSteps pool m (results.map Prog.ret) m') :
    pool.length = results.length ∧
    ∃ g : List (Nat × Ev T), Ev.Effects (g.map Prod.snd) m m' ∧ (∀ x ∈ g, x.1 < pool.length) ∧
      ∀ (j : Nat) (p : Prog T α) (r : α), pool[j]? = some p → results[j]? = some r → May p (Ev.proj g j) r := by
  obtain ⟨n, hn⟩ := h.toRun
  clear h
  generalize hc : results.map Prog.ret = c at hn
  induction hn with
  | refl =>
    subst hc
    refine ⟨by simp, [], .nil, by simp, ?_⟩
    intro j p r hp hr
    rw [List.getElem?_map, hr] at hp
    simp only [Option.map_some, Option.some.injEq] at hp
    subst hp
    exact .ret
  | @head n a m b m1 c m2 hs _ ih =>
    obtain ⟨hlen, g, heff, hlt, hmay⟩ := ih hc
    cases hs with
    | @mk j p p' _ hj hstep =>
      rw [List.length_set] at hlen
      have hjlt : j < a.length := by
        rcases Nat.lt_or_ge j a.length with h | h
        · exact h
        · rw [List.getElem?_eq_none h] at hj; cases hj
      have hset : (a.set j p')[j]? = some p' := by
        rw [List.getElem?_set_self hjlt]
      obtain ⟨r, hr⟩ : ∃ r, results[j]? = some r := by
        rw [hlen] at hjlt
        exact ⟨results[j], List.getElem?_eq_getElem hjlt⟩
      rcases hstep.event with ⟨e, rfl⟩ | ⟨e, he, hm⟩
      · exact (May.fail_inv (hmay j _ r hset hr)).elim
      · refine ⟨hlen, (j, e) :: g, .cons he heff, ?_, ?_⟩
        · intro x hx
          rcases List.mem_cons.1 hx with rfl | hx
          · exact hjlt
          · have := hlt x hx; rwa [List.length_set] at this
        · intro i q s hq hs
          by_cases hij : i = j
          · subst hij
            rw [hj] at hq; cases hq
            rw [hr] at hs; cases hs
            have := hm _ _ (hmay i _ r hset hr)
            simpa [Ev.proj] using this
          · have hq' : (a.set j p')[i]? = some q := by
              rw [List.getElem?_set_ne (Ne.symm hij)]; exact hq
            have := hmay i q s hq' hs
            have hne : ¬ j = i := fun h => hij h.symm
            simpa [Ev.proj, hne] using this

/-- Every store of the program, whatever its loads return, is allowed by `G`. -/
def Stores (G : Nat → T → Prop) : Prog T α → Prop
  | .ret _ => True
  | .fail _ => True
  | .load _ k => ∀ v, Stores G (k v)
  | .store i v k => G i v ∧ Stores G (k ())
  | .addFlux _ _ k => Stores G (k ())
  | .pushExtra _ k => Stores G (k ())

theorem Stores.bind {G : Nat → T → Prop} {p : Prog T α} {f : α → Prog T β} (h : Stores G p)
    (hf : ∀ a, Stores G (f a)) : Stores G (p.bind f) := by
  induction p with
  | ret a => exact hf a
  | fail e => trivial
  | load i k ih => exact fun v => ih v (h v)
  | store i v k ih => exact ⟨h.1, ih () h.2⟩
  | addFlux i v k ih => exact ih () h
  | pushExtra ps k ih => exact ih () h

theorem Stores.ofExcept {G : Nat → T → Prop} (x : Except Panic α) : Stores G (Prog.ofExcept x) := by
  cases x <;> trivial

theorem Stores.may {G : Nat → T → Prop} {p : Prog T α} (h : Stores G p) {tr : List (Ev T)} {a : α}
    (hm : May p tr a) : ∀ i v, Ev.store i v ∈ tr → G i v := by
  induction hm with
  | ret => intro i v h; cases h
  | load _ ih =>
    intro i v hv
    rcases List.mem_cons.1 hv with hv | hv
    · cases hv
    · exact ih (h _) i v hv
  | store _ ih =>
    intro i v hv
    rcases List.mem_cons.1 hv with hv | hv
    · cases hv; exact h.1
    · exact ih h.2 i v hv
  | addFlux _ ih =>
    intro i v hv
    rcases List.mem_cons.1 hv with hv | hv
    · cases hv
    · exact ih h i v hv
  | pushExtra _ ih =>
    intro i v hv
    rcases List.mem_cons.1 hv with hv | hv
    · cases hv
    · exact ih h i v hv

/-- The cache holds values allowed by `G`. -/
def _root_.CacheIn (G : Nat → T → Prop) (cache : List T) : Prop := ∀ (i : Nat) (v : T), cache[i]? = some v → G i v

theorem _root_.CacheIn.set {G : Nat → T → Prop} {cache : List T} (h : CacheIn G cache) {i : Nat} {v : T}
    (hv : G i v) : CacheIn G (cache.set i v) := by
  intro j w hj
  by_cases hij : i = j
  · subst hij
    by_cases hi : i < cache.length
    · rw [List.getElem?_set_self hi] at hj
      cases hj; exact hv
    · rw [List.getElem?_eq_none (by simp; omega)] at hj
      cases hj
  · rw [List.getElem?_set_ne hij] at hj
    exact h j w hj

/-- When the stores of a trace are allowed, so are its loads and what it leaves in the cache. -/
theorem _root_.Ev.Effects.loads {G : Nat → T → Prop} {tr : List (Ev T)} {m m' : Shared T}
    (h : Ev.Effects tr m m') (hm : CacheIn G m.cache) (hs : ∀ i v, Ev.store i v ∈ tr → G i v) :
    (∀ i v, Ev.load i v ∈ tr → G i v) ∧ CacheIn G m'.cache := by
  induction h with
  | nil => exact ⟨fun i v h => (by cases h), hm⟩
  | cons he _ ih =>
    cases he with
    | load hl =>
      obtain ⟨h1, h2⟩ := ih hm (fun i v h => hs i v (by simp [h]))
      refine ⟨fun i v h => ?_, h2⟩
      rcases List.mem_cons.1 h with h | h
      · cases h; exact hm _ _ hl
      · exact h1 i v h
    | store hi =>
      obtain ⟨h1, h2⟩ := ih (hm.set (hs _ _ (by simp))) (fun i v h => hs i v (by simp [h]))
      refine ⟨fun i v h => ?_, h2⟩
      rcases List.mem_cons.1 h with h | h
      · cases h
      · exact h1 i v h
    | add hi =>
      obtain ⟨h1, h2⟩ := ih hm (fun i v h => hs i v (by simp [h]))
      refine ⟨fun i v h => ?_, h2⟩
      rcases List.mem_cons.1 h with h | h
      · cases h
      · exact h1 i v h
    | push =>
      obtain ⟨h1, h2⟩ := ih hm (fun i v h => hs i v (by simp [h]))
      refine ⟨fun i v h => ?_, h2⟩
      rcases List.mem_cons.1 h with h | h
      · cases h
      · exact h1 i v h

theorem Step.stores {G : Nat → T → Prop} {p p' : Prog T α} {m m' : Shared T} (h : Step p m p' m')
    (hp : Stores G p) (hm : CacheIn G m.cache) : Stores G p' ∧ CacheIn G m'.cache := by
  cases h with
  | load _ => exact ⟨hp _, hm⟩
  | loadOob _ => exact ⟨trivial, hm⟩
  | store _ => exact ⟨hp.2, hm.set hp.1⟩
  | storeOob _ => exact ⟨trivial, hm⟩
  | addFlux _ => exact ⟨hp, hm⟩
  | addFluxOob _ => exact ⟨trivial, hm⟩
  | pushExtra => exact ⟨hp, hm⟩

end Prog
