import Verif.Model.Exec
import Verif.Lemmas.Counting
import Mathlib.Tactic.Ring
/-!
# C42: execution policy and chunks
-/
set_option linter.unusedSectionVars false

/-! ## Specification -/

/-- The policy the documentation promises for a number of units and threads. -/
def expectedPolicy (units threads : Nat) : ExecPolicy :=
  match units, threads with
  | 1, 1 => .sequential
  | 1, _ => .rayon
  | _, 1 => .distributed
  | _, _ => .hybrid

/-- `parts` cuts `l` into consecutive non-empty pieces of at most `k` elements, all full but the last. -/
structure Cuts {α : Type} (k : Nat) (l : List α) (parts : List (List α)) : Prop where
  inOrder : parts.flatten = l
  nonEmpty : ∀ c ∈ parts, c ≠ []
  small : ∀ c ∈ parts, c.length ≤ k
  full : ∀ i c, parts[i]? = some c → i + 1 < parts.length → c.length = k

/-! ## C42 -/

/-- **C42**, policy: zero units is refused, and only that; otherwise the policy is the documented one
and the unit count and chunk size are the requested ones.  Threads are bound only on request, and only by the policy of
one unit with several threads. -/
theorem C42_policy (s : ExecSettings) :
    (s.nUnits = 0 → ProcInfo.new s = .error .assertFailed) ∧
    (s.nUnits ≠ 0 → ∃ p, ProcInfo.new s = .ok p ∧
      p.info.policy = expectedPolicy s.nUnits s.nRayonThreads ∧ p.info.nUnits = s.nUnits ∧
      p.info.nRayonThreads = s.nRayonThreads ∧ p.info.chunkSize = s.chunkSize ∧
      (p.bindThreads = true ↔ s.bindThreads = true ∧ s.nUnits = 1 ∧ s.nRayonThreads ≠ 1)) := by
  obtain ⟨u, t, c, b⟩ := s
  constructor
  · rintro rfl
    by_cases h : t = 1 <;> simp [ProcInfo.new, ProcInfo.default, assertB, h, bind, Except.bind]
  · intro h0
    dsimp only at h0 ⊢
    rcases u with _ | _ | u
    · exact (h0 rfl).elim
    · rcases t with _ | _ | t <;>
        simp [ProcInfo.new, ProcInfo.default, assertB, bind, Except.bind, pure, Except.pure, expectedPolicy]
    · rcases t with _ | _ | t <;>
        simp [ProcInfo.new, ProcInfo.default, assertB, bind, Except.bind, pure, Except.pure, expectedPolicy]

/-- **C42**, start of the run: the run starts exactly when one unit is requested; several units end in
the "not implemented" panic. -/
theorem C42_start (m : Machine) (s : ExecSettings) :
    (s.nUnits = 1 → ∃ e, startExec m s = .ok e ∧
      (e.policy = .sequential ↔ s.nRayonThreads = 1) ∧ (e.policy = .rayon ↔ s.nRayonThreads ≠ 1) ∧
      e.chunkSize = s.chunkSize) ∧
    (1 < s.nUnits → startExec m s = .error .unimplemented) := by
  obtain ⟨u, t, c, b⟩ := s
  constructor
  · rintro h
    dsimp only at h
    subst h
    by_cases h : t = 1 <;>
      simp [startExec, ProcInfo.new, ProcInfo.default, assertB, h, bind, Except.bind, pure, Except.pure]
  · intro h
    dsimp only at h
    have h1 : u ≠ 1 := by omega
    have h0 : u ≠ 0 := by omega
    by_cases ht : t = 1 <;>
      simp [startExec, ProcInfo.new, ProcInfo.default, assertB, h1, h0, ht, bind, Except.bind, pure,
        Except.pure]

/-- **C42**, violation for the requested number of threads: a request for any number of threads
without binding is ignored, the pool has the machine's default size. -/
theorem C42_violated_thread_request_ignored (m : Machine) (s : ExecSettings) (h1 : s.nUnits = 1)
    (h2 : s.nRayonThreads ≠ 1) (h3 : s.bindThreads = false) :
    ∃ e, startExec m s = .ok e ∧ e.policy = .rayon ∧ e.nRayonThreads = m.defaultThreads := by
  obtain ⟨u, t, c, b⟩ := s
  dsimp only at h1 h2 h3
  subst h1 h3
  simp [startExec, ProcInfo.new, ProcInfo.default, assertB, h2, bind, Except.bind, pure, Except.pure,
    poolSize]

theorem chunksAux_cuts {α : Type} (k n : Nat) (l : List α) (hk : 0 < k) (hn : l.length ≤ n) :
    Cuts k l (chunksAux k n l) ∧ (chunksAux k n l).length * k < l.length + k ∧
      l.length ≤ (chunksAux k n l).length * k := by
  induction n generalizing l with
  | zero =>
    have : l = [] := List.length_eq_zero_iff.1 (by omega)
    subst this
    exact ⟨⟨rfl, by simp [chunksAux], by simp [chunksAux], by simp [chunksAux]⟩,
      by simpa [chunksAux] using hk, by simp⟩
  | succ n ih =>
    cases l with
    | nil =>
      exact ⟨⟨rfl, by simp [chunksAux], by simp [chunksAux], by simp [chunksAux]⟩,
        by simpa [chunksAux] using hk, by simp⟩
    | cons a l =>
      obtain ⟨⟨h1, h2, h3, h4⟩, h5, h6⟩ := ih ((a :: l).drop k) (by simp at hn ⊢; omega)
      rw [chunksAux]
      · refine ⟨⟨?_, ?_, ?_, ?_⟩, ?_, ?_⟩
        · rw [List.flatten_cons, h1, List.take_append_drop]
        · intro c hc
          rcases List.mem_cons.1 hc with rfl | hc
          · rw [ne_eq, List.take_eq_nil_iff]
            rintro (h | h)
            · omega
            · cases h
          · exact h2 c hc
        · intro c hc
          rcases List.mem_cons.1 hc with rfl | hc
          · rw [List.length_take]; omega
          · exact h3 c hc
        · intro i c hi hlt
          cases i with
          | zero =>
            simp only [List.getElem?_cons_zero, Option.some.injEq] at hi
            subst hi
            rw [List.length_take]
            simp only [List.length_cons] at hlt
            -- a second chunk exists, so the list is longer than `k`
            have hne : (a :: l).drop k ≠ [] := by
              intro he
              rw [he] at hlt
              cases n <;> simp [chunksAux] at hlt
            rw [ne_eq, List.drop_eq_nil_iff] at hne
            omega
          | succ i =>
            exact h4 i c (by simpa using hi) (by simpa using hlt)
        · rw [List.length_cons, Nat.add_mul]
          rw [List.length_drop] at h5
          simp only [List.length_cons] at h5 ⊢
          by_cases hkl : k ≤ l.length + 1
          · omega
          · have : l.length + 1 - k = 0 := by omega
            rw [this] at h5
            have hz : (chunksAux k n ((a :: l).drop k)).length = 0 := by
              rcases Nat.eq_zero_or_pos (chunksAux k n ((a :: l).drop k)).length with h | h
              · exact h
              · have := Nat.mul_le_mul_right k h
                omega
            rw [hz]; omega
        · rw [List.length_cons (as := chunksAux k n _), Nat.add_mul]
          rw [List.length_drop] at h6
          omega
      · simp

/-- **C42**, chunks: the particle list is cut in order into full chunks (the last one may be shorter). -/
theorem C42_chunks_partition {α : Type} (k : Nat) (l : List α) (hk : 0 < k) : Cuts k l (chunks k l) :=
  (chunksAux_cuts k _ l hk (Nat.le_refl _)).1

/-- **C42**, automatic chunk size: with `threads` threads a chunk size always exists, it is positive,
and a non-empty list gives between one and `threads` chunks. -/
theorem C42_automatic_chunks {α : Type} (e : ExecInfo) (l : List α) (ha : e.chunkSize = 0)
    (ht : e.nRayonThreads ≠ 0) :
    ∃ k, chunkSizeFor e l.length = .ok k ∧ 0 < k ∧ (chunks k l).length ≤ e.nRayonThreads ∧
      (l ≠ [] → 1 ≤ (chunks k l).length) := by
  refine ⟨l.length / e.nRayonThreads + 1, by simp [chunkSizeFor, ha, ht], Nat.succ_pos _, ?_, ?_⟩
  · obtain ⟨_, h, _⟩ := chunksAux_cuts (l.length / e.nRayonThreads + 1) l.length l (Nat.succ_pos _) (Nat.le_refl _)
    change (chunks (l.length / e.nRayonThreads + 1) l).length * _ < _ at h
    generalize (chunks (l.length / e.nRayonThreads + 1) l).length = c at h ⊢
    have hpos : 0 < e.nRayonThreads := Nat.pos_of_ne_zero ht
    generalize e.nRayonThreads = t at h hpos ⊢
    have hdiv := Nat.div_add_mod l.length t
    have hmod := Nat.mod_lt l.length hpos
    generalize l.length / t = q at h hdiv
    -- c * (q + 1) < n + q + 1, n < t * (q + 1)
    by_contra hc
    have hc : t + 1 ≤ c := by omega
    have h1 : (t + 1) * (q + 1) ≤ c * (q + 1) := Nat.mul_le_mul_right _ hc
    have h2 : (t + 1) * (q + 1) = t * q + t + q + 1 := by ring
    omega
  · intro hl
    obtain ⟨_, _, h⟩ := chunksAux_cuts (l.length / e.nRayonThreads + 1) l.length l (Nat.succ_pos _) (Nat.le_refl _)
    change _ ≤ (chunks (l.length / e.nRayonThreads + 1) l).length * _ at h
    rcases Nat.eq_zero_or_pos (chunks (l.length / e.nRayonThreads + 1) l).length with h0 | h0
    · rw [h0] at h
      have := List.length_pos_iff.2 hl
      omega
    · exact h0

/-- **C42**, explicit chunk size: it is the one used, whatever the threads. -/
theorem C42_explicit_chunks (e : ExecInfo) (n : Nat) (h : e.chunkSize ≠ 0) :
    chunkSizeFor e n = .ok e.chunkSize := by
  simp [chunkSizeFor, h]

/-- On a machine with at least one default thread, the chunk size of a threaded run is always defined
and positive: no division by zero, even when zero threads are requested. -/
theorem C42_no_zero_division (m : Machine) (s : ExecSettings) (e : ExecInfo) (hm : 1 ≤ m.defaultThreads)
    (h : startExec m s = .ok e) (n : Nat) : ∃ k, chunkSizeFor e n = .ok k ∧ 0 < k := by
  have ht : e.nRayonThreads ≠ 0 ∨ e.policy = .sequential ∧ e.nRayonThreads = 1 := by
    obtain ⟨u, t, c, b⟩ := s
    by_cases hu : u = 1
    · subst hu
      by_cases h1 : t = 1
      · subst h1
        simp [startExec, ProcInfo.new, ProcInfo.default, assertB, bind, Except.bind, pure, Except.pure] at h
        subst h
        exact .inr ⟨rfl, rfl⟩
      · simp [startExec, ProcInfo.new, ProcInfo.default, assertB, h1, bind, Except.bind, pure, Except.pure] at h
        subst h
        left
        unfold poolSize
        dsimp only
        split
        · next hh => exact hh.1
        · omega
    · rcases Nat.lt_or_gt_of_ne hu with h0 | h0
      · have h0 : u = 0 := by omega
        subst h0
        have := (C42_policy ⟨0, t, c, b⟩).1 rfl
        simp [startExec, this, bind, Except.bind] at h
      · have := (C42_start m ⟨u, t, c, b⟩).2 h0
        rw [this] at h
        cases h
  have ht : e.nRayonThreads ≠ 0 := by
    rcases ht with h | h
    · exact h
    · omega
  unfold chunkSizeFor
  split
  · exact ⟨_, rfl, Nat.succ_pos _⟩
  · exact ⟨_, rfl, by omega⟩

/-- Concrete settings. -/
example : startExec ⟨4, true⟩ ⟨1, 3, 0, true⟩ = .ok ⟨.rayon, 1, 3, 0⟩ ∧
    startExec ⟨4, true⟩ ⟨1, 3, 0, false⟩ = .ok ⟨.rayon, 1, 4, 0⟩ ∧
    startExec ⟨4, true⟩ ⟨1, 1, 7, false⟩ = .ok ⟨.sequential, 1, 1, 7⟩ ∧
    startExec ⟨4, true⟩ ⟨2, 1, 0, false⟩ = .error .unimplemented ∧
    startExec ⟨4, true⟩ ⟨0, 1, 0, false⟩ = .error .assertFailed := by decide

example : chunkSizeFor ⟨.rayon, 1, 3, 0⟩ 10 = .ok 4 ∧
    chunks 4 [1, 2, 3, 4, 5, 6, 7, 8, 9, 10] = [[1, 2, 3, 4], [5, 6, 7, 8], [9, 10]] := by decide
