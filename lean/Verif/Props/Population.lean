import Verif.Props.Draws
import Verif.Props.SourceStrength
import Mathlib.Data.List.Forall2
/-!
# C59: population control of a cycle

What happens to the particles between the sourcing and the tracking, over the reals: with a split factor below
one every particle plays the two games of Russian roulette, with a factor of one nothing happens, and with a
factor above one every particle is split and the low-weight game follows.
-/
open FltReal Rng MeasureTheory
attribute [local irreducible] Rng.lcg Rng.sample Rng.spawn

/-! ## Specification -/

/-- The low-weight game: a particle heavier than `c` times the source weight is left alone, a lighter one
survives when its next draw is at most `c`, and then weighs `1/c` times more. -/
noncomputable def lowWeightGame (c src : ℝ) (p : Particle ℝ) : Option (Particle ℝ) :=
  if c * src < p.weight then some p
  else if draw p.seed ≤ c then
    some { p with seed := (Rng.sample (T := ℝ) p.seed).2, weight := p.weight / c }
  else none

/-- The two games of an over-populated cycle: survive with a draw of at most `f`, weighing `1/f` times more, and
then the low-weight game. -/
noncomputable def rouletteGame (f c src : ℝ) (p : Particle ℝ) : Option (Particle ℝ) :=
  if draw p.seed ≤ f then
    lowWeightGame c src { p with seed := (Rng.sample (T := ℝ) p.seed).2, weight := p.weight / f }
  else none

/-- `fam` is `p` after a split by `f`, with its copies: the number of copies is decided by the next draw of `p`,
all weigh `w / f` and are `p` except for the generator state and the identifier; the first keeps the
identifier. -/
structure SplitFamily (f : ℝ) (p : Particle ℝ) (fam : List (Particle ℝ)) : Prop where
  size : fam.length = copiesFor f (draw p.seed) + 1
  same : ∀ q ∈ fam, q = { p with seed := q.seed, identifier := q.identifier, weight := p.weight / f }
  first : ∃ q, fam.head? = some q ∧ q.identifier = p.identifier

/-- Weight left by the low-weight game, as a function of the weight and of the draw. -/
noncomputable def lowWeightLeft (c src w u : ℝ) : ℝ :=
  if c * src < w then w else if u ≤ c then w / c else 0

/-- Weight left by the two games. -/
noncomputable def rouletteLeft (f c src w u v : ℝ) : ℝ :=
  if u ≤ f then lowWeightLeft c src (w / f) v else 0

/-! ## Lemmas -/

theorem lowWeightRr_game (p : Particle ℝ) (c src : ℝ) :
    (if (p.lowWeightRr c src).2 = true then some (p.lowWeightRr c src).1 else none) = lowWeightGame c src p := by
  obtain ⟨h1, h2⟩ := C33_low_weight p c src
  unfold lowWeightGame
  by_cases h : c * src < p.weight
  · rw [h1 h, if_pos h]; rfl
  · rw [if_neg h]
    obtain ⟨h3, h4⟩ := h2 (not_lt.1 h)
    by_cases hd : draw p.seed ≤ c
    · rw [if_pos hd, if_pos (h3.2 hd), h4 (h3.2 hd)]
    · rw [if_neg hd, if_neg (fun hc => hd (h3.1 hc))]

theorem regulateOne_game (p : Particle ℝ) (f c src : ℝ) :
    (if (regulateOne f c src p).2 = true then some (regulateOne f c src p).1 else none) =
      rouletteGame f c src p := by
  obtain ⟨h1, h2⟩ := C33_over_population p f
  unfold regulateOne rouletteGame
  generalize p.overPopulatedRr f = r at h1 h2
  obtain ⟨q, b⟩ := r
  dsimp only at h1 h2 ⊢
  have h3 := lowWeightRr_game q c src
  cases b with
  | false =>
    have hd : ¬ draw p.seed ≤ f := fun h => by simpa using h1.2 h
    rw [if_neg hd]
    simp
  | true =>
    rw [if_pos (h1.1 rfl), ← h2 rfl, ← h3]
    simp only [Bool.true_and]

theorem splitAll_families {f : ℝ} (h1 : 1 < f) (hf : f < 2 ^ 64) {ps ps' cs : List (Particle ℝ)}
    (h : splitAll f ps = .ok (ps', cs)) :
    ∃ fams, List.Forall₂ (SplitFamily f) ps fams ∧ (ps' ++ cs).Perm fams.flatten := by
  induction ps generalizing ps' cs with
  | nil =>
    simp only [splitAll, Except.ok.injEq, Prod.mk.injEq] at h
    obtain ⟨rfl, rfl⟩ := h
    exact ⟨[], .nil, .refl _⟩
  | cons p ps ih =>
    simp only [splitAll, bind_ok, pure_ok, Prod.exists, Prod.mk.injEq] at h
    obtain ⟨q, copies, hq, l, cs', hl, rfl, rfl⟩ := h
    obtain ⟨fams, h2, h3⟩ := ih hl
    obtain ⟨p', copies', e1, e2, e3, e4⟩ := C32_split p h1 hf
    rw [hq] at e1
    simp only [Except.ok.injEq, Prod.mk.injEq] at e1
    obtain ⟨rfl, rfl⟩ := e1
    refine ⟨(q :: copies) :: fams, .cons ⟨by simp [e4], ?_, q, rfl, by rw [e2]⟩ h2, ?_⟩
    · intro r hr
      rcases List.mem_cons.1 hr with rfl | hr
      · rw [e2]
      · rw [(e3 r hr).1, e2]
    · rw [List.flatten_cons, List.cons_append, List.cons_append, ← List.append_assoc]
      refine .cons _ ?_
      refine (List.Perm.append_right _ List.perm_append_comm).trans ?_
      rw [List.append_assoc]
      exact .append_left _ h3

/-! ## C59 -/

/-- **C59.** Population control of a cycle after sourcing, for the split factor `f` of the cycle:
* `f < 1`: the particles to track are those that survive the two games, in the same order, and the counter of
  regulated particles counts all the others;
* `f = 1`: nothing changes;
* `f > 1`: they are, in some order, those of the families of all particles that survive the low-weight game; the
  counters count the copies and the particles lost in the game. -/
theorem C59_population {data : Data ℝ} {n : ℕ} {w f : ℝ} {u us u1 : UnitState ℝ} {c cs c1 : Container ℝ}
    (hsrc : sourceNow data w u c = .ok (us, cs))
    (hfac : computeSplitFactor data.nParticles n cs.processing.length data.nUnits data.loadBalance = .ok f)
    (hx : c.extra = []) (h : populationControl data n w u c = .ok (u1, c1)) :
    (f < 1 → c1.processing = cs.processing.filterMap (rouletteGame f data.lowWeightCutoff w) ∧
      u1.balance.overRr = cs.processing.countP (fun p => rouletteGame f data.lowWeightCutoff w p = none)) ∧
    (f = 1 → c1 = cs ∧ u1 = us) ∧
    (1 < f → f < 2 ^ 64 → ∃ fams, List.Forall₂ (SplitFamily f) cs.processing fams ∧
      c1.processing.Perm (fams.flatten.filterMap (lowWeightGame data.lowWeightCutoff w)) ∧
      u1.balance.split + cs.processing.length = fams.flatten.length ∧
      u1.balance.weightRr =
        fams.flatten.countP (fun p => lowWeightGame data.lowWeightCutoff w p = none)) := by
  have hcount : ∀ (g : Particle ℝ → Option (Particle ℝ)) (l : List (Particle ℝ)),
      l.length - (l.filterMap g).length = l.countP (fun p => g p = none) := by
    intro g l
    have : (l.filterMap g).length + l.countP (fun p => g p = none) = l.length := by
      induction l with
      | nil => rfl
      | cons a l ih =>
        rw [List.filterMap_cons, List.countP_cons]
        cases hg : g a <;> simp <;> omega
    omega
  have hret : ∀ (g : Particle ℝ → Particle ℝ × Bool) (l : List (Particle ℝ)),
      retainMut g l = l.filterMap (fun a => if (g a).2 = true then some (g a).1 else none) := fun _ _ => rfl
  have hsx : cs.extra = [] := by
    simp only [sourceNow, bind_ok, pure_ok, Prod.exists, Prod.mk.injEq] at hsrc
    obtain ⟨_, _, _, _, _, _, rfl⟩ := hsrc
    exact hx
  simp only [populationControl, bind_ok, Prod.exists] at h
  obtain ⟨us', cs', hsrc', f', hfac', h⟩ := h
  rw [hsrc] at hsrc'
  simp only [Except.ok.injEq, Prod.mk.injEq] at hsrc'
  obtain ⟨rfl, rfl⟩ := hsrc'
  rw [hfac] at hfac'
  obtain rfl := Except.ok.inj hfac'
  unfold regulateOrSplit at h
  simp only [lt_eq, one_eq, decide_eq_true_eq] at h
  refine ⟨fun hlt => ?_, fun heq => ?_, fun hgt hbig => ?_⟩
  · rw [if_pos hlt] at h
    simp only [Container.regulate, Except.ok.injEq, Prod.mk.injEq] at h
    obtain ⟨rfl, rfl⟩ := h
    dsimp only
    rw [hret]
    simp only [regulateOne_game]
    exact ⟨trivial, hcount _ _⟩
  · rw [if_neg (by linarith), if_neg (by linarith)] at h
    simp only [Except.ok.injEq, Prod.mk.injEq] at h
    exact ⟨h.2.symm, h.1.symm⟩
  · rw [if_neg (by linarith), if_pos hgt] at h
    simp only [Container.split, bind_ok, pure_ok, Prod.exists, Prod.mk.injEq] at h
    obtain ⟨_, _, ⟨ps, copies, hsplit, rfl, rfl⟩, rfl, rfl⟩ := h
    obtain ⟨fams, h1, h2⟩ := splitAll_families hgt hbig hsplit
    refine ⟨fams, h1, ?_, ?_, ?_⟩
    · simp only [Container.cleanExtra, hsx, List.nil_append]
      rw [hret]
      simp only [lowWeightRr_game]
      exact h2.filterMap _
    · have hl : cs.processing.length ≤ fams.flatten.length := by
        clear h2 hsplit hfac hsrc
        generalize cs.processing = l at h1
        induction h1 with
        | nil => simp
        | cons h _ ih => rw [List.flatten_cons, List.length_append, List.length_cons, h.size]; omega
      simp only [Container.cleanExtra, hsx, List.nil_append]
      rw [h2.length_eq]
      omega
    · simp only [Container.cleanExtra, hsx, List.nil_append]
      rw [hret]
      simp only [lowWeightRr_game]
      rw [hcount, h2.countP_eq]

/-- **C59**, the weights of the games are those of the two formulas. -/
theorem C59_weights (f c src : ℝ) (p : Particle ℝ) :
    ((lowWeightGame c src p).elim 0 (·.weight) = lowWeightLeft c src p.weight (draw p.seed)) ∧
    ((rouletteGame f c src p).elim 0 (·.weight) =
      rouletteLeft f c src p.weight (draw p.seed) (draw (Rng.sample (T := ℝ) p.seed).2)) := by
  have h : ∀ q : Particle ℝ,
      (lowWeightGame c src q).elim 0 (·.weight) = lowWeightLeft c src q.weight (draw q.seed) := by
    intro q
    unfold lowWeightGame lowWeightLeft
    split
    · rfl
    · split <;> rfl
  refine ⟨h p, ?_⟩
  unfold rouletteGame rouletteLeft
  split
  · rw [h]
  · rfl

/-- **C59**, expected weight: with uniform and independent draws the low-weight game, the two games together, and
a split followed by the game each leave the expected weight as it was. -/
theorem C59_expected {c : ℝ} (hc0 : 0 < c) (hc1 : c ≤ 1) (src w : ℝ) :
    (∫ v in (0 : ℝ)..1, lowWeightLeft c src w v) = w ∧
    (∀ f, 0 < f → f ≤ 1 → ∫ u in (0 : ℝ)..1, (∫ v in (0 : ℝ)..1, rouletteLeft f c src w u v) = w) ∧
    (∀ f, 1 < f → ∫ u in (0 : ℝ)..1, ((copiesFor f u : ℝ) + 1) *
      (∫ v in (0 : ℝ)..1, lowWeightLeft c src (w / f) v) = w) := by
  have h : ∀ w, (∫ v in (0 : ℝ)..1, lowWeightLeft c src w v) = w := by
    intro w
    unfold lowWeightLeft
    by_cases hw : c * src < w
    · simp [hw]
    · simp only [hw, if_false]
      exact (C33_expected_weight hc0 hc1 w).2
  refine ⟨h w, fun f hf0 hf1 => ?_, fun f hf => ?_⟩
  · have : ∀ u, (∫ v in (0 : ℝ)..1, rouletteLeft f c src w u v) = if u ≤ f then w / f else 0 := by
      intro u
      unfold rouletteLeft
      by_cases hu : u ≤ f
      · simp only [hu, if_true]; exact h _
      · simp [hu]
    simp only [this]
    exact (C33_expected_weight hf0 hf1 w).2
  · rw [h]
    have := C32_expected_weight hf w
    have e : (fun u : ℝ => ((copiesFor f u : ℝ) + 1) * (w / f)) =
        fun u => w / f + (copiesFor f u : ℝ) * (w / f) := by funext u; ring
    rw [e]
    exact this

/-- **C59**, target.  Without load balancing, the split factor applied to the population of the cycle, sources
included, gives at most the requested number of particles; it misses less than the factor times the number of
cells, because the factor counts the requested sources and not the rounded ones. -/
theorem C59_target {data : Data ℝ} {s s2 : SimState ℝ} {us : UnitState ℝ} {cs : Container ℝ} {f : ℝ}
    (hy : SourceHyps data s.unit.dom.cells) (hn : 0 < data.nParticles) (hlb : data.loadBalance = false)
    (hprep : syncPrepare data s = .ok s2) (hpos : 0 < s2.unit.unitWeight) (hN : 0 < s2.globalN)
    (hsrc : sourceNow data s2.srcWeight s2.unit s2.container = .ok (us, cs))
    (hfac : computeSplitFactor data.nParticles s2.globalN cs.processing.length data.nUnits data.loadBalance = .ok f) :
    f * cs.processing.length ≤ data.nParticles ∧
    data.nParticles < f * (cs.processing.length + s.unit.dom.cells.length) := by
  obtain ⟨ws, ns, sourced, _, _, _, hproc, _, _, _, hle, hlt, _⟩ := C35_source hy hn hprep hpos hsrc
  obtain ⟨f', hf', hf1, _⟩ := C34_global data.nParticles s2.globalN cs.processing.length data.nUnits hN
  rw [hlb, hf'] at hfac
  obtain rfl := Except.ok.inj hfac
  have hN' : (0 : ℝ) < s2.globalN := by exact_mod_cast hN
  have hn' : (0 : ℝ) < data.nParticles := by exact_mod_cast hn
  have hfpos : 0 < f' := by
    by_contra hc
    have := mul_nonpos_of_nonpos_of_nonneg (not_lt.1 hc) hN'.le
    linarith
  have hglob : s2.globalN = s2.container.processing.length + ⌊(data.nParticles : ℝ) / 10⌋₊ := by
    simp only [syncPrepare, bind_ok, pure_ok, unwrap_ok] at hprep
    obtain ⟨w, _, k, hk, rfl⟩ := hprep
    rw [toUsize_eq] at hk
    simp only [mul_eq, lit_eq, ofNat_eq] at hk
    split at hk
    · have := Option.some.inj hk
      rw [← this]
      norm_num
      ring_nf
    · cases hk
  have hsl : sourced.length ≤ ⌊(data.nParticles : ℝ) / 10⌋₊ := Nat.le_floor hle
  have hsg : (⌊(data.nParticles : ℝ) / 10⌋₊ : ℝ) < sourced.length + s.unit.dom.cells.length :=
    lt_of_le_of_lt (Nat.floor_le (by positivity)) hlt
  have hsl' : (sourced.length : ℝ) ≤ ⌊(data.nParticles : ℝ) / 10⌋₊ := by exact_mod_cast hsl
  have hgr : (s2.globalN : ℝ) = s2.container.processing.length + (⌊(data.nParticles : ℝ) / 10⌋₊ : ℝ) := by
    rw [hglob]; push_cast; rfl
  rw [hproc, List.length_append, ← hf1]
  push_cast
  constructor
  · exact mul_le_mul_of_nonneg_left (by linarith) hfpos.le
  · exact mul_lt_mul_of_pos_left (by linarith) hfpos

/-! ## The hypotheses are met -/

theorem splitAll_exists {f : ℝ} (h1 : 1 < f) (hf : f < 2 ^ 64) (ps : List (Particle ℝ)) :
    ∃ r, splitAll f ps = .ok r := by
  induction ps with
  | nil => exact ⟨_, rfl⟩
  | cons p ps ih =>
    obtain ⟨r, hr⟩ := ih
    obtain ⟨p', copies, e1, _⟩ := C32_split p h1 hf
    exact ⟨(p' :: r.1, copies ++ r.2), by simp [splitAll, e1, hr, bind, Except.bind, pure, Except.pure]⟩

/-- Any two particles and no source: the hypotheses of `C59_population` hold with the target one, two and five,
which give a factor of one half, one and two and a half. -/
example (k : ℕ) (hk : k ∈ [1, 2, 5]) (p q : Particle ℝ) :
    ∃ (data : Data ℝ) (u u1 : UnitState ℝ) (c c1 : Container ℝ), c.extra = [] ∧ c.processing = [p, q] ∧
      data.nParticles = k ∧ sourceNow data 1 u c = .ok (u, c) ∧
      computeSplitFactor data.nParticles 2 c.processing.length data.nUnits data.loadBalance = .ok ((k : ℝ) / 2) ∧
      populationControl data 2 1 u c = .ok (u1, c1) := by
  let data : Data ℝ := ⟨1, 1, 20, k, 1, 1 / 1000, false, 1, ⟨1, [], [1, 20]⟩, [], []⟩
  let u : UnitState ℝ := ⟨⟨0, [], ⟨0, [], [], [], [], []⟩, 1⟩, {}, [], [], 0⟩
  let c : Container ℝ := ⟨[p, q], [], []⟩
  have h1 : sourceNow data 1 u c = .ok (u, c) := by
    simp [sourceNow, sourceRateList, sourceCells, bind, Except.bind, pure, Except.pure, data, u, c]
  have h2 : computeSplitFactor (T := ℝ) data.nParticles 2 c.processing.length data.nUnits data.loadBalance =
      .ok ((k : ℝ) / 2) := by
    simp [computeSplitFactor, data]
  obtain ⟨⟨u1, c1⟩, h3⟩ : ∃ r, regulateOrSplit data ((k : ℝ) / 2) 1 u c = .ok r := by
    unfold regulateOrSplit
    simp only [lt_eq, one_eq, decide_eq_true_eq]
    split
    · exact ⟨_, rfl⟩
    · split
      · next hgt =>
        obtain ⟨r, hr⟩ := splitAll_exists hgt (by
          have : (k : ℝ) ≤ 5 := by
            have : k ≤ 5 := by simp only [List.mem_cons, List.not_mem_nil, or_false] at hk; omega
            exact_mod_cast this
          norm_num
          linarith) c.processing
        simp only [Container.split, hr, bind, Except.bind, pure, Except.pure]
        exact ⟨_, rfl⟩
      · exact ⟨_, rfl⟩
  refine ⟨data, u, u1, c, c1, rfl, rfl, rfl, h1, h2, ?_⟩
  unfold populationControl
  rw [h1]
  simp only [bind, Except.bind]
  rw [h2]
  exact h3
