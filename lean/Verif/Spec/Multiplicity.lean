import Verif.Spec.Reactions
/-!
# Specification: the neutrons that come out of a collision
-/

/-- Number of neutrons that leave reaction `r`, for a draw `v`: the scattered one, none after an absorption, and
`⌊ν̄ + v⌋` after a fission. -/
noncomputable def neutronsOut (r : Reaction ℝ) (v : ℝ) : ℕ :=
  match r.rtype with
  | .scatter => 1
  | .absorption => 0
  | .fission => ⌊r.nuBar + v⌋₊

/-- `OutOf ts out`: `out u v` is the number of neutrons that leave a collision in a material whose reactions and weights
are `ts`, when the first draw is `u` and the second `v`: the first selects the reaction in whose interval of cumulated
weights `u` times the total weight falls, the second decides on the yield. -/
def OutOf (ts : List (ℝ × Reaction ℝ)) (out : ℝ → ℝ → ℕ) : Prop :=
  ∀ u v k, ∀ hk : k < ts.length, cumWeight ts k ≤ totalWeight ts * u → totalWeight ts * u < cumWeight ts (k + 1) →
    out u v = neutronsOut ts[k].2 v

/-- Weight times mean yield, summed over the fission reactions. -/
def fissionYield (ts : List (ℝ × Reaction ℝ)) : ℝ :=
  ((ts.filter fun t => t.2.rtype = .fission).map fun t => t.1 * t.2.nuBar).sum
