import Verif.Model.Real
import Verif.Model.Tracking
/-!
# Specification: the reactions of a material and their weights

Used to state how a colliding reaction is chosen and what a macroscopic cross-section is, without the
program's search loops.
-/

/-- `IsotopeTerms data ρ g iso ts`: `ts` lists the reactions of isotope `iso` in order, each with its
weight in energy group `g` at number density `ρ`: atom fraction × density × cross-section. -/
def IsotopeTerms (data : Data ℝ) (ρ : ℝ) (g : ℕ) (iso : Isotope ℝ) (ts : List (ℝ × Reaction ℝ)) : Prop :=
  ∃ rs, data.nuclear.isotopes[iso.gid]? = some rs ∧
    List.Forall₂ (fun r t => ∃ σ, r.crossSection[g]? = some σ ∧ t = (iso.atomFraction * ρ * σ, r)) rs ts

/-- `MaterialTerms data ρ g mat ts`: `ts` lists all reactions of all isotopes of `mat`, in order, with
their weights. -/
def MaterialTerms (data : Data ℝ) (ρ : ℝ) (g : ℕ) (mat : Material ℝ) (ts : List (ℝ × Reaction ℝ)) : Prop :=
  ∃ tss, List.Forall₂ (IsotopeTerms data ρ g) mat.iso tss ∧ ts = tss.flatten

/-- The isotopes are present in the material: no atom fraction is zero, nor is the density. -/
def Present (ρ : ℝ) (mat : Material ℝ) : Prop :=
  ρ ≠ 0 ∧ ∀ iso ∈ mat.iso, iso.atomFraction ≠ 0

/-- Sum of the weights of the first `k` reactions. -/
def cumWeight (ts : List (ℝ × Reaction ℝ)) (k : ℕ) : ℝ := ((ts.take k).map Prod.fst).sum

/-- Sum of all weights. -/
def totalWeight (ts : List (ℝ × Reaction ℝ)) : ℝ := (ts.map Prod.fst).sum

/-- Sum of the weights of the reactions of one type. -/
def typeWeight (ts : List (ℝ × Reaction ℝ)) (ty : ReactionType) : ℝ :=
  ((ts.filter fun t => t.2.rtype = ty).map Prod.fst).sum
