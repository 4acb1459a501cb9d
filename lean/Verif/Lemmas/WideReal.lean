import Verif.Model.Nuclear
import Verif.Model.Real
/-!
# The scaling of the tables over the real numbers

Over the real numbers the two types of `NuclearDataReaction::new` are the same.
-/
open Flt

/-- The loop of `NuclearDataReaction::new` with one type of numbers. -/
noncomputable def realRaw (p : Polynomial5 ℝ) : List ℝ → ℝ → List ℝ × ℝ
  | e0 :: e1 :: rest, normal =>
    let energy := (e0 +. e1) /. two
    let xs := (10 : ℝ) ^ (p.val (Flt.log10 energy))
    let normal' := if (e1 >=. one) && (normal ==. zero) then xs else normal
    let (l, n) := realRaw p (e1 :: rest) normal'
    (xs :: l, n)
  | _, normal => ([], normal)

theorem rawCrossSections_real (p : Polynomial5 ℝ) (l : List ℝ) : ∀ n : ℝ, rawCrossSections p l n = realRaw p l n := by
  induction l with
  | nil => intro n; rfl
  | cons e0 l ih =>
    intro n
    cases l with
    | nil => rfl
    | cons e1 rest =>
      unfold rawCrossSections realRaw
      dsimp only
      have hz : Flt.wideIsZero (T := ℝ) n = (n ==. zero) := by
        rw [FltReal.zero_eq]
        rfl
      rw [hz, ih]
      rfl

theorem Reaction.new_real (rtype : ReactionType) (nuBar : ℝ) (energies : List ℝ) (p : Polynomial5 ℝ) (x : ℝ) :
    Reaction.new rtype nuBar energies p x =
      { crossSection := (realRaw p energies zero).1.map (fun y => y *. (x /. (realRaw p energies zero).2))
        rtype := rtype
        nuBar := nuBar } := by
  unfold Reaction.new
  have h : rawCrossSections p energies (Flt.wideZero (T := ℝ)) = realRaw p energies zero := by
    rw [FltReal.zero_eq]
    exact rawCrossSections_real p energies 0
  rw [h]
  rfl
