import Verif.Model.Binary
/-!
# Specification: how far a sum of floating-point numbers can be from the exact sum

The textbook bound: adding `n` numbers one after the other, each addition being off by at most half a unit of the
last digit, gives the exact sum up to `(1 + 2^-prec)^n - 1` times the sum of the absolute values.
-/
namespace Num
variable {F : Format}

/-- The number is neither infinite nor a not-a-number. -/
def Finite (a : Num F) : Prop := ∃ x : ℝ, a.val = some (x : EReal)

/-- The real number that a finite number stands for (`0` for the others). -/
noncomputable def real (a : Num F) : ℝ := (a.val.getD 0).toReal

end Num

namespace Format

/-- Half a unit of the last digit, relative to the number: `2^-24` for `f32`, `2^-53` for `f64`. -/
noncomputable def eps (F : Format) : ℝ := 1 / 2 ^ F.prec

/-- The relative error that `n` roundings can add up to. -/
noncomputable def drift (F : Format) (n : ℕ) : ℝ := (1 + F.eps) ^ n - 1

end Format

/-- The exact sum of the values. -/
noncomputable def exactSum {F : Format} (l : List (Num F)) : ℝ := (l.map Num.real).sum

/-- The exact sum of the absolute values. -/
noncomputable def exactMass {F : Format} (l : List (Num F)) : ℝ := (l.map fun a => |a.real|).sum
