import Verif.Model.Init
/-!
# Specification: the same problem with another number of cycles
-/

/-- The same problem with another number of cycles. -/
def Params.withSteps {T : Type} (p : Params T) (n : Nat) : Params T :=
  { p with simulation := { p.simulation with nSteps := n } }

/-- The same data with another number of cycles. -/
def Data.withSteps {T : Type} (d : Data T) (n : Nat) : Data T := { d with nSteps := n }
