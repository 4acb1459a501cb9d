import Verif.Spec.Reach
/-!
# Specification: energy groups within the tables (C79)
-/
variable {T : Type} [Flt T]

/-- Every particle that a run of this problem can meet has an energy group of the tables. -/
def GroupsMet (data : Data T) (dom : Domain T) : Prop :=
  ∀ fuel p, ReachableBy (CacheAnswer data) data dom fuel p → p.energyGroup < dom.numGroups
