import Verif.Spec.Direct
/-!
# Counting particles with 64 bits

A condition on the numbers of particles of a run, read on the reference that tracks the particles one by one
(`Verif/Spec/Direct.lean`).
-/
variable {T : Type} [Flt T]

/-- The numbers of particles of the first `n + 1` cycles can be counted with 64 bits, as `usize` does. -/
def Countable64 (data : Data T) (o : SyncOpts) (fuel : Nat) (s0 : SimState T) (n : Nat) : Prop :=
  ∀ k s s2 u2 c2, k ≤ n → DirectCycles data o fuel k s0 s → cycleSync data o k s = .ok s2 →
    sourceNow data s2.srcWeight s2.unit s2.container = .ok (u2, c2) →
    s2.globalN < 2 ^ 64 ∧ c2.processing.length < 2 ^ 64
