import Mathlib.Algebra.Order.Group.Abs

/-!
# Specification of the discrete time grid
-/

namespace PP.Spec

/-- `v` is an entry with the smallest distance from `t`, the smallest such entry in case of ties. -/
def Nearest {κ : Type*} [LinearOrder κ] [AddCommGroup κ] (entry : List κ) (t v : κ) : Prop :=
  v ∈ entry ∧ ∀ b ∈ entry, |v - t| ≤ |b - t| ∧ (|b - t| = |v - t| → v ≤ b)

/-- Step difference of an (offset, separation) pair. -/
def lag (steps : List ℤ) (g : ℕ × ℕ) : ℤ := steps.getD (g.1 + g.2) 0 - steps.getD g.1 0

/-- An (offset, separation) pair that exists in a trajectory of `n` frames. -/
def Realisable (n blockSize : ℕ) (g : ℕ × ℕ) : Prop := g.1 < blockSize ∧ g.1 + g.2 < n

/-- Steps repeat with the block period: shifting by one block adds a constant. -/
def BlockPeriodic (steps : List ℤ) (blockSize : ℕ) : Prop :=
  ∃ period : ℤ, ∀ i, i + blockSize < steps.length →
    steps.getD (i + blockSize) 0 = steps.getD i 0 + period

end PP.Spec
