import Mathlib.Analysis.Real.Sqrt
import Mathlib.Algebra.BigOperators.Fin

/-!
# Wave-vectors and shells, independently of the model
-/

namespace PP.Spec

/-- Norm of the wave-vector with integer components `v`, in a cell whose smallest wave-vectors are `k0`. -/
noncomputable def knorm {d : ℕ} (k0 : Fin d → ℝ) (v : Fin d → ℤ) : ℝ := √(∑ c, (k0 c * v c) ^ 2)

/-- The norm `x` lies within the width of grid point `i`. -/
def Fits (kgrid dk : List ℝ) (i : ℕ) (x : ℝ) : Prop := |x - kgrid.getD i 0| < dk.getD i 0

/-- Largest norm considered: last grid point plus its width. -/
def kTop (kgrid dk : List ℝ) : ℝ := kgrid.getD (kgrid.length - 1) 0 + dk.getD (dk.length - 1) 0

/-- `i` is the first grid point whose shell contains the norm `x`, which does not exceed the largest one. -/
def First (kgrid dk : List ℝ) (i : ℕ) (x : ℝ) : Prop :=
  x ≤ kTop kgrid dk ∧ Fits kgrid dk i x ∧ ∀ j < i, ¬ Fits kgrid dk j x

end PP.Spec
