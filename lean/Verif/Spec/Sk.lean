import Mathlib.Analysis.SpecialFunctions.Complex.Circle
import Mathlib.Algebra.BigOperators.Fin

/-!
# Density modes and structure factor, independently of the model
-/

namespace PP.Spec

variable {d : ℕ}

/-- Phase `k · x`. -/
noncomputable def dot (k x : Fin d → ℝ) : ℝ := ∑ c, k c * x c

/-- Density mode `ρ_k = Σ_p exp(i k·x_p)`. -/
noncomputable def density (k : Fin d → ℝ) (pos : List (Fin d → ℝ)) : ℂ :=
  (pos.map fun x => Complex.exp (Complex.I * (dot k x : ℝ))).sum

/-- Density mode of a field with values `w p` on the particles, `Σ_p w_p exp(i k·x_p)`. -/
noncomputable def fieldMode (k : Fin d → ℝ) (w : ℕ → ℝ) (pos : List (Fin d → ℝ)) : ℂ :=
  (pos.zipIdx.map fun e => (w e.2 : ℂ) * Complex.exp (Complex.I * (dot k e.1 : ℝ))).sum

/-- Elements number 0, `n`, `2n`, ... of a list. -/
def everyNth {α : Type} (n : ℕ) (l : List α) : List α := (l.zipIdx.filter fun e => e.2 % n = 0).map Prod.fst

end PP.Spec
