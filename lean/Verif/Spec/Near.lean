import Verif.Model.Gr

/-!
# Specification: particles in a cell, periodic images within a distance
-/

namespace PP.Spec

variable {K : Type} [Field K] [LinearOrder K] {d : ℕ}

/-- The particle is inside the cell of sides `L` centred on the origin (lower faces included). -/
def Inside (L x : Fin d → K) : Prop := ∀ c, -(L c / 2) ≤ x c ∧ x c < L c / 2

/-- Some image of `x`, obtained by shifts of whole cell sides along the periodic directions, is at most at
distance `r` from `y`. -/
def Near (periodic : Fin d → Bool) (L : Fin d → K) (r : K) (x y : Fin d → K) : Prop :=
  ∃ m : Fin d → ℤ, (∀ c, periodic c = false → m c = 0) ∧
    ∑ c, (x c - y c + m c * L c) ^ 2 ≤ r ^ 2

end PP.Spec
