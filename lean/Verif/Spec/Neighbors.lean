import Verif.Model.Gr

/-!
# Specification: particles closer than a cut-off
-/

namespace PP.Spec

variable {K : Type} [Field K] [LinearOrder K] {d : ℕ}

/-- Some periodic image of `x` is closer than `|r|` to `y`. -/
def Closer (L : Fin d → K) (r : K) (x y : Fin d → K) : Prop :=
  ∃ m : Fin d → ℤ, ∑ c, (x c - y c + m c * L c) ^ 2 < r ^ 2

/-- Along each direction the separation is at most one cell side and a half, as for particles in the cell. -/
def Folded (L : Fin d → K) (x y : Fin d → K) : Prop := ∀ c, |x c - y c| ≤ 3 / 2 * L c

end PP.Spec
