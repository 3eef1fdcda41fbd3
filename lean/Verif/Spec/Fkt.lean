import Verif.Spec.Sk
import Verif.Spec.Correlation

/-!
# Intermediate scattering functions, independently of the model
-/

namespace PP.Spec

variable {d : ℕ}

/-- Cosines of the phases of the displacements of the particles from `b` to `a`. -/
noncomputable def selfTerms (k : Fin d → ℝ) (a b : List (Fin d → ℝ)) : List ℝ :=
  List.zipWith (fun x y => Real.cos (dot k fun c => x c - y c)) a b

/-- Pairs (later frame, earlier frame) sampled at lag `δ`. -/
def framePairs {X : Type} (steps : List ℤ) (skip : ℕ) (grid : List (ℕ × ℕ)) (x : List X) (δ : ℤ) : List (X × X) :=
  termsAt δ (terms steps x (sampled x.length skip grid))

/-- Lag `δ` is sampled. -/
def Sampled (steps : List ℤ) (skip : ℕ) (grid : List (ℕ × ℕ)) (n : ℕ) (δ : ℤ) : Prop :=
  ∃ p ∈ sampled n skip grid, steps.getD (p.1 + p.2) 0 - steps.getD p.1 0 = δ

end PP.Spec
