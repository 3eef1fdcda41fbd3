import Verif.Spec.Sk
import Mathlib.Analysis.SpecialFunctions.Integrals.Basic

/-!
# Specification: spectral density of a packing of spheres
-/

namespace PP.Spec

variable {d : ℕ}

/-- Fourier transform at wave-number `q` of the indicator function of a ball of radius `R` in three dimensions, after the
integration over the angles: `∫ 4π r² sin(qr)/(qr) dr` between 0 and `R`. -/
noncomputable def ballTransform (q R : ℝ) : ℝ := ∫ r in (0 : ℝ)..R, 4 * Real.pi * r ^ 2 * (Real.sin (q * r) / (q * r))

/-- `|Σ_p m(q; R_p) exp(i k·x_p)|²` with the transforms of the balls taken at wave-number `q`. -/
noncomputable def ballMode (q : ℝ) (k : Fin d → ℝ) (radius : List ℝ) (pos : List (Fin d → ℝ)) : ℝ :=
  ‖fieldMode k (fun p => ballTransform q (radius.getD p 0)) pos‖ ^ 2

end PP.Spec
