import Verif.Spec.Neighbors
import Mathlib.Geometry.Euclidean.Angle.Unoriented.Basic
import Mathlib.Analysis.InnerProductSpace.PiL2

/-!
# Specification: bond angles
-/

namespace PP.Spec

variable {d : ℕ}

/-- Angle between two vectors, in degrees. -/
noncomputable def degrees (a b : Fin d → ℝ) : ℝ :=
  InnerProductGeometry.angle (WithLp.toLp 2 a : EuclideanSpace ℝ (Fin d)) (WithLp.toLp 2 b) * 180 / Real.pi

open Classical in
/-- The neighbours of a particle at `x`: those that have an image closer than the cut-off of their species `sp` (counted
from 0), except at zero distance. -/
noncomputable def bonded (L x : Fin d → ℝ) (pos : List (Fin d → ℝ)) (sp : ℕ → ℕ) (rc : ℕ → ℝ) : List ℕ :=
  (List.range pos.length).filter fun j => decide (Closer L (rc (sp j)) x (pos.getD j 0) ∧
    minImage L (fun c => x c - pos.getD j 0 c) ≠ 0)

/-- The angles formed at `x` by all the ordered pairs of distinct neighbours, through their nearest images. -/
noncomputable def bondAngles (L x : Fin d → ℝ) (pos : List (Fin d → ℝ)) (sp : ℕ → ℕ) (rc : ℕ → ℝ) : List ℝ :=
  (bonded L x pos sp rc).flatMap fun j => ((bonded L x pos sp rc).filter fun k => k ≠ j).map fun k =>
    degrees (minImage L fun c => x c - pos.getD j 0 c) (minImage L fun c => x c - pos.getD k 0 c)

end PP.Spec
