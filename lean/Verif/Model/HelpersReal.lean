import Verif.Model.Py
import Mathlib.Analysis.SpecialFunctions.Pow.Real

/-!
# Model of atooms/postprocessing/helpers.py: functions that need real powers
-/

namespace PP

/-- `logx_grid`, atooms/postprocessing/helpers.py:17-25, over the reals, for `n ≥ 0`. `n = 0`
raises `ZeroDivisionError` at `1.0 / n`. The powers `xx**(i+1)` have natural exponents. For a
negative base python would return complex numbers; the theorems only concern non-negative bases. -/
noncomputable def logxGrid (x1 x2 : ℝ) (n : ℕ) : Py (List ℝ) :=
  if n = 0 then .error .zeroDivisionError
  else if x1 > 0 then
    let xx := (x2 / x1) ^ ((1 : ℝ) / n)
    .ok ([x1] ++ (rangeList 1 n 1).map fun i => x1 * xx ^ (i + 1))
  else
    let xx := x2 ^ ((1 : ℝ) / n)
    .ok ([x1] ++ (rangeList 1 n 1).map fun i => xx ^ (i + 1) - 1)

end PP
