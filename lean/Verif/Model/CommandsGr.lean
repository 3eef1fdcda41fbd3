import Verif.Model.GrFull
import Mathlib.Analysis.SpecialFunctions.Trigonometric.Basic
import Verif.Model.Api

/-!
# Model of the command gr

What the command computes for the whole system of one input file, from its options to the table that is written. Filters, partial
functions and files are modelled elsewhere.
-/

namespace PP

/-- The command gr for the whole system (atooms/postprocessing/api.py:70-85, gr.py:91-98). Each frame has the sides of its cell, its
periodic directions and its positions; `bs` and `huge` are the block size of the trajectory and `sys.float_info.max`. `legacy` is the
keyword of the same name. `ndim` is not used by the objects, and `grandcanonical` sets an attribute of the trajectory that is not
read. -/
noncomputable def grCommand {d : ℕ} (legacy : Bool) (dr rmax : ℝ) (norigins : NOrigins) (bs : ℕ) (huge : ℝ)
    (fr : List (Vec d ℝ × (Fin d → Bool) × List (Vec d ℝ))) : Py (List (ℝ × Option ℝ)) := do
  let skip ← adjustSkip fr.length bs (fr.map fun f => f.2.2.length) norigins
  let o : GrObj d ℝ := ⟨fr.map fun f => ⟨f.1, f.2.1, f.2.2, f.2.2⟩, true, skip.toNat, none, .float dr, rmax⟩
  if legacy then grLegacy Real.sqrt Real.pi o else grFast Real.sqrt Real.pi huge o

end PP
