import Verif.Model.CommandsGr
import Verif.Model.BondAngle

/-!
# Model of the command ba

What the command computes for a system of one species in one input file. Filters and files are modelled elsewhere.
-/

namespace PP

/-- `_default_rcut` for a system of one species (atooms/postprocessing/ba.py:20-46): the partial radial distribution function is that of
the whole system, because its filter keeps all the particles (partial.py:38-48, helpers.py:117-127), with the default number of time
origins. If the second loop finds no point, the cut-off is what is in the memory of `numpy.ndarray`, `uninit`
(atooms/postprocessing/ba.py:80-82). Values of g(r) that are not numbers are not modelled (`valueError`). -/
noncomputable def baCutoff {d : ℕ} (bs : ℕ) (huge uninit : ℝ) (fr : List (Vec d ℝ × (Fin d → Bool) × List (Vec d ℝ))) : Py ℝ := do
  let t ← grCommand false (1 / 10) (-1) .none bs huge fr
  let value ← t.mapM fun p => match p.2 with | some v => (.ok v : Py ℝ) | none => .error .valueError
  let r ← baDefaultRcut (t.map Prod.fst) value
  return r.getD uninit

/-- The command ba for a system of one species (atooms/postprocessing/api.py:331-340, ba.py:60-117). `bs`, `huge` and the frames are as
in the command gr. -/
noncomputable def baCommand {d : ℕ} (dtheta : ℝ) (norigins : NOrigins) (bs : ℕ) (huge uninit : ℝ)
    (fr : List (Vec d ℝ × (Fin d → Bool) × List (Vec d ℝ))) : Py (List ℝ × List (Option ℝ)) := do
  let skip ← adjustSkip fr.length bs (fr.map fun f => f.2.2.length) norigins
  let grid ← baGrid dtheta
  let rc ← baCutoff bs huge uninit fr
  baCompute [[rc]] 1 skip.toNat grid (fr.map fun f =>
    ⟨f.1, f.2.2, List.replicate f.2.2.length 0, f.2.2, List.replicate f.2.2.length 0⟩)

end PP
