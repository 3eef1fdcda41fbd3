import Verif.Model.CommandsPartial

/-!
# Model of what the command chi4qs computes for the whole system and for the species

Without the option `fast`. The species of the particles do not change with time.
-/

namespace PP

variable {n d : ℕ} {S : Type} [DecidableEq S]

/-- `grid`, `value` and `average` of an object after its calculation (atooms/postprocessing/chi4t.py:53-77). -/
noncomputable def chi4Results (o : TimeOptions) (a : ℝ) (tr : Traj ℝ) (x : List (Frame n d ℝ)) : Py (List ℝ × List ℝ × List ℝ) := do
  let s ← chi4Command o a tr x
  return (s.grid, s.value, s.average)

/-- The function of the whole system, with the option `total` only (atooms/postprocessing/api.py:270-271). -/
noncomputable def chi4Total (o : TimeOptions) (total : Bool) (a : ℝ) (tr : Traj ℝ) (x : List (Frame n d ℝ)) :
    Option (Py (List ℝ × List ℝ × List ℝ)) :=
  if total then some (chi4Results o a tr x) else none

/-- The functions of the species `ids` found in the first frame, without the option `total` and with more than one species
(atooms/postprocessing/api.py:272-275, partial.py:30-36,73-77). The option `no_partial` is not read. -/
noncomputable def chi4Partials (o : TimeOptions) (total : Bool) (a : ℝ) (tr : Traj ℝ) (ids : List S) (sp : Fin n → S)
    (x : List (Frame n d ℝ)) : List (S × Py (List ℝ × List ℝ × List ℝ)) :=
  if total = false ∧ 1 < ids.length then ids.map fun b => (b, chi4Results o a tr (x.map (speciesFrame sp b))) else []

end PP
