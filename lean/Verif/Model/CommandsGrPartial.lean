import Verif.Model.CommandsGr
import Verif.Model.GrPartial
import Verif.Model.Object

/-!
# Model of the partial functions of the command gr

A particle is given by its species and its position. The objects of `Partial` are those of `Verif.Model.Object`.
-/

namespace PP

section
variable {d : ℕ} {S : Type} [DecidableEq S]

/-- The table of the object built by the command with the filters of the given species (atooms/postprocessing/api.py:70-75,88-90,
partial.py:38-49, gr.py:91-98, correlation.py:454-479). The number of frames used is found from the whole frames, before filtering
(correlation.py:214). -/
noncomputable def grFiltered (legacy : Bool) (dr rmax : ℝ) (norigins : NOrigins) (bs : ℕ) (huge : ℝ)
    (fr : List (System (S × Vec d ℝ) (CellInfo d ℝ))) (filters : List S) : Py (List (ℝ × Option ℝ)) := do
  let skip ← adjustSkip fr.length bs (fr.map fun s => s.particle.length) norigins
  let o : GrObj d ℝ := twobodyObj Prod.snd (filters.map fun a s => filterSpecies Prod.fst s (some a)) fr
    ⟨[], true, skip.toNat, none, .float dr, rmax⟩
  if legacy then grLegacy Real.sqrt Real.pi o else grFast Real.sqrt Real.pi huge o

/-- The partial functions that the command gr computes after the total one, for the species `ids` found in the first frame: none if
there is one species only or with the option `no_partial` (atooms/postprocessing/api.py:87-91, partial.py:38-49,79-90). `_symmetric` is
true (correlation.py:189). Each object is computed once, so that the number of previous calls is not used. -/
noncomputable def grPartials (legacy : Bool) (dr rmax : ℝ) (norigins : NOrigins) (bs : ℕ) (huge : ℝ) (noPartial : Bool)
    (ids : List S) (fr : List (System (S × Vec d ℝ) (CellInfo d ℝ))) : Py (List ((S × S) × PObj S (List (ℝ × Option ℝ)))) :=
  if 1 < ids.length ∧ noPartial = false then
    partialCompute2 true (fun filters _ => grFiltered legacy dr rmax norigins bs huge fr filters) ids (partialInit2 ids)
  else .ok []

end

end PP
