import Verif.Model.Commands

/-!
# Model of the partial functions of the commands for time correlations

The species of the particles do not change with time. The options `fix_cm` of msd and `update` are not represented.
-/

namespace PP

section
variable {n d : ℕ} {S : Type} [DecidableEq S]

/-- The particles left by `filter_species`, in the order of the frame (atooms/postprocessing/helpers.py:117-127). -/
def speciesPlaces (sp : Fin n → S) (a : S) : List (Fin n) := (List.finRange n).filter fun p => decide (sp p = a)

/-- What the object with the filter of species `a` reads of a frame (atooms/postprocessing/partial.py:30-36,
correlation.py:352-398). -/
def speciesFrame {K : Type} (sp : Fin n → S) (a : S) (x : Frame n d K) : Frame (speciesPlaces sp a).length d K :=
  fun p => x ((speciesPlaces sp a)[p])

/-- The partial functions that the commands msd, vacf, alpha2, qst and qt compute after the total one, for the species
`ids` found in the first frame: none if there is one species only or with the option `no_partial`
(atooms/postprocessing/api.py:165-168, 183-186, 290-293, 308-311, 326-329; partial.py:30-36,73-77). The objects are built with
the same trajectory and arguments as the one of the whole system. -/
noncomputable def timePartials (c : Command) (o : TimeOptions) (noPartial : Bool) (tr : Traj ℝ) (ids : List S) (sp : Fin n → S)
    (x : List (Frame n d ℝ)) : List (S × Option (Py (List ℝ × List (Option ℝ)))) :=
  if 1 < ids.length ∧ noPartial = false then ids.map fun a => (a, timeCommand c o tr (x.map (speciesFrame sp a))) else []

end

end PP
