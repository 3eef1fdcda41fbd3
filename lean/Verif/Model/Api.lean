import Verif.Model.Helpers
import Verif.Model.HelpersReal

/-!
# Model of the api: which correlation functions are computed for each input file
-/

namespace PP

/-- The functions of atooms/postprocessing/api.py:70-345. -/
inductive Command
  | gr | sk | ik | msd | vacf | fkt | fskt | chi4qs | alpha2 | qst | qt | ba
  deriving DecidableEq, Repr

/-- The options that decide what is computed, atooms/postprocessing/api.py:42-68 and the arguments `total`, `fix_cm` and
`trajectory_radius`. -/
structure ApiOptions where
  filter : Bool
  noPartial : Bool
  total : Bool
  radius : Bool
  fixCm : Bool
  fast : Bool

/-- `args['no_partial']` after `_compat`, atooms/postprocessing/api.py:64-66. -/
def ApiOptions.skipPartial (o : ApiOptions) : Bool := if o.filter then true else o.noPartial

/-- A call to `do()`: on a correlation object for the whole system or on `Partial`, whether the filter has been
applied to it, and whether it has been created with `fix_cm=True`
(e.g. atooms/postprocessing/api.py:79-91, 161-168). -/
structure ApiRun where
  partials : Bool
  filtered : Bool
  fixCm : Bool
  deriving DecidableEq, Repr

/-- `if len(ids) > 1 and not global_args['no_partial']`, e.g. atooms/postprocessing/api.py:87-91. -/
def partialRuns (o : ApiOptions) (nspecies : ℕ) (fixCm : Bool) : List ApiRun :=
  if 1 < nspecies ∧ o.skipPartial = false then [⟨true, false, fixCm⟩] else []

/-- The calls to `do()` for one file, and whether `trajectory_radius` is set afterwards, given whether it was before;
`nspecies` is the number of species of the first frame (`distinct_species`). Each line corresponds to the body of the
loop over the trajectories of one of the functions of atooms/postprocessing/api.py: gr 78-91, sk 107-129, ik 138-144,
msd 152-168, vacf 175-186, fkt 198-218, fskt 231-250, chi4qs 263-275, alpha2 282-293, qst 300-311, qt 318-329,
ba 334-345. -/
def apiFile (o : ApiOptions) (c : Command) (radius : Bool) (nspecies : ℕ) : List ApiRun × Bool :=
  match c with
  | .gr => ([⟨false, o.filter, false⟩] ++ partialRuns o nspecies false, radius)
  | .sk => ([⟨false, o.filter, false⟩] ++ partialRuns o nspecies false, radius)
  | .ik => if radius then ([], true) else ([⟨false, false, false⟩], true)
  | .msd => ([⟨false, false, o.fixCm⟩] ++ partialRuns o nspecies false, radius)
  | .vacf => ([⟨false, false, false⟩] ++ partialRuns o nspecies false, radius)
  | .fkt => ((if o.total ∨ nspecies = 1 then [⟨false, false, o.fixCm⟩] else []) ++ partialRuns o nspecies o.fixCm, radius)
  | .fskt => ((if o.total ∨ nspecies = 1 then [⟨false, false, o.fixCm⟩] else []) ++ partialRuns o nspecies o.fixCm, radius)
  | .chi4qs => ((if o.total then [⟨false, false, false⟩] else []) ++
      (if ¬ o.total ∧ 1 < nspecies then [⟨true, false, false⟩] else []), radius)
  | .alpha2 => ([⟨false, false, false⟩] ++ partialRuns o nspecies false, radius)
  | .qst => ([⟨false, false, false⟩] ++ partialRuns o nspecies false, radius)
  | .qt => ([⟨false, false, false⟩] ++ partialRuns o nspecies false, radius)
  | .ba => ([⟨false, o.filter, false⟩] ++ partialRuns o nspecies false, radius)

/-- The loop over the files, `for th in _get_trajectories([input_file] + list(input_files), global_args)`
(e.g. atooms/postprocessing/api.py:78); the files are given by their number of species. -/
def apiLoop (o : ApiOptions) (c : Command) (radius : Bool) : List ℕ → List (List ApiRun)
  | [] => []
  | n :: files => (apiFile o c radius n).1 :: apiLoop o c (apiFile o c radius n).2 files

/-- A command of the api, atooms/postprocessing/api.py:70-345. With `fast`, `chi4qs` reads `pp.Chi4SelfOverlapOpti`
(line 259), which does not exist: chi4t.py:15 exports `Chi4SelfOverlapOptimized`. Other exceptions are not modelled. -/
def apiCommand (o : ApiOptions) (c : Command) (files : List ℕ) : Py (List (List ApiRun)) :=
  if c = .chi4qs ∧ o.fast = true then .error .attributeError else .ok (apiLoop o c o.radius files)

/-- Whether the largest time given by the user is limited to that of the trajectory: msd, vacf and chi4qs
(atooms/postprocessing/api.py:155, 177, 265); not by fkt, fskt, alpha2, qst, qt (200, 233, 284, 302, 320). -/
def Command.capped (c : Command) : Bool := c ∈ [.msd, .vacf, .chi4qs]

/-- The time grid of a command, `none` if left to the correlation class (atooms/postprocessing/api.py:153-159, 176-181,
200-205, 232-237, 264-269, 283-288, 301-306, 319-324). `func x1 x2` is `linear_grid` or `logx_grid` with `tsamples`
points; `dt` and `T` are the time step and the total time of the trajectory. -/
noncomputable def apiTimeGrid (c : Command) (func : ℝ → ℝ → Py (List ℝ)) (dt T tmax frac : ℝ) :
    Py (Option (List ℝ)) :=
  if tmax > 0 then do
    let g ← func dt (if c.capped then min T tmax else tmax)
    return some ([0] ++ g)
  else if frac > 0 then do
    let g ← func dt (frac * T)
    return some ([0] ++ g)
  else return none

/-- `sl_start`, `sl_stop` in `_get_trajectories`, atooms/postprocessing/api.py:33-34 (python's `//` rounds down). -/
def blockAlign (blockSize : ℕ) (x : Option ℤ) : Option ℤ := x.map fun s => s / (blockSize : ℤ) * (blockSize : ℤ)

/-- The frames selected by a slice with non-negative limits and unit step from `n` frames
(atooms/postprocessing/api.py:31-39). -/
def sliceFrames (n : ℕ) (start stop : Option ℕ) : List ℕ :=
  (List.range n).filter fun i => decide (start.getD 0 ≤ i) && decide (i < stop.getD n)

end PP
