import Verif.Model.Runs
import Verif.Model.ApiArgs

/-!
# Model of the commands of the single-particle time correlations

What msd, vacf, alpha2, qst and qt compute for the whole system of one input file, from the options of the command to the
arrays that are written. Partial functions and files are modelled elsewhere. The options of an object that a command does not
pass have the values of the signatures of the constructors.
-/

namespace PP

/-- The options of the commands msd, vacf, alpha2, qst and qt
(atooms/postprocessing/api.py:146-148, 170-171, 277-278, 295-296, 313-314). `rmsdMax` and `noOffset` are options of msd only. -/
structure TimeOptions where
  tmax : ℝ
  fraction : ℝ
  tsamples : ℕ
  func : Str
  norigins : NOrigins
  rmsdMax : ℝ
  noOffset : Bool

/-- The function that `_func_db` associates to a name, with `n` points (atooms/postprocessing/api.py:12-15,
helpers.py:4-25). -/
noncomputable def GridFunc.grid (f : GridFunc) (n : ℕ) (x1 x2 : ℝ) : Py (List ℝ) :=
  match f with
  | .linear => linearGrid x1 x2 (.int n)
  | .logx => logxGrid x1 x2 n

section
variable {n d : ℕ}

/-- What a command computes for the whole system: `x` are the positions or velocities that the object reads. The other
commands are not of this kind (`none`). msd: atooms/postprocessing/api.py:150-164; vacf: api.py:174-182, where `tsamples` of
the object has its default 30 (vacf.py:23); alpha2: api.py:281-289, `tsamples` by default 30 (alpha2.py:24); qst:
api.py:299-307 and qt: api.py:317-325, `a` and `tsamples` by default 0.3 and 60 (qt.py:47,72). -/
noncomputable def timeCommand (c : Command) (o : TimeOptions) (tr : Traj ℝ) (x : List (Frame n d ℝ)) :
    Option (Py (List ℝ × List (Option ℝ))) :=
  let grid : Py (Option (List ℝ)) := do
    let f ← funcOf o.func
    apiTimeGrid c (f.grid o.tsamples) tr.timestep tr.totalTime o.tmax o.fraction
  match c with
  | .msd => some do
      let g ← grid
      msdRun (.object tr) g o.rmsdMax 30 o.norigins o.noOffset x
  | .vacf => some do
      let g ← grid
      vacfRun tr g 30 o.norigins x
  | .alpha2 => some do
      let g ← grid
      alpha2Run (.object tr) g 30 o.norigins x
  | .qst => some do
      let g ← grid
      qstRunR (.object tr) g 60 o.norigins (3 / 10) x
  | .qt => some do
      let g ← grid
      qtRun (.object tr) g 60 o.norigins (3 / 10) x
  | _ => none

/-- What the command chi4qs computes for the whole system, with the option `total` and without `fast`
(atooms/postprocessing/api.py:252-272); `tsamples` of the object has its default 60 (chi4t.py:37). -/
noncomputable def chi4Command (o : TimeOptions) (a : ℝ) (tr : Traj ℝ) (x : List (Frame n d ℝ)) : Py (Chi4State n d ℝ) := do
  let f ← funcOf o.func
  let g ← apiTimeGrid .chi4qs (f.grid o.tsamples) tr.timestep tr.totalTime o.tmax o.fraction
  chi4Run (.object tr) g 60 o.norigins a x

end

end PP
