import Verif.Model.Analysis
import Verif.Model.HelpersReal

/-!
# Model of the constructors of the time correlation functions

The first argument of a constructor is a trajectory or the path to one (atooms/postprocessing/correlation.py:196-201).
The constructor of the base class binds the trajectory to `self.trajectory` and computes the stride (line 214); the
constructors of the classes then set the time grid. Files that do not exist are not represented.
-/

namespace PP

/-- The first argument of the constructors: a trajectory object, or the path of a file; `tr` is what
`Trajectory(path)` gives (atooms/postprocessing/correlation.py:196-201). -/
inductive TrajArg (K : Type)
  | object (tr : Traj K)
  | path (tr : Traj K)

/-- `self.trajectory`, atooms/postprocessing/correlation.py:198-201. -/
def TrajArg.traj {K : Type} : TrajArg K → Traj K
  | .object tr => tr
  | .path tr => tr

/-- `trajectory.total_time` for the argument itself (atooms/postprocessing/qt.py:76, vacf.py:26): a string has no such
attribute. -/
def TrajArg.totalTime {K : Type} : TrajArg K → Py K
  | .object tr => .ok tr.totalTime
  | .path _ => .error .attributeError

/-- The attributes set by the constructors: stride, grid, discrete time grid
(atooms/postprocessing/correlation.py:205,214, alpha2.py:25-28). -/
structure TimeInit (K : Type) where
  skip : ℕ
  grid : List K
  dgrid : List (ℕ × ℕ)
deriving DecidableEq

section
variable {K : Type} [Field K] [LinearOrder K] [FloorRing K] {n d : ℕ}

/-- The statements shared by the constructors: stride, then time grid
(atooms/postprocessing/alpha2.py:24-28, qt.py:50-53,74-77, chi4t.py:39-42). -/
def timeInit (tr : Traj K) (tgrid : Option (List K)) (default : Py (List K)) (norigins : NOrigins) : Py (TimeInit K) := do
  let skip ← adjustSkip tr.steps.length tr.blockSize tr.npart norigins
  let g ← tgrid.elim default .ok
  let dg ← setupTGrid tr.steps tr.blockSize tr.timestep g norigins.offset
  return ⟨skip.toNat, g, dg⟩

/-- `NonGaussianParameter.__init__`, atooms/postprocessing/alpha2.py:24-28. -/
def alpha2Init (trj : TrajArg K) (tgrid : Option (List K)) (nsamples : ℤ) (norigins : NOrigins) : Py (TimeInit K) :=
  timeInit trj.traj tgrid (linearGrid 0 (trj.traj.totalTime * (3 / 4)) (.int nsamples)) norigins

/-- Constructor and calculation of the non-Gaussian parameter, atooms/postprocessing/alpha2.py:24-41. -/
def alpha2Run (trj : TrajArg K) (tgrid : Option (List K)) (nsamples : ℤ) (norigins : NOrigins)
    (pos : List (Frame n d K)) : Py (List K × List (Option K)) := do
  let r ← alpha2Init trj tgrid nsamples norigins
  alpha2Compute trj.traj r.dgrid r.skip pos

/-- Constructor and calculation of the mean square displacement, atooms/postprocessing/msd.py:43-79. -/
def msdRun (trj : TrajArg K) (tgrid : Option (List K)) (rmax : K) (tsamples : ℤ) (norigins : NOrigins) (noOffset : Bool)
    (pos : List (Frame n d K)) : Py (List K × List (Option K)) := do
  let skip ← adjustSkip trj.traj.steps.length trj.traj.blockSize trj.traj.npart norigins
  msdCompute trj.traj skip.toNat tgrid rmax tsamples (norigins.offset && !noOffset) pos

end

section
variable {n d : ℕ}

/-- The default grid of the overlaps and of the dynamic susceptibility, atooms/postprocessing/qt.py:52,76,
chi4t.py:41. -/
noncomputable def overlapGrid (totalTime : ℝ) (tsamples : ℕ) : Py (List ℝ) := logxGrid 0 (totalTime * (3 / 4)) tsamples

/-- `CollectiveOverlap.__init__`, atooms/postprocessing/qt.py:47-53. -/
noncomputable def qtInit (trj : TrajArg ℝ) (tgrid : Option (List ℝ)) (tsamples : ℕ) (norigins : NOrigins) :
    Py (TimeInit ℝ) :=
  timeInit trj.traj tgrid (overlapGrid trj.traj.totalTime tsamples) norigins

/-- Constructor and calculation of the collective overlap, atooms/postprocessing/qt.py:47-60. -/
noncomputable def qtRun (trj : TrajArg ℝ) (tgrid : Option (List ℝ)) (tsamples : ℕ) (norigins : NOrigins) (a : ℝ)
    (pos : List (Frame n d ℝ)) : Py (List ℝ × List (Option ℝ)) := do
  let r ← qtInit trj tgrid tsamples norigins
  qtCompute trj.traj r.dgrid r.skip a pos

/-- `SelfOverlap.__init__`, atooms/postprocessing/qt.py:72-78: the total time is that of the argument. -/
noncomputable def qstInit (trj : TrajArg ℝ) (tgrid : Option (List ℝ)) (tsamples : ℕ) (norigins : NOrigins) :
    Py (TimeInit ℝ) :=
  timeInit trj.traj tgrid (do let T ← trj.totalTime; overlapGrid T tsamples) norigins

/-- Constructor and calculation of the self overlap, atooms/postprocessing/qt.py:72-85. -/
noncomputable def qstRunR (trj : TrajArg ℝ) (tgrid : Option (List ℝ)) (tsamples : ℕ) (norigins : NOrigins) (a : ℝ)
    (pos : List (Frame n d ℝ)) : Py (List ℝ × List (Option ℝ)) := do
  let r ← qstInit trj tgrid tsamples norigins
  qstCompute trj.traj r.dgrid r.skip a pos

/-- `Chi4SelfOverlap.__init__`, atooms/postprocessing/chi4t.py:37-51. -/
noncomputable def chi4Init (trj : TrajArg ℝ) (tgrid : Option (List ℝ)) (tsamples : ℕ) (norigins : NOrigins) :
    Py (TimeInit ℝ) :=
  timeInit trj.traj tgrid (overlapGrid trj.traj.totalTime tsamples) norigins

/-- Constructor and first calculation of the dynamic susceptibility, atooms/postprocessing/chi4t.py:37-77. -/
noncomputable def chi4Run (trj : TrajArg ℝ) (tgrid : Option (List ℝ)) (tsamples : ℕ) (norigins : NOrigins) (a : ℝ)
    (pos : List (Frame n d ℝ)) : Py (Chi4State n d ℝ) := do
  let r ← chi4Init trj tgrid tsamples norigins
  chi4ComputeFull trj.traj pos r.skip a r.dgrid (Chi4State.init r.grid)

end

end PP
