import Verif.Model.Py
import Verif.Model.GrFull
import Mathlib.Algebra.Order.Floor.Ring

/-!
# Model of atooms/postprocessing/susceptibility.py

The underlying correlation function is an arbitrary function of the first frame of the sub-trajectory, which returns grid
and values, or raises. Simplification: functions of one variable. nan is `none`.
-/

namespace PP

variable {X K : Type} [LinearOrder X] [Field K] [LinearOrder K] [FloorRing K]

/-- `yi.var()`: average of the squared deviations from the average (atooms/postprocessing/susceptibility.py:45,47). -/
def npVar (l : List K) : K :=
  let m := l.sum / (l.length : K)
  (l.map fun y => (y - m) ^ 2).sum / (l.length : K)

/-- One sub-trajectory: the values times the number of particles are appended to the lists of their grid points
(atooms/postprocessing/susceptibility.py:35-42). -/
def susStep (N : ℕ) (corr : ℕ → Py (List X × List K)) (db : List (X × List K)) (i : ℕ) : Py (List (X × List K)) := do
  let r ← corr i
  return (r.1.zip r.2).foldl (fun db e => ddAdd [] (fun l y => l ++ [y]) db e.1 (e.2 * (N : K))) db

/-- Values of the attributes read by `compute`: number of particles of the first frame, entry `tgrid` of the keyword
arguments (`none` if there is none), total time, number of frames, stride (atooms/postprocessing/susceptibility.py:16-34). -/
structure SusObj (K : Type) where
  npart : ℕ
  tgrid : Option (List K)
  totalTime : K
  nsteps : ℕ
  skip : ℕ

/-- Last frame, excluded, of the loop over sub-trajectories: `int(len(steps) * frac) - skip`
(atooms/postprocessing/susceptibility.py:33-34). -/
def susStop (o : SusObj K) : Py ℤ :=
  match o.tgrid with
  | none => .error .keyError
  | some tg =>
    match tg.getLast? with
    | none => .error .indexError
    | some t => if o.totalTime = 0 then .error .zeroDivisionError
      else .ok (pyInt ((o.nsteps : K) * (t / o.totalTime)) - o.skip)

/-- `Susceptibility.compute`, atooms/postprocessing/susceptibility.py:29-47. -/
def susCompute (o : SusObj K) (corr : ℕ → Py (List X × List K)) : Py (List X × List (Option K)) := do
  let stop ← susStop o
  let is ← pyRange 0 stop.toNat o.skip
  let db ← is.foldlM (susStep o.npart corr) []
  let grid := pySorted (dictKeys db)
  return (grid, grid.map fun xi => npDiv (some (npVar (ddGet [] db xi))) (some (o.npart : K)))

end PP
