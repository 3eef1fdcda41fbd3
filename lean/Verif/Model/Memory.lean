import Verif.Model.Arrays

/-!
# Model of the frames of a trajectory kept in memory

`_setup_arrays_onebody` subtracts the centre of mass of the unfolded positions from the particles in place
(correlation.py:377-387). If the trajectory keeps its frames in memory, because it is not a file or because its cache is
used (`th.cache = True`, api.py:24-28), the next calculation reads the positions so changed. If the unfolded trajectory is
used instead the frames are those of the decorator, which is not modelled: the frames in memory are then unchanged.
-/

namespace PP

section
variable {d : ℕ} {S K Y : Type}

/-- The condition for reading the unfolded trajectory, atooms/postprocessing/correlation.py:341-342. -/
def unfoldsFirst (o : ArrObj d S K Y) (traj : List (ASys d S K Y)) : Py Bool := do
  let missing ← unfoldedMissing o traj
  return missing || (decide (.pos ∈ o.phasespace) && o.fixCm)

variable [Field K]

/-- The frames in memory after the loop of atooms/postprocessing/correlation.py:372-392. -/
def framesAfter (o : ArrObj d S K Y) (traj : List (ASys d S K Y)) : Py (List (ASys d S K Y)) := do
  let u ← unfoldsFirst o traj
  if u = false ∧ .posUnf ∈ o.phasespace ∧ o.fixCm = true then traj.mapM subtractCm else .ok traj

/-- `_setup_arrays_onebody` with the frames in memory, atooms/postprocessing/correlation.py:328-398. Each frame is changed
before being read, hence the arrays are those of `setupOnebody`. -/
def setupOnebodyMem [DecidableEq S] (distinct : List S → List S) (dec : Decorators d S K Y)
    (traj : List (ASys d S K Y)) (o : ArrObj d S K Y) : Py (ArrObj d S K Y × List (ASys d S K Y)) := do
  let o' ← setupOnebody distinct dec traj o
  let m ← framesAfter o traj
  return (o', m)

/-- Several one-body functions set up one after the other on the same trajectory, as `Partial` does
(atooms/postprocessing/partial.py:73-77). -/
def setupAll [DecidableEq S] (distinct : List S → List S) (dec : Decorators d S K Y) :
    List (ASys d S K Y) → List (ArrObj d S K Y) → Py (List (ArrObj d S K Y))
  | _, [] => .ok []
  | traj, o :: os => do
    let r ← setupOnebodyMem distinct dec traj o
    let rs ← setupAll distinct dec r.2 os
    return r.1 :: rs

end

end PP
