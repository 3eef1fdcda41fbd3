import Verif.Model.Object

/-!
# Model of the weights in the command `sk`

What is computed for each file is left out, except for the attributes set by `add_weight`. `TrajectoryXYZ` belongs to
atooms: given a path it opens a file, given a trajectory in place of a path it raises `TypeError` (it cannot be opened as
a file).
-/

namespace PP

/-- The argument `weight_trajectory` of `sk`: a path at first, a trajectory after the first file
(atooms/postprocessing/api.py:94,113-114). -/
inductive WeightArg
  | path (p : Str)
  | traj (steps : List ℕ)
  deriving DecidableEq

/-- `TrajectoryXYZ(weight_trajectory)`, atooms/postprocessing/api.py:114: `files` gives the steps of the files. -/
def openXYZ (files : Str → Py (List ℕ)) : WeightArg → Py (List ℕ)
  | .path p => files p
  | .traj _ => .error .typeError

/-- One file of the command `sk`: its trajectory and the number of species of the first frame
(atooms/postprocessing/api.py:107-129). -/
structure SkFile where
  steps : List ℕ
  nspecies : ℕ

/-- The variable `weight_trajectory` after atooms/postprocessing/api.py:113-114, and its steps. -/
def skOpenWeight (files : Str → Py (List ℕ)) : Option WeightArg → Py (Option WeightArg × Option (List ℕ))
  | none => .ok (none, none)
  | some a => do
    let s ← openXYZ files a
    return (some (.traj s), some s)

/-- The calls to `add_weight` of `Partial.add_weight`, atooms/postprocessing/partial.py:61-63, on `n` objects that share
the trajectory `t`: the trajectory, and the objects up to the first exception. -/
def skPartialWeights (w : Option (List ℕ)) (field : Option Str) (fluct : Bool) :
    ℕ → WTraj → List (CorrAttr Unit Unit) × Py Unit
  | 0, _ => ([], .ok ())
  | n + 1, t =>
    match addWeight (CorrAttr.init Unit Unit 2 t) w field fluct with
    | (_, .error e) => ([], .error e)
    | (o, .ok ()) =>
      let r := skPartialWeights w field fluct n o.trajectory
      (o :: r.1, r.2)

/-- The body of the loop of `sk`, atooms/postprocessing/api.py:107-129, without options that exclude partial functions:
the objects whose `do()` is called and the variable `weight_trajectory`. `do()` of the total function is called before
those of the partial ones. -/
def skFileWeights (files : Str → Py (List ℕ)) (field : Option Str) (fluct : Bool) (a : Option WeightArg) (f : SkFile) :
    List (CorrAttr Unit Unit) × Py (Option WeightArg) :=
  match skOpenWeight files a with
  | .error e => ([], .error e)
  | .ok (a, w) =>
    match addWeight (CorrAttr.init Unit Unit 2 ⟨f.steps, []⟩) w field fluct with
    | (_, .error e) => ([], .error e)
    | (o, .ok ()) =>
      if f.nspecies > 1 then
        match skPartialWeights w field fluct (f.nspecies * f.nspecies) o.trajectory with
        | (_, .error e) => ([o], .error e)
        | (os, .ok ()) => (o :: os, .ok a)
      else ([o], .ok a)

/-- The loop over the files of `sk`, atooms/postprocessing/api.py:107: the objects computed for each file, up to the first
exception. -/
def skWeights (files : Str → Py (List ℕ)) (field : Option Str) (fluct : Bool) :
    Option WeightArg → List SkFile → List (List (CorrAttr Unit Unit)) × Py Unit
  | _, [] => ([], .ok ())
  | a, f :: l =>
    match skFileWeights files field fluct a f with
    | (os, .error e) => ([os], .error e)
    | (os, .ok a) =>
      let r := skWeights files field fluct a l
      (os :: r.1, r.2)

end PP
