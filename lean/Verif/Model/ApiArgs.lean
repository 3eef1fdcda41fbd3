import Verif.Model.Api
import Verif.Model.Text

/-!
# Model of the arguments of the functions of the api
-/

namespace PP

/-- The values of arguments (atooms/postprocessing/api.py:42-68 and the signatures at lines 70-331): `None`, a truth
value, a number, a string or a file. -/
inductive ArgVal
  | none
  | bool (b : Bool)
  | num (q : ℚ)
  | str (s : Str)
  deriving DecidableEq

/-- The dictionary `defaults`, atooms/postprocessing/api.py:45-59. -/
def compatDefaults : List (Str × ArgVal) :=
  [("first".toList, .none), ("last".toList, .none), ("skip".toList, .none), ("fmt".toList, .none),
    ("center".toList, .bool false), ("species_layout".toList, .none), ("norigins".toList, .none),
    ("fast".toList, .bool false), ("legacy".toList, .bool false), ("no_cache".toList, .bool false),
    ("update".toList, .bool false), ("filter".toList, .none), ("no_partial".toList, .bool false)]

/-- The loop over the keys of `defaults`, atooms/postprocessing/api.py:60-62. -/
def compatLoop (args : List (Str × ArgVal)) : List (Str × ArgVal) :=
  compatDefaults.foldl (fun a kv => if kv.1 ∈ dictKeys a then a else dictSet a kv.1 kv.2) args

/-- `_compat`, atooms/postprocessing/api.py:42-68. -/
def compat (args : List (Str × ArgVal)) : Py (List (Str × ArgVal)) := do
  let a := compatLoop args
  let f ← dictGet a "filter".toList
  if f ≠ .none then return dictSet a "no_partial".toList (.bool true) else return a

/-- The parameters of the functions before `*input_files`, with their defaults; the first one has none
(atooms/postprocessing/api.py: gr 70, sk 93-95, ik 131-132, msd 146-148, vacf 170-171, fkt 188-190, fskt 220-222,
chi4qs 252-253, alpha2 277-278, qst 295-296, qt 313-314, ba 331). -/
def Command.params : Command → List (Str × Option ArgVal)
  | .gr => [("input_file".toList, Option.none), ("dr".toList, some (.num (4 / 100))),
      ("grandcanonical".toList, some (.bool false)), ("ndim".toList, some (.num (-1))), ("rmax".toList, some (.num (-1)))]
  | .sk => [("input_file".toList, Option.none), ("nk".toList, some (.num 20)), ("dk".toList, some (.num (1 / 10))),
      ("kmin".toList, some (.num (-1))), ("kmax".toList, some (.num 15)), ("ksamples".toList, some (.num 30)),
      ("kgrid".toList, some .none), ("weight".toList, some .none), ("weight_trajectory".toList, some .none),
      ("weight_fluctuations".toList, some (.bool false))]
  | .ik => [("input_file".toList, Option.none), ("trajectory_radius".toList, some .none), ("nk".toList, some (.num 20)),
      ("dk".toList, some (.num (1 / 10))), ("kmin".toList, some (.num (-1))), ("kmax".toList, some (.num 15)),
      ("kgrid".toList, some .none), ("ksamples".toList, some (.num 30))]
  | .msd => [("input_file".toList, Option.none), ("tmax".toList, some (.num (-1))),
      ("tmax_fraction".toList, some (.num (3 / 4))), ("tsamples".toList, some (.num 30)), ("sigma".toList, some (.num 1)),
      ("func".toList, some (.str "linear".toList)), ("rmsd_max".toList, some (.num (-1))),
      ("fix_cm".toList, some (.bool false)), ("no_offset".toList, some (.bool false))]
  | .vacf => [("input_file".toList, Option.none), ("tmax".toList, some (.num (-1))),
      ("tmax_fraction".toList, some (.num (1 / 10))), ("tsamples".toList, some (.num 30)),
      ("func".toList, some (.str "linear".toList))]
  | .fkt => [("input_file".toList, Option.none), ("tmax".toList, some (.num (-1))),
      ("tmax_fraction".toList, some (.num (3 / 4))), ("tsamples".toList, some (.num 60)), ("kmin".toList, some (.num 7)),
      ("kmax".toList, some (.num 7)), ("ksamples".toList, some (.num 1)), ("dk".toList, some (.num (1 / 10))),
      ("nk".toList, some (.num 100)), ("kgrid".toList, some .none), ("func".toList, some (.str "logx".toList)),
      ("fix_cm".toList, some (.bool false)), ("total".toList, some (.bool false))]
  | .fskt => [("input_file".toList, Option.none), ("tmax".toList, some (.num (-1))),
      ("tmax_fraction".toList, some (.num (3 / 4))), ("tsamples".toList, some (.num 60)), ("kmin".toList, some (.num 7)),
      ("kmax".toList, some (.num 8)), ("ksamples".toList, some (.num 1)), ("dk".toList, some (.num (1 / 10))),
      ("nk".toList, some (.num 8)), ("kgrid".toList, some .none), ("func".toList, some (.str "logx".toList)),
      ("total".toList, some (.bool false)), ("fix_cm".toList, some (.bool false)), ("lookup_mb".toList, some (.num 64))]
  | .chi4qs => [("input_file".toList, Option.none), ("tsamples".toList, some (.num 60)),
      ("a".toList, some (.num (3 / 10))), ("tmax".toList, some (.num (-1))), ("func".toList, some (.str "logx".toList)),
      ("tmax_fraction".toList, some (.num (3 / 4))), ("total".toList, some (.bool false))]
  | .alpha2 => [("input_file".toList, Option.none), ("tmax".toList, some (.num (-1))),
      ("tmax_fraction".toList, some (.num (3 / 4))), ("tsamples".toList, some (.num 60)),
      ("func".toList, some (.str "logx".toList))]
  | .qst => [("input_file".toList, Option.none), ("tmax".toList, some (.num (-1))),
      ("tmax_fraction".toList, some (.num (3 / 4))), ("tsamples".toList, some (.num 60)),
      ("func".toList, some (.str "logx".toList))]
  | .qt => [("input_file".toList, Option.none), ("tmax".toList, some (.num (-1))),
      ("tmax_fraction".toList, some (.num (3 / 4))), ("tsamples".toList, some (.num 60)),
      ("func".toList, some (.str "logx".toList))]
  | .ba => [("input_file".toList, Option.none), ("dtheta".toList, some (.num 4)),
      ("grandcanonical".toList, some (.bool false))]

/-- The value of a parameter that is not given by position: given by keyword, or its default
(python's rules for the signatures at atooms/postprocessing/api.py:70-331). -/
def bindRest (kw : List (Str × ArgVal)) (p : Str × Option ArgVal) : Py (Str × ArgVal) :=
  match dictGet kw p.1, p.2 with
  | .ok v, _ => .ok (p.1, v)
  | .error _, some v => .ok (p.1, v)
  | .error _, Option.none => .error .typeError

/-- What a function of the api receives (signatures at atooms/postprocessing/api.py:70-331): its parameters, the further
files `*input_files` and the other options `**global_args`. -/
structure Bound where
  params : List (Str × ArgVal)
  files : List ArgVal
  globals : List (Str × ArgVal)
  deriving DecidableEq

/-- A call with positional arguments `pos` and keywords `kw`, python's rules for the signatures at
atooms/postprocessing/api.py:70-331: positional arguments fill the parameters in order, those left go to `*input_files`;
a keyword for a parameter that is already filled raises `TypeError`, as does a missing parameter without default; the
keywords that are not parameters go to `**global_args`. -/
def bindCall (params : List (Str × Option ArgVal)) (pos : List ArgVal) (kw : List (Str × ArgVal)) : Py Bound := do
  let filled := params.take pos.length
  if filled.any fun p => decide (p.1 ∈ dictKeys kw) then throw .typeError
  let rest ← (params.drop pos.length).mapM (bindRest kw)
  return { params := List.zipWith (fun p v => (p.1, v)) filled pos ++ rest
           files := pos.drop params.length
           globals := kw.filter fun e => decide (e.1 ∉ params.map Prod.fst) }

/-- `[input_file] + list(input_files)`, e.g. atooms/postprocessing/api.py:78. -/
def Bound.inputFiles (b : Bound) : Py (List ArgVal) := do
  let f ← dictGet b.params "input_file".toList
  return [f] ++ b.files

/-- The implementations of a correlation function (atooms/postprocessing/api.py:73-76, 101-104, 227-230, 258-261). -/
inductive Impl
  | fast | legacy
  deriving DecidableEq

/-- The class used by a command that has two, given whether the Fortran modules can be imported: `gr`
(atooms/postprocessing/api.py:73-76, gr.py:374-379), `sk` (api.py:101-104), `fskt` (api.py:227-230, fkt.py:249-254) and
`chi4qs` (api.py:258-261), where the plain class is called `legacy` here and the name of the other one is not defined
(chi4t.py:15). The other commands have one class. -/
def backend (wrapped fast legacy : Bool) : Command → Option (Py Impl)
  | .gr => some (.ok (if legacy then .legacy else if wrapped then .fast else .legacy))
  | .sk => some (.ok (if fast then .fast else .legacy))
  | .fskt => some (.ok (if legacy then .legacy else if wrapped then .fast else .legacy))
  | .chi4qs => some (if fast then .error .attributeError else .ok .legacy)
  | _ => Option.none

/-- `[float(_) for _ in kgrid.split(',')]`, atooms/postprocessing/api.py:105-106, 136-137, 206-207, 238-239; `float` as
in `pyFloatOfStr`. -/
def kgridOfStr (s : Str) : Py (List ℚ) := (pySplit ',' s).mapM pyFloatOfStr

/-- The grids of atooms/postprocessing/helpers.py:4-25. -/
inductive GridFunc
  | linear | logx
  deriving DecidableEq

/-- `_func_db`, atooms/postprocessing/api.py:12-15. -/
def funcDb : List (Str × GridFunc) :=
  [("linear_grid".toList, .linear), ("linear".toList, .linear), ("logx_grid".toList, .logx), ("logx".toList, .logx)]

/-- `func = _func_db[func]`, e.g. atooms/postprocessing/api.py:150. -/
def funcOf (s : Str) : Py GridFunc := dictGet funcDb s

end PP
