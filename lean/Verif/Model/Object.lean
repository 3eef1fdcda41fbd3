import Verif.Model.Text
import Verif.Model.GrPartial

/-!
# Model of the state of a correlation object: filters, weights, tags; `Filter` and `Partial`

Methods that may raise return the object as they leave it, together with the outcome: in python the changes made
before the exception persist.
-/

namespace PP

/-- A weight array as returned by `System.dump('particle.<field>')`: the type of its entries is that of the field
(atooms/postprocessing/correlation.py:415, 446-447). -/
inductive NpArr (K : Type)
  | float (l : List K)
  | int (l : List ℤ)

/-- The trajectory as far as the weights are concerned: its steps and the callbacks that copy a field from another
trajectory (atooms/postprocessing/correlation.py:276-281). A callback is the name of the field and the steps of the
source. -/
structure WTraj where
  steps : List ℕ
  callbacks : List (Str × List ℕ)

/-- Attributes of `Correlation` used by `add_filter`, `add_weight` and the setup of the weights
(atooms/postprocessing/correlation.py:196-237). `F` is the type of the filters, `W` of the weight arrays. -/
structure CorrAttr (F W : Type) where
  nbodies : ℕ
  trajectory : WTraj
  cbk : List F
  weight : Option (List W)
  weightFluctuations : Bool
  weightField : Option Str
  /-- steps of `_weight_trajectory`, if it has been set -/
  weightSteps : Option (List ℕ)
  tag : Str
  tagDescription : Str

/-- `__init__`, atooms/postprocessing/correlation.py:196-237, attributes above only. -/
def CorrAttr.init (F W : Type) (nbodies : ℕ) (t : WTraj) : CorrAttr F W where
  nbodies := nbodies
  trajectory := t
  cbk := []
  weight := none
  weightFluctuations := false
  weightField := none
  weightSteps := none
  tag := []
  tagDescription := "the whole system".toList

section
variable {F W : Type}

/-- `add_filter`, atooms/postprocessing/correlation.py:291-297. The three lists `_cbk`, `_cbk_args`, `_cbk_kwargs`
are one list of closures. -/
def addFilter (o : CorrAttr F W) (f : F) : CorrAttr F W × Py Unit :=
  if o.cbk.length > o.nbodies then (o, .error .valueError)
  else ({ o with cbk := o.cbk ++ [f] }, .ok ())

/-- A sequence of calls to `add_filter` in which exceptions are caught, atooms/postprocessing/correlation.py:291-297;
the outcomes are collected. -/
def addFilters (o : CorrAttr F W) : List F → CorrAttr F W × List (Py Unit)
  | [] => (o, [])
  | f :: fs => ((addFilters (addFilter o f).1 fs).1, (addFilter o f).2 :: (addFilters (addFilter o f).1 fs).2)

/-- The end of `add_weight`, where tags are changed, atooms/postprocessing/correlation.py:283-289. The result of
`self.tag.strip('_.')` is not used by the code. -/
def weightTags (o : CorrAttr F W) (field : Str) : CorrAttr F W :=
  let fluct := if o.weightFluctuations then "fluctuations".toList else []
  { o with
    tagDescription := pyReplace "  ".toList " ".toList
      (o.tagDescription ++ " with ".toList ++ pyReplace "_".toList " ".toList field ++ " ".toList ++ fluct
        ++ " field".toList)
    tag := o.tag ++ ".".toList ++ field ++ "_".toList ++ fluct }

/-- Lines 271-278 of `add_weight` (atooms/postprocessing/correlation.py): the trajectory of the weight is set and the
callback is added to the trajectory. -/
def weightSource (o : CorrAttr F W) (trajectory : Option (List ℕ)) (field : Str) : CorrAttr F W :=
  match trajectory with
  | none => { o with weightSteps := some o.trajectory.steps }
  | some steps =>
    { o with weightSteps := some steps
             trajectory := { o.trajectory with callbacks := o.trajectory.callbacks ++ [(field, steps)] } }

/-- `add_weight`, atooms/postprocessing/correlation.py:242-289. `trajectory` is given by its steps. -/
def addWeight (o : CorrAttr F W) (trajectory : Option (List ℕ)) (field : Option Str) (fluctuations : Bool) :
    CorrAttr F W × Py Unit :=
  if trajectory = none ∧ field = none then (o, .ok ())
  else
    let o1 := { o with weight := some [], weightFluctuations := fluctuations }
    match field with
    | none => (o1, .error .valueError)
    | some fld =>
      let o2 := weightSource { o1 with weightField := some fld } trajectory fld
      if o2.weightSteps ≠ some o2.trajectory.steps then (o2, .error .valueError)
      else (weightTags o2 fld, .ok ())

end

/-! ### Weights -/

section
variable {K : Type} [Field K]

/-- `current_field.mean()`, atooms/postprocessing/correlation.py:105: nan (`none`) for an empty array. -/
def NpArr.mean : NpArr K → Option K
  | .float [] => none
  | .float l => some (l.sum / (l.length : K))
  | .int [] => none
  | .int l => some ((l.map fun x : ℤ => (x : K)).sum / (l.length : K))

/-- `current_field -= mean`, atooms/postprocessing/correlation.py:108: in-place subtraction of a float from an array
of integers raises `UFuncTypeError`, a subclass of `TypeError`. The outcome is nan (`none`) if the mean is. -/
def NpArr.subInPlace (m : Option K) : NpArr K → Py (List (Option K))
  | .float l => .ok (l.map fun x => m.map fun c => x - c)
  | .int _ => .error .typeError

/-- Sum of two numbers one of which may be nan (atooms/postprocessing/correlation.py:105). -/
def nanAdd (a b : Option K) : Option K :=
  match a, b with
  | some x, some y => some (x + y)
  | _, _ => none

/-- `_subtract_mean`, atooms/postprocessing/correlation.py:102-109. In case of an exception the arrays already
modified are not returned. -/
def subtractMean (weight : List (NpArr K)) : Py (List (List (Option K))) :=
  if weight = [] then .error .zeroDivisionError
  else
    let mean := weight.foldl (fun m f => nanAdd m f.mean) (some 0)
    let mean := mean.map fun c => c / (weight.length : K)
    weight.mapM (NpArr.subInPlace mean)

end

section
variable {P Y W : Type}

/-- The weights of the frames, `_setup_weight_onebody` without the final subtraction
(atooms/postprocessing/correlation.py:400-420): the arrays are appended to those already present. `dump` is
`s.dump('particle.<field>')`. -/
def weightOnebody (cbk : List (System P Y → System P Y)) (dump : System P Y → W) (traj : List (System P Y))
    (weight : List W) : List W :=
  weight ++ traj.map fun s => dump (match cbk with
    | [] => s
    | c :: _ => c s)

/-- One frame of `_setup_weight_twobody`, atooms/postprocessing/correlation.py:443-447: unless there are two
filters, the local variables `s0`, `s1` are not defined (`UnboundLocalError`, a subclass of `NameError`). -/
def weightTwobodyFrame (cbk : List (System P Y → System P Y)) (dump : System P Y → W) (s : System P Y) : Py (W × W) :=
  match cbk with
  | [c0, c1] => .ok (dump (c0 s), dump (c1 s))
  | _ => .error .nameError

/-- `_weight_0`, `_weight_1` after `_setup_weight_twobody`, without the final subtraction of the mean
(atooms/postprocessing/correlation.py:422-452). -/
def weightTwobody (cbk : List (System P Y → System P Y)) (dump : System P Y → W) (traj : List (System P Y)) :
    Py (List W × List W) :=
  if cbk.length ≤ 1 then .ok (weightOnebody cbk dump traj [], weightOnebody cbk dump traj [])
  else do
    let w ← traj.mapM (weightTwobodyFrame cbk dump)
    return (w.map Prod.fst, w.map Prod.snd)

/-- The frames that a one-body correlation stores: `dump` is `s.dump('pos')` or other
(atooms/postprocessing/correlation.py:351-366); only the first filter is used. -/
def onebodyArrays {D : Type} (cbk : List (System P Y → System P Y)) (dump : System P Y → D)
    (traj : List (System P Y)) : List D :=
  traj.map fun s => dump (match cbk with
    | [] => s
    | c :: _ => c s)

/-- The frames that a two-body correlation stores in `_pos_0`, `_pos_1` and so on
(atooms/postprocessing/correlation.py:454-483); only the first two filters are used. -/
def twobodyArrays {D : Type} (cbk : List (System P Y → System P Y)) (dump : System P Y → D)
    (traj : List (System P Y)) : List (D × D) :=
  traj.map fun s => match cbk with
    | [] => (dump s, dump s)
    | [c] => (dump (c s), dump (c s))
    | c0 :: c1 :: _ => (dump (c0 s), dump (c1 s))

/-! ### Filter -/

/-- One of the conditions separated by commas: its text and its value for each particle
(atooms/postprocessing/filter.py:30-31). Exceptions in the evaluation are not modelled. -/
structure Cond (P : Type) where
  text : Str
  holds : P → Bool

/-- The truth value of the whole condition for a particle, atooms/postprocessing/filter.py:30-31 with line 47: an
expression with commas is a tuple, whose truth value is true. -/
def evalWhole (conds : List (Cond P)) (p : P) : Bool :=
  match conds with
  | [c] => c.holds p
  | _ => true

/-- The text of a condition (atooms/postprocessing/filter.py:24,51). -/
def condText (conds : List (Cond P)) : Str := pyJoin ',' (conds.map Cond.text)

/-- Two filters are added one after the other (atooms/postprocessing/filter.py:57-58, 62-63). -/
def addFilter2 {F : Type} (o : CorrAttr F W) (f g : F) : CorrAttr F W × Py Unit :=
  match (addFilter o f).2 with
  | .error e => ((addFilter o f).1, .error e)
  | .ok _ => addFilter (addFilter o f).1 g

/-- `Filter(correlation, condition)`, atooms/postprocessing/filter.py:24-67; the condition is given by its comma
separated parts. -/
def applyFilter (o : CorrAttr (System P Y → System P Y) W) (conds : List (Cond P)) :
    CorrAttr (System P Y → System P Y) W × Py Unit :=
  let o1 := { o with tag := filterTag (condText conds), tagDescription := condText conds }
  if o.nbodies = 1 then addFilter o1 (filterGeneric (evalWhole conds))
  else if o.nbodies = 2 then
    match conds with
    | [c] => addFilter2 o1 (filterGeneric c.holds) id
    | [c0, c1] => addFilter2 o1 (filterGeneric c0.holds) (filterGeneric c1.holds)
    | _ => (o1, .error .valueError)
  else (o1, .ok ())

end

/-! ### Partial -/

section
variable {S R : Type} [DecidableEq S]

/-- One of the correlation objects of `Partial`: the species of its filters, how many times it has been computed, and
its results (grid, value, analysis), `none` being those set by the constructor
(atooms/postprocessing/partial.py:30-49). -/
structure PObj (S R : Type) where
  filters : List S
  calls : ℕ
  res : Option R

/-- `compute()` of a correlation object (atooms/postprocessing/partial.py:77,85). `run filters n` is the result of
the `n+1`-th call on an object with the given filters: repeated calls need not give the same result (property C31). -/
def PObj.compute (run : List S → ℕ → Py R) (o : PObj S R) : Py (PObj S R) := do
  let r ← run o.filters o.calls
  return ⟨o.filters, o.calls + 1, some r⟩

/-- `Partial.__init__` for one-body functions, atooms/postprocessing/partial.py:30-36. -/
def partialInit1 (species : List S) : List (S × PObj S R) :=
  species.foldl (fun D a => dictSet D a ⟨[a], 0, none⟩) []

/-- The filters of the pair `(a, b)`, atooms/postprocessing/partial.py:44-47. -/
def pairFilters (a b : S) : List S := if a ≠ b then [a, b] else [a]

/-- `Partial.__init__` for two-body functions, atooms/postprocessing/partial.py:38-49. -/
def partialInit2 (species : List S) : List ((S × S) × PObj S R) :=
  (species.flatMap fun a => species.map fun b => (a, b)).foldl
    (fun D p => dictSet D p ⟨pairFilters p.1 p.2, 0, none⟩) []

/-- `Partial.compute` for one-body functions, atooms/postprocessing/partial.py:74-77. -/
def partialCompute1 (run : List S → ℕ → Py R) (species : List S) (D : List (S × PObj S R)) :
    Py (List (S × PObj S R)) :=
  species.foldlM (fun D a => do
    let o ← dictGet D a
    let o' ← o.compute run
    return dictSet D a o') D

/-- The body of the double loop of `Partial.compute`, atooms/postprocessing/partial.py:82-90. -/
def partialPair (sym : Bool) (run : List S → ℕ → Py R) (species : List S) (D : List ((S × S) × PObj S R))
    (ij : ℕ × ℕ) : Py (List ((S × S) × PObj S R)) := do
  let a ← pyGet species ij.1
  let b ← pyGet species ij.2
  let o ← dictGet D (a, b)
  if ij.2 ≥ ij.1 ∨ sym = false then
    let o' ← o.compute run
    return dictSet D (a, b) o'
  else
    let q ← dictGet D (b, a)
    return dictSet D (a, b) ⟨o.filters, o.calls, q.res⟩

/-- `Partial.compute` for two-body functions, atooms/postprocessing/partial.py:79-90; `sym` is `_symmetric`, a class
attribute. -/
def partialCompute2 (sym : Bool) (run : List S → ℕ → Py R) (species : List S) (D : List ((S × S) × PObj S R)) :
    Py (List ((S × S) × PObj S R)) :=
  ((List.range species.length).flatMap fun i => (List.range species.length).map fun j => (i, j)).foldlM
    (partialPair sym run species) D

end

end PP
