import Verif.Model.Dynamics
import Verif.Model.Fkt
import Verif.Model.Write

/-!
# Model of the analysis of peaks and relaxation times, of the files written by the intermediate scattering functions,
and of `do` for trajectories in memory

Simplifications: `none` stands for nan. Files are texts indexed by their paths; numbers are formatted by the parameter
`fmt`.
-/

namespace PP

section
variable {K : Type} [Field K] [LinearOrder K]

/-! ### Peaks -/

/-- `f.index(min(f))` and `f.index(max(f))`, atooms/postprocessing/helpers.py:54, for data that may contain nan: every
comparison with nan is false, so that nan is kept if it is the first element, and is skipped otherwise; `index` finds
it by identity. -/
def firstExtremumNan (better : K → K → Bool) (f : List (Option K)) : Py ℕ :=
  match f with
  | [] => .error .valueError
  | none :: _ => .ok 0
  | some a :: r =>
    let m := r.foldl (fun best b => match b with
      | some b => if better b best then b else best
      | none => best) a
    .ok (f.findIdx fun v => decide (v = some m))

/-- The loop body at atooms/postprocessing/helpers.py:57-65 for data that may contain nan: if one of the three points is
nan, so are the coefficients of the parabola and its vertex. -/
def interpolateAtNan (x : List K) (f : List (Option K)) (i : ℕ) : Py (Option K × Option K) :=
  if i = f.length - 1 ∨ i = 0 then do
    let xi ← pyGet x i
    let fi ← pyGet f i
    return (some xi, fi)
  else do
    let x1 ← pyGet x (i - 1)
    let f1 ← pyGet f (i - 1)
    let x2 ← pyGet x i
    let f2 ← pyGet f i
    let x3 ← pyGet x (i + 1)
    let f3 ← pyGet f (i + 1)
    match f1, f2, f3 with
    | some f1, some f2, some f3 =>
      let abc ← parabola3 x1 f1 x2 f2 x3 f3
      let v ← vertexParabola abc.1 abc.2.1 abc.2.2
      return (some v.1, some v.2)
    | _, _, _ => return (none, none)

/-- `ifabsmm` for data that may contain nan, atooms/postprocessing/helpers.py:28-66. -/
def ifabsmmNan (x : List K) (f : List (Option K)) : Py ((Option K × Option K) × (Option K × Option K)) := do
  let imin ← firstExtremumNan (fun b a => decide (b < a)) f
  let imax ← firstExtremumNan (fun b a => decide (a < b)) f
  let lo ← interpolateAtNan x f imin
  let hi ← interpolateAtNan x f imax
  return (lo, hi)

/-- `NonGaussianParameter.analyze` and `Chi4SelfOverlap.analyze`, atooms/postprocessing/alpha2.py:43-47 and
chi4t.py:85-89: the time and the height of the peak; `none` if they are not set. A zero division gives nan with numpy
numbers and is an exception in this model, where it is caught. -/
def peakAnalyze (grid : List K) (value : List (Option K)) : Py (Option (Option K × Option K)) :=
  match ifabsmmNan grid value with
  | .ok r => .ok (some r.2)
  | .error .zeroDivisionError => .ok none
  | .error e => .error e

/-- `SelfOverlap.analyze`, atooms/postprocessing/qt.py:87-92; `e` is `numpy.exp(1.0)`. -/
def qstAnalyze (e : K) (grid value : List K) : Py (Option K) :=
  match feqc grid value (1 / e) with
  | .ok r => .ok (r.map Prod.fst)
  | .error .valueError => .ok none
  | .error err => .error err

/-! ### Files -/

/-- `output_path` after the constructor, atooms/postprocessing/correlation.py:210-213: `None` for a trajectory
without a file, also if a path was given. -/
def initOutputPath (filename : Option Str) (given : Option (List PathPiece)) : Option (List PathPiece) :=
  match filename with
  | none => none
  | some _ => some (given.getD ppOutputPath)

/-- `_output_file`, atooms/postprocessing/correlation.py:536-555; the file name of a trajectory without a file is
formatted as `None`. -/
def outputFileOpt (path : Option (List PathPiece)) (o : Named) : Option Str := path.map fun p => outputFileOf p o

/-- The end of `Correlation.write`, atooms/postprocessing/correlation.py:633-642: `text` is the text to be written, or
the exception raised in building it. `/dev/stdout` is not a file. -/
def writeText (file : Option Str) (text : Py Str) (fs : List (Str × Str)) : List (Str × Str) × Py Unit :=
  match text with
  | .error e => (fs, .error e)
  | .ok t =>
    match file with
    | none => (fs, .ok ())
    | some f => if f = "/dev/stdout".toList then (fs, .ok ()) else (dictSet fs f t, .ok ())

/-- The first lines of the file of the relaxation times, atooms/postprocessing/fkt.py:28-30. -/
def tauHeader : Str :=
  "# title: relaxation times tau(k) as a function of k\n".toList ++
  "# columns: k, tau(k)\n".toList ++
  "# note: tau is the time at which the correlation function has decayed to 1/e\n".toList

/-- One line of the file of the relaxation times, atooms/postprocessing/fkt.py:31-35. -/
def tauLine (fmt : K → Str) (e : K × Option K) : Str :=
  match e.2 with
  | none => fmt e.1 ++ ['\n']
  | some t => fmt e.1 ++ [' '] ++ fmt t ++ ['\n']

/-- `write` of the intermediate scattering functions, atooms/postprocessing/fkt.py:26-35, 168-172, 371-375; `tau` is
`self.analysis['relaxation times tau']`, if it is there: otherwise the header is written before the `KeyError`. Adding
`'.tau'` to `None` is a `TypeError`. -/
def fktWrite (fmt : K → Str) (file : Option Str) (text : Py Str) (tau : Option (List (K × Option K)))
    (fs : List (Str × Str)) : List (Str × Str) × Py Unit :=
  match writeText file text fs with
  | (fs, .error e) => (fs, .error e)
  | (fs, .ok ()) =>
    match file with
    | none => (fs, .error .typeError)
    | some f =>
      if f = "/dev/stdout".toList then (fs, .ok ())
      else match tau with
        | none => (dictSet fs (f ++ ".tau".toList) tauHeader, .error .keyError)
        | some db => (dictSet fs (f ++ ".tau".toList) (tauHeader ++ db.flatMap (tauLine fmt)), .ok ())

/-- `need_update`, atooms/postprocessing/correlation.py:299-306; `os.path.exists(None)` is a `TypeError`. `mtime` tells
the time of last modification of the files that exist. -/
def needUpdateAt (file : Option Str) (trajTime : ℤ) (mtime : Str → Option ℤ) : Py Bool :=
  match file with
  | none => .error .typeError
  | some f =>
    match mtime f with
    | none => .ok true
    | some t => if f = "/dev/stdout".toList then .ok true else .ok (!decide (trajTime < t))

/-- `do(update)`, atooms/postprocessing/correlation.py:644-661, where `compute` gives the results, `analyze` the analysis
(missing if `ImportError` was raised), `write` the files. What `read` does is not modelled here. -/
def doFiles {R A : Type} (file : Option Str) (trajTime : ℤ) (mtime : Str → Option ℤ) (compute : Py R)
    (analyze : R → Py A) (write : R → Option A → List (Str × Str) → List (Str × Str) × Py Unit) (update : Bool)
    (fs : List (Str × Str)) : List (Str × Str) × Py Unit :=
  match (if update then needUpdateAt file trajTime mtime else .ok true) with
  | .error e => (fs, .error e)
  | .ok false => (fs, .ok ())
  | .ok true =>
    match compute with
    | .error e => (fs, .error e)
    | .ok r =>
      match analyze r with
      | .ok a => write r (some a) fs
      | .error .importError => write r none fs
      | .error e => (fs, .error e)

/-! ### Values returned by `compute` -/

/-- What a call of a method returns, with the object it was called on (atooms/postprocessing/correlation.py:493-523). -/
structure Called (O R : Type) where
  object : O
  returned : Option R

/-- `Correlation.compute`, atooms/postprocessing/correlation.py:493-523: `setup` is `_setup_arrays`, `compute` is
`_compute`, `result` reads `grid` and `value`. -/
def corrCompute {O R : Type} (setup compute : O → Py O) (result : O → R) (o : O) : Py (Called O R) := do
  let o ← setup o
  let o ← compute o
  return ⟨o, some (result o)⟩

/-- `FourierSpaceCorrelation.compute`, atooms/postprocessing/fourierspace.py:183-187: nothing is returned. -/
def fourierCompute {O R : Type} (setupGrid setup compute : O → Py O) (result : O → R) (o : O) : Py (Called O R) := do
  let o ← setupGrid o
  let c ← corrCompute setup compute result o
  return ⟨c.object, none⟩

end

/-- `analyze` of the intermediate scattering functions, atooms/postprocessing/fkt.py:165-166, 368-369, on the grids and the
values. -/
noncomputable def fktAnalyze (e : ℝ) (r : List ℝ × List ℝ × List (List ℝ)) : Py (List (ℝ × Option ℝ)) :=
  extractTau e r.1 r.2.1 r.2.2

/-- `do` of the intermediate scattering functions: atooms/postprocessing/fkt.py:165-172, 368-375 and
correlation.py:644-661. `text` builds the text of the main file. -/
noncomputable def fktDo (fmt : ℝ → Str) (e : ℝ) (file : Option Str) (trajTime : ℤ) (mtime : Str → Option ℤ)
    (compute : Py (List ℝ × List ℝ × List (List ℝ)))
    (text : List ℝ × List ℝ × List (List ℝ) → Option (List (ℝ × Option ℝ)) → Py Str) (update : Bool)
    (fs : List (Str × Str)) : List (Str × Str) × Py Unit :=
  doFiles file trajTime mtime compute (fktAnalyze e) (fun r a => fktWrite fmt file (text r a) a) update fs

end PP
