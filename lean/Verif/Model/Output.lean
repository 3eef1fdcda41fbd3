import Verif.Model.Text
import Mathlib.Data.Int.Log

/-!
# Model of `write`, `read`, `need_update` and `do`

Files are modelled by their data rows; comment lines, which `loadtxt` ignores, are left out. The numbers of a row are
those obtained by converting back the text written with format `%g`.
-/

namespace PP

section
variable {K : Type} [Field K] [LinearOrder K] [IsStrictOrderedRing K] [FloorRing K]

/-- The number that is read back from the text produced by `"%g" % x` (atooms/postprocessing/correlation.py:641): `x`
rounded to six significant decimal digits. Ties go upwards here. Infinities and nan are not modelled. -/
def g6 (x : K) : K :=
  if x = 0 then 0
  else
    let u : K := (10 : K) ^ (Int.log 10 |x| - 5)
    (round (x / u) : K) * u

/-- `self.grid` : a list of numbers, a pair of lists, or a number, as `read` may leave it
(atooms/postprocessing/correlation.py:557-567, 599-605). -/
inductive Grid (K : Type)
  | one (x : List K)
  | two (x y : List K)
  | scalar (x : K)

/-- `self.value` (atooms/postprocessing/correlation.py:557-567, 599-605). -/
inductive Value (K : Type)
  | one (v : List K)
  | two (v : List (List K))
  | scalar (v : K)

/-- The data rows of an output file: two columns or three (atooms/postprocessing/correlation.py:599-605). -/
inductive Rows (K : Type)
  | two (r : List (K × K))
  | three (r : List (K × K × K))

/-- `numpy.array(x).repeat(n)`, atooms/postprocessing/correlation.py:600. -/
def npRepeat (x : List K) (n : ℕ) : List K := x.flatMap fun a => List.replicate n a

/-- `l * n` for a python list, atooms/postprocessing/correlation.py:601. -/
def pyListMul (l : List K) (n : ℕ) : List K := (List.replicate n l).flatten

/-- The array `dump` of `write`, atooms/postprocessing/correlation.py:599-605. Arrays of different lengths cannot be
put together (`ValueError`); `self.value[0]` raises `IndexError` if there are no values, `flatten` needs rows of equal
length. A list of two lists as grid is taken as the grid of a function of two variables; grids and values of
different kinds are taken as `ValueError`, `self.grid[0]` of an empty grid or of a number raises `IndexError`. -/
def dumpRows (grid : Grid K) (value : Value K) : Py (Rows K) :=
  match grid, value with
  | .two gx gy, .two v =>
    match v with
    | [] => .error .indexError
    | v0 :: _ =>
      let x := npRepeat gx v0.length
      let y := pyListMul gy gx.length
      let z := v.flatten
      if (∀ l ∈ v, l.length = v0.length) ∧ x.length = y.length ∧ y.length = z.length then
        .ok (.three (x.zip (y.zip z)))
      else .error .valueError
  | .one [], _ => .error .indexError
  | .one g, .one v => if g.length = v.length then .ok (.two (g.zip v)) else .error .valueError
  | .scalar _, _ => .error .indexError
  | _, _ => .error .valueError

/-- The rows as they are read back from the file, `numpy.savetxt(fh, dump, fmt="%g")`,
atooms/postprocessing/correlation.py:641. -/
def Rows.text : Rows K → Rows K
  | .two r => .two (r.map fun p => (g6 p.1, g6 p.2))
  | .three r => .three (r.map fun p => (g6 p.1, g6 p.2.1, g6 p.2.2))

/-- A file: time of last modification and rows (atooms/postprocessing/correlation.py:299-306, 581-642). -/
structure OutFile (K : Type) where
  mtime : ℤ
  rows : Rows K

/-- The state that `do` uses: `grid` and `value` of the object, the output file if it exists, whether the output path
is `/dev/stdout`, and the time of last modification of the trajectory
(atooms/postprocessing/correlation.py:299-306, 557-567, 644-661). -/
structure OutState (K : Type) where
  grid : Grid K
  value : Value K
  file : Option (OutFile K)
  stdout : Bool
  trajTime : ℤ

/-- `need_update`, atooms/postprocessing/correlation.py:299-306. -/
def needUpdate (s : OutState K) : Bool :=
  match s.file with
  | none => true
  | some f => if s.stdout then true else !decide (s.trajTime < f.mtime)

/-- `read`, atooms/postprocessing/correlation.py:557-567, for the files that `write` produces. `loadtxt` squeezes the
array: without rows it has length 0, and unpacking `x[0:2]` raises `ValueError`; with one row the columns are numbers;
with three columns nothing is set. -/
def readFile (s : OutState K) : Py (OutState K) :=
  match s.file with
  | none => .error .fileNotFound
  | some f =>
    match f.rows with
    | .two [] => .error .valueError
    | .two [p] => .ok { s with grid := .scalar p.1, value := .scalar p.2 }
    | .two r => .ok { s with grid := .one (r.map Prod.fst), value := .one (r.map Prod.snd) }
    | .three [] => .error .valueError
    | .three _ => .ok s

/-- `write` at time `now`, atooms/postprocessing/correlation.py:581-642, for an output path that is not `None`.
Nothing is stored for `/dev/stdout`. -/
def writeFile (now : ℤ) (s : OutState K) : Py (OutState K) := do
  let r ← dumpRows s.grid s.value
  if s.stdout then return s
  else return { s with file := some ⟨now, r.text⟩ }

/-- `do(update)`, atooms/postprocessing/correlation.py:644-661; `result` is what `compute` sets `grid` and `value` to,
and `now` the time of writing. Returns also whether `compute` was called. `analyze` does not affect `grid` and
`value`. -/
def doUpdate (update : Bool) (result : Py (Grid K × Value K)) (now : ℤ) (s : OutState K) : Py (OutState K × Bool) :=
  if update && !needUpdate s then do
    let s' ← readFile s
    return (s', false)
  else do
    let r ← result
    let s' ← writeFile now { s with grid := r.1, value := r.2 }
    return (s', true)

/-- The states in which `write` can leave the file if the program is interrupted: `open(..., 'w')` empties the file,
then any number of rows may have reached it (atooms/postprocessing/correlation.py:637-642). -/
def interrupted (now : ℤ) (s : OutState K) (n : ℕ) : Py (OutState K) := do
  let r ← dumpRows s.grid s.value
  return { s with file := some ⟨now, match r.text with
    | .two l => .two (l.take n)
    | .three l => .three (l.take n)⟩ }

/-- `Partial.need_update`, atooms/postprocessing/partial.py:65-71. -/
def needUpdatePartial (s : List (OutState K)) : Bool := s.any needUpdate

/-- `Partial.do`, atooms/postprocessing/partial.py:96-111; `results` are those of `Partial.compute` for each object. -/
def doUpdatePartial (update : Bool) (results : Py (List (Grid K × Value K))) (now : ℤ) (s : List (OutState K)) :
    Py (List (OutState K) × Bool) :=
  if update && !needUpdatePartial s then do
    let s' ← s.mapM readFile
    return (s', false)
  else do
    let r ← results
    let s' ← (s.zip r).mapM fun p => writeFile now { p.1 with grid := p.2.1, value := p.2.2 }
    return (s', true)

end
end PP
