import Mathlib.Data.List.Sort
import Mathlib.Data.Rat.Floor
import Mathlib.Algebra.Order.Floor.Ring
import Mathlib.Algebra.Order.Round

/-!
# Python basics used throughout the model

Exceptions as values, `range`, list indexing, insertion-ordered dictionaries, `sorted`,
`int()` and `round()`. These model the python built-ins that the code in /repo calls; the
citation of each definition lists one place in /repo where the built-in is used.
-/

namespace PP

/-- Exceptions that the modelled code can raise (the class only, not the message).
`outOfBounds` stands for an out-of-bounds array access in the Fortran kernels, compiled
without bounds checks (atooms/postprocessing/realspace.f90), i.e. undefined behaviour. -/
inductive PyErr
  | indexError | zeroDivisionError | valueError | keyError | typeError
  | attributeError | importError | nameError | fileNotFound | recursionError | outOfBounds
  | assertionError | runtimeError | notImplementedError
  deriving DecidableEq, Repr

/-- Result of a python call: a value or an exception. -/
abbrev Py (α : Type) := Except PyErr α

/-- Elements of python `range(start, stop, step)` for `step ≥ 1` and naturals.
When `stop` is computed as `len(x)-i` and is negative in python, the truncated
subtraction gives `0` here and the range is empty in both cases.
Used e.g. at atooms/postprocessing/correlation.py:41,66,91. -/
def rangeList (start stop step : ℕ) : List ℕ :=
  (List.range ((stop - start + (step - 1)) / step)).map (fun k => start + k * step)

/-- Python `range(start, stop, step)`: `ValueError` for a zero step
(atooms/postprocessing/correlation.py:41,66,91). -/
def pyRange (start stop step : ℕ) : Py (List ℕ) :=
  if step = 0 then .error .valueError else .ok (rangeList start stop step)

/-- `x[i]` on a python list with a non-negative index: `IndexError` past the end
(e.g. `t[i0+i]` at atooms/postprocessing/correlation.py:43,68,93). -/
def pyGet {α : Type} (x : List α) (i : ℕ) : Py α :=
  match x[i]? with
  | some a => .ok a
  | none => .error .indexError

/-- `d[k] += v` on a `defaultdict` whose factory returns `dflt`, for an insertion-ordered
dictionary (atooms/postprocessing/correlation.py:44-45, 69-70, 94-95). A missing key is first
created with the default value, so that the first stored value is `add dflt v`. -/
def ddAdd {κ V W : Type*} [DecidableEq κ] (dflt : V) (add : V → W → V)
    (d : List (κ × V)) (k : κ) (v : W) : List (κ × V) :=
  match d with
  | [] => [(k, add dflt v)]
  | (k', v') :: r => if k' = k then (k', add v' v) :: r else (k', v') :: ddAdd dflt add r k v

/-- `d[k]` read on a `defaultdict` (atooms/postprocessing/correlation.py:49,74,99). -/
def ddGet {κ V : Type*} [DecidableEq κ] (dflt : V) (d : List (κ × V)) (k : κ) : V :=
  match d with
  | [] => dflt
  | (k', v') :: r => if k' = k then v' else ddGet dflt r k

/-- `d[k]` on a plain dictionary: `KeyError` if absent
(atooms/postprocessing/helpers.py:227). -/
def dictGet {κ V : Type} [DecidableEq κ] (d : List (κ × V)) (k : κ) : Py V :=
  match d with
  | [] => .error .keyError
  | (k', v') :: r => if k' = k then .ok v' else dictGet r k

/-- `d[k] = v` on a plain dictionary, keeping the position of an existing key
(e.g. atooms/postprocessing/helpers.py:221). -/
def dictSet {κ V : Type*} [DecidableEq κ] (d : List (κ × V)) (k : κ) (v : V) : List (κ × V) :=
  match d with
  | [] => [(k, v)]
  | (k', v') :: r => if k' = k then (k', v) :: r else (k', v') :: dictSet r k v

/-- `d.keys()` in insertion order (atooms/postprocessing/correlation.py:48). -/
def dictKeys {κ V : Type*} (d : List (κ × V)) : List κ := d.map Prod.fst

/-- Python `sorted(l)` (stable, ascending), atooms/postprocessing/correlation.py:48. -/
def pySorted {κ : Type*} [LinearOrder κ] (l : List κ) : List κ :=
  l.insertionSort (· ≤ ·)

/-- Python `int(x)` on a finite number: truncation towards zero
(atooms/postprocessing/helpers.py:13,160,165,173). -/
def pyInt {K : Type*} [Ring K] [LinearOrder K] [FloorRing K] (x : K) : ℤ :=
  if 0 ≤ x then ⌊x⌋ else ⌈x⌉

/-- Python 3 `round(x)` (and `numpy.rint`): nearest integer, ties to even
(atooms/postprocessing/helpers.py:226, atooms/postprocessing/gr.py:24,32). -/
def pyRound {K : Type*} [Field K] [LinearOrder K] [FloorRing K] (x : K) : ℤ :=
  let f := ⌊x⌋
  let d := x - (f : K)
  if d < 1 / 2 then f
  else if 1 / 2 < d then f + 1
  else if f % 2 = 0 then f else f + 1

/-- Python `min(l, key=key)`: the first element with the smallest key, `ValueError` on an
empty list (atooms/postprocessing/helpers.py:204). -/
def pyMinKey {α κ : Type} [LinearOrder κ] (key : α → κ) : List α → Py α
  | [] => .error .valueError
  | a :: r => .ok (r.foldl (fun best b => if key b < key best then b else best) a)

/-- `list(set(l))` up to order: the elements of `l` without repetitions. The order of a python
set is unspecified; the code always sorts the result (atooms/postprocessing/helpers.py:206-207,
226-227). -/
def pySet {κ : Type*} [DecidableEq κ] (l : List κ) : List κ := l.dedup

end PP
