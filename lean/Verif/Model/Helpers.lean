import Verif.Model.Py

/-!
# Model of atooms/postprocessing/helpers.py (exact arithmetic part)
-/

namespace PP

/-- The third argument of `linear_grid`: `isinstance(delta, int)` decides whether it is a number
of points or a spacing (atooms/postprocessing/helpers.py:6). -/
inductive GridStep (K : Type)
  | int (n : ℤ)
  | float (d : K)

section field
variable {K : Type} [Field K] [LinearOrder K] [FloorRing K]

/-- `linear_grid`, atooms/postprocessing/helpers.py:4-14. A zero spacing raises
`ZeroDivisionError` (python floats). -/
def linearGrid (minVal maxVal : K) : GridStep K → Py (List K)
  | .int n =>
    let delta : K := if n > 1 then (maxVal - minVal) / ((n : K) - 1) else 0
    .ok ((List.range n.toNat).map fun i : ℕ => minVal + (i : K) * delta)
  | .float delta =>
    if delta = 0 then .error .zeroDivisionError
    else
      let n : ℤ := pyInt ((maxVal - minVal) / delta) + 1
      .ok ((List.range n.toNat).map fun i : ℕ => minVal + (i : K) * delta)

/-- Division of python floats: `ZeroDivisionError` for a zero divisor
(e.g. atooms/postprocessing/helpers.py:42,47,108). -/
def pyDiv (a b : K) : Py K := if b = 0 then .error .zeroDivisionError else .ok (a / b)

/-- `_vertex_parabola`, atooms/postprocessing/helpers.py:40-42. -/
def vertexParabola (a b c : K) : Py (K × K) := do
  let x ← pyDiv (-b) (2 * a)
  let y ← pyDiv (-(b ^ 2 - 4 * a * c)) (4 * a)
  return (x, y)

/-- `_parabola_3points`, atooms/postprocessing/helpers.py:44-50. -/
def parabola3 (x1 y1 x2 y2 x3 y3 : K) : Py (K × K × K) := do
  let delta := (x1 - x2) * (x1 - x3) * (x2 - x3)
  let a ← pyDiv (x3 * (y2 - y1) + x2 * (y1 - y3) + x1 * (y3 - y2)) delta
  let b ← pyDiv (x3 ^ 2 * (y1 - y2) + x2 ^ 2 * (y3 - y1) + x1 ^ 2 * (y2 - y3)) delta
  let c ← pyDiv (x2 * x3 * (x2 - x3) * y1 + x3 * x1 * (x3 - x1) * y2 + x1 * x2 * (x1 - x2) * y3)
    delta
  return (a, b, c)

/-- `f.index(min(f))` and `f.index(max(f))`, atooms/postprocessing/helpers.py:54: index of the
first extremal element; `ValueError` on an empty list. `better b a` says that `b` replaces the
running extremum `a` (`b < a` for `min`, `a < b` for `max`). -/
def firstExtremum (better : K → K → Bool) (f : List K) : Py ℕ :=
  match f with
  | [] => .error .valueError
  | a :: r =>
    let m := r.foldl (fun best b => if better b best then b else best) a
    .ok (f.findIdx fun v => decide (v = m))

/-- The loop body at atooms/postprocessing/helpers.py:57-65 for one of the two extrema. -/
def interpolateAt (x f : List K) (i : ℕ) : Py (K × K) :=
  if i = f.length - 1 ∨ i = 0 then do
    let xi ← pyGet x i
    let fi ← pyGet f i
    return (xi, fi)
  else do
    let x1 ← pyGet x (i - 1)
    let f1 ← pyGet f (i - 1)
    let x2 ← pyGet x i
    let f2 ← pyGet f i
    let x3 ← pyGet x (i + 1)
    let f3 ← pyGet f (i + 1)
    let abc ← parabola3 x1 f1 x2 f2 x3 f3
    vertexParabola abc.1 abc.2.1 abc.2.2

/-- `ifabsmm`, atooms/postprocessing/helpers.py:28-66: `(minimum, maximum)`. -/
def ifabsmm (x f : List K) : Py ((K × K) × (K × K)) := do
  let imin ← firstExtremum (fun b a => decide (b < a)) f
  let imax ← firstExtremum (fun b a => decide (a < b)) f
  let lo ← interpolateAt x f imin
  let hi ← interpolateAt x f imax
  return (lo, hi)

/-- `linear_fit`, atooms/postprocessing/helpers.py:69-94, up to the final square roots:
returns `(a, b, sa, sb)` where the python function returns `a, b, sqrt(sa), sqrt(sb)`.
The arguments are numpy arrays; arrays of different lengths raise `ValueError` (broadcasting of
length-one arrays is not modelled). `none` stands for the non-finite result (nan) numpy gives when
the denominator `n*sxx - sx**2` vanishes. -/
def linearFit (xs ys : List K) : Py (Option (K × K × K × K)) :=
  if xs.length ≠ ys.length then .error .valueError
  else
    let n : K := (ys.length : K)
    let dof : ℤ := (ys.length : ℤ) - 2
    let sx := xs.sum
    let sy := ys.sum
    let sxy := (List.zipWith (· * ·) xs ys).sum
    let sxx := (xs.map (· ^ 2)).sum
    let syy := (ys.map (· ^ 2)).sum
    let den := n * sxx - sx ^ 2
    if den = 0 then .ok none
    else
      let a := (n * sxy - sx * sy) / den
      let b := sy / n - a * sx / n
      let s := if dof > 0 then (n * syy - sy ^ 2 - a ^ 2 * den) / (n * (dof : K)) else 0
      let sa := n * s / den
      let sb := sa * sxx / n
      .ok (some (a, b, sa, sb))

/-- `feqc`, atooms/postprocessing/helpers.py:97-114: `some (xstar, istar)` or `none` for the
result `(None, None)`. -/
def feqc (x f : List K) (fstar : K) : Py (Option (K × ℕ)) := do
  let f0 ← pyGet f 0
  let s := f0 - fstar
  let rec loop : List ℕ → Py (Option (K × ℕ))
    | [] => .ok none
    | i :: is => do
      let fi ← pyGet f i
      if (fi - fstar) * s < 0 then
        -- `f[i-1]` with i = 0 would be the last element in python; see `C12_feqc`: i ≥ 1 always
        let fp ← pyGet f (i - 1)
        let xi ← pyGet x i
        let xp ← pyGet x (i - 1)
        let dxf ← pyDiv (fi - fp) (xi - xp)
        let q ← pyDiv (fstar - fp) dxf
        return some (xp + q, i)
      else loop is
  loop (List.range (min x.length f.length))

end field

/-- What the analysis uses of an atooms system: its list of particles and everything else
(atooms/postprocessing/helpers.py:117-127). -/
structure System (P O : Type) where
  particle : List P
  other : O

/-- `filter_species`, atooms/postprocessing/helpers.py:117-127; `species` is the `p.species`
attribute. `copy.copy` followed by rebinding `particle` leaves the argument unchanged, which is
automatic for a value. -/
def filterSpecies {P O S : Type} [DecidableEq S] (spc : P → S) (s : System P O) :
    Option S → System P O
  | none => s
  | some a => { s with particle := s.particle.filter fun p => decide (spc p = a) }

/-- Python memory, as far as `filter_species` is concerned: system objects, whose attribute `particle`
is a reference to a list object, and list objects (atooms/postprocessing/helpers.py:117-127). -/
structure Heap (P O : Type) where
  sys : List (ℕ × O)
  lists : List (List P)

/-- The system found at a reference (reading `system.particle` and the other attributes,
atooms/postprocessing/helpers.py:126). -/
def Heap.read {P O : Type} (h : Heap P O) (r : ℕ) : Py (System P O) := do
  let o ← pyGet h.sys r
  let l ← pyGet h.lists o.1
  return ⟨l, o.2⟩

/-- `filter_species` on the heap, atooms/postprocessing/helpers.py:117-127: `copy.copy` allocates a new
system object with the same references; if a species is given, a new list object is allocated and
the attribute `particle` of the copy is bound to it. Returns the reference of the copy. -/
def filterSpeciesHeap {P O S : Type} [DecidableEq S] (spc : P → S) (h : Heap P O) (r : ℕ)
    (species : Option S) : Py (Heap P O × ℕ) := do
  let o ← pyGet h.sys r
  let new := h.sys.length
  let h1 : Heap P O := { h with sys := h.sys ++ [o] }
  match species with
  | none => return (h1, new)
  | some a =>
    let s ← h1.read r
    let l := h1.lists.length
    return ({ sys := h1.sys.set new (l, o.2),
              lists := h1.lists ++ [s.particle.filter fun p => decide (spc p = a)] }, new)

/-! ### adjust_skip -/

/-- Digits of a decimal string (used by the string conversions at
atooms/postprocessing/helpers.py:156-165). -/
def digitsVal (l : List Char) : ℕ := l.foldl (fun a c => 10 * a + (c.toNat - '0'.toNat)) 0

/-- Python `int(s)` for the strings `[-]digits` (atooms/postprocessing/helpers.py:161,180); other
strings raise `ValueError`. Leading `+`, blanks and underscores are not modelled. -/
def pyIntOfStr (s : List Char) : Py ℤ :=
  let body := if s.head? = some '-' then s.drop 1 else s
  let sign : ℤ := if s.head? = some '-' then -1 else 1
  if body ≠ [] ∧ body.all Char.isDigit then .ok (sign * digitsVal body) else .error .valueError

/-- Python `float(s)` for the strings `[-]digits[.digits]` (atooms/postprocessing/helpers.py:156,
158,160,165); other strings raise `ValueError`. Exponents, `inf`, `nan`, blanks are not modelled. -/
def pyFloatOfStr (s : List Char) : Py ℚ :=
  let body := if s.head? = some '-' then s.drop 1 else s
  let sign : ℚ := if s.head? = some '-' then -1 else 1
  let ip := body.takeWhile (fun c => decide (c ≠ '.'))
  let fp := (body.dropWhile (fun c => decide (c ≠ '.'))).drop 1
  if ip.all Char.isDigit ∧ fp.all Char.isDigit ∧ (ip ≠ [] ∨ fp ≠ []) then
    .ok (sign * ((digitsVal ip : ℚ) + (digitsVal fp : ℚ) / 10 ^ fp.length))
  else .error .valueError

/-- The `norigins` argument: `None`, a python number (int or float) or a string from the command
line (atooms/postprocessing/helpers.py:145-165, bin/pp.py). -/
inductive NOrigins
  | none
  | num (q : ℚ)
  | str (s : List Char)

/-- `float(n_origins)`, atooms/postprocessing/helpers.py:156. -/
def NOrigins.toFloat : NOrigins → Py ℚ
  | .none => .error .typeError
  | .num q => .ok q
  | .str s => pyFloatOfStr s

/-- `int(n_origins)`, atooms/postprocessing/helpers.py:161,180. -/
def NOrigins.toInt : NOrigins → Py ℤ
  | .none => .error .typeError
  | .num q => .ok (pyInt q)
  | .str s => pyIntOfStr s

/-- `n_origins == '1.0'`, atooms/postprocessing/helpers.py:156. -/
def NOrigins.isStr1p0 : NOrigins → Bool
  | .str s => decide (s = ['1', '.', '0'])
  | _ => false

/-- The first part of `adjust_skip`, atooms/postprocessing/helpers.py:155-177. `len` is
`len(trajectory.steps)`, `bs` the block size and `npart` the list of particle numbers of the frames,
whose first element is `len(trajectory[0].particle)`. -/
def rawSkip (len bs : ℕ) (npart : List ℕ) (n : NOrigins) : Py ℤ :=
  match n with
  | .none =>
    if bs = 1 then do
      let np ← pyGet npart 0
      return pyInt (((len * np : ℕ) : ℚ) / 40000)
    else .ok bs
  | n => do
    let q ← n.toFloat
    if q < 0 ∨ n.isStr1p0 then return (1 * bs : ℤ)
    else if q > 1 then
      if bs = 0 then .error .zeroDivisionError
      else
        let nbl : ℕ := len / bs
        return pyInt ((nbl : ℚ) / q) * bs
    else do
      let i ← n.toInt
      if i = 1 then return (len : ℤ)
      else do
        let r ← (if q = 0 then .error .zeroDivisionError else .ok (1 / q) : Py ℚ)
        return pyInt r * bs

/-- `adjust_skip`, atooms/postprocessing/helpers.py:145-186. The consistency check at line 180
short-circuits: `int(n_origins)` is evaluated only if the skip is not a multiple of the block
size. -/
def adjustSkip (len bs : ℕ) (npart : List ℕ) (n : NOrigins) : Py ℤ := do
  let skip ← rawSkip len bs npart n
  if bs = 0 then .error .zeroDivisionError
  else do
    if skip % (bs : ℤ) ≠ 0 then
      let i ← n.toInt
      if i ≠ 1 then .error .valueError
      else return min (len : ℤ) (max 1 skip)
    else return min (len : ℤ) (max 1 skip)

/-! ### Time grid -/

/-- `_templated`, atooms/postprocessing/helpers.py:189-207. -/
def templated {κ : Type} [LinearOrder κ] [AddCommGroup κ] (entry template : List κ)
    (keepMultiple : Bool := false) : Py (List κ) := do
  let m ← template.mapM fun t => pyMinKey (fun x => |x - t|) entry
  return pySorted (if keepMultiple then m else pySet m)

/-- Inner loop of `setup_t_grid`, atooms/postprocessing/helpers.py:219-221. -/
def offSampInner (steps : List ℤ) (off : ℕ) (d : List (ℤ × (ℕ × ℕ))) (i : ℕ) :
    Py (List (ℤ × (ℕ × ℕ))) := do
  let a ← pyGet steps i
  let b ← pyGet steps off
  if a - b ∈ dictKeys d then return d else return dictSet d (a - b) (off, i - off)

/-- The dictionary `off_samp` of `setup_t_grid`, atooms/postprocessing/helpers.py:212-221. -/
def offSamp (steps : List ℤ) (offsets : List ℕ) : Py (List (ℤ × (ℕ × ℕ))) :=
  offsets.foldlM (fun d off =>
    (rangeList off (steps.length - off) 1).foldlM (offSampInner steps off) d) []

/-- `setup_t_grid`, atooms/postprocessing/helpers.py:210-228. -/
def setupTGrid {K : Type} [Field K] [LinearOrder K] [FloorRing K] (steps : List ℤ) (blockSize : ℕ)
    (timestep : K) (tGrid : List K) (offset : Bool := true) : Py (List (ℕ × ℕ)) := do
  let d ← offSamp steps (if offset then List.range blockSize else [0])
  let iGrid ← tGrid.mapM fun t => do
    let q ← pyDiv t timestep
    return pyRound q
  let ts ← templated (pySorted (dictKeys d)) (pySorted (pySet iGrid))
  ts.mapM fun t => dictGet d t

end PP
