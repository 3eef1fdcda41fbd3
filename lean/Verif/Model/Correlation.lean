import Verif.Model.Py

/-!
# Model of the time-correlation loops in atooms/postprocessing/correlation.py
-/

namespace PP

/-- The arithmetic used by the accumulators: `zero` is the value of `defaultdict(float)`,
`add` is `+=` and `div v n` is `v / n` with an integer count
(atooms/postprocessing/correlation.py:37,44,49). It is completely arbitrary, so that it can be
IEEE double precision. -/
structure Arith (V : Type) where
  zero : V
  add : V → V → V
  div : V → ℕ → V

/-- Exact arithmetic of a field, for the sums and averages of
atooms/postprocessing/correlation.py:44,49,69,74,94,99. -/
def Arith.field (K : Type) [Field K] : Arith K := ⟨0, (· + ·), fun v n => v / (n : K)⟩

/-- State of the two defaultdicts `cf` and `cnt` (atooms/postprocessing/correlation.py:37-38,
62-63, 87-88). -/
abbrev Acc (T V : Type) := List (T × V) × List (T × ℕ)

variable {T X V : Type} [LinearOrder T] [Sub T]

/-- Body of the inner loop, atooms/postprocessing/correlation.py:93-95 (also 43-45 and 68-70):
`dt = t[i0+i] - t[i0]; cf[dt] += f(x[i0+i], x[i0]); cnt[dt] += 1`. -/
def corrStep (ar : Arith V) (f : X → X → Py V) (t : List T) (x : List X) (i : ℕ)
    (acc : Acc T V) (i0 : ℕ) : Py (Acc T V) := do
  let ta ← pyGet t (i0 + i)
  let tb ← pyGet t i0
  let xa ← pyGet x (i0 + i)
  let xb ← pyGet x i0
  let v ← f xa xb
  return (ddAdd ar.zero ar.add acc.1 (ta - tb) v, ddAdd 0 (· + ·) acc.2 (ta - tb) 1)

/-- The double loop shared by the three functions. An entry `(start, stop, i)` stands for the
inner loop `for i0 in range(start, stop, skip)` at separation `i`
(atooms/postprocessing/correlation.py:40-45, 64-70, 90-95). -/
def corrLoop (ar : Arith V) (f : X → X → Py V) (skip : ℕ) (t : List T) (x : List X)
    (entries : List (ℕ × ℕ × ℕ)) : Py (Acc T V) :=
  entries.foldlM (fun acc e => do
    let r ← pyRange e.1 e.2.1 skip
    r.foldlM (corrStep ar f t x e.2.2) acc) ([], [])

/-- `gcf_offset`, atooms/postprocessing/correlation.py:77-99. `grid` is a list of
`(offset, separation)` pairs. -/
def gcfOffset (ar : Arith V) (f : X → X → Py V) (grid : List (ℕ × ℕ)) (skip : ℕ)
    (t : List T) (x : List X) : Py (List T × List V) := do
  let acc ← corrLoop ar f skip t x (grid.map fun g => (g.1, x.length - g.2, g.2))
  let dt := pySorted (dictKeys acc.1)
  return (dt, dt.map fun ti => ar.div (ddGet ar.zero acc.1 ti) (ddGet 0 acc.2 ti))

/-- `gcf`, atooms/postprocessing/correlation.py:52-74; the third result is the list of counts. -/
def gcf (ar : Arith V) (f : X → X → Py V) (grid : List ℕ) (skip : ℕ)
    (t : List T) (x : List X) : Py (List T × List V × List ℕ) := do
  let acc ← corrLoop ar f skip t x (grid.map fun i => (0, x.length - i - 1, i))
  let dt := pySorted (dictKeys acc.1)
  return (dt, dt.map (fun ti => ar.div (ddGet ar.zero acc.1 ti) (ddGet 0 acc.2 ti)),
    dt.map fun ti => ddGet 0 acc.2 ti)

/-- `acf`, atooms/postprocessing/correlation.py:30-49, over exact arithmetic. `numpy.average(x)`
is `sum(x)/len(x)`; for an empty `x` numpy gives `nan` and Lean gives `0`, but the value is then
never used. The third result is the dictionary of counts. -/
def acf {K : Type} [Field K] (grid : List ℕ) (skip : ℕ) (t : List T) (x : List K) :
    Py (List T × List K × List (T × ℕ)) := do
  let xave : K := x.sum / (x.length : K)
  let acc ← corrLoop (Arith.field K) (fun a b => .ok ((a - xave) * (b - xave))) skip t x
    (grid.map fun i => (0, x.length - i, i))
  let dt := pySorted (dictKeys acc.1)
  return (dt, dt.map (fun ti => ddGet 0 acc.1 ti / ((ddGet 0 acc.2 ti : ℕ) : K)), acc.2)

end PP
