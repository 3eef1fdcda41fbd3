import Verif.Model.Py
import Verif.Model.Text

/-!
# Model of the evaluation of conditions in atooms/postprocessing/filter.py

`eval(condition, particle.__dict__)`. The values of the attributes, the comparison operators and the parser are parameters.
Simplifications: expressions are made of constants, names, comparisons of two operands, `and`, `or` and `not`; names that
are not attributes of the particle are those of the module `builtins`, also if the particle has an attribute `__builtins__`.
-/

namespace PP

/-- Python values as seen by `eval` (atooms/postprocessing/filter.py:31): comparison operators, truth values, booleans, the
names of the module `builtins` and the module itself. -/
structure PySem (V : Type) where
  cmp : Str → V → V → Py V
  truth : V → Py Bool
  ofBool : Bool → V
  builtin : Str → Option V
  builtins : V

/-- Expressions used in conditions (atooms/postprocessing/filter.py:31). -/
inductive PyExpr (V : Type)
  | const (v : V)
  | name (s : Str)
  | cmp (op : Str) (a b : PyExpr V)
  | not (a : PyExpr V)
  | and (a b : PyExpr V)
  | or (a b : PyExpr V)

variable {V : Type}

/-- Value of an expression with the attributes of a particle as global variables (atooms/postprocessing/filter.py:31):
`NameError` for a name that is neither a global nor a builtin one. -/
def evalExpr (S : PySem V) (attrs : List (Str × V)) : PyExpr V → Py V
  | .const v => .ok v
  | .name s =>
    match dictGet attrs s with
    | .ok v => .ok v
    | .error _ =>
      match S.builtin s with
      | some v => .ok v
      | none => .error .nameError
  | .cmp op a b => do
    let x ← evalExpr S attrs a
    let y ← evalExpr S attrs b
    S.cmp op x y
  | .not a => do
    let x ← evalExpr S attrs a
    let t ← S.truth x
    return S.ofBool !t
  | .and a b => do
    let x ← evalExpr S attrs a
    let t ← S.truth x
    if t then evalExpr S attrs b else return x
  | .or a b => do
    let x ← evalExpr S attrs a
    let t ← S.truth x
    if t then return x else evalExpr S attrs b

/-- The key that `eval` adds to the dictionary of globals (atooms/postprocessing/filter.py:31). -/
def builtinsKey : Str := "__builtins__".toList

/-- `eval(condition, particle.__dict__)`, atooms/postprocessing/filter.py:31: the dictionary after the call and the value. The
module `builtins` is added to the dictionary, unless the key is there, before the text is parsed. -/
def pyEval (S : PySem V) (parse : Str → Py (PyExpr V)) (condition : Str) (attrs : List (Str × V)) :
    List (Str × V) × Py V :=
  let attrs := if builtinsKey ∈ dictKeys attrs then attrs else dictSet attrs builtinsKey S.builtins
  (attrs, do
    let e ← parse condition
    evalExpr S attrs e)

/-- `_filter_generic(system, condition)`, atooms/postprocessing/filter.py:26-33: the particles of the system after the call,
each given by its `__dict__`, and the positions in `system.particle` of the particles of the group. The particles that
follow one for which the evaluation fails are not examined. -/
def filterEval (S : PySem V) (parse : Str → Py (PyExpr V)) (condition : Str) :
    List (List (Str × V)) → List (List (Str × V)) × Py (List ℕ)
  | [] => ([], .ok [])
  | p :: particle =>
    let (p', r) := pyEval S parse condition p
    match r >>= S.truth with
    | .error e => (p' :: particle, .error e)
    | .ok t =>
      let (rest, g) := filterEval S parse condition particle
      (p' :: rest, do
        let g ← g
        return (if t then [0] else []) ++ g.map (· + 1))

/-- The two groups of particles of one frame of a two-body function decorated with `Filter`
(atooms/postprocessing/filter.py:49-65 with correlation.py:469-470), for the text of a condition. -/
def twoGroups (S : PySem V) (parse : Str → Py (PyExpr V)) (condition : Str) (particle : List (List (Str × V))) :
    List (List (Str × V)) × Py (List ℕ × List ℕ) :=
  match pySplit ',' condition with
  | [c] =>
    let (particle, g) := filterEval S parse c particle
    (particle, do
      let g ← g
      return (g, List.range particle.length))
  | [c0, c1] =>
    let (particle, g0) := filterEval S parse c0 particle
    match g0 with
    | .error e => (particle, .error e)
    | .ok g0 =>
      let (particle, g1) := filterEval S parse c1 particle
      (particle, do
        let g1 ← g1
        return (g0, g1))
  | _ => (particle, .error .valueError)

end PP
