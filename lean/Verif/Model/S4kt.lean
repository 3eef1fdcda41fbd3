import Verif.Model.Fkt

/-!
# Model of s4kt.py

The four-point dynamic structure factor. The class refers to an attribute and a variable that are never set, and calls
a function with a wrong number of arguments; the model follows the statements in the order in which python runs them.
Values are only stored when there are no wave-vectors at all, and are then zero.
-/

namespace PP

variable {d : ℕ}

/-- What `S4ktOverlap._compute` reads: whether the attribute `selection` exists (only if the user sets it), the
wave-vectors, the discrete time grid, the two arrays of positions and the second grid
(atooms/postprocessing/s4kt.py:32-38, 57-81). -/
structure S4Obj (d : ℕ) where
  selection : Bool
  ks : KState d ℝ
  tgrid : List (ℕ × ℕ)
  skip : ℕ
  steps : List ℤ
  timestep : ℝ
  pos : List (List (Vec d ℝ))
  posUnf : List (List (Vec d ℝ))
  grid1 : Option (List ℝ)

/-- `k, klist = ...` for one entry of `_kvectors`, which is the list of wave-vectors of one grid point: `ValueError`
unless it has two elements (atooms/postprocessing/s4kt.py:49,70). -/
def s4Unpack (l : List (KVec d)) : Py (KVec d × KVec d) :=
  match l with
  | [a, b] => .ok (a, b)
  | _ => .error .valueError

/-- The dictionary `W` (atooms/postprocessing/s4kt.py:46,51-52). Its keys are the components of the vector called
`klist`. -/
abbrev S4W := List (ℤ × List ℂ)

/-- `self_overlap(.., .., side, self.a_square)`: the arguments are evaluated, then the call fails, because the function
has three parameters (atooms/postprocessing/s4kt.py:53, qt.py:33). -/
def s4Entry (o : S4Obj d) (t0 t : ℕ) : Py S4W := do
  let _ ← pyGet o.posUnf t0
  let _ ← pyGet o.posUnf (t0 + t)
  .error .typeError

/-- Body of the loop over time origins of `_tabulate_W`, atooms/postprocessing/s4kt.py:48-54. -/
noncomputable def s4Origin (o : S4Obj d) (t : ℕ) (W : S4W) (t0 : ℕ) : Py S4W := do
  let p ← pyGet o.pos t0
  let _ ← expoSphere ccis (fun _ => 0) o.ks.k0 o.ks.koffset.toNat p
  o.ks.kvectors.foldlM (fun W l => do
    let _ ← s4Unpack l
    (List.finRange d).foldlM (fun _ _ => s4Entry o t0 t) W) W

/-- `_tabulate_W`, atooms/postprocessing/s4kt.py:40-55. -/
noncomputable def s4Tabulate (o : S4Obj d) (g : ℕ × ℕ) : Py S4W := do
  let nt ← pyRange g.1 (o.pos.length - g.2) o.skip
  nt.foldlM (s4Origin o g.2) []

/-- The loop that averages `W`, atooms/postprocessing/s4kt.py:70-74: `W[kvec]` is read, then the index `kk` is not
defined. -/
def s4Average (W : S4W) (ks : KState d ℝ) : Py Unit :=
  ks.kvectors.foldlM (fun _ l => do
    let u ← s4Unpack l
    (List.finRange d).foldlM (fun _ c => do
      let _ ← dictGet W (u.2 c)
      .error .nameError) ()) ()

/-- The values at one time, all zero (atooms/postprocessing/s4kt.py:68-69,77-79); `range(len(self.grid[1]))` fails if
no grid was given. -/
noncomputable def s4Row (o : S4Obj d) : Py (List ℝ) := do
  let p ← pyGet o.pos 0
  match o.grid1 with
  | none => .error .typeError
  | some g => if g.length ≤ o.ks.kgrid.length then g.mapM fun _ => pyDiv 0 (p.length : ℝ) else .error .indexError

/-- Body of the loop over times of `_compute`, atooms/postprocessing/s4kt.py:63-79. -/
noncomputable def s4Time (o : S4Obj d) (r : List ℝ × List (List ℝ)) (g : ℕ × ℕ) : Py (List ℝ × List (List ℝ)) := do
  if o.selection = false then .error .attributeError
  let W ← s4Tabulate o g
  s4Average W o.ks
  let ta ← pyGet o.steps (g.1 + g.2)
  let tb ← pyGet o.steps g.1
  let row ← s4Row o
  return (r.1 ++ [((ta - tb : ℤ) : ℝ) * o.timestep], r.2 ++ [row])

/-- `S4ktOverlap._compute`, atooms/postprocessing/s4kt.py:57-81: the two grids and the values. -/
noncomputable def s4Compute (o : S4Obj d) : Py (List ℝ × List ℝ × List (List ℝ)) := do
  let r ← o.tgrid.foldlM (s4Time o) ([], [])
  return (r.1, o.ks.kgrid, r.2)

/-- The constructor followed by `_compute` (atooms/postprocessing/s4kt.py:32-81). `offset` is `norigins != '1'`; the
wave-vectors are those of `_setup`, the arrays those of `_setup_arrays`. -/
noncomputable def s4Run (o : S4Obj d) (blockSize : ℕ) (tgrid : List ℝ) (offset : Bool) :
    Py (List ℝ × List ℝ × List (List ℝ)) := do
  let dg ← setupTGrid o.steps blockSize o.timestep tgrid offset
  s4Compute { o with tgrid := dg }

end PP
