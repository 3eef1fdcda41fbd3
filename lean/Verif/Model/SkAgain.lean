import Verif.Model.Sk

/-!
# Model of repeated calls to `StructureFactorLegacy.compute()`

The arrays of positions are never reset, those of the weights are (atooms/postprocessing/correlation.py:308-326,
422-491). Simplification: the weights of a frame are looked up before its exponentials are tabulated.
-/

namespace PP

variable {d : ℕ}

/-- What the object keeps between calls: positions `_pos_0`, `_pos_1` and weights `_weight_0`, `_weight_1` of each
frame, and the attributes of `SkObj` (atooms/postprocessing/sk.py:60-91). -/
structure SkStore (d : ℕ) where
  same : Bool
  weighted : Bool
  skip : ℕ
  nk : ℕ
  pos : List (List (Vec d ℝ) × List (Vec d ℝ))
  weights : List (List ℝ × List ℝ)

/-- `_setup_arrays`, atooms/postprocessing/correlation.py:422-491: the positions read are appended to those of the
previous calls, the weights are read anew. -/
def SkStore.setup (o : SkStore d) (pos : List (List (Vec d ℝ) × List (Vec d ℝ))) (weights : List (List ℝ × List ℝ)) :
    SkStore d := { o with pos := o.pos ++ pos, weights := weights }

/-- The wave-vectors for frame `i`: those of the object or, if the cell changes and `i` is not zero, those obtained from
the cell of frame `i` of the trajectory (`cells` has one entry per frame of the trajectory), which must exist
(atooms/postprocessing/sk.py:73-74, fourierspace.py:189-206). -/
def skKState (variable_cell : Bool) (ks0 : KState d ℝ) (cells : List (KState d ℝ)) (i : ℕ) : Py (KState d ℝ) :=
  if variable_cell = true ∧ i ≠ 0 then pyGet cells i else .ok ks0

/-- The weights of frame `i`, atooms/postprocessing/sk.py:88-91. -/
def SkStore.weight (o : SkStore d) (i : ℕ) : Py (List ℝ × List ℝ) :=
  if o.weighted then pyGet o.weights i else .ok ([], [])

/-- What is used of frame `i`, atooms/postprocessing/sk.py:72-91. -/
def SkStore.frame (o : SkStore d) (variable_cell : Bool) (ks0 : KState d ℝ) (cells : List (KState d ℝ)) (i : ℕ) :
    Py (SkFrame d) := do
  let ks ← skKState variable_cell ks0 cells i
  let p ← pyGet o.pos i
  let w ← o.weight i
  return ⟨p.1, p.2, w.1, w.2, ks⟩

/-- `StructureFactorLegacy._compute` on the arrays of the object, atooms/postprocessing/sk.py:60-163. -/
noncomputable def SkStore.run (o : SkStore d) (variable_cell : Bool) (ks0 : KState d ℝ) (cells : List (KState d ℝ)) :
    Py (List ℝ × List ℝ) := do
  let is ← pyRange 0 o.pos.length o.skip
  let acc ← is.foldlM (fun acc i => do
    let f ← o.frame variable_cell ks0 cells i
    skFrame ⟨o.same, o.weighted, o.skip, o.nk, []⟩ acc f) (List.replicate o.nk ⟨0, 0, 0, 0⟩)
  let n0 ← meanNumber (o.pos.map fun p => p.1.length)
  let n1 ← meanNumber (o.pos.map fun p => if o.same then p.1.length else p.2.length)
  let v ← acc.mapM (skNonorm o.weighted)
  return (v.map fun x => x / √(n0 * n1), v)

end PP
