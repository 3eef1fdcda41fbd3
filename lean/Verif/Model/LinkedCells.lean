import Verif.Model.Gr
import Mathlib.Data.Fin.VecNotation
import Mathlib.Data.Fintype.Pi

/-!
# Model of linkedcells.py
-/

namespace PP

section
variable {K : Type} [Field K] [LinearOrder K] [FloorRing K] {d : ℕ}

/-- Index of a subcell, a tuple of integers (atooms/postprocessing/linkedcells.py:124-126). -/
abbrev Cell (d : ℕ) := Fin d → ℤ

/-- Displacements of the neighbouring subcells obeying Newton's third law, in the order of the code:
`_map_2d_newton` and `_map_3d_newton`; `ValueError` in other dimensions
(atooms/postprocessing/linkedcells.py:46-58,60-67,95-106). -/
def newtonOffsets : (d : ℕ) → Py (List (Cell d))
  | 2 => .ok [![1, 0], ![1, 1], ![0, 1], ![-1, 1]]
  | 3 => .ok [![1, 0, 0], ![1, 1, 0], ![0, 1, 0],
              ![-1, 1, 0], ![1, 0, -1], ![1, 1, -1],
              ![0, 1, -1], ![-1, 1, -1], ![1, 0, 1],
              ![1, 1, 1], ![0, 1, 1], ![-1, 1, 1],
              ![0, 0, 1]]
  | _ => .error .valueError

/-- Displacements of all the neighbouring subcells: `_map_2d_nonewton` and `_map_3d_nonewton`
(atooms/postprocessing/linkedcells.py:69-81,83-93,95-106). -/
def allOffsets : (d : ℕ) → Py (List (Cell d))
  | 2 => .ok ((([-1, 0, 1] : List ℤ).flatMap fun dx => ([-1, 0, 1] : List ℤ).map fun dy =>
      ![dx, dy]).filter fun o => o ≠ 0)
  | 3 => .ok ((([-1, 0, 1] : List ℤ).flatMap fun dx => ([-1, 0, 1] : List ℤ).flatMap fun dy =>
      ([-1, 0, 1] : List ℤ).map fun dz => ![dx, dy, dz]).filter fun o => o ≠ 0)
  | _ => .error .valueError

/-- `_pbc(t, N)`, atooms/postprocessing/linkedcells.py:28-37. -/
def cellPbc (periodic : Fin d → Bool) (n t : Cell d) : Cell d := fun c =>
  if periodic c = false then t c
  else if t c ≥ n c then t c - n c
  else if t c < 0 then t c + n c
  else t c

/-- `_outside(t, N)`, atooms/postprocessing/linkedcells.py:39-44. -/
def cellOutside (n t : Cell d) : Bool := decide (∃ c, t c ≥ n c ∨ t c < 0)

/-- Attributes set by `adjust` (atooms/postprocessing/linkedcells.py:18-25). The dictionary `_neigh_cell`
is represented by the displacements and the `periodic` flags it is built from. -/
structure CellMap (d : ℕ) (K : Type) where
  box : Vec d K
  nCell : Cell d
  offsets : List (Cell d)
  periodic : Fin d → Bool

/-- `adjust(box, newton, periodic)` with `periodic` given (`None` means periodic in all directions),
atooms/postprocessing/linkedcells.py:18-25,95-106. The cut-off is not zero. -/
def adjust (rcut : K) (box : Vec d K) (newton : Bool) (periodic : Fin d → Bool) :
    Py (CellMap d K) := do
  let offs ← if newton then newtonOffsets d else allOffsets d
  return { box := box, nCell := fun c => pyInt (box c / rcut), offsets := offs, periodic := periodic }

/-- `self._neigh_cell[key]` after `_map`: the neighbouring subcells, folded and then stripped of those
outside; `KeyError` if the key is not in the nested ranges (atooms/postprocessing/linkedcells.py:46-122).
The dictionary, which is read only, is represented by a function of the key. -/
def CellMap.neigh (m : CellMap d K) (key : Cell d) : Py (List (Cell d)) :=
  if ∀ c, 0 ≤ key c ∧ key c < m.nCell c then
    .ok ((m.offsets.map fun o => cellPbc m.periodic m.nCell fun c => key c + o c).filter
      fun t => !cellOutside m.nCell t)
  else .error .keyError

/-- `_index(pos)` for one particle, atooms/postprocessing/linkedcells.py:18-21,124-126. When a number of
subcells is zero, `box_cell` is infinite and the index 0; so it is here, as division by zero is zero.
(`numpy.int` does not exist any more in numpy 1.24 and later.) -/
def CellMap.index (m : CellMap d K) (x : Vec d K) : Cell d := fun c =>
  pyInt ((x c + m.box c / 2) / (m.box c / (m.nCell c : K)))

/-- `particle_in_cell[cell]`: the particles with the given index, in increasing order
(atooms/postprocessing/linkedcells.py:156-158). -/
def particlesInCell (index : List (Cell d)) (cell : Cell d) : List ℕ :=
  (List.range index.length).filter fun j => index[j]? = some cell

/-- Loop over particles of `compute`, atooms/postprocessing/linkedcells.py:148-176. `other` is `None` for
a calculation within one group. -/
def CellMap.neighbors (m : CellMap d K) (pos : List (Vec d K)) (other : Option (List (Vec d K))) :
    Py (List (List ℕ)) :=
  let index := pos.map m.index
  let indexOther := match other with
    | none => index
    | some o => o.map m.index
  (List.range pos.length).mapM fun i => do
    let icell ← pyGet index i
    let own := match other with
      | none => (particlesInCell indexOther icell).filter fun j => i < j
      | some _ => particlesInCell indexOther icell
    let cells ← m.neigh icell
    return own ++ cells.flatMap (particlesInCell indexOther)

/-- A `LinkedCells` object: its cut-off and the attributes set by `adjust`, if it was called
(`_is_adjusted`; atooms/postprocessing/linkedcells.py:13-16). -/
structure LinkedCells (d : ℕ) (K : Type) where
  rcut : K
  map : Option (CellMap d K)

/-- `LinkedCells(rcut)`, atooms/postprocessing/linkedcells.py:13-16. -/
def LinkedCells.new (rcut : K) : LinkedCells d K := { rcut := rcut, map := none }

/-- `compute(box, pos, other, newton=newton, periodic=periodic)`: the object after the call and the
neighbours of each particle, atooms/postprocessing/linkedcells.py:137-189. With `as_array=True` the same
lists are stored in the rows of an array, whose width is the maximum of an empty list, a `ValueError`,
if there are no particles. -/
def LinkedCells.compute (lc : LinkedCells d K) (box : Vec d K) (pos : List (Vec d K))
    (other : Option (List (Vec d K))) (newton : Bool) (periodic : Fin d → Bool) (asArray : Bool) :
    Py (LinkedCells d K × List (List ℕ)) := do
  let m ← match lc.map with
    | none => adjust lc.rcut box (other.isNone && newton) periodic
    | some m => .ok m
  let nb ← m.neighbors pos other
  if asArray && pos.isEmpty then .error .valueError
  else return ({ lc with map := some m }, nb)

end
end PP
