import Verif.Model.Neighbors
import Verif.Model.LinkedCells

/-!
# Model of the kernels of realspace.f90 whose arrays have the Fortran layout, and of `on_border`

`positions(:,:)` has the coordinates along the first index and the particles along the second one; it is a function
of both. The numbers are elements of an ordered field, the square root `sq` is a parameter, and each access to an
array is checked: an index out of range gives `outOfBounds`.
-/

namespace PP

section
variable {K : Type} [Field K] [LinearOrder K] [FloorRing K] {d : ℕ}

/-- `positions(:,i)`, a column (e.g. atooms/postprocessing/realspace.f90:458,461). -/
def fCol {n : ℕ} (p : Fin d → Fin n → K) (i : Fin n) : Vec d K := fun c => p c i

/-- `gr_self`, atooms/postprocessing/realspace.f90:445-490. -/
def grSelfF (sq : K → K) {n : ℕ} (p : Fin d → Fin n → K) (box : Vec d K) (dr : K) (hist : List ℕ) (bins : List K) :
    Py (List ℕ × List K) := do
  let rmax := dr * (bins.length : K)
  let hist0 := hist.map fun _ => 0
  let h ← (List.finRange n).foldlM (fun h i => do
    let ds ← fCollect n rmax (((List.finRange n).filter fun j => i < j).map fun j => fDist sq box (fCol p j) (fCol p i))
    fBinAll dr h ds) hist0
  return (h, fBins dr bins.length)

/-- `gr_distinct`, atooms/postprocessing/realspace.f90:532-577. -/
def grDistinctF (sq : K → K) {n m : ℕ} (p1 : Fin d → Fin n → K) (p2 : Fin d → Fin m → K) (box : Vec d K) (dr : K)
    (hist : List ℕ) (bins : List K) : Py (List ℕ × List K) := do
  let rmax := dr * (hist.length : K)
  let hist0 := hist.map fun _ => 0
  let h ← (List.finRange n).foldlM (fun h i => do
    let ds ← fCollect m rmax ((List.finRange m).map fun j => fDist sq box (fCol p2 j) (fCol p1 i))
    fBinAll dr h ds) hist0
  return (h, fBins dr bins.length)

/-- `x(:,j)` with a bounds check, `j` from 1 (atooms/postprocessing/realspace.f90:269-271,370-372). -/
def fColAt {n : ℕ} (p : Fin d → Fin n → K) (j : ℤ) : Py (Vec d K) :=
  if h : 1 ≤ j ∧ (j - 1).toNat < n then .ok (fCol p ⟨(j - 1).toNat, h.2⟩) else .error .outOfBounds

/-- `gr_neighbors_self` and `gr_neighbors_distinct`, atooms/postprocessing/realspace.f90:243-297,344-398; `other` is
`positions` itself for the former. `neighbors` are the rows of the array, of which row `i` has
`number_of_neighbors(i)` entries in use. The array `distances` on the stack has `size(positions,2)` elements in both
(250,351). -/
def grNeighborsF (sq : K → K) (offsetC : Bool) {n m : ℕ} (p : Fin d → Fin n → K) (other : Fin d → Fin m → K)
    (neighbors : List (List ℤ)) (number : List ℕ) (box : Vec d K) (dr : K) (hist : List ℕ) (bins : List K) :
    Py (List ℕ × List K) := do
  let delta : ℤ := if offsetC then 1 else 0
  let hist0 := hist.map fun _ => 0
  let h ← (List.finRange n).foldlM (fun h i => do
    let num ← fGet number ((i.val : ℤ) + 1)
    let ds ← (List.range num).foldlM (fun ds (jj : ℕ) => do
      let row ← fGet neighbors ((i.val : ℤ) + 1)
      let j ← fGet row ((jj : ℤ) + 1)
      let x ← fColAt other (j + delta)
      fPush n ds (fDist sq box x (fCol p i))) []
    fBinAll dr h ds) hist0
  return (h, fBins dr bins.length)

/-- `k = k+1; distances(k) = v` (atooms/postprocessing/realspace.f90:631,643): the array and `k`. -/
def fAppend (s : List K × ℕ) (v : K) : Py (List K × ℕ) :=
  if s.2 < s.1.length then .ok (s.1.set s.2 v, s.2 + 1) else .error .outOfBounds

/-- The particles `start, ..., end`, from 0; an index out of range is an access out of bounds
(atooms/postprocessing/realspace.f90:628-629,657-658). -/
def fRows (n : ℕ) (first last : ℤ) : Py (List (Fin n)) :=
  (List.range (last + 1 - first).toNat).mapM fun (t : ℕ) =>
    if h : 1 ≤ first + t ∧ (first + t - 1).toNat < n then (.ok ⟨(first + t - 1).toNat, h.2⟩ : Py (Fin n))
    else .error .outOfBounds

/-- `distances_self`, atooms/postprocessing/realspace.f90:619-646: the array `distances` and `k`. `hbox` is
`box / 2`. Simplification: all the indices `start, ..., end` are checked before the first distance is stored. -/
def distancesSelf (sq : K → K) {n : ℕ} (first last : ℤ) (p : Fin d → Fin n → K) (box : Vec d K) (distances : List K) :
    Py (List K × ℕ) := do
  let rows ← fRows n first last
  rows.foldlM (fun s i =>
    ((List.finRange n).filter fun j => i < j).foldlM (fun s j => fAppend s (fDist sq box (fCol p j) (fCol p i))) s)
    (distances, 0)

/-- `distances_distinct`, atooms/postprocessing/realspace.f90:648-675. Simplification as in `distancesSelf`. -/
def distancesDistinct (sq : K → K) {n m : ℕ} (first last : ℤ) (p1 : Fin d → Fin n → K) (p2 : Fin d → Fin m → K)
    (box : Vec d K) (distances : List K) : Py (List K × ℕ) := do
  let rows ← fRows n first last
  rows.foldlM (fun s i =>
    (List.finRange m).foldlM (fun s j => fAppend s (fDist sq box (fCol p2 j) (fCol p1 i))) s) (distances, 0)

/-- `distances_single`, atooms/postprocessing/realspace.f90:678-702. -/
def distancesSingle (sq : K → K) {m : ℕ} (x : Vec d K) (other : Fin d → Fin m → K) (box : Vec d K)
    (distances : List K) : Py (List K × ℕ) :=
  (List.finRange m).foldlM (fun s j => fAppend s (fDist sq box (fCol other j) x)) (distances, 0)

/-- `on_surface`, atooms/postprocessing/realspace.f90:48-58. -/
def onSurfaceF {n : ℕ} (p : Fin d → Fin n → K) (box : Vec d K) (delta : K) : List Bool :=
  (List.finRange n).map fun i => decide (∃ c, |p c i| > box c / 2 - delta)

/-- `bin_in_cell`, atooms/postprocessing/realspace.f90:36-44: the columns of `index`. `hbox` and `cell` are those of
the linked cells, which the call that is commented out would pass (atooms/postprocessing/linkedcells.py:18-21,146). -/
def binInCell (m : CellMap d K) {n : ℕ} (p : Fin d → Fin n → K) : List (Cell d) :=
  (List.finRange n).map fun i c => pyInt ((p c i + m.box c / 2) / (m.box c / (m.nCell c : K)))

/-- `on_border(pos)`, atooms/postprocessing/linkedcells.py:128-135. The arrays are missing before the first call of
`compute` (13-16,18-21), which is an `AttributeError`. -/
def LinkedCells.onBorder (lc : LinkedCells d K) (x : Vec d K) : Py Bool :=
  match lc.map with
  | none => .error .attributeError
  | some m => .ok (decide (∃ c, m.index x c = m.nCell c - 1 ∨ m.index x c = 0))

end
end PP
