import Verif.Model.Dynamics

/-!
# Model of the pair histograms: gr.py and the Fortran kernels of realspace.f90

Numbers are elements of an ordered field. The square root is a parameter `sq`, so that the
statements about counting hold for whatever the square root returns; `Real.sqrt` is used where its
properties matter.
-/

namespace PP

/-- A position or a cell side vector in `d` dimensions (rows of `s.dump('pos')`,
atooms/postprocessing/correlation.py:360, and `system.cell.side`, gr.py:151). -/
abbrev Vec (d : ℕ) (K : Type) := Fin d → K

section
variable {K : Type} [Field K] [LinearOrder K] [FloorRing K] {d : ℕ}

/-! ### gr.py -/

/-- `r - numpy.rint(r/L) * L`, atooms/postprocessing/gr.py:25-26,33-34. Cell sides are non-zero. -/
def minImage (L r : Vec d K) : Vec d K := fun c => r c - (pyRound (r c / L c) : K) * L c

/-- One entry of `gr_kernel`, atooms/postprocessing/gr.py:22-27. -/
def grDist (sq : K → K) (L x y : Vec d K) : K := sq (∑ c, minImage L (fun c => x c - y c) c ^ 2)

/-- `gr_kernel(x, y, L)` for an array `x` and a vector `y`, atooms/postprocessing/gr.py:22-27. -/
def grKernel (sq : K → K) (L : Vec d K) (x : List (Vec d K)) (y : Vec d K) : List K :=
  x.map fun u => grDist sq L u y

/-- `gr_kernel_square(x, y, L)`, atooms/postprocessing/gr.py:30-35. -/
def grKernelSquare (L : Vec d K) (x : List (Vec d K)) (y : Vec d K) : List K :=
  x.map fun u => ∑ c, minImage L (fun c => u c - y c) c ^ 2

/-- Whether `numpy.histogram` counts `v` in bin `j`: bins are half open, the last one is closed
(numpy documentation; called at atooms/postprocessing/gr.py:42,51,61,64). -/
def inBin (edges : List K) (j : ℕ) (v : K) : Bool :=
  match edges[j]?, edges[j + 1]? with
  | some a, some b => decide (a ≤ v ∧ (v < b ∨ (j + 2 = edges.length ∧ v = b)))
  | _, _ => false

/-- `numpy.histogram(vals, edges)[0]`: `ValueError` unless the edges are non-decreasing
(called at atooms/postprocessing/gr.py:42,51,61,64,139,149). -/
def histogram (edges : List K) (vals : List K) : Py (List ℕ) :=
  if edges.Pairwise (· ≤ ·) then
    .ok ((List.range (edges.length - 1)).map fun j => vals.countP (inBin edges j))
  else .error .valueError

/-- `hist += hist_tmp`, atooms/postprocessing/gr.py:52,65. -/
def histAdd (h t : List ℕ) : List ℕ := List.zipWith (· + ·) h t

/-- `max(1, int(1e5 / len(y)))`, atooms/postprocessing/gr.py:44. -/
def batchSize (n : ℕ) : Py ℕ :=
  if n = 0 then .error .zeroDivisionError else .ok (max 1 (100000 / n))

/-- `pairs_newton_hist` for a given batch size `bl`, atooms/postprocessing/gr.py:37-53. -/
def pairsNewtonHistB {V : Type} (f : List V → V → List K) (x y : List V) (bins : List K) (bl : ℕ) :
    Py (List ℕ) := do
  let hist ← histogram bins []
  let r ← pyRange 0 (y.length - 1) bl
  r.foldlM (fun hist ib => do
    let parts ← (rangeList ib (min (ib + bl) (y.length - 1)) 1).mapM fun i => do
      let yi ← pyGet y i
      return f (x.drop (i + 1)) yi
    let tmp ← histogram bins parts.flatten
    return histAdd hist tmp) hist

/-- `pairs_newton_hist`, atooms/postprocessing/gr.py:37-53. -/
def pairsNewtonHist {V : Type} (f : List V → V → List K) (x y : List V) (bins : List K) :
    Py (List ℕ) := do
  let _ ← histogram bins []
  let bl ← batchSize y.length
  pairsNewtonHistB f x y bins bl

/-- `pairs_hist`, atooms/postprocessing/gr.py:56-66. -/
def pairsHist {V : Type} (f : List V → V → List K) (x y : List V) (bins : List K) :
    Py (List ℕ) := do
  let hist ← histogram bins []
  (List.range y.length).foldlM (fun hist i => do
    let yi ← pyGet y i
    let tmp ← histogram bins (f x yi)
    return histAdd hist tmp) hist

/-! ### realspace.f90 -/

/-- Fortran intrinsic `sign(a, b)` (used at atooms/postprocessing/realspace.f90:24). -/
def fsign (a b : K) : K := if 0 ≤ b then |a| else -|a|

/-- One component of `pbc`/`pbch` and of the `where` blocks of the kernels,
atooms/postprocessing/realspace.f90:20-34,511-513. -/
def fpbc (L r : K) : K := if |r| > L / 2 then r - fsign L r else r

/-- The distance computed in the kernels, atooms/postprocessing/realspace.f90:510-514. -/
def fDist (sq : K → K) (L a b : Vec d K) : K := sq (∑ c, fpbc (L c) (a c - b c) ^ 2)

/-- `hist(bin) = hist(bin) + 1` with a bounds check, atooms/postprocessing/realspace.f90:523. -/
def fIncr (hist : List ℕ) (bin : ℤ) : Py (List ℕ) :=
  if 1 ≤ bin ∧ bin ≤ hist.length then .ok (hist.modify (bin - 1).toNat (· + 1))
  else .error .outOfBounds

/-- `k = k+1; distances(k) = rdist` on a stack array of the given size, with a bounds check. Only the
entries `1..k`, which were written for the current particle, are ever read, so that the array is
represented by their list (atooms/postprocessing/realspace.f90:515-518). -/
def fPush (size : ℕ) (dists : List K) (rdist : K) : Py (List K) :=
  if dists.length + 1 ≤ size then .ok (dists ++ [rdist]) else .error .outOfBounds

/-- `bin = floor(distances(j) / dr) + 1; hist(bin) += 1` for all stored distances,
atooms/postprocessing/realspace.f90:521-524. -/
def fBinAll (dr : K) (hist : List ℕ) (dists : List K) : Py (List ℕ) :=
  dists.foldlM (fun h r => fIncr h (⌊r / dr⌋ + 1)) hist

/-- `bins(j) = dr * (j-1) + dr / 2`, atooms/postprocessing/realspace.f90:527-529. -/
def fBins (dr : K) (n : ℕ) : List K := (List.range n).map fun j : ℕ => dr * (j : K) + dr / 2

/-- Loop over the second particle with the test `rdist < rmax`: the distances with the particles `js`
below `rmax` (atooms/postprocessing/realspace.f90:509-519,596-606). -/
def fCollect (size : ℕ) (rmax : K) (rs : List K) : Py (List K) :=
  rs.foldlM (fun ds r => if r < rmax then fPush size ds r else .ok ds) []

/-- `gr_self_C`, atooms/postprocessing/realspace.f90:492-530. Positions are rows. -/
def grSelfC (sq : K → K) (pos : List (Vec d K)) (box : Vec d K) (dr : K) (hist : List ℕ)
    (bins : List K) : Py (List ℕ × List K) := do
  let rmax := dr * (bins.length : K)
  let hist0 := hist.map fun _ => 0
  let h ← (List.range pos.length).foldlM (fun h i => do
    let pi ← pyGet pos i
    let ds ← fCollect pos.length rmax ((pos.drop (i + 1)).map fun pj => fDist sq box pj pi)
    fBinAll dr h ds) hist0
  return (h, fBins dr bins.length)

/-- `gr_distinct_c`, atooms/postprocessing/realspace.f90:579-617. -/
def grDistinctC (sq : K → K) (pos1 pos2 : List (Vec d K)) (box : Vec d K) (dr : K) (hist : List ℕ)
    (bins : List K) : Py (List ℕ × List K) := do
  let rmax := dr * (hist.length : K)
  let hist0 := hist.map fun _ => 0
  let h ← (List.range pos1.length).foldlM (fun h i => do
    let pi ← pyGet pos1 i
    let ds ← fCollect pos2.length rmax (pos2.map fun pj => fDist sq box pj pi)
    fBinAll dr h ds) hist0
  return (h, fBins dr bins.length)

/-- `gr_neighbors_self_c` and `gr_neighbors_distinct_c` with `offset = 'C'`: 0-based neighbours given by
LinkedCells, no test on the distance (atooms/postprocessing/realspace.f90:299-342,400-443). `other` is
`positions` itself for the former. A neighbour index out of range is an out-of-bounds read. -/
def grNeighborsC (sq : K → K) (pos other : List (Vec d K)) (neighbors : List (List ℕ)) (box : Vec d K)
    (dr : K) (hist : List ℕ) (bins : List K) : Py (List ℕ × List K) := do
  let hist0 := hist.map fun _ => 0
  let h ← (List.range pos.length).foldlM (fun h i => do
    let pi ← pyGet pos i
    let nb ← match neighbors[i]? with
      | some nb => (.ok nb : Py (List ℕ))
      | none => .error .outOfBounds
    let ds ← nb.foldlM (fun ds j =>
      match other[j]? with
      | some pj => fPush other.length ds (fDist sq box pj pi)
      | none => .error .outOfBounds) []
    fBinAll dr h ds) hist0
  return (h, fBins dr bins.length)

end
end PP
