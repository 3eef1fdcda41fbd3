import Verif.Model.Gr

/-!
# Model of the neighbour lists of realspace.f90

Arrays are lists, and each access is checked: an index out of range gives `outOfBounds`, whereas the compiled kernel
reads or writes foreign memory. The numbers are elements of an ordered field. The array `neigh(:,:)` is the list of
its rows; all its entries are represented, including those that were not written.
-/

namespace PP

variable {K : Type} [Field K] [LinearOrder K] {d : ℕ}

/-- `x(i)` in Fortran, with indices from 1 (e.g. atooms/postprocessing/realspace.f90:153,155). -/
def fGet {α : Type} (x : List α) (i : ℤ) : Py α :=
  if 1 ≤ i then (match x[(i - 1).toNat]? with | some a => .ok a | none => .error .outOfBounds)
  else .error .outOfBounds

/-- `delta` for the argument `offset`: -1 for `'C'`, 0 otherwise
(atooms/postprocessing/realspace.f90:144-148,221-225). -/
def fDelta (offsetC : Bool) : ℤ := if offsetC then -1 else 0

/-- `rijsq`, atooms/postprocessing/realspace.f90:156-160,231-235. -/
def fDistSq (L a b : Vec d K) : K := ∑ c, fpbc (L c) (a c - b c) ^ 2

/-- `neigh(i,k) = v`, with `i` and `k` from 0 (atooms/postprocessing/realspace.f90:164-165). -/
def fStore (neigh : List (List ℤ)) (i k : ℕ) (v : ℤ) : Py (List (List ℤ)) :=
  match neigh[i]? with
  | none => .error .outOfBounds
  | some row => if k < row.length then .ok (neigh.set i (row.set k v)) else .error .outOfBounds

/-- The arrays `nn` and `neigh` (atooms/postprocessing/realspace.f90:139-140). -/
abbrev NbState := List ℕ × List (List ℤ)

/-- `nn(i) = nn(i) + 1; nn(j) = nn(j) + 1; neigh(i,nn(i)) = vi; neigh(j,nn(j)) = vj`, with `i`, `j` from 0
(atooms/postprocessing/realspace.f90:162-165,201-204,739-742,779-782). -/
def fPair (s : NbState) (i j : ℕ) (vi vj : ℤ) : Py NbState :=
  if i < s.1.length ∧ j < s.1.length then do
    let nn := (s.1.modify i (· + 1)).modify j (· + 1)
    let m ← fStore s.2 i (nn.getD i 0 - 1) vi
    let m ← fStore m j (nn.getD j 0 - 1) vj
    return (nn, m)
  else .error .outOfBounds

/-- The test of a pair: `rijsq < rcutsq(isp,jsp)` with `isp = ids(i)`, `jsp = ids(j)`, for `i`, `j` from 0. The
particles are those of `pos` and `other` (atooms/postprocessing/realspace.f90:153-161,192-200,730-738,769-778). -/
def fClose (box : Vec d K) (pos other : List (Vec d K)) (ids : List ℤ) (rcut : List (List K)) (i j : ℕ) : Py Bool := do
  let isp ← fGet ids (i + 1)
  let jsp ← fGet ids (j + 1)
  let a ← fGet pos (i + 1)
  let b ← fGet other (j + 1)
  let row ← fGet rcut isp
  let rc ← fGet row jsp
  return decide (fDistSq box a b < rc ^ 2)

/-- Loops over pairs, in the given order (atooms/postprocessing/realspace.f90:149-168). `nn = 0` at the start. -/
def nbLoop (test : ℕ → ℕ → Py Bool) (delta : ℤ) (size : ℕ) (neigh : List (List ℤ)) (pairs : List (ℕ × ℕ)) :
    Py NbState :=
  pairs.foldlM (fun s p => do
    let b ← test p.1 p.2
    if b then fPair s p.1 p.2 ((p.2 : ℤ) + 1 + delta) ((p.1 : ℤ) + 1 + delta) else return s)
    (List.replicate size 0, neigh)

/-- The pairs `i < j` in the order of the loops (atooms/postprocessing/realspace.f90:152-154,729-731). -/
def pairsBelow (n : ℕ) : List (ℕ × ℕ) :=
  (List.range n).flatMap fun i => (List.range' (i + 1) (n - (i + 1))).map fun j => (i, j)

/-- `neighbors_list`, atooms/postprocessing/realspace.f90:133-169, and `neighbors_full`, the same code, 710-746.
`size` is the size of `nn`. -/
def neighborsList (offsetC : Bool) (box : Vec d K) (pos : List (Vec d K)) (ids : List ℤ) (rcut : List (List K))
    (size : ℕ) (neigh : List (List ℤ)) : Py NbState :=
  nbLoop (fClose box pos pos ids rcut) (fDelta offsetC) size neigh (pairsBelow pos.length)

/-- `neighbors_list_distinct`, atooms/postprocessing/realspace.f90:172-208. -/
def neighborsListDistinct (offsetC : Bool) (box : Vec d K) (pos other : List (Vec d K)) (ids : List ℤ)
    (rcut : List (List K)) (size : ℕ) (neigh : List (List ℤ)) : Py NbState :=
  nbLoop (fClose box pos other ids rcut) (fDelta offsetC) size neigh
    ((List.range pos.length).flatMap fun i => (List.range other.length).map fun j => (i, j))

/-- `neighbors_subset`, atooms/postprocessing/realspace.f90:749-786. Simplification: `subset` are the lists of indices
`subset(i,1:subset_number(i))`, already shifted by `delta` and counted from 0, one for each particle. -/
def neighborsSubset (offsetC : Bool) (box : Vec d K) (pos : List (Vec d K)) (subset : List (List ℕ)) (ids : List ℤ)
    (rcut : List (List K)) (size : ℕ) (neigh : List (List ℤ)) : Py NbState :=
  nbLoop (fClose box pos pos ids rcut) (fDelta offsetC) size neigh
    ((List.range pos.length).flatMap fun i => (subset.getD i []).map fun j => (i, j))

/-- What a caller reads: the first `nn(i)` entries of row `i`, from 0 (the result of the routines at
atooms/postprocessing/realspace.f90:133,172,710,749). -/
def NbState.listOf (s : NbState) (i : ℕ) : List ℤ := (s.2.getD i []).take (s.1.getD i 0)

/-- `neighbors`, atooms/postprocessing/realspace.f90:210-241: the first `nn` entries of `neigh`, an array of the given
size. The entries are written one after the other. -/
def neighborsOf (offsetC : Bool) (box center : Vec d K) (pos : List (Vec d K)) (ids : List ℤ) (rcut : List K)
    (size : ℕ) : Py (List ℤ) :=
  (List.range pos.length).foldlM (fun neigh (j : ℕ) => do
    let id ← fGet ids (j + 1)
    let x ← fGet pos (j + 1)
    let rc ← fGet rcut (id - fDelta offsetC)
    if fDistSq box center x < rc ^ 2 then
      if neigh.length < size then return neigh ++ [(j : ℤ) + 1 + fDelta offsetC] else .error .outOfBounds
    else return neigh) []

end PP
