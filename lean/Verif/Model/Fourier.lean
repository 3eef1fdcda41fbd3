import Verif.Model.Py
import Verif.Model.Helpers
import Verif.Model.Gr
import Verif.Model.GrFull
import Mathlib.Algebra.Star.Basic

/-!
# Model of atooms/postprocessing/fourierspace.py

The square root `sq`, the number `pi` and the function `cis`, `cis x = exp(1j*x)`, are parameters. Arithmetic
is exact. A `nan` (mean of an empty list of norms, which only occurs if no wave-vector is selected) is not
represented: the model then gives `0`.
-/

namespace PP

/-- Integer components of a wave-vector or indices of the table of exponentials
(atooms/postprocessing/fourierspace.py:78-99,271-283). -/
abbrev KVec (d : ℕ) := Fin d → ℤ

/-- `x[i] = v` on an array, `i ≥ 0` (atooms/postprocessing/fourierspace.py:37-49). -/
def pySetItem {α : Type} (x : List α) (i : ℕ) (v : α) : Py (List α) :=
  if i < x.length then .ok (x.set i v) else .error .indexError

/-- `x[i]` on an array for an integer index, which counts from the end if negative
(atooms/postprocessing/fkt.py:138-140, sk.py:98-140). -/
def npGet {α : Type} (x : List α) (i : ℤ) : Py α :=
  if 0 ≤ i then pyGet x i.toNat
  else if -(x.length : ℤ) ≤ i then pyGet x (i + x.length).toNat
  else .error .indexError

section Expo
variable {C : Type} [Mul C] [One C] [Star C]

/-- First loop of `expo_sphere`, body (atooms/postprocessing/fourierspace.py:43-44). -/
def expoUp (nk : ℕ) (x : List C) (i : ℕ) : Py (List C) := do
  let a ← pyGet x (nk + i - 1)
  let b ← pyGet x (nk + 1)
  pySetItem x (nk + i) (a * b)

/-- Second loop of `expo_sphere`, body (atooms/postprocessing/fourierspace.py:46-49). -/
def expoBoth (nk : ℕ) (x : List C) (i : ℕ) : Py (List C) := do
  let x ← expoUp nk x i
  let c ← pyGet x (nk + i)
  pySetItem x (nk - i) (star c)

/-- The row `expo[p, j, :]` computed by `expo_sphere` for one particle `p` and one dimension `j`, where
`z` is `exp(1j * k0[j] * pos[p, j])` (atooms/postprocessing/fourierspace.py:37-49). All statements act
elementwise on particles and dimensions, therefore the rows are independent. `garbage` is the content of the
uninitialised array. -/
def expoRow (garbage : ℕ → C) (nk : ℕ) (z : C) : Py (List C) := do
  let x ← pySetItem ((List.range (2 * nk + 1)).map garbage) nk 1
  let x ← pySetItem x (nk + 1) z
  let w ← pyGet x (nk + 1)
  let x ← pySetItem x (nk - 1) (star w)
  let x ← (rangeList 2 nk 1).foldlM (expoUp nk) x
  (rangeList 2 (nk + 1) 1).foldlM (expoBoth nk) x

variable {K : Type} [Mul K] {d : ℕ}

/-- `expo_sphere(k0, nk, pos)` for one frame, an array `(N, ndim)`: the table `expo[p][j][m]`
(atooms/postprocessing/fourierspace.py:21-51). `pos[0]` fails for an empty frame. -/
def expoSphere (cis : K → C) (garbage : ℕ → C) (k0 : Vec d K) (nk : ℕ) (pos : List (Vec d K)) :
    Py (List (List (List C))) :=
  if pos = [] then .error .indexError
  else pos.mapM fun r => (List.finRange d).mapM fun j => expoRow garbage nk (cis (k0 j * r j))

/-- `expo_sphere(k0, nk, pos)` for several frames, an array `(nframes, N, ndim)`: the table
`expo[i][p][j][m]` (atooms/postprocessing/fourierspace.py:21-51). -/
def expoFrames (cis : K → C) (garbage : ℕ → C) (k0 : Vec d K) (nk : ℕ) (pos : List (List (Vec d K))) :
    Py (List (List (List (List C)))) :=
  if pos = [] then .error .indexError
  else pos.mapM fun f => f.mapM fun r => (List.finRange d).mapM fun j => expoRow garbage nk (cis (k0 j * r j))

end Expo

section Shells
variable {K : Type} [Field K] [LinearOrder K] [FloorRing K] {d : ℕ}

/-- `expo_sphere_safe(k0, kmax, pos)` for an array `(nframes, N, ndim)`, atooms/postprocessing/fourierspace.py:54-75.
The statements are those of `expo_sphere` without ellipsis, and the size of the table is computed from `kmax`.
An array with a negative dimension is a `ValueError`. -/
def expoSphereSafe {C : Type} [Mul C] [One C] [Star C] (cis : K → C) (garbage : ℕ → C) (k0 : Vec d K) (kmax : K)
    (pos : List (List (Vec d K))) : Py (List (List (List (List C)))) := do
  let m ← pyMin (List.ofFn k0)
  let nk := 1 + pyInt (kmax / m)
  if 2 * nk + 1 < 0 then .error .valueError
  else pos.mapM fun f => f.mapM fun r => (List.finRange d).mapM fun j =>
    expoRow garbage nk.toNat (cis (k0 j * r j))

/-- Square norm of the wave-vector `k0 * ik` (atooms/postprocessing/fourierspace.py:79-80,272). -/
def kSq (k0 : Vec d K) (v : KVec d) : K := ∑ c, k0 c * (v c : K) * (k0 c * (v c : K))

/-- `_k_norm`, atooms/postprocessing/fourierspace.py:78-81. -/
def kNorm (sq : K → K) (k0 : Vec d K) (offset : ℤ) (ik : KVec d) : K := sq (kSq k0 fun c => ik c - offset)

/-- `range(-n, n+1)` (atooms/postprocessing/fourierspace.py:85-87,95-96). -/
def symRange (n : ℤ) : List ℤ := (List.range (2 * n + 1).toNat).map fun i : ℕ => -n + (i : ℤ)

/-- `_sphere`, `_disk` and the choice between the two (atooms/postprocessing/fourierspace.py:83-99,261-268).
The generators yield the same array object each time, which is copied by the caller. -/
def kIter : (d : ℕ) → ℤ → Py (List (KVec d))
  | 2, n => .ok ((symRange n).flatMap fun ix => (symRange n).map fun iy => ![ix, iy])
  | 3, n => .ok ((symRange n).flatMap fun ix => (symRange n).flatMap fun iy =>
      (symRange n).map fun iz => ![ix, iy, iz])
  | _, _ => .error .valueError

/-- The shell of a norm: the first grid point within the width
(atooms/postprocessing/fourierspace.py:281-284). The lists have the same length. -/
def shellOf (dk kgrid : List K) (knorm : K) : Option ℕ :=
  (List.range kgrid.length).find? fun i => decide (|knorm - kgrid.getD i 0| < dk.getD i 0)

/-- Loop body that adds one wave-vector to its shell (atooms/postprocessing/fourierspace.py:271-284). -/
def addToShell (sq : K → K) (dk kgrid : List K) (k0 : Vec d K) (kmaxSq : K) (kbin : ℤ)
    (kvec : List (List (KVec d))) (ik : KVec d) : List (List (KVec d)) :=
  if kSq k0 ik > kmaxSq then kvec
  else match shellOf dk kgrid (sq (kSq k0 ik)) with
    | none => kvec
    | some i => kvec.modify i (· ++ [fun c => ik c + kbin])

/-- One pass over all wave-vectors (atooms/postprocessing/fourierspace.py:252-284). -/
def fillShells (sq : K → K) (k0 : Vec d K) (kgrid dk : List K) : Py (List (List (KVec d)) × ℤ) := do
  let kl ← pyGet kgrid (kgrid.length - 1)
  let dl ← pyGet dk (dk.length - 1)
  let kmax := kl + dl
  let m ← pyMin (List.ofFn k0)
  let kbin := 1 + pyInt (kmax / m)
  let it ← kIter d kbin
  return (it.foldl (addToShell sq dk kgrid k0 (kmax ^ 2) kbin) (List.replicate kgrid.length []), kbin)

/-- Widening of the empty shells (atooms/postprocessing/fourierspace.py:286-292). -/
def widen (dk : List K) (kvec : List (List (KVec d))) : List K :=
  List.zipWith (fun w s => if s.isEmpty then w * (6 / 5) else w) dk kvec

/-- `_setup_grid_sphere`, atooms/postprocessing/fourierspace.py:242-296. The first argument bounds the depth
of the recursion; exceeding it is a `RecursionError`. Returns the wave-vectors, the offset and the final
content of the list `dk`. -/
def setupGridSphere (sq : K → K) (k0 : Vec d K) (kgrid : List K) :
    ℕ → List K → Py (List (List (KVec d)) × ℤ × List K)
  | 0, _ => .error .recursionError
  | depth + 1, dk => do
    let (kvec, kbin) ← fillShells sq k0 kgrid dk
    if kvec.all fun s => !s.isEmpty then return (kvec, kbin, dk)
    else setupGridSphere sq k0 kgrid depth (widen dk kvec)

/-- The attributes set by `_setup` and by the `kvectors` setter
(atooms/postprocessing/fourierspace.py:178-181). -/
structure KState (d : ℕ) (K : Type) where
  k0 : Vec d K
  kgrid : List K
  kvectors : List (List (KVec d))
  koffset : ℤ

/-- Input parameters of the constructor (atooms/postprocessing/fourierspace.py:121-122). -/
structure KParams (K : Type) where
  nk : ℤ
  dk : K
  kmin : K
  kmax : K
  ksamples : ℤ

/-- `2*math.pi/cell.side` (atooms/postprocessing/fourierspace.py:206,313). Sides are not zero. -/
def smallestK (pi : K) (side : Vec d K) : Vec d K := fun c => 2 * pi / side c

/-- The grid of norms on which the wave-vectors are searched: the given one, sorted, with a negative first
entry replaced, or the default one (atooms/postprocessing/fourierspace.py:198-220). -/
def initialGrid (p : KParams K) (k0 : Vec d K) : Option (List K) → Py (List K)
  | none =>
    if p.kmin > 0 then linearGrid p.kmin p.kmax (.int p.ksamples)
    else do
      let m ← pyMin (List.ofFn k0)
      linearGrid m p.kmax (.int p.ksamples)
  | some g =>
    match pySorted g with
    | [] => .error .indexError
    | a :: r => if a < 0 then do
        let m ← pyMin (List.ofFn k0)
        return m :: r
      else .ok (a :: r)

/-- `random.sample(klist, min(nk, len(klist)))` (atooms/postprocessing/fourierspace.py:233-235). `pick i`
stands for the `i`-th draw of the generator: it receives the list and the number of elements. -/
def decimate {α : Type} (pick : ℕ → List α → ℕ → List α) (nk : ℤ) (i : ℕ) (l : List α) : Py (List α) :=
  let n := min nk l.length
  if n < 0 then .error .valueError else .ok (pick i l n.toNat)

/-- `numpy.mean` (atooms/postprocessing/fourierspace.py:240,335). -/
def npMean (l : List K) : K := l.sum / (l.length : K)

/-- `_setup` when it does not return immediately, atooms/postprocessing/fourierspace.py:196-240. `grid` is the
list given by the user. The list is modified in place, its final content is `kgrid` of the result. -/
def kSetup (sq : K → K) (pi : K) (depth : ℕ) (pick : ℕ → List (KVec d) → ℕ → List (KVec d)) (p : KParams K)
    (side : Vec d K) (grid : Option (List K)) : Py (KState d K) := do
  let k0 := smallestK pi side
  let kgrid ← initialGrid p k0 grid
  let (kvec, koffset, _) ← setupGridSphere sq k0 kgrid depth (List.replicate kgrid.length p.dk)
  let kvec ← kvec.zipIdx.mapM fun e => decimate pick p.nk e.2 e.1
  return { k0 := k0, kgrid := kvec.map fun l => npMean (l.map (kNorm sq k0 koffset)), kvectors := kvec,
           koffset := koffset }

/-- `_setup` of `n` objects computed one after the other, all created with the same arguments: the partial
correlations of `Partial` (atooms/postprocessing/partial.py:30-45,73-84). A k grid given by the user is one list
shared by all objects (fourierspace.py:200-203): each object finds it as the previous one left it. The seed of the
random numbers is reset each time (fourierspace.py:229), hence the same `pick`. -/
def kSetupMany (sq : K → K) (pi : K) (depth : ℕ) (pick : ℕ → List (KVec d) → ℕ → List (KVec d)) (p : KParams K)
    (side : Vec d K) : ℕ → Option (List K) → Py (List (KState d K))
  | 0, _ => .ok []
  | n + 1, grid => do
    let s ← kSetup sq pi depth pick p side grid
    let r ← kSetupMany sq pi depth pick p side n (grid.map fun _ => s.kgrid)
    return s :: r

/-- `kvectors`, the getter (atooms/postprocessing/fourierspace.py:298-307). -/
def kvectorsGet (s : KState d K) : List (List (Vec d K)) :=
  s.kvectors.map fun l => l.map fun v c => s.k0 c * ((v c - s.koffset : ℤ) : K)

/-- Smallest of 0 and of all components, the variable `shift` (atooms/postprocessing/fourierspace.py:317-324). -/
def minShift (l : List (List (KVec d))) : ℤ :=
  l.foldl (fun s kl => kl.foldl (fun s v => (List.ofFn v).foldl min s) s) 0

/-- `kvectors = ...`, the setter (atooms/postprocessing/fourierspace.py:309-336). -/
def kvectorsSet (sq : K → K) (pi : K) (side : Vec d K) (kv : List (List (Vec d K))) : KState d K :=
  let k0 := smallestK pi side
  let r : List (List (KVec d)) := kv.map fun l => l.map fun v c => pyRound (v c / k0 c)
  let off := |minShift r| + 1
  let kvec : List (List (KVec d)) := r.map fun l => l.map fun v c => v c + off
  { k0 := k0, kgrid := kvec.map fun l => npMean (l.map (kNorm sq k0 off)), kvectors := kvec, koffset := off }

end Shells

end PP
