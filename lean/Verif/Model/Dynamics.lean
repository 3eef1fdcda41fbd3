import Verif.Model.Correlation
import Verif.Model.Helpers
import Mathlib.Algebra.BigOperators.Fin
import Mathlib.Data.Fintype.Card

/-!
# Model of the single-particle time correlation functions

`msd.py`, `vacf.py`, `sacf.py`, `alpha2.py`, `qt.py`, `chi4t.py` and the centre-of-mass correction of
`correlation.py`.

Simplifications: a frame is a matrix with a fixed number `n` of particles and `d` of dimensions (the
number of particles does not change along the trajectory, so that numpy never has to broadcast);
arithmetic is exact; `nan` is `none`. The frame readers, `Unfolded` and the progress bars of the
atooms package are outside the model: the correlators start from the list of frames.
-/

namespace PP

/-- A numpy array of shape `(n, d)`, as dumped by `s.dump('pos')`
(atooms/postprocessing/correlation.py:360,392,398). -/
abbrev Frame (n d : ℕ) (K : Type) := Fin n → Fin d → K

/-- What the correlators read from the trajectory object apart from the frames: `steps`,
`timestep`, `block_size`, `total_time` and the number of particles in each frame
(atooms/postprocessing/msd.py:61-79, helpers.py:157-173). -/
structure Traj (K : Type) where
  steps : List ℤ
  timestep : K
  blockSize : ℕ
  totalTime : K
  npart : List ℕ

/-- Accumulation of exact numbers or `nan` (`none`), which is absorbing
(atooms/postprocessing/correlation.py:94,99). -/
def Arith.nan (K : Type) [Field K] : Arith (Option K) where
  zero := some 0
  add a b := do let x ← a; let y ← b; return x + y
  div v c := v.map fun x => x / (c : K)

section
variable {K : Type} [Field K] [LinearOrder K] [FloorRing K] {n d : ℕ}

/-- Division of a numpy number by `float(x.shape[0])`: `nan` for an empty array, since the
numerator is then 0 (atooms/postprocessing/msd.py:59, vacf.py:31, alpha2.py:35-36, qt.py:57,82). -/
def perParticle (n : ℕ) (s : K) : Option K := if n = 0 then none else some (s / (n : K))

/-- The last two statements of every `_compute` below: `gcf_offset` over the steps, then the grid in
real time (atooms/postprocessing/msd.py:76-79, vacf.py:32-36, alpha2.py:39-41, qt.py:58-60,83-85). -/
def timeCorr {X V : Type} (ar : Arith V) (f : X → X → Py V) (tr : Traj K) (dgrid : List (ℕ × ℕ))
    (skip : ℕ) (x : List X) : Py (List K × List V) := do
  let r ← gcfOffset ar f dgrid skip tr.steps x
  return (r.1.map fun ti : ℤ => (ti : K) * tr.timestep, r.2)

/-- Sum of the squared components of the difference of two frames, `numpy.sum((x-y)**2)`
(atooms/postprocessing/msd.py:59). -/
def sqDisp (x y : Frame n d K) : K := ∑ p, ∑ c, (x p c - y p c) ^ 2

/-- `msd`, atooms/postprocessing/msd.py:58-59. -/
def msdKernel (x y : Frame n d K) : Py (Option K) := .ok (perParticle n (sqDisp x y))

/-- The default time grid of the mean square displacement, atooms/postprocessing/msd.py:61-69. If the
total displacement is 0 or `nan`, numpy gives `inf` or `nan` and python's `min(t_max, ..)` returns
`t_max`. -/
def msdGrid (tr : Traj K) (rmax : K) (tsamples : ℤ) (pos : List (Frame n d K)) : Py (List K) :=
  if rmax > 0 then do
    let last ← pyGet pos (pos.length - 1)
    let first ← pyGet pos 0
    let m ← msdKernel last first
    let tTarget : K := match m with
      | none => tr.totalTime
      | some m => if m = 0 then tr.totalTime else rmax ^ 2 / m * tr.totalTime
    linearGrid 0 (min tr.totalTime tTarget) (.int tsamples)
  else linearGrid 0 tr.totalTime (.int tsamples)

/-- `MeanSquareDisplacement._compute`, atooms/postprocessing/msd.py:54-79. `offset` is the value of
`self._norigins != '1' and not self._no_offset`. -/
def msdCompute (tr : Traj K) (skip : ℕ) (grid : Option (List K)) (rmax : K) (tsamples : ℤ)
    (offset : Bool) (pos : List (Frame n d K)) : Py (List K × List (Option K)) := do
  let g ← match grid with
    | some g => (.ok g : Py (List K))
    | none => msdGrid tr rmax tsamples pos
  let dg ← setupTGrid tr.steps tr.blockSize tr.timestep g offset
  timeCorr (Arith.nan K) msdKernel tr dg skip pos

/-- The kernel of the velocity autocorrelation, atooms/postprocessing/vacf.py:30-31. -/
def vacfKernel (x y : Frame n d K) : Py (Option K) := .ok (perParticle n (∑ p, ∑ c, x p c * y p c))

/-- `VelocityAutocorrelation.__init__`, atooms/postprocessing/vacf.py:23-27. The base class
constructor computes the stride (correlation.py:214), the default grid is built when `tgrid` is
`None`, but `setup_t_grid` receives `tgrid` itself: iterating over `None` is a `TypeError`. Returns
the default or given grid and the discrete grid. -/
def vacfInit (tr : Traj K) (tgrid : Option (List K)) (tsamples : ℤ) (norigins : NOrigins)
    (offset : Bool) : Py (List K × List (ℕ × ℕ)) := do
  let _skip ← adjustSkip tr.steps.length tr.blockSize tr.npart norigins
  let grid ← match tgrid with
    | some g => (.ok g : Py (List K))
    | none => linearGrid 0 (tr.totalTime * (1 / 10)) (.int tsamples)
  let dg ← match tgrid with
    | some g => setupTGrid tr.steps tr.blockSize tr.timestep g offset
    | none => do
      let _ ← offSamp tr.steps (if offset then List.range tr.blockSize else [0])
      .error .typeError
  return (grid, dg)

/-- `VelocityAutocorrelation._compute`, atooms/postprocessing/vacf.py:29-36: the stride is the block
size. -/
def vacfCompute (tr : Traj K) (dg : List (ℕ × ℕ)) (vel : List (Frame n d K)) :
    Py (List K × List (Option K)) :=
  timeCorr (Arith.nan K) vacfKernel tr dg tr.blockSize vel

/-- `alpha_2`, atooms/postprocessing/alpha2.py:31-37. A frame carries its python identity, compared
by `x is y`. The quotient is `nan` if the numerator and denominator vanish; the denominator vanishes
only together with the numerator. -/
def alpha2Kernel (x y : ℕ × Frame n d K) : Py (Option K) :=
  if x.1 = y.1 then .ok (some 0)
  else
    let dr2 := perParticle n (sqDisp x.2 y.2)
    let dr4 := perParticle n (∑ p, (∑ c, (x.2 p c - y.2 p c) ^ 2) ^ 2)
    .ok (match dr2, dr4 with
      | some dr2, some dr4 => if dr2 = 0 then none else some (3 * dr4 / (5 * dr2 ^ 2) - 1)
      | _, _ => none)

/-- `NonGaussianParameter._compute`, atooms/postprocessing/alpha2.py:30-41. The frames are distinct
python objects. -/
def alpha2Compute (tr : Traj K) (dg : List (ℕ × ℕ)) (skip : ℕ) (pos : List (Frame n d K)) :
    Py (List K × List (Option K)) :=
  timeCorr (Arith.nan K) alpha2Kernel tr dg skip (pos.zipIdx.map fun e => (e.2, e.1))

/-- `square_displacement`, atooms/postprocessing/qt.py:25-27, one entry. -/
def sqDist (u v : Fin d → K) : K := ∑ c, (u c - v c) ^ 2

/-- `collective_overlap`, atooms/postprocessing/qt.py:15-23,29-31: the matrix `fxy[i, j]` of squared
distances between `y[i]` and `x[j]`, flattened, and the number of entries below `a_square`. -/
def collectiveOverlap (r0 r1 : Frame n d K) (aSquare : K) : ℕ :=
  ((List.finRange n).flatMap fun i => (List.finRange n).map fun j => sqDist (r0 j) (r1 i)).countP
    fun v => decide (v < aSquare)

/-- `self_overlap(..).sum()`, atooms/postprocessing/qt.py:33-35,82 and chi4t.py:55. -/
def selfOverlap (r0 r1 : Frame n d K) (aSquare : K) : ℕ :=
  ((List.finRange n).map fun j => sqDist (r0 j) (r1 j)).countP fun v => decide (v < aSquare)

/-- `self_overlap` of the Fortran module, atooms/postprocessing/realspace.f90:9-18. -/
def selfOverlapF90 (r0 r1 : Frame n d K) (aSquare : K) : ℕ :=
  let tmp : Fin n → K := fun i => ∑ c, (r0 i c - r1 i c) ^ 2
  ((List.finRange n).filter fun i => decide (tmp i < aSquare)).length

/-- `SelfOverlap._compute`, atooms/postprocessing/qt.py:80-85; `a` is squared in the constructor
(line 78). -/
def qstCompute (tr : Traj K) (dg : List (ℕ × ℕ)) (skip : ℕ) (a : K) (pos : List (Frame n d K)) :
    Py (List K × List (Option K)) :=
  timeCorr (Arith.nan K) (fun x y => .ok (perParticle n (selfOverlap x y (a ^ 2) : K))) tr dg skip pos

/-- `CollectiveOverlap._compute`, atooms/postprocessing/qt.py:55-60. -/
def qtCompute (tr : Traj K) (dg : List (ℕ × ℕ)) (skip : ℕ) (a : K) (pos : List (Frame n d K)) :
    Py (List K × List (Option K)) :=
  timeCorr (Arith.nan K) (fun x y => .ok (perParticle n (collectiveOverlap x y (a ^ 2) : K))) tr dg
    skip pos

/-! ### chi4t.py -/

/-- The attributes of a `Chi4SelfOverlap` object that `compute()` reads and writes: the array of
unfolded positions, grid, values, and the values of the two auxiliary correlations
(atooms/postprocessing/chi4t.py:44-51,58-77). -/
structure Chi4State (n d : ℕ) (K : Type) where
  pos : List (Frame n d K)
  grid : List K
  value : List K
  average : List K
  variance : List K

/-- Inner loop over the origins, atooms/postprocessing/chi4t.py:63-67: accumulates `A`, `A2`, `cnt`. -/
def chi4Inner (pos : List (Frame n d K)) (aSquare : K) (i : ℕ) (acc : K × K × ℕ) (i0 : ℕ) :
    Py (K × K × ℕ) := do
  let x ← pyGet pos i0
  let y ← pyGet pos (i0 + i)
  let w : K := (selfOverlap x y aSquare : K)
  return (acc.1 + w, acc.2.1 + w ^ 2, acc.2.2 + 1)

/-- Body of the outer loop, atooms/postprocessing/chi4t.py:62-76. The division by the number of
particles is in numpy; it is only used for at least one particle. -/
def chi4Outer (tr : Traj K) (skip : ℕ) (aSquare : K) (s : Chi4State n d K) (g : ℕ × ℕ) :
    Py (Chi4State n d K) := do
  let r ← pyRange g.1 (s.pos.length - g.2 - skip) skip
  let (A, A2, cnt) ← r.foldlM (chi4Inner s.pos aSquare g.2) ((0, 0, 0) : K × K × ℕ)
  let ta ← pyGet tr.steps (g.1 + g.2)
  let tb ← pyGet tr.steps g.1
  let Aav : K := if cnt > 0 then A / (cnt : K) else 0
  let A2av : K := if cnt > 0 then A2 / (cnt : K) else 0
  let _ ← pyGet s.pos 0
  return { s with
    grid := s.grid ++ [((ta - tb : ℤ) : K) * tr.timestep]
    value := s.value ++ [(A2av - Aav ^ 2) / (n : K)]
    average := s.average ++ [Aav]
    variance := s.variance ++ [A2av] }

/-- `Chi4SelfOverlap._compute`, atooms/postprocessing/chi4t.py:53-77: the grid is reset, the values
are not. `read(0)` at line 57 fails without frames, which are those of the trajectory. -/
def chi4Compute (tr : Traj K) (skip : ℕ) (a : K) (dg : List (ℕ × ℕ)) (s : Chi4State n d K) :
    Py (Chi4State n d K) := do
  let _ ← pyGet s.pos 0
  dg.foldlM (chi4Outer tr skip (a ^ 2)) { s with grid := [] }

/-- `Correlation.compute` for `Chi4SelfOverlap`: `_setup_arrays` appends the frames of the trajectory
to the arrays (atooms/postprocessing/correlation.py:392,398,504), then `_compute`. -/
def chi4ComputeFull (tr : Traj K) (frames : List (Frame n d K)) (skip : ℕ) (a : K)
    (dg : List (ℕ × ℕ)) (s : Chi4State n d K) : Py (Chi4State n d K) :=
  chi4Compute tr skip a dg { s with pos := s.pos ++ frames }

/-- State of a new object (atooms/postprocessing/correlation.py:205,225, chi4t.py:39-51). -/
def Chi4State.init (grid : List K) : Chi4State n d K := ⟨[], grid, [], [], []⟩

/-! ### Repeated calls of compute() -/

/-- The attributes of a one-body correlation object written by `compute()`: the array of dumped frames,
grid and values (atooms/postprocessing/correlation.py:205-232). -/
structure CorrObj (X V K : Type) where
  frames : List X
  grid : List K
  value : List V

/-- `Correlation.compute()`, atooms/postprocessing/correlation.py:493-523, for a one-body correlation
whose `_compute` maps the dumped frames and the current grid to the new grid and values.
`_setup_arrays` (lines 308-398) appends the frames of the trajectory to the existing arrays. The
modified object remains when `_compute` raises. -/
def CorrObj.compute {X V : Type} (read : List X) (body : List X → List K → Py (List K × List V))
    (o : CorrObj X V K) : CorrObj X V K × Py (List K × List V) :=
  let o1 := { o with frames := o.frames ++ read }
  match body o1.frames o1.grid with
  | .ok (g, v) => ({ o1 with grid := g, value := v }, .ok (g, v))
  | .error e => (o1, .error e)

/-- The object after `k` calls of `compute()` (atooms/postprocessing/correlation.py:493-523). -/
def CorrObj.computeN {X V : Type} (read : List X) (body : List X → List K → Py (List K × List V))
    (o : CorrObj X V K) : ℕ → CorrObj X V K
  | 0 => o
  | k + 1 => ((CorrObj.computeN read body o k).compute read body).1

/-! ### Centre of mass -/

/-- The `fix_cm` branch for trajectories with unfolded positions,
atooms/postprocessing/correlation.py:377-387: mass-weighted mean position, subtracted from every
particle. A zero total mass gives `nan` (`none`). -/
def fixCm (mass : Fin n → K) (x : Frame n d K) : Option (Frame n d K) :=
  let mtot := ∑ p, mass p
  if mtot = 0 then none
  else
    let cm : Fin d → K := fun c => (∑ p, x p c * mass p) / mtot
    some fun p c => x p c - cm c

/-- Filter applied after the centre of mass has been fixed, and dump of the positions of the remaining
particles (atooms/postprocessing/correlation.py:388-392). `sel` lists the selected particles. -/
def selectFrame {m : ℕ} (sel : Fin m → Fin n) (x : Frame n d K) : Frame m d K := fun p => x (sel p)

/-- `self._pos_unf` with `fix_cm=True`, atooms/postprocessing/correlation.py:371-392. -/
def setupFixCm {m : ℕ} (mass : Fin n → K) (sel : Fin m → Fin n) (frames : List (Frame n d K)) :
    Option (List (Frame m d K)) :=
  frames.mapM fun x => (fixCm mass x).map (selectFrame sel)

end

end PP
