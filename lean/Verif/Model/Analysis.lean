import Verif.Model.Dynamics

/-!
# Model of the analysis of the mean square displacement, of the stress autocorrelation, of the optimized chi4, and
of the constructors that receive the number of time origins

Simplifications: as in `Model/Dynamics.lean`; moreover `nan` is not represented in the data to be analysed (there is
at least one particle) and in the stress.
-/

namespace PP

section
variable {K : Type} [Field K] [LinearOrder K]

/-- The entries of `self.analysis` set by the analysis of the mean square displacement: `tau_D` is a number or `None`;
`D` may be missing (`none`), or be nan (`some none`) (atooms/postprocessing/msd.py:81-98). -/
structure MsdAnalysis (K : Type) where
  tauD : Option K
  diffusion : Option (Option K)
deriving DecidableEq

/-- The diffusive time, atooms/postprocessing/msd.py:82-87: `ValueError` is turned into `None`. -/
def msdTau (grid value : List K) (sigma : K) : Py (Option K) :=
  match feqc grid value (sigma ^ 2) with
  | .ok r => .ok (r.map Prod.fst)
  | .error .valueError => .ok none
  | .error e => .error e

/-- The diffusion coefficient, atooms/postprocessing/msd.py:89-98: the entries of the arrays selected by the mask
`where`. A mask of the wrong length is an `IndexError`. `ndim` is the number of dimensions of the first frame. -/
def msdDiffusion (grid value : List K) (sigma : K) (ndim : ℕ) : Py (Option (Option K)) :=
  let mask := value.map fun v => decide (v > sigma ^ 2)
  if (mask.filter id).length < 2 then .ok none
  else if grid.length ≠ mask.length then .error .indexError
  else do
    let xs := ((List.zip grid mask).filter Prod.snd).map Prod.fst
    let ys := ((List.zip value mask).filter Prod.snd).map Prod.fst
    let fit ← linearFit xs ys
    return some (fit.map fun r => r.1 / ((2 * ndim : ℕ) : K))

/-- `MeanSquareDisplacement.analyze`, atooms/postprocessing/msd.py:81-98. -/
def msdAnalyze (grid value : List K) (sigma : K) (ndim : ℕ) : Py (MsdAnalysis K) := do
  let tau ← msdTau grid value sigma
  let D ← msdDiffusion grid value sigma ndim
  return ⟨tau, D⟩

end

/-! ### Stress autocorrelation -/

section
variable {K : Type} [Field K] [LinearOrder K] [FloorRing K] {d : ℕ}

/-- `numpy.sum(mass[:] * v * w)`, atooms/postprocessing/sacf.py:39, where `v` and `w` have the same length: arrays of
length one are broadcast, other differences in length raise `ValueError`. -/
def kineticSum (mass v w : List K) : Py K :=
  let vw := List.zipWith (· * ·) v w
  if mass.length = vw.length then .ok (List.zipWith (· * ·) mass vw).sum
  else match mass, vw with
    | [m], _ => .ok (vw.map fun x => m * x).sum
    | _, [x] => .ok (mass.map fun m => m * x).sum
    | _, _ => .error .valueError

/-- One component of the stress, atooms/postprocessing/sacf.py:39. `s` is the stress of the interaction, `vel` the
velocities dumped for this frame. An index beyond the number of dimensions is an `IndexError`, and so is indexing an
empty array of velocities, which has one dimension only. -/
def stressComponent (mass : List K) (s : Fin d → Fin d → K) (vel : List (Fin d → K)) (j k : ℕ) : Py K :=
  if h : j < d ∧ k < d then
    if vel = [] then .error .indexError
    else do
      let kin ← kineticSum mass (vel.map fun v => v ⟨j, h.1⟩) (vel.map fun v => v ⟨k, h.2⟩)
      return s ⟨j, h.1⟩ ⟨k, h.2⟩ + kin
  else .error .indexError

/-- The stress of one frame, atooms/postprocessing/sacf.py:33-41: the components `(0,1)`, `(0,2)`, `(1,2)`, whatever
the number of dimensions. -/
def stressFrame (mass : List K) (f : (Fin d → Fin d → K) × List (Fin d → K)) : Py (Fin 3 → K) := do
  let a ← stressComponent mass f.1 f.2 0 1
  let b ← stressComponent mass f.1 f.2 0 2
  let c ← stressComponent mass f.1 f.2 1 2
  return ![a, b, c]

/-- The kernel, atooms/postprocessing/sacf.py:44-45. -/
def sacfKernel (x y : Fin 3 → K) : Py (Option K) := .ok (some ((∑ m, x m * y m) / 3))

/-- `StressAutocorrelation._compute`, atooms/postprocessing/sacf.py:28-52. `mass` are the masses of all the particles
of the first frame, `vol` the volume of its cell, `frames` the stress of the interaction and the dumped velocities,
which have been filtered. The stride is the block size. -/
def sacfCompute (tr : Traj K) (dg : List (ℕ × ℕ)) (vol : K) (mass : List K)
    (frames : List ((Fin d → Fin d → K) × List (Fin d → K))) : Py (List K × List (Option K)) := do
  let stress ← frames.mapM (stressFrame mass)
  let r ← timeCorr (Arith.nan K) sacfKernel tr dg tr.blockSize stress
  return (r.1, r.2.map fun x => x.map fun v => v / vol)

/-! ### Number of time origins -/

/-- The value of `norigins != '1'` (atooms/postprocessing/vacf.py:27, sacf.py:26, qt.py:53,77, chi4t.py:42). -/
def NOrigins.offset : NOrigins → Bool
  | .str s => decide (s ≠ ['1'])
  | _ => true

/-- Constructor and calculation of the velocity autocorrelation, atooms/postprocessing/vacf.py:23-36. -/
def vacfRun {n : ℕ} (tr : Traj K) (tgrid : Option (List K)) (tsamples : ℤ) (norigins : NOrigins)
    (vel : List (Frame n d K)) : Py (List K × List (Option K)) := do
  let r ← vacfInit tr tgrid tsamples norigins norigins.offset
  vacfCompute tr r.2 vel

/-- Constructor and calculation of the stress autocorrelation, atooms/postprocessing/sacf.py:24-52. -/
def sacfRun (tr : Traj K) (tgrid : List K) (norigins : NOrigins) (vol : K) (mass : List K)
    (frames : List ((Fin d → Fin d → K) × List (Fin d → K))) : Py (List K × List (Option K)) := do
  let _ ← adjustSkip tr.steps.length tr.blockSize tr.npart norigins
  let dg ← setupTGrid tr.steps tr.blockSize tr.timestep tgrid norigins.offset
  sacfCompute tr dg vol mass frames

/-- Constructor and calculation of the self overlap with an explicit time grid, atooms/postprocessing/qt.py:72-85
and correlation.py:214. -/
def qstRun {n : ℕ} (tr : Traj K) (tgrid : List K) (norigins : NOrigins) (a : K) (pos : List (Frame n d K)) :
    Py (List K × List (Option K)) := do
  let skip ← adjustSkip tr.steps.length tr.blockSize tr.npart norigins
  let dg ← setupTGrid tr.steps tr.blockSize tr.timestep tgrid norigins.offset
  qstCompute tr dg skip.toNat a pos

end

/-! ### Optimized chi4 -/

section
variable {K : Type} [Field K] [LinearOrder K] [FloorRing K] {n d : ℕ}

/-- Inner loop of the optimized version, atooms/postprocessing/chi4t.py:107-118: the Fortran overlap. -/
def chi4OptInner (pos : List (Frame n d K)) (aSquare : K) (i : ℕ) (acc : K × K × ℕ) (i0 : ℕ) : Py (K × K × ℕ) := do
  let x ← pyGet pos i0
  let y ← pyGet pos (i0 + i)
  let w : K := (selfOverlapF90 x y aSquare : K)
  return (acc.1 + w, acc.2.1 + w ^ 2, acc.2.2 + 1)

/-- Body of the outer loop of the optimized version, atooms/postprocessing/chi4t.py:112-124: without the test on the
number of origins, so that python's `0.0 / 0` raises. -/
def chi4OptOuter (tr : Traj K) (skip : ℕ) (aSquare : K) (s : Chi4State n d K) (g : ℕ × ℕ) :
    Py (Chi4State n d K) := do
  let r ← pyRange g.1 (s.pos.length - g.2 - skip) skip
  let acc ← r.foldlM (chi4OptInner s.pos aSquare g.2) ((0, 0, 0) : K × K × ℕ)
  let ta ← pyGet tr.steps (g.1 + g.2)
  let tb ← pyGet tr.steps g.1
  let Aav ← pyDiv acc.1 (acc.2.2 : K)
  let A2av ← pyDiv acc.2.1 (acc.2.2 : K)
  let _ ← pyGet s.pos 0
  return { s with
    grid := s.grid ++ [((ta - tb : ℤ) : K) * tr.timestep]
    value := s.value ++ [(A2av - Aav ^ 2) / (n : K)]
    average := s.average ++ [Aav]
    variance := s.variance ++ [A2av] }

/-- `Chi4SelfOverlapOptimized._compute`, atooms/postprocessing/chi4t.py:100-125, after the arrays have been set up as
in `chi4ComputeFull`. -/
def chi4OptComputeFull (tr : Traj K) (frames : List (Frame n d K)) (skip : ℕ) (a : K) (dg : List (ℕ × ℕ))
    (s : Chi4State n d K) : Py (Chi4State n d K) :=
  dg.foldlM (chi4OptOuter tr skip (a ^ 2)) { s with pos := s.pos ++ frames, grid := [] }

end

end PP
