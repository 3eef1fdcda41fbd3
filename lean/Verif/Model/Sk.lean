import Verif.Model.Fourier
import Mathlib.Analysis.SpecialFunctions.Complex.Circle

/-!
# Model of atooms/postprocessing/sk.py and of `sk_bare` in fourierspace.f90

Over the real and complex numbers. Simplifications: the arrays of weights have the same length as the arrays of
positions; the wave-vectors in force for each frame (they may change with the cell, through `_setup(i)`) are part of
the frame.
-/

namespace PP

/-- `is_cell_variable`, atooms/postprocessing/sk.py:17-37. `sides` are the cell sides of the frames. -/
def isCellVariable {S : Type} [DecidableEq S] (sides : List S) (tests : ℤ) : Py Bool :=
  let frames := sides.length
  let skip : ℕ := if tests > 0 then max 1 (frames / tests.toNat) else 1
  match sides with
  | [] => .error .indexError
  | L0 :: _ =>
    -- range(frames-1, 0, -skip)
    .ok (((List.range ((frames - 1 + (skip - 1)) / skip)).map fun k => frames - 1 - k * skip).any fun sample =>
      match sides[sample]? with
      | some L1 => decide (L0 ≠ L1)
      | none => false)

variable {d : ℕ}

/-- The function `x ↦ exp(1j*x)` (atooms/postprocessing/fourierspace.py:41). -/
noncomputable def ccis (x : ℝ) : ℂ := Complex.exp (Complex.I * x)

/-- One frame of a structure factor calculation: the two groups of particles, the weights if there are any, and the
wave-vectors in force (atooms/postprocessing/sk.py:71-91). -/
structure SkFrame (d : ℕ) where
  pos0 : List (Vec d ℝ)
  pos1 : List (Vec d ℝ)
  w0 : List ℝ
  w1 : List ℝ
  ks : KState d ℝ

/-- Attributes read by `_compute` (atooms/postprocessing/sk.py:60-78): whether `_pos_0 is _pos_1`, whether a weight is
set, the stride, the number of grid points and the frames. -/
structure SkObj (d : ℕ) where
  same : Bool
  weighted : Bool
  skip : ℕ
  nk : ℕ
  frames : List (SkFrame d)

/-- Product of the tabulated exponentials of one particle along the given dimensions
(atooms/postprocessing/sk.py:98-111). -/
noncomputable def expoProd (row : List (List ℂ)) (kvec : KVec d) (dims : List (Fin d)) : Py ℂ := do
  let es ← dims.mapM fun j : Fin d => do
    let r ← pyGet row (j : ℕ)
    npGet r (kvec j)
  return es.prod

/-- `numpy.sum(weight * expo[..., 0, kvec[0]] * ...)` (atooms/postprocessing/sk.py:98-111). -/
noncomputable def rhoSum (table : List (List (List ℂ))) (w : ℕ → ℂ) (kvec : KVec d) (dims : List (Fin d)) : Py ℂ := do
  let terms ← table.zipIdx.mapM fun e => do
    let x ← expoProd e.1 kvec dims
    return w e.2 * x
  return terms.sum

/-- Dimensions multiplied in the branch for two groups: all of them, but the first one twice if there are neither two
nor three (atooms/postprocessing/sk.py:116-140). -/
def crossDims (d : ℕ) : List (Fin d) :=
  if d = 2 ∨ d = 3 then List.finRange d else (List.finRange d).take 1 ++ List.finRange d

/-- The densities `rho_0`, `rho_1` of one wave-vector (atooms/postprocessing/sk.py:96-140). -/
noncomputable def skRho (same : Bool) (t0 t1 : List (List (List ℂ))) (w0 w1 : ℕ → ℂ) (kvec : KVec d) : Py (ℂ × ℂ) :=
  if same then do
    let r ← rhoSum t0 w0 kvec (List.finRange d)
    return (r, r)
  else do
    let r0 ← rhoSum t0 w0 kvec (crossDims d)
    let r1 ← rhoSum t1 (if d = 2 ∨ d = 3 then w1 else w0) kvec (crossDims d)
    return (r0, r1)

/-- Accumulators of one grid point: `rho_0_av`, `rho_1_av`, `rho2_av`, `cnt` (atooms/postprocessing/sk.py:66-69). -/
structure SkAcc where
  r0 : ℂ
  r1 : ℂ
  r2 : ℂ
  cnt : ℕ

/-- Accumulation of one wave-vector (atooms/postprocessing/sk.py:143-146). -/
noncomputable def SkAcc.add (a : SkAcc) (r : ℂ × ℂ) : SkAcc :=
  ⟨a.r0 + r.1, a.r1 + r.2, a.r2 + r.1 * star r.2, a.cnt + 1⟩

/-- Weight of particle `p`, 1 if no weight is set (atooms/postprocessing/sk.py:88-91). -/
noncomputable def skWeight (weighted : Bool) (w : List ℝ) (p : ℕ) : ℂ := if weighted then ((w.getD p 0 : ℝ) : ℂ) else 1

/-- The second table of exponentials, `expo_1` (atooms/postprocessing/sk.py:78-85, 202-210). -/
noncomputable def secondTable (same : Bool) (t0 : List (List (List ℂ))) (f : SkFrame d) : Py (List (List (List ℂ))) :=
  if same then .ok t0 else expoSphere ccis (fun _ => 0) f.ks.k0 f.ks.koffset.toNat f.pos1

/-- Loop over the wave-vectors of one frame (atooms/postprocessing/sk.py:76-146). -/
noncomputable def skFrame (o : SkObj d) (acc : List SkAcc) (f : SkFrame d) : Py (List SkAcc) := do
  let t0 ← expoSphere ccis (fun _ => 0) f.ks.k0 f.ks.koffset.toNat f.pos0
  let t1 ← secondTable o.same t0 f
  f.ks.kvectors.zipIdx.foldlM (fun acc kl => kl.1.foldlM (fun acc kvec => do
      let r ← skRho o.same t0 t1 (skWeight o.weighted f.w0) (skWeight o.weighted f.w1) kvec
      if kl.2 < acc.length then return acc.modify kl.2 (·.add r) else .error .indexError) acc) acc

/-- Mean number of particles over all frames (atooms/postprocessing/sk.py:155-156). -/
noncomputable def meanNumber (l : List ℕ) : Py ℝ :=
  if l = [] then .error .zeroDivisionError else .ok ((l.sum : ℝ) / (l.length : ℝ))

/-- Value of one grid point before the normalisation by the number of particles
(atooms/postprocessing/sk.py:150-152,161). -/
noncomputable def skNonorm (weighted : Bool) (a : SkAcc) : Py ℝ :=
  if a.cnt = 0 then .error .zeroDivisionError
  else .ok ((a.r2 / (a.cnt : ℂ) - (if weighted then a.r0 * star a.r1 else 0) / (a.cnt : ℂ) ^ 2).re)

/-- `StructureFactorLegacy._compute`, atooms/postprocessing/sk.py:60-163: the lists `value` and `value_nonorm`. -/
noncomputable def skLegacy (o : SkObj d) : Py (List ℝ × List ℝ) := do
  let is ← pyRange 0 o.frames.length o.skip
  let acc ← is.foldlM (fun acc i => do
    let f ← pyGet o.frames i
    skFrame o acc f) (List.replicate o.nk ⟨0, 0, 0, 0⟩)
  let n0 ← meanNumber (o.frames.map fun f => f.pos0.length)
  let n1 ← meanNumber (o.frames.map fun f => if o.same then f.pos0.length else f.pos1.length)
  let v ← acc.mapM (skNonorm o.weighted)
  return (v.map fun x => x / √(n0 * n1), v)

/-! ### The Fortran version -/

/-- `expo(p, j, i)` in the Fortran kernel, with indices from 1: out of bounds if `i` is not in the range
(atooms/postprocessing/fourierspace.f90:13-18). -/
noncomputable def fExpo (row : List (List ℂ)) (j : ℕ) (i : ℤ) : Py ℂ :=
  match row[j]? with
  | none => .error .outOfBounds
  | some r => if 1 ≤ i then (match r[(i - 1).toNat]? with | some x => .ok x | none => .error .outOfBounds)
    else .error .outOfBounds

/-- `sk_bare` for one wave-vector, atooms/postprocessing/fourierspace.f90:8-19. -/
noncomputable def skBare (table : List (List (List ℂ))) (kvec : KVec 3) : Py ℂ := do
  let terms ← table.mapM fun row => do
    let a ← fExpo row 0 (kvec 0)
    let b ← fExpo row 1 (kvec 1)
    let c ← fExpo row 2 (kvec 2)
    return a * b * c
  return terms.sum

/-- `ikvec[:, i] = kvec` for an array of 3 rows (atooms/postprocessing/sk.py:221-223): `ValueError` unless the
number of components is 3, or 1 (broadcast). -/
def ikvecColumn (v : KVec d) : Py (KVec 3) :=
  if h3 : d = 3 then .ok fun c => v (Fin.cast h3.symm c)
  else if h1 : d = 1 then .ok fun _ => v (Fin.cast h1.symm 0)
  else .error .valueError

/-- Loop over the wave-vectors of one frame in `StructureFactorFast._compute`
(atooms/postprocessing/sk.py:200-229). The indices are passed unchanged to Fortran, and the second group is not
used. Simplification: the kernel is called for each wave-vector instead of once for the list. -/
noncomputable def skFastFrame (o : SkObj d) (acc : List SkAcc) (f : SkFrame d) : Py (List SkAcc) := do
  let t0 ← expoSphere ccis (fun _ => 0) f.ks.k0 f.ks.koffset.toNat f.pos0
  let _ ← secondTable o.same t0 f
  f.ks.kvectors.zipIdx.foldlM (fun acc kl => kl.1.foldlM (fun acc kvec => do
      let r ← (do
        let i ← ikvecColumn kvec
        let r ← skBare t0 i
        return (r, r) : Py (ℂ × ℂ))
      if kl.2 < acc.length then return acc.modify kl.2 (·.add r) else .error .indexError) acc) acc

/-- `StructureFactorFast._compute`, atooms/postprocessing/sk.py:179-240. -/
noncomputable def skFast (o : SkObj d) : Py (List ℝ × List ℝ) := do
  let is ← pyRange 0 o.frames.length o.skip
  let acc ← is.foldlM (fun acc i => do
    let f ← pyGet o.frames i
    skFastFrame o acc f) (List.replicate o.nk ⟨0, 0, 0, 0⟩)
  let n0 ← meanNumber (o.frames.map fun f => f.pos0.length)
  let n1 ← meanNumber (o.frames.map fun f => if o.same then f.pos0.length else f.pos1.length)
  let v ← acc.mapM (skNonorm false)
  return (v.map fun x => x / √(n0 * n1), v)

end PP
