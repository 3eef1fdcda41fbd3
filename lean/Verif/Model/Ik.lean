import Verif.Model.Sk
import Mathlib.Analysis.SpecialFunctions.Trigonometric.Basic

/-!
# Model of atooms/postprocessing/ik.py

Over the real and complex numbers. Simplifications: as in `Verif.Model.Sk`, the wave-vectors in force for each frame are
part of the frame; arrays of length one are not broadcast; the index vector of a wave-vector is not zero (otherwise the
form factor is nan).
-/

namespace PP

variable {d : ℕ}

/-- One frame: positions, wave-vectors in force, volume of the cell, and the radii of the same frame of the other
trajectory, `none` if that one is shorter (atooms/postprocessing/ik.py:38-39,49-58,69). -/
structure IkFrame (d : ℕ) where
  pos : List (Vec d ℝ)
  radius : Option (List ℝ)
  volume : ℝ
  ks : KState d ℝ

/-- `knorm = numpy.dot(kvec, kvec)**0.5`, of the indices in the table (atooms/postprocessing/ik.py:57). -/
noncomputable def ikNorm (v : KVec d) : ℝ := √(∑ c, (v c : ℝ) * (v c : ℝ))

/-- `mk` for one radius (atooms/postprocessing/ik.py:59-60). -/
noncomputable def ikForm (knorm r : ℝ) : ℝ :=
  4 * Real.pi / knorm ^ 3 * (Real.sin (knorm * r) - knorm * r * Real.cos (knorm * r))

/-- The three dimensions used, whatever the number of those of the positions (atooms/postprocessing/ik.py:61-64). -/
def ikDims (d : ℕ) : Py (List (Fin d)) :=
  if h : 3 ≤ d then .ok [⟨0, by omega⟩, ⟨1, by omega⟩, ⟨2, by omega⟩] else .error .indexError

/-- `rho` of one wave-vector (atooms/postprocessing/ik.py:57-64). -/
noncomputable def ikRho (table : List (List (List ℂ))) (radius : Option (List ℝ)) (kvec : KVec d) : Py ℂ :=
  match radius with
  | none => .error .indexError
  | some rs =>
    if rs.length = table.length then do
      let dims ← ikDims d
      rhoSum table (fun p => ((ikForm (ikNorm kvec) (rs.getD p 0) : ℝ) : ℂ)) kvec dims
    else .error .valueError

/-- Loop over the wave-vectors of one frame (atooms/postprocessing/ik.py:54-66). `rho_av` is not accumulated, so that the
other members of the accumulator are not used. -/
noncomputable def ikFrame (acc : List SkAcc) (f : IkFrame d) : Py (List SkAcc) := do
  let table ← expoSphere ccis (fun _ => 0) f.ks.k0 f.ks.koffset.toNat f.pos
  f.ks.kvectors.zipIdx.foldlM (fun acc kl => kl.1.foldlM (fun acc kvec => do
      let r ← (do
        let r ← ikRho table f.radius kvec
        return (r, r) : Py (ℂ × ℂ))
      if kl.2 < acc.length then return acc.modify kl.2 (·.add r) else .error .indexError) acc) acc

/-- `SpectralDensity._compute`, atooms/postprocessing/ik.py:41-74: the lists `value` and `value_nonorm`. `nk` is the
number of grid points; the volume is averaged over all the frames. -/
noncomputable def ikCompute (frames : List (IkFrame d)) (skip nk : ℕ) : Py (List ℝ × List ℝ) := do
  let is ← pyRange 0 frames.length skip
  let acc ← is.foldlM (fun acc i => do
    let f ← pyGet frames i
    ikFrame acc f) (List.replicate nk ⟨0, 0, 0, 0⟩)
  let volume := (frames.map fun f => f.volume).sum / (frames.length : ℝ)
  let v ← acc.mapM (skNonorm false)
  return (v.map fun x => x / volume, v)

end PP
