import Verif.Model.BondAngle

/-!
# Model of repeated calls of `compute` on the same bond-angle distribution

`compute` leaves the middle points of the bins in `self.grid` and extends the arrays of positions and species. Only calls
that follow successful ones are modelled.
-/

namespace PP

variable {d : ℕ}

/-- `BondAngleDistribution._compute`, atooms/postprocessing/ba.py:65-117, for a trajectory of `n` frames and given
cut-offs, with the arrays `_pos_0`, `_ids_0`, `_pos_1`, `_ids_1`, which may have more entries than the trajectory has
frames. The sides of the cell, read from the trajectory, are stored in the arrays too. -/
noncomputable def baArrays (rcut : List (List ℝ)) (nsp skip n : ℕ) (grid : List ℝ) (arrays : List (BaFrame d)) :
    Py (List ℝ × List (Option ℝ)) := do
  let is ← pyRange 0 n skip
  let g1 ← pyGet grid 1
  let g0 ← pyGet grid 0
  let dtheta := g1 - g0
  let _ ← baCheckRcut rcut nsp
  let hists ← is.mapM fun i => do
    let f ← pyGet arrays i
    (List.range f.pos0.length).mapM (baParticle rcut dtheta grid.length f)
  let hist ← baTotal grid.length hists.flatten
  let norm : ℝ := (hist.sum : ℝ)
  return (List.zipWith (fun a b => (a + b) / 2) grid.dropLast grid.tail,
    hist.map fun h : ℕ => npDiv (some (h : ℝ)) (some (norm * dtheta)))

/-- Call number `k`, from 0, of `compute`: the grid is the one left by the previous call
(atooms/postprocessing/ba.py:70,72,116) and the arrays have `k + 1` entries per frame
(atooms/postprocessing/correlation.py:454-483). -/
noncomputable def baCall (rcut : List (List ℝ)) (nsp skip : ℕ) (grid : List ℝ) (frames : List (BaFrame d)) :
    ℕ → Py (List ℝ × List (Option ℝ))
  | 0 => baArrays rcut nsp skip frames.length grid frames
  | k + 1 => do
    let r ← baCall rcut nsp skip grid frames k
    baArrays rcut nsp skip frames.length r.1 (List.replicate (k + 2) frames).flatten

end PP
