import Verif.Model.Neighbors
import Verif.Model.GrFull
import Mathlib.Analysis.SpecialFunctions.Trigonometric.Inverse
import Mathlib.Analysis.Real.Sqrt

/-!
# Model of atooms/postprocessing/ba.py and of `bond_angle` in realspace.f90

Over the real numbers. Simplification: the histograms are arrays of 32-bit integers in the code.
-/

namespace PP

variable {d : ℕ}

/-- The angle of one pair of neighbours, in degrees; `none` stands for the `cycle` when the product of the distances is
zero (atooms/postprocessing/realspace.f90:95,102,104-116). -/
noncomputable def baAngle (rij rik : Vec d ℝ) : Option ℝ :=
  let prod := √(∑ c, rij c ^ 2) * √(∑ c, rik c ^ 2)
  if prod = 0 then none
  else
    let c0 := (∑ c, rij c * rik c) / prod
    let c1 := if c0 ≤ 0 then max (-1) c0 else c0
    let c2 := if c1 > 0 then min 1 c1 else c1
    some (Real.arccos c2 * 180 / Real.pi)

/-- Binning of one angle (atooms/postprocessing/realspace.f90:120-121). -/
noncomputable def baIncr (dtheta : ℝ) (hist : List ℕ) (theta : ℝ) : Py (List ℕ) :=
  let bin := ⌊theta / dtheta⌋ + 1
  if bin ≤ hist.length then fIncr hist bin else .ok hist

/-- One turn of the loop over `k` (atooms/postprocessing/realspace.f90:97-123). -/
noncomputable def baInner (center : Vec d ℝ) (pos : List (Vec d ℝ)) (box : Vec d ℝ) (dtheta : ℝ) (nj : ℤ)
    (rij : Vec d ℝ) (hist : List ℕ) (nk : ℤ) : Py (List ℕ) :=
  if nk + 1 = nj + 1 then .ok hist
  else do
    let x ← fGet pos (nk + 1)
    match baAngle rij fun c => fpbc (box c) (center c - x c) with
    | none => .ok hist
    | some theta => baIncr dtheta hist theta

/-- `bond_angle`, atooms/postprocessing/realspace.f90:74-125: the histogram, an array of `n` elements. -/
noncomputable def bondAngle (center : Vec d ℝ) (pos : List (Vec d ℝ)) (neigh : List ℤ) (box : Vec d ℝ) (dtheta : ℝ)
    (n : ℕ) : Py (List ℕ) :=
  neigh.foldlM (fun hist nj => do
    let x ← fGet pos (nj + 1)
    neigh.foldlM (baInner center pos box dtheta nj fun c => fpbc (box c) (center c - x c)) hist) (List.replicate n 0)

/-- One frame: cell side, positions and species (from 0) of the two groups
(atooms/postprocessing/ba.py:93-105). -/
structure BaFrame (d : ℕ) where
  side : Vec d ℝ
  pos0 : List (Vec d ℝ)
  ids0 : List ℕ
  pos1 : List (Vec d ℝ)
  ids1 : List ℕ

/-- Body of the loop over the particles of a frame (atooms/postprocessing/ba.py:99-111): the histogram of one
particle. The neighbour buffer has 50 elements. -/
noncomputable def baParticle (rcut : List (List ℝ)) (dtheta : ℝ) (n : ℕ) (f : BaFrame d) (idx : ℕ) : Py (List ℕ) := do
  let x ← pyGet f.pos0 idx
  let isp ← pyGet f.ids0 idx
  let row ← pyGet rcut isp
  let nb ← neighborsOf true f.side x f.pos1 (f.ids1.map fun i : ℕ => (i : ℤ)) row 50
  bondAngle x f.pos1 nb f.side dtheta n

/-- `self.rcut[isp, jsp]` for all pairs of species (atooms/postprocessing/ba.py:88-90). -/
def baCheckRcut (rcut : List (List ℝ)) (nsp : ℕ) : Py Unit :=
  (List.range nsp).forM fun i => do
    let row ← pyGet rcut i
    (List.range nsp).forM fun j => do
      let _ ← pyGet row j
      return ()

/-- `numpy.sum(hist_all, axis=0)[:-1]` (atooms/postprocessing/ba.py:114-115,117): the sum of an empty list is a scalar,
which cannot be indexed. -/
def baTotal (n : ℕ) (hists : List (List ℕ)) : Py (List ℕ) :=
  if hists = [] then .error .indexError
  else .ok ((List.range (n - 1)).map fun b => (hists.map fun h => h.getD b 0).sum)

/-- `BondAngleDistribution._compute`, atooms/postprocessing/ba.py:65-117, for given cut-offs. `nsp` is the number of
species. nan is `none`. -/
noncomputable def baCompute (rcut : List (List ℝ)) (nsp skip : ℕ) (grid : List ℝ) (frames : List (BaFrame d)) :
    Py (List ℝ × List (Option ℝ)) := do
  let is ← pyRange 0 frames.length skip
  let g1 ← pyGet grid 1
  let g0 ← pyGet grid 0
  let dtheta := g1 - g0
  let _ ← baCheckRcut rcut nsp
  let hists ← is.mapM fun i => do
    let f ← pyGet frames i
    (List.range f.pos0.length).mapM (baParticle rcut dtheta grid.length f)
  let hist ← baTotal grid.length hists.flatten
  let norm : ℝ := (hist.sum : ℝ)
  return (List.zipWith (fun a b => (a + b) / 2) grid.dropLast grid.tail,
    hist.map fun h : ℕ => npDiv (some (h : ℝ)) (some (norm * dtheta)))

/-- `linear_grid(0.0, 180.0, dtheta)` for a float `dtheta` (atooms/postprocessing/ba.py:62). -/
noncomputable def baGrid (dtheta : ℝ) : Py (List ℝ) := linearGrid 0 180 (.float dtheta)

/-- Second loop of `_default_rcut` for one pair of species: the first point, from the position `m` of the maximum on,
that is not followed by a decrease (atooms/postprocessing/ba.py:38-44). -/
def baFirstMin {K : Type} [Field K] [LinearOrder K] (grid value : List K) (m : K) : List ℕ → Py (Option K)
  | [] => .ok none
  | i :: is => do
    let g ← pyGet grid i
    if g ≥ m then do
      let v1 ← pyGet value (i + 1)
      let v0 ← pyGet value i
      if v1 - v0 ≥ 0 then return some g else baFirstMin grid value m is
    else baFirstMin grid value m is

/-- `_default_rcut` for one pair of species: first minimum after the absolute maximum of g(r)
(atooms/postprocessing/ba.py:35-44); `none`: no entry in the dictionary. -/
def baDefaultRcut {K : Type} [Field K] [LinearOrder K] [FloorRing K] (grid value : List K) : Py (Option K) := do
  let r ← ifabsmm grid value
  baFirstMin grid value r.2.1 (List.range grid.length)

end PP
