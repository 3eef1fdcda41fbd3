import Verif.Model.LinkedCells
import Verif.Model.Helpers
import Mathlib.Data.Nat.Factorial.Basic

/-!
# Model of the radial distribution functions: `_compute` of both classes of gr.py

The square root `sq` and the number `pi` are parameters. A value that is not a finite number (division by
zero in numpy, average of an empty list) is `none`.
-/

namespace PP

section
variable {K : Type} [Field K] [LinearOrder K] [FloorRing K] {d : ℕ}

/-- One frame: `system.cell.side`, `system.cell.periodic` and the two groups of particles
`_pos_0[i]`, `_pos_1[i]` (atooms/postprocessing/gr.py:150-158,255-268). The cell is always present. -/
structure GrFrame (d : ℕ) (K : Type) where
  side : Vec d K
  periodic : Fin d → Bool
  pos0 : List (Vec d K)
  pos1 : List (Vec d K)

/-- Attributes of the object on entering `_compute` (atooms/postprocessing/gr.py:91-98,
atooms/postprocessing/correlation.py:454-464). `same` tells whether `_pos_0 is _pos_1`: no more than one
filter, in which case both groups are equal in every frame. `dr` may be a python integer. -/
structure GrObj (d : ℕ) (K : Type) where
  frames : List (GrFrame d K)
  same : Bool
  skip : ℕ
  rgrid : Option (List K)
  dr : GridStep K
  rmax : K

/-- Numerical value of `self.dr` (atooms/postprocessing/gr.py:112). -/
def GridStep.val : GridStep K → K
  | .int n => n
  | .float x => x

/-- `max(x)` of an array, `ValueError` if empty (atooms/postprocessing/gr.py:112). -/
def pyMax : List K → Py K
  | [] => .error .valueError
  | a :: r => .ok (r.foldl max a)

/-- `min(x)` of an array, `ValueError` if empty (atooms/postprocessing/gr.py:183,242). -/
def pyMin : List K → Py K
  | [] => .error .valueError
  | a :: r => .ok (r.foldl min a)

/-- `_setup_grid` for a system with a cell, atooms/postprocessing/gr.py:100-123. -/
def grSetupGrid (sq : K → K) (o : GrObj d K) (side : Vec d K) : Py (List K) := do
  let g ← match o.rgrid with
    | some g => (.ok g : Py (List K))
    | none => do
      let m ← pyMax (List.ofFn side)
      linearGrid (o.dr.val / 2) (m * sq (d : K)) o.dr
  if g.isEmpty then .error .indexError else return g

/-- Reconstruction of the bounds of the grid, atooms/postprocessing/gr.py:131-137. -/
def grEdges : List K → Py (List K)
  | g0 :: g1 :: r =>
    let h := (g1 - g0) / 2
    .ok ((g0 :: g1 :: r).map (· - h) ++ [(g1 :: r).getLast (by simp) + h])
  | _ => .error .indexError

/-- `numpy.average` of a list of integers, not a number for an empty list
(atooms/postprocessing/gr.py:143-144,335-336). -/
def npAverage (l : List ℕ) : Option K :=
  if l.isEmpty then none else some ((l.map fun n : ℕ => (n : K)).sum / (l.length : K))

/-- Entry `j` of `numpy.average(gr_all, axis=0)`, atooms/postprocessing/gr.py:175,356. -/
def npAverageAt (l : List (List ℕ)) (j : ℕ) : Option K := npAverage (l.map fun h => h.getD j 0)

/-- Division of numpy numbers (atooms/postprocessing/gr.py:177,359). -/
def npDiv (a b : Option K) : Option K :=
  match a, b with
  | some a, some b => if b = 0 then none else some (a / b)
  | _, _ => none

/-- Volume of the shell between two radii, atooms/postprocessing/gr.py:162-169,341-348. `gamma(n2+1)` is
the factorial of `n2`. -/
def shellVol (pi : K) (d : ℕ) (r0 r1 : K) : K :=
  if d = 2 then pi * (r1 ^ 2 - r0 ^ 2)
  else if d = 3 then 4 * pi / 3 * (r1 ^ 3 - r0 ^ 3)
  else pi ^ (d / 2) * (r1 ^ d - r0 ^ d) / ((d / 2).factorial : K)

/-- `system.cell.volume`, the product of the sides (atooms; used at
atooms/postprocessing/gr.py:161,337-338). -/
def cellVolume (side : Vec d K) : K := ∏ c, side c

/-- `rho * vol * N_0` with `rho = N_1 / volume`, halved if Newton's third law was used
(atooms/postprocessing/gr.py:170-174,350-355). The volume of the cell is not zero. -/
def grNorm (n0 n1 : Option K) (volume vol : K) (same : Bool) : Option K :=
  match n0, n1 with
  | some n0, some n1 => some (n1 / volume * vol * n0 * (if same then 1 / 2 else 1))
  | _, _ => none

/-- Final restriction of the distances, atooms/postprocessing/gr.py:178-185,364-371. -/
def grCrop (rmax : K) (side : Vec d K) (t : List (K × Option K)) : Py (List (K × Option K)) :=
  if rmax > 0 then .ok (t.filter fun p => p.1 ≤ rmax)
  else do
    let m ← pyMin (List.ofFn side)
    return t.filter fun p => p.1 ≤ m / 2

/-- `RadialDistributionFunctionLegacy._compute`, atooms/postprocessing/gr.py:125-185. `l0` and `l1` are the
lengths of the arrays in `_pos_0` and `_pos_1`, over which the numbers of particles are averaged. -/
def grLegacyArrays (sq : K → K) (pi : K) (o : GrObj d K) (l0 l1 : List ℕ) : Py (List (K × Option K)) := do
  let f0 ← pyGet o.frames 0
  let grid ← grSetupGrid sq o f0.side
  let r ← grEdges grid
  let _ ← histogram r []
  let n0 : Option K := npAverage l0
  let n1 : Option K := npAverage l1
  let origins ← pyRange 0 o.frames.length o.skip
  let (grAll, last) ← origins.foldlM (fun (st : List (List ℕ) × GrFrame d K) i => do
    let f ← pyGet o.frames i
    if f.pos0.isEmpty || f.pos1.isEmpty then return (st.1, f)
    else
      let gr ← if o.same then pairsNewtonHist (grKernel sq f.side) f.pos0 f.pos1 r
        else pairsHist (grKernel sq f.side) f.pos0 f.pos1 r
      return (st.1 ++ [gr], f)) ([], f0)
  let volume := cellVolume last.side
  let table := (List.range (r.length - 1)).map fun j =>
    let a := r.getD j 0
    let b := r.getD (j + 1) 0
    ((a + b) / 2, npDiv (npAverageAt grAll j) (grNorm n0 n1 volume (shellVol pi d a b) o.same))
  grCrop o.rmax last.side table

/-- `RadialDistributionFunctionLegacy._compute` in the first call of `compute`: the arrays `_pos_0` and
`_pos_1` have one entry per frame (atooms/postprocessing/gr.py:125-185,
atooms/postprocessing/correlation.py:454-491). -/
def grLegacy (sq : K → K) (pi : K) (o : GrObj d K) : Py (List (K × Option K)) :=
  grLegacyArrays sq pi o (o.frames.map fun f => f.pos0.length) (o.frames.map fun f => f.pos1.length)

/-- `on_surface_c`, for one particle: whether it is within `delta` of the surface of the cell
(atooms/postprocessing/realspace.f90:62-72). -/
def onSurface (L : Vec d K) (delta : K) (x : Vec d K) : Bool := decide (∃ c, |x c| > L c / 2 - delta)

/-- Whether linked cells are used, decided on the first frame, atooms/postprocessing/gr.py:236-245. -/
def useLinkedCells (o : GrObj d K) (f0 : GrFrame d K) : Py Bool :=
  if o.rmax > 0 then do
    let m ← pyMin (List.ofFn fun c => f0.side c / o.rmax)
    let nmax := o.rmax ^ d * ((f0.pos1.length : K) / cellVolume f0.side)
    return decide (pyInt m > 3 ∧ nmax * (f0.pos0.length : K) < 1000000)
  else .ok false

/-- Local variables of the main loop of `RadialDistributionFunctionFast._compute`
(atooms/postprocessing/gr.py:219-228,254-325). -/
structure GrFastState (d : ℕ) (K : Type) where
  cells : Option (LinkedCells d K)
  hist : List ℕ
  bins : List K
  n0 : List ℕ
  n1 : List ℕ
  grAll : List (List ℕ)
  /-- `distinct` and `remove_self_term` of the last frame that was not skipped -/
  flags : Option (Bool × Bool)
  system : GrFrame d K

/-- Neighbours precalculated with linked cells, atooms/postprocessing/gr.py:282-288. -/
def grFastCells (cells : Option (LinkedCells d K)) (f : GrFrame d K) (pos0 : List (Vec d K))
    (distinct : Bool) : Py (Option (LinkedCells d K) × List (List ℕ)) :=
  match cells with
  | none => .ok (none, [])
  | some lc => do
    let r ← lc.compute f.side pos0 (if distinct then some f.pos1 else none) true f.periodic true
    return (some r.1, r.2)

/-- Choice of the kernel, atooms/postprocessing/gr.py:312-322. -/
def grFastKernel (sq : K → K) (dr : K) (lc distinct : Bool) (nb : List (List ℕ)) (side : Vec d K)
    (pos0 pos1 : List (Vec d K)) (hist : List ℕ) (bins : List K) : Py (List ℕ × List K) :=
  if distinct then
    if lc then grNeighborsC sq pos0 pos1 nb side dr hist bins
    else grDistinctC sq pos0 pos1 side dr hist bins
  else
    if lc then grNeighborsC sq pos0 pos0 nb side dr hist bins
    else grSelfC sq pos0 side dr hist bins

/-- Body of the main loop, atooms/postprocessing/gr.py:254-325. `huge` is `sys.float_info.max`. -/
def grFastFrame (sq : K → K) (huge : K) (o : GrObj d K) (dr : K) (st : GrFastState d K)
    (f : GrFrame d K) : Py (GrFastState d K) :=
  if f.pos0.isEmpty || f.pos1.isEmpty then .ok st
  else
    let crop : Bool := decide ((∀ c, f.periodic c = false) ∧ o.rmax > 0)
    let pos0 := if crop then f.pos0.filter fun x => !onSurface f.side o.rmax x else f.pos0
    let distinct := crop || !o.same
    (grFastCells st.cells f pos0 distinct).bind fun r =>
    if ¬ ((∀ c, f.periodic c = false) ∨ ∀ c, f.periodic c = true) then .error .assertionError
    else
      let side : Vec d K := fun c => if f.periodic c then f.side c else huge
      (grFastKernel sq dr r.1.isSome distinct r.2 side pos0 f.pos1 st.hist st.bins).bind fun hb =>
        .ok { cells := r.1, hist := hb.1, bins := hb.2, n0 := st.n0 ++ [pos0.length],
               n1 := st.n1 ++ [if distinct then f.pos1.length else pos0.length],
               grAll := st.grAll ++ [hb.1], flags := some (distinct, crop), system := f }

/-- `RadialDistributionFunctionFast._compute` for systems with a cell,
atooms/postprocessing/gr.py:211-371. When all the frames are skipped `distinct` is not defined. -/
def grFast (sq : K → K) (pi huge : K) (o : GrObj d K) : Py (List (K × Option K)) := do
  let f0 ← pyGet o.frames 0
  let grid ← grSetupGrid sq o f0.side
  let g0 ← pyGet grid 0
  let g1 ← pyGet grid 1
  let dr := g1 - g0
  let useLc ← useLinkedCells o f0
  let origins ← pyRange 0 o.frames.length o.skip
  let st ← origins.foldlM (fun st i => do
      let f ← pyGet o.frames i
      grFastFrame sq huge o dr st f)
    { cells := if useLc then some (LinkedCells.new o.rmax) else none, hist := grid.map fun _ => 0,
      bins := grid, n0 := [], n1 := [], grAll := [], flags := none, system := f0 }
  let b0 ← pyGet st.bins 0
  let b1 ← pyGet st.bins 1
  let n0 : Option K := npAverage st.n0
  let n1 : Option K := npAverage st.n1
  let volume := cellVolume st.system.side
  match st.flags with
  | none => .error .nameError
  | some (distinct, removeSelf) =>
    let values := (List.range (st.bins.length - 1)).map fun j =>
      let a := st.bins.getD j 0 - (b1 - b0) / 2
      let b := st.bins.getD (j + 1) 0 - (b1 - b0) / 2
      npDiv (npAverageAt st.grAll j) (grNorm n0 n1 volume (shellVol pi d a b) (!distinct))
    let values ← if removeSelf then do
        let v1 ← pyGet values 1
        pure (values.set 0 v1)
      else .ok values
    grCrop o.rmax st.system.side (st.bins.dropLast.zip values)

end
end PP
