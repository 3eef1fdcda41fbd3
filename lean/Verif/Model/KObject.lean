import Verif.Model.Fkt

/-!
# Model of the attributes of `FourierSpaceCorrelation` from construction to the end of `compute()`

`_setup` and its result are in `Model/Fourier`, the calculations with given wave-vectors in `Model/Sk` and
`Model/Fkt`. Here the attributes may also be changed by the user between construction and calculation, and `_setup` is
called again for each frame if the cell changes. Weights and random numbers are as in those modules.
-/

namespace PP

variable {d : ℕ}

section Attributes
variable {K : Type} [Field K] [LinearOrder K] [FloorRing K]

/-- The k grid given by the user and the attributes `kgrid`, `k0`, `_kvectors`, `_koffset`; `aliased` tells whether
`kgrid` is the list given by the user and not another list (atooms/postprocessing/fourierspace.py:166-181,
200-203). -/
structure KAttrs (d : ℕ) (K : Type) where
  grid : Option (List K)
  kgrid : Option (List K)
  aliased : Bool
  k0 : List K
  kvectors : List (List (KVec d))
  koffset : ℤ

/-- After construction, atooms/postprocessing/fourierspace.py:166-181. -/
def KAttrs.new (d : ℕ) (grid : Option (List K)) : KAttrs d K := ⟨grid, none, false, [], [], 0⟩

/-- `corr.kgrid = g`, a plain attribute (atooms/postprocessing/fourierspace.py:132-133,178). -/
def KAttrs.setKgrid (a : KAttrs d K) (g : List K) : KAttrs d K := { a with kgrid := some g, aliased := false }

/-- `corr.kvectors = kv`, the setter (atooms/postprocessing/fourierspace.py:309-336). -/
def KAttrs.setKvectors (sq : K → K) (pi : K) (side : Vec d K) (kv : List (List (Vec d K))) (a : KAttrs d K) :
    KAttrs d K :=
  let s := kvectorsSet sq pi side kv
  { grid := a.grid, kgrid := some s.kgrid, aliased := false, k0 := List.ofFn s.k0, kvectors := s.kvectors,
    koffset := s.koffset }

/-- `_setup(sample)`, atooms/postprocessing/fourierspace.py:189-240. A grid given by the user is modified in place. -/
def KAttrs.setup (sq : K → K) (pi : K) (depth : ℕ) (pick : ℕ → List (KVec d) → ℕ → List (KVec d)) (p : KParams K)
    (sample : ℕ) (side : Vec d K) (a : KAttrs d K) : Py (KAttrs d K) :=
  if sample = 0 ∧ a.kgrid.isSome = true then .ok a
  else do
    let s ← kSetup sq pi depth pick p side a.grid
    return { grid := a.grid.map fun _ => s.kgrid, kgrid := some s.kgrid, aliased := a.grid.isSome,
             k0 := List.ofFn s.k0, kvectors := s.kvectors, koffset := s.koffset }

/-- `corr.kvectors`, the getter (atooms/postprocessing/fourierspace.py:298-307). -/
def KAttrs.getKvectors (a : KAttrs d K) : List (List (Vec d K)) :=
  a.kvectors.map fun l => l.map fun v c => a.k0.getD (c : ℕ) 0 * ((v c - a.koffset : ℤ) : K)

/-- The attributes read when the exponentials are tabulated: `k0[j]` for each dimension
(atooms/postprocessing/fourierspace.py:40-41). -/
def KAttrs.read (a : KAttrs d K) : Py (KState d K) := do
  let _ ← (List.finRange d).mapM fun j : Fin d => pyGet a.k0 (j : ℕ)
  return { k0 := fun c => a.k0.getD (c : ℕ) 0, kgrid := a.kgrid.getD [], kvectors := a.kvectors, koffset := a.koffset }

/-- `numpy.std` (atooms/postprocessing/fourierspace.py:354). -/
def npStd (sq : K → K) (l : List K) : K := sq (npMean (l.map fun x => (x - npMean l) ^ 2))

/-- `self.kgrid[i]` (atooms/postprocessing/fourierspace.py:353,365). -/
def KAttrs.kAt (a : KAttrs d K) (i : ℕ) : Py K :=
  match a.kgrid with
  | none => .error .typeError
  | some g => pyGet g i

/-- `report()`, the rows of the first table: k, mean and standard deviation of the norms, number of vectors
(atooms/postprocessing/fourierspace.py:346-355). The numbers are not formatted. -/
def KAttrs.report (sq : K → K) (a : KAttrs d K) : Py (List (K × K × K × ℕ)) :=
  a.getKvectors.zipIdx.mapM fun e => do
    let norms := e.1.map fun v => sq (∑ c, v c * v c)
    let k ← a.kAt e.2
    return (k, npMean norms, npStd sq norms, e.1.length)

/-- `report(verbose=True)`, the rows of the second table: k and wave-vector
(atooms/postprocessing/fourierspace.py:356-365). -/
def KAttrs.reportVectors (a : KAttrs d K) : Py (List (K × Vec d K)) := do
  let r ← a.getKvectors.zipIdx.mapM fun e => e.1.mapM fun v => do
    let k ← a.kAt e.2
    return (k, v)
  return r.flatten

end Attributes

/-- One frame with its cell: sides, positions of the two groups, weights (atooms/postprocessing/sk.py:70-91). -/
structure CellFrame (d : ℕ) where
  side : Vec d ℝ
  pos0 : List (Vec d ℝ)
  pos1 : List (Vec d ℝ)
  w0 : List ℝ
  w1 : List ℝ

/-- The choices that do not change: selection of the wave-vectors, depth of the recursion, parameters, and the
attributes of `SkObj` (atooms/postprocessing/fourierspace.py:121-181, sk.py:60-91). -/
structure SkChoices (d : ℕ) where
  depth : ℕ
  pick : ℕ → List (KVec d) → ℕ → List (KVec d)
  params : KParams ℝ
  same : Bool
  weighted : Bool
  skip : ℕ

/-- One iteration of the loop over frames, atooms/postprocessing/sk.py:71-146. -/
noncomputable def skStep (o : SkChoices d) (fr : List (CellFrame d)) (variable_cell : Bool)
    (st : List SkAcc × KAttrs d ℝ) (i : ℕ) : Py (List SkAcc × KAttrs d ℝ) := do
  let f ← pyGet fr i
  let a ← if variable_cell then st.2.setup Real.sqrt Real.pi o.depth o.pick o.params i f.side else .ok st.2
  let ks ← a.read
  let acc ← skFrame ⟨o.same, o.weighted, o.skip, st.1.length, []⟩ st.1 ⟨f.pos0, f.pos1, f.w0, f.w1, ks⟩
  return (acc, a)

open Classical in
/-- `StructureFactorLegacy.compute()`: the grid, the values and the attributes at the end
(atooms/postprocessing/fourierspace.py:183-187, sk.py:60-163). The grid is the list that `kgrid` was before the loop: if
it is the one given by the user, it has been modified by the loop. -/
noncomputable def skComputeA (o : SkChoices d) (fr : List (CellFrame d)) (a : KAttrs d ℝ) :
    Py (List ℝ × List ℝ × KAttrs d ℝ) := do
  let f0 ← pyGet fr 0
  let a ← a.setup Real.sqrt Real.pi o.depth o.pick o.params 0 f0.side
  let kgrid := a.kgrid.getD []
  let variable_cell ← isCellVariable (fr.map CellFrame.side) 1
  let is ← pyRange 0 fr.length o.skip
  let st ← is.foldlM (skStep o fr variable_cell) (List.replicate kgrid.length ⟨0, 0, 0, 0⟩, a)
  let n0 ← meanNumber (fr.map fun f => f.pos0.length)
  let n1 ← meanNumber (fr.map fun f => if o.same then f.pos0.length else f.pos1.length)
  let v ← st.1.mapM (skNonorm o.weighted)
  return (if a.aliased then st.2.kgrid.getD [] else kgrid, v.map fun x => x / √(n0 * n1), st.2)

/-- `SelfIntermediateScatteringLegacy.compute()`: `grid[1]` and `value` (atooms/postprocessing/fourierspace.py:183-187,
fkt.py:108-163). The wave-vectors are set up once. The exponentials are tabulated only if there are particles. -/
noncomputable def fsComputeA (o : FsObj d) (depth : ℕ) (pick : ℕ → List (KVec d) → ℕ → List (KVec d)) (p : KParams ℝ)
    (side : Vec d ℝ) (a : KAttrs d ℝ) : Py (List ℝ × List (List ℝ)) := do
  let a ← a.setup Real.sqrt Real.pi depth pick p 0 side
  let N ← fsNumber o.pos
  let ks ← if N = 0 then .ok o.ks else a.read
  fsLegacy { o with ks := { ks with kgrid := a.kgrid.getD [], kvectors := a.kvectors, koffset := a.koffset } }

/-- `IntermediateScattering.compute()`: `grid[1]`, `value` and `value_nonorm`
(atooms/postprocessing/fourierspace.py:183-187, fkt.py:278-366). -/
noncomputable def fkComputeA (o : FkObj d) (depth : ℕ) (pick : ℕ → List (KVec d) → ℕ → List (KVec d)) (p : KParams ℝ)
    (side : Vec d ℝ) (a : KAttrs d ℝ) : Py (List ℝ × List (List ℝ) × List (List ℝ)) := do
  let a ← a.setup Real.sqrt Real.pi depth pick p 0 side
  let ks ← if o.pos0 = [] then .ok o.ks else a.read
  fkCompute { o with ks := { ks with kgrid := a.kgrid.getD [], kvectors := a.kvectors, koffset := a.koffset } }

/-! ### Several input files -/

section Files
variable {K : Type} [Field K] [LinearOrder K] [FloorRing K]

/-- The wave-vectors of the objects computed by the command `sk` for each input file
(atooms/postprocessing/api.py:105-130): the list `kgrid` is made once, before the loop over the files. Each file is given
by the sides of its cell, which does not change, and by the number of objects computed: the total and the partial
correlations. -/
def skFiles (sq : K → K) (pi : K) (depth : ℕ) (pick : ℕ → List (KVec d) → ℕ → List (KVec d)) (p : KParams K) :
    List (Vec d K × ℕ) → Option (List K) → Py (List (List (KState d K)))
  | [], _ => .ok []
  | f :: files, grid => do
    let s ← kSetupMany sq pi depth pick p f.1 f.2 grid
    let last := s.getLast?
    let r ← skFiles sq pi depth pick p files (grid.map fun g => (last.map KState.kgrid).getD g)
    return s :: r

/-- The same for the commands `fkt` and `fskt` (atooms/postprocessing/api.py:198-218,231-251): the list `k_grid` is made
for each file. Without `kgrid`, it is a linear grid. -/
def fktFiles (sq : K → K) (pi : K) (depth : ℕ) (pick : ℕ → List (KVec d) → ℕ → List (KVec d)) (p : KParams K)
    (files : List (Vec d K × ℕ)) (grid : Option (List K)) : Py (List (List (KState d K))) :=
  files.mapM fun f => do
    let g ← match grid with
      | some g => .ok g
      | none => linearGrid p.kmin p.kmax (.int p.ksamples)
    kSetupMany sq pi depth pick p f.1 f.2 (some g)

end Files

end PP
