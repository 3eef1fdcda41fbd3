import Verif.Model.Commands
import Verif.Model.KObject

/-!
# Model of the commands fkt, fskt and sk

What these commands compute for the whole system of one input file, from the options of the command to the arrays that are
written. The cell is that of the first frame; the positions are those that the object reads. `fix_cm`, partial functions and
files are modelled elsewhere.
-/

namespace PP

/-- The options of the commands fkt and fskt that concern the wave-vectors
(atooms/postprocessing/api.py:188-191, 220-223). `lookupMb` is an option of fskt only. -/
structure KOptions where
  kmin : ℝ
  kmax : ℝ
  ksamples : ℕ
  kgrid : Option Str
  dk : ℝ
  nk : ℤ
  lookupMb : ℝ

/-- `k_grid` (atooms/postprocessing/api.py:206-209, 238-241). -/
noncomputable def KOptions.list (q : KOptions) : Py (List ℝ) :=
  match q.kgrid with
  | some s => do
      let l ← kgridOfStr s
      return l.map fun x : ℚ => (x : ℝ)
  | none => linearGrid q.kmin q.kmax (.int q.ksamples)

/-- The parameters of the object: `kmin`, `kmax` and `ksamples` are not passed and have their defaults
(atooms/postprocessing/api.py:212-214, 244-246, fkt.py:96-98, 271-272). -/
noncomputable def KOptions.params (q : KOptions) : KParams ℝ := ⟨q.nk, q.dk, 1, 10, 10⟩

/-- The value of `norigins != '1' and norigins != 1` (atooms/postprocessing/fkt.py:80). -/
def NOrigins.offsetBoth : NOrigins → Bool
  | .str s => decide (s ≠ ['1'])
  | .num q => decide (q ≠ 1)
  | .none => true

section
variable {d : ℕ}

/-- What both commands do before the calculation: the stride, the discrete time grid and the wave-vectors
(atooms/postprocessing/api.py:194-209, 226-241, fkt.py:54-80, fourierspace.py:183-187). `tsamples` of the objects has its default
60 (fkt.py:97, 271). -/
noncomputable def scatteringSetup (c : Command) (o : TimeOptions) (q : KOptions) (depth : ℕ)
    (pick : ℕ → List (KVec d) → ℕ → List (KVec d)) (tr : Traj ℝ) (side : Vec d ℝ) : Py (ℕ × List (ℕ × ℕ) × KState d ℝ) := do
  let f ← funcOf o.func
  let g ← apiTimeGrid c (f.grid o.tsamples) tr.timestep tr.totalTime o.tmax o.fraction
  let k ← q.list
  let skip ← adjustSkip tr.steps.length tr.blockSize tr.npart o.norigins
  let dg ← fktInit tr g 60 true o.norigins.offsetBoth
  let s ← kSetup Real.sqrt Real.pi depth pick q.params side (some k)
  return (skip.toNat, dg, s)

/-- The command fskt for the whole system: `grid[0]`, `grid[1]` and `value` (atooms/postprocessing/api.py:220-246). -/
noncomputable def fsktCommand (impl : Impl) (o : TimeOptions) (q : KOptions) (depth : ℕ)
    (pick : ℕ → List (KVec d) → ℕ → List (KVec d)) (tr : Traj ℝ) (side : Vec d ℝ) (x : List (List (Vec d ℝ))) :
    Py (List ℝ × List ℝ × List (List ℝ)) := do
  let (skip, dg, s) ← scatteringSetup .fskt o q depth pick tr side
  let ob : FsObj d := ⟨tr.steps, tr.timestep, skip, dg, x, s, q.lookupMb, true⟩
  let r ← match impl with
    | .legacy => fsLegacy ob
    | .fast => fsFast ob
  return (s.kgrid, r.1, r.2)

/-- The command fkt for the whole system: `grid[0]`, `grid[1]`, `value` and `value_nonorm`
(atooms/postprocessing/api.py:188-214). -/
noncomputable def fktCommand (o : TimeOptions) (q : KOptions) (depth : ℕ)
    (pick : ℕ → List (KVec d) → ℕ → List (KVec d)) (tr : Traj ℝ) (side : Vec d ℝ) (x : List (List (Vec d ℝ))) :
    Py (List ℝ × List ℝ × List (List ℝ) × List (List ℝ)) := do
  let (skip, dg, s) ← scatteringSetup .fkt o q depth pick tr side
  let r ← fkCompute ⟨tr.steps, tr.timestep, skip, dg, true, x, x, s, true⟩
  return (s.kgrid, r.1, r.2.1, r.2.2)

/-- The options of the command sk that concern the wave-vectors (atooms/postprocessing/api.py:93-94). -/
structure SkOptions where
  nk : ℤ
  dk : ℝ
  kmin : ℝ
  kmax : ℝ
  ksamples : ℕ
  kgrid : Option Str

/-- `kgrid` as passed to the object (atooms/postprocessing/api.py:105-106). -/
noncomputable def SkOptions.grid (q : SkOptions) : Py (Option (List ℝ)) :=
  match q.kgrid with
  | some s => do
      let l ← kgridOfStr s
      return some (l.map fun x : ℚ => (x : ℝ))
  | none => .ok none

/-- The parameters of the object: unlike for fkt and fskt, all of them are passed (atooms/postprocessing/api.py:108-110). -/
def SkOptions.params (q : SkOptions) : KParams ℝ := ⟨q.nk, q.dk, q.kmin, q.kmax, q.ksamples⟩

/-- The command sk for the whole system, without weights, with the python implementation: `grid` and `value`
(atooms/postprocessing/api.py:93-118). Each frame has its cell and its positions; `bs` and `npart` are the block size of the
trajectory and the numbers of particles of its frames, read for the number of time origins. `add_weight` with no trajectory and no
field does nothing (correlation.py:258-259). -/
noncomputable def skCommand (q : SkOptions) (norigins : NOrigins) (bs : ℕ) (depth : ℕ)
    (pick : ℕ → List (KVec d) → ℕ → List (KVec d)) (fr : List (Vec d ℝ × List (Vec d ℝ))) : Py (List ℝ × List ℝ) := do
  let grid ← q.grid
  let skip ← adjustSkip fr.length bs (fr.map fun f => f.2.length) norigins
  let r ← skComputeA ⟨depth, pick, q.params, true, false, skip.toNat⟩ (fr.map fun f => ⟨f.1, f.2, f.2, [], []⟩)
    (KAttrs.new d grid)
  return (r.1, r.2.1)

end

end PP
