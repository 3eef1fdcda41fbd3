import Verif.Model.Object

/-!
# Model of the arrays of positions, velocities and species dumped before a calculation

`Correlation._setup_arrays`, `_setup_arrays_onebody`, `_setup_arrays_twobody` (correlation.py), with the choice
between the positions in the file, those folded back in the cell and the unfolded ones.

Simplifications: frames are read afresh at each pass over the trajectory, so that changes made to their particles in
place do not persist; `Unfolded` and `fold` of the atooms package are parameters; the callback added to the unfolded
trajectory is not seen by the original one; a zero total mass, for which the code gives nan, is not represented; when
an exception is raised the arrays filled until then are not returned.
-/

namespace PP

/-- The entries of `phasespace`, atooms/postprocessing/correlation.py:183, ba.py:57. -/
inductive PhaseVar
  | pos
  | posUnf
  | vel
  | ids
  deriving DecidableEq

/-- The attributes of a particle that are dumped; `position_unfolded` need not exist
(atooms/postprocessing/correlation.py:341, 360-365, 370, 382, 392). -/
structure APart (d : ℕ) (S K : Type) where
  pos : Vec d K
  unf : Option (Vec d K)
  vel : Vec d K
  species : S
  mass : K

section
variable {d : ℕ} {S K Y : Type}

/-- A frame of the trajectory (atooms/postprocessing/correlation.py:355). -/
abbrev ASys (d : ℕ) (S K Y : Type) := System (APart d S K) Y

/-- `Unfolded(trajectory, fixed_cm)`, as the frames that it returns, and `fold`, both of atooms
(atooms/postprocessing/correlation.py:12, 345-348). -/
structure Decorators (d : ℕ) (S K Y : Type) where
  unfolded : Bool → List (ASys d S K Y) → List (ASys d S K Y)
  fold : ASys d S K Y → ASys d S K Y

/-- The attributes of a correlation object used and set by `_setup_arrays`
(atooms/postprocessing/correlation.py:196-232). -/
structure ArrObj (d : ℕ) (S K Y : Type) where
  nbodies : ℕ
  phasespace : List PhaseVar
  fixCm : Bool
  cbk : List (ASys d S K Y → ASys d S K Y)
  unfolded : Option (List (ASys d S K Y)) := none
  pos : List (List (Vec d K)) := []
  vel : List (List (Vec d K)) := []
  ids : List (List ℕ) := []
  posUnf : List (List (Vec d K)) := []
  pos0 : List (List (Vec d K)) := []
  pos1 : List (List (Vec d K)) := []
  vel0 : List (List (Vec d K)) := []
  vel1 : List (List (Vec d K)) := []
  ids0 : List (List ℕ) := []
  ids1 : List (List ℕ) := []
  posUnf0 : List (List (Vec d K)) := []
  posUnf1 : List (List (Vec d K)) := []

/-- `hasattr(th[0].particle[0], 'position_unfolded')`, atooms/postprocessing/correlation.py:341, 370. -/
def hasUnfolded (th : List (ASys d S K Y)) : Py Bool := do
  let s ← pyGet th 0
  let p ← pyGet s.particle 0
  return p.unf.isSome

/-- `s.dump('pos')`, atooms/postprocessing/correlation.py:360. -/
def dumpPos (s : ASys d S K Y) : List (Vec d K) := s.particle.map APart.pos

/-- `s.dump('vel')`, atooms/postprocessing/correlation.py:362. -/
def dumpVel (s : ASys d S K Y) : List (Vec d K) := s.particle.map APart.vel

/-- `p.position_unfolded`, atooms/postprocessing/correlation.py:382, 392. -/
def APart.getUnf (p : APart d S K) : Py (Vec d K) :=
  match p.unf with
  | some x => .ok x
  | none => .error .attributeError

/-- `s.dump('particle.position_unfolded')`, atooms/postprocessing/correlation.py:392. -/
def dumpUnf (s : ASys d S K Y) : Py (List (Vec d K)) := s.particle.mapM APart.getUnf

/-- `ids.index(_)`, atooms/postprocessing/correlation.py:365; `list.index` raises `ValueError`. -/
def speciesIndex [DecidableEq S] (names : List S) (a : S) : Py ℕ :=
  match names.idxOf? a with
  | some i => .ok i
  | none => .error .valueError

/-- The species of the particles as integers: indices in the list of the species of the first frame
(atooms/postprocessing/correlation.py:364-365). -/
def dumpIds [DecidableEq S] (names : List S) (s : ASys d S K Y) : Py (List ℕ) :=
  s.particle.mapM fun p => speciesIndex names p.species

/-- The arrays of species of several systems if they are requested (atooms/postprocessing/correlation.py:363-366,
477-483). -/
def dumpAllIds [DecidableEq S] (phasespace : List PhaseVar) (names : List S) (l : List (ASys d S K Y)) :
    Py (List (List ℕ)) :=
  if .ids ∈ phasespace then l.mapM (dumpIds names) else .ok []

/-- The first filter, if there is one (atooms/postprocessing/correlation.py:357-358, 390-391, 396-397). -/
def firstFilter (cbk : List (ASys d S K Y → ASys d S K Y)) (s : ASys d S K Y) : ASys d S K Y :=
  match cbk with
  | [] => s
  | c :: _ => c s

/-- The first condition of lines 341-342 (atooms/postprocessing/correlation.py): unfolded positions are requested and
not available. -/
def unfoldedMissing (o : ArrObj d S K Y) (traj : List (ASys d S K Y)) : Py Bool :=
  if .posUnf ∈ o.phasespace then (hasUnfolded traj).map (fun b => !b) else .ok false

/-- The trajectory read by `_setup_arrays_onebody` and the cached one, atooms/postprocessing/correlation.py:336-350. -/
def chooseTraj (dec : Decorators d S K Y) (o : ArrObj d S K Y) (traj : List (ASys d S K Y)) :
    Py (List (ASys d S K Y) × Option (List (ASys d S K Y))) := do
  let missing ← unfoldedMissing o traj
  if missing = true ∨ (.pos ∈ o.phasespace ∧ o.fixCm = true) then
    match o.unfolded with
    | some u => return (u, some u)
    | none =>
      let u := dec.unfolded o.fixCm traj
      let u := if .pos ∈ o.phasespace then u.map dec.fold else u
      return (u, some u)
  else return (traj, o.unfolded)

/-- The first loop of `_setup_arrays_onebody`, atooms/postprocessing/correlation.py:353-366. `distinct` is
`distinct_species` of atooms. -/
def readFolded [DecidableEq S] (distinct : List S → List S) (th : List (ASys d S K Y)) (o : ArrObj d S K Y) :
    Py (ArrObj d S K Y) :=
  if .pos ∈ o.phasespace ∨ .vel ∈ o.phasespace ∨ .ids ∈ o.phasespace then do
    let first ← pyGet th 0
    let names := distinct (first.particle.map APart.species)
    let sel := th.map (firstFilter o.cbk)
    let ids ← dumpAllIds o.phasespace names sel
    return { o with
      pos := o.pos ++ (if .pos ∈ o.phasespace then sel.map dumpPos else [])
      vel := o.vel ++ (if .vel ∈ o.phasespace then sel.map dumpVel else [])
      ids := o.ids ++ ids }
  else .ok o

variable [Field K]

/-- Subtraction of the centre of mass of the unfolded positions, atooms/postprocessing/correlation.py:377-387. -/
def subtractCm (s : ASys d S K Y) : Py (ASys d S K Y) := do
  let _ ← pyGet s.particle 0
  let xs ← dumpUnf s
  let mtot := (s.particle.map APart.mass).sum
  let cm : Vec d K := fun c => ((s.particle.zip xs).map fun e => e.2 c * e.1.mass).sum / mtot
  return { s with particle := s.particle.map fun p => { p with unf := p.unf.map fun x c => x c - cm c } }

/-- One frame of the unfolded positions found in the trajectory, atooms/postprocessing/correlation.py:372-392. -/
def readUnfFrame (o : ArrObj d S K Y) (s : ASys d S K Y) : Py (List (Vec d K)) := do
  let s ← if o.fixCm then subtractCm s else .ok s
  dumpUnf (firstFilter o.cbk s)

/-- The second part of `_setup_arrays_onebody`, atooms/postprocessing/correlation.py:368-398. -/
def readUnfolded (th : List (ASys d S K Y)) (o : ArrObj d S K Y) : Py (ArrObj d S K Y) :=
  if .posUnf ∈ o.phasespace then do
    if (← hasUnfolded th) then
      let x ← th.mapM (readUnfFrame o)
      return { o with posUnf := o.posUnf ++ x }
    else return { o with posUnf := o.posUnf ++ th.map fun s => dumpPos (firstFilter o.cbk s) }
  else .ok o

/-- `_setup_arrays_onebody`, atooms/postprocessing/correlation.py:328-398. -/
def setupOnebody [DecidableEq S] (distinct : List S → List S) (dec : Decorators d S K Y)
    (traj : List (ASys d S K Y)) (o : ArrObj d S K Y) : Py (ArrObj d S K Y) := do
  let (th, cache) ← chooseTraj dec o traj
  let o ← readFolded distinct th { o with unfolded := cache }
  readUnfolded th o

/-- The arrays of two groups, atooms/postprocessing/correlation.py:466-491; `c0`, `c1` are the first two filters. -/
def readTwo [DecidableEq S] (distinct : List S → List S) (dec : Decorators d S K Y)
    (c0 c1 : ASys d S K Y → ASys d S K Y) (traj : List (ASys d S K Y)) (o : ArrObj d S K Y) : Py (ArrObj d S K Y) := do
  let o ← if .pos ∈ o.phasespace ∨ .vel ∈ o.phasespace ∨ .ids ∈ o.phasespace then do
      let first ← pyGet traj 0
      let names := distinct (first.particle.map APart.species)
      let ids0 ← dumpAllIds o.phasespace names (traj.map c0)
      let ids1 ← dumpAllIds o.phasespace names (traj.map c1)
      .ok { o with
        pos0 := o.pos0 ++ (if .pos ∈ o.phasespace then traj.map fun s => dumpPos (c0 s) else [])
        pos1 := o.pos1 ++ (if .pos ∈ o.phasespace then traj.map fun s => dumpPos (c1 s) else [])
        vel0 := o.vel0 ++ (if .vel ∈ o.phasespace then traj.map fun s => dumpVel (c0 s) else [])
        vel1 := o.vel1 ++ (if .vel ∈ o.phasespace then traj.map fun s => dumpVel (c1 s) else [])
        ids0 := o.ids0 ++ ids0
        ids1 := o.ids1 ++ ids1 }
    else .ok o
  if .posUnf ∈ o.phasespace then
    let u := dec.unfolded false traj
    return { o with
      posUnf0 := o.posUnf0 ++ u.map fun s => dumpPos (c0 s)
      posUnf1 := o.posUnf1 ++ u.map fun s => dumpPos (c1 s) }
  else return o

/-- `_setup_arrays_twobody`, atooms/postprocessing/correlation.py:454-491. With at most one filter the arrays of both
groups are those of the one-body functions, except for the unfolded positions. -/
def setupTwobody [DecidableEq S] (distinct : List S → List S) (dec : Decorators d S K Y)
    (traj : List (ASys d S K Y)) (o : ArrObj d S K Y) : Py (ArrObj d S K Y) :=
  match o.cbk with
  | c0 :: c1 :: _ => readTwo distinct dec c0 c1 traj o
  | _ => do
    let o ← setupOnebody distinct dec traj o
    return { o with
      pos0 := o.pos, pos1 := o.pos, vel0 := o.vel, vel1 := o.vel, ids0 := o.ids, ids1 := o.ids }

/-- `_setup_arrays` without the weights, atooms/postprocessing/correlation.py:308-326. `phasespace` is a list already. -/
def setupArrays [DecidableEq S] (distinct : List S → List S) (dec : Decorators d S K Y)
    (traj : List (ASys d S K Y)) (o : ArrObj d S K Y) : Py (ArrObj d S K Y) :=
  if o.nbodies = 1 then setupOnebody distinct dec traj o
  else if o.nbodies = 2 then setupTwobody distinct dec traj o
  else .ok o

end

end PP
