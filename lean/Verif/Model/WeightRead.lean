import Verif.Model.Py
import Verif.Model.Text

/-!
# Model of the weights read through the callbacks of a trajectory

`add_weight` with a weight trajectory adds the callback `copy_field` to the trajectory of the correlation function; the
weights are then read from that trajectory. Particles are dictionaries of their properties. Frames are read again each
time (no cache), callbacks are applied in order as in atooms. Filters are left out: they select particles after the
callbacks.
-/

namespace PP

/-- The properties of a particle (`getattr`, `setattr` at atooms/postprocessing/helpers.py:140-141). -/
abbrev PropDict (V : Type) := List (Str × V)

variable {V : Type}

/-- `getattr(p, field)`, also through `s.dump('particle.' + field)` (atooms/postprocessing/helpers.py:140,
correlation.py:415). -/
def getField (field : Str) (p : PropDict V) : Py V :=
  match dictGet p field with
  | .ok x => .ok x
  | .error _ => .error .attributeError

/-- A trajectory: its frames and the callbacks `copy_field` added to it, with the frames of the weight trajectories
(atooms/postprocessing/correlation.py:276-278). -/
structure FieldTraj (V : Type) where
  frames : List (List (PropDict V))
  callbacks : List (Str × List (List (PropDict V)))

/-- `copy_field`, atooms/postprocessing/helpers.py:130-142: `zip` stops at the shorter list. -/
def copyFieldAt (field : Str) (source : List (List (PropDict V))) (frame : ℕ) (ps : List (PropDict V)) :
    Py (List (PropDict V)) := do
  let so ← pyGet source frame
  let new ← (ps.zip so).mapM fun e => do
    let x ← getField field e.2
    return dictSet e.1 field x
  return new ++ ps.drop so.length

/-- `trajectory[i]`, with its callbacks (added at atooms/postprocessing/correlation.py:278). -/
def FieldTraj.read (t : FieldTraj V) (i : ℕ) : Py (List (PropDict V)) := do
  let ps ← pyGet t.frames i
  t.callbacks.foldlM (fun ps c => copyFieldAt c.1 c.2 i ps) ps

/-- What `add_weight` does to the trajectory, when a weight trajectory with the same steps is given
(atooms/postprocessing/correlation.py:274-278). -/
def FieldTraj.addWeight (t : FieldTraj V) (field : Str) (source : List (List (PropDict V))) : FieldTraj V :=
  { t with callbacks := t.callbacks ++ [(field, source)] }

/-- The weights of frame `i` (atooms/postprocessing/correlation.py:407-416, 434-442). -/
def FieldTraj.weights (t : FieldTraj V) (field : Str) (i : ℕ) : Py (List V) := do
  let ps ← t.read i
  ps.mapM (getField field)

end PP
