import Verif.Model.GrFull

/-!
# Model of repeated calls of `compute` on the same radial distribution function

`compute` leaves the distances of the table in `self.grid` and extends the arrays `_pos_0` and `_pos_1`.
Only calls that follow successful ones are modelled.
-/

namespace PP

section
variable {K : Type} [Field K] [LinearOrder K] [FloorRing K] {d : ℕ}

/-- Attributes of the object on entering `_compute` again: the grid is that of the table
(atooms/postprocessing/gr.py:104,184-185,370-371). -/
def GrObj.again (o : GrObj d K) (t : List (K × Option K)) : GrObj d K :=
  { o with rgrid := some (t.map Prod.fst) }

/-- Call number `k`, from 0, of `compute` of the fast class (atooms/postprocessing/gr.py:211-371). The frames
are read again from the trajectory and the first entries of the arrays are those of the first call. -/
def grFastCall (sq : K → K) (pi huge : K) (o : GrObj d K) : ℕ → Py (List (K × Option K))
  | 0 => grFast sq pi huge o
  | k + 1 => do
    let t ← grFastCall sq pi huge o k
    grFast sq pi huge (o.again t)

/-- Call number `k`, from 0, of `compute` of the legacy class (atooms/postprocessing/gr.py:125-185). The arrays
have `k + 1` entries per frame (atooms/postprocessing/correlation.py:454-491). -/
def grLegacyCall (sq : K → K) (pi : K) (o : GrObj d K) : ℕ → Py (List (K × Option K))
  | 0 => grLegacy sq pi o
  | k + 1 => do
    let t ← grLegacyCall sq pi o k
    grLegacyArrays sq pi (o.again t)
      ((List.replicate (k + 2) (o.frames.map fun f => f.pos0.length)).flatten)
      ((List.replicate (k + 2) (o.frames.map fun f => f.pos1.length)).flatten)

end
end PP
