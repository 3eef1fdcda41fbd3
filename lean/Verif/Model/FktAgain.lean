import Verif.Model.Fkt
import Verif.Model.Ik
import Verif.Model.SkAgain

/-!
# Model of repeated calls of `compute` of the intermediate scattering functions and of the spectral density

The wave-vectors are kept from the first call (atooms/postprocessing/fourierspace.py:189-194) and the arrays of the positions are
extended by each call (atooms/postprocessing/correlation.py:346-366,454-483). Only calls that follow the first one are modelled;
the state left by a call that fails is the same.
-/

namespace PP

variable {d : ℕ}

/-- What `_compute` of the self functions reads after `k` previous calls of `compute`: `_pos` has `k + 1` entries per frame
(atooms/postprocessing/correlation.py:346-366, fkt.py:110,187). -/
def FsObj.again (o : FsObj d) (k : ℕ) : FsObj d := { o with pos := (List.replicate (k + 1) o.pos).flatten }

/-- What `_compute` of the coherent function reads after `k` previous calls of `compute`: `_pos_0` and `_pos_1` have `k + 1`
entries per frame (atooms/postprocessing/correlation.py:454-483, fkt.py:288-295). -/
def FkObj.again (o : FkObj d) (k : ℕ) : FkObj d :=
  { o with pos0 := (List.replicate (k + 1) o.pos0).flatten, pos1 := (List.replicate (k + 1) o.pos1).flatten }

/-- What the spectral density keeps between the calls: positions, radii, read by the constructor, volumes of the frames of the
trajectory, stride and number of grid points (atooms/postprocessing/ik.py:31-39,41-48,68). -/
structure IkStore (d : ℕ) where
  pos : List (List (Vec d ℝ))
  radii : List (List ℝ)
  volumes : List ℝ
  skip : ℕ
  nk : ℕ

/-- `_setup_arrays`: the positions of the trajectory are appended (atooms/postprocessing/correlation.py:346-366). -/
def IkStore.setup (o : IkStore d) (pos : List (List (Vec d ℝ))) : IkStore d := { o with pos := o.pos ++ pos }

/-- `SpectralDensity._compute` on the arrays of the object, atooms/postprocessing/ik.py:41-74. The wave-vectors are those of
the object or, if the cell changes, those of frame `i` of the trajectory. -/
noncomputable def IkStore.run (o : IkStore d) (variable_cell : Bool) (ks0 : KState d ℝ) (cells : List (KState d ℝ)) :
    Py (List ℝ × List ℝ) := do
  let is ← pyRange 0 o.pos.length o.skip
  let acc ← is.foldlM (fun acc i => do
    let ks ← skKState variable_cell ks0 cells i
    let p ← pyGet o.pos i
    ikFrame acc ⟨p, o.radii[i]?, 0, ks⟩) (List.replicate o.nk ⟨0, 0, 0, 0⟩)
  let volume := o.volumes.sum / (o.volumes.length : ℝ)
  let v ← acc.mapM (skNonorm false)
  return (v.map fun x => x / volume, v)

end PP
