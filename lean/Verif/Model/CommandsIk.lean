import Verif.Model.Ik

/-!
# Model of the command ik with a selection of frames
-/

namespace PP

/-- A frame of an input file of the command ik: positions, radii and volume of the cell, and the wave-vectors in force for it
(atooms/postprocessing/ik.py:38-39,54-58,69). -/
structure IkSystem (d : ℕ) where
  pos : List (Vec d ℝ)
  radius : List ℝ
  volume : ℝ
  ks : KState d ℝ

/-- The frames of the object created by the command ik without `trajectory_radius`: `sel` are the numbers of the frames selected with
`--first`, `--last` and `--skip`, in order, `Sliced(th, sl)` (atooms/postprocessing/api.py:31-39); the radii are those of all the frames
of `input_file`, which is read again from the beginning (atooms/postprocessing/api.py:138-144, ik.py:38-39,58). -/
def ikSelected {d : ℕ} (file : List (IkSystem d)) (sel : List ℕ) : Py (List (IkFrame d)) :=
  sel.zipIdx.mapM fun ji => do
    let f ← pyGet file ji.1
    return ⟨f.pos, file[ji.2]?.map fun g => g.radius, f.volume, f.ks⟩

/-- The command ik without `trajectory_radius`, for one file (atooms/postprocessing/api.py:131-144). `skip` is the stride between time
origins and `nk` the number of wave-numbers. -/
noncomputable def ikCommand {d : ℕ} (file : List (IkSystem d)) (sel : List ℕ) (skip nk : ℕ) : Py (List ℝ × List ℝ) := do
  let frames ← ikSelected file sel
  ikCompute frames skip nk

end PP
