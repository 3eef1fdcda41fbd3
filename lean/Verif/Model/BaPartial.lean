import Verif.Model.BondAngle

/-!
# The groups of particles of a partial bond-angle distribution
-/

namespace PP

/-- What the bond-angle distribution of the species `a` (centres) and `b` (neighbours) reads from a frame: `filter_species` is
applied to the two copies of the system before the positions and species are dumped
(atooms/postprocessing/partial.py:36-51, helpers.py:117-127, correlation.py:469-491). Species are given by their numbers; the
cell is the one of the trajectory (atooms/postprocessing/ba.py:94). -/
def BaFrame.select {d : ℕ} (f : BaFrame d) (a b : ℕ) : BaFrame d :=
  { side := f.side
    pos0 := ((f.pos0.zip f.ids0).filter fun p => p.2 = a).map Prod.fst
    ids0 := ((f.pos0.zip f.ids0).filter fun p => p.2 = a).map Prod.snd
    pos1 := ((f.pos1.zip f.ids1).filter fun p => p.2 = b).map Prod.fst
    ids1 := ((f.pos1.zip f.ids1).filter fun p => p.2 = b).map Prod.snd }

end PP
