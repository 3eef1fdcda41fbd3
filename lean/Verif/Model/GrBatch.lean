import Verif.Model.Gr

/-!
# The batches of distances of `pairs_newton_hist`, gr.py
-/

namespace PP

/-- The lists `fxy` that `pairs_newton_hist` passes to `numpy.histogram`, one per batch,
atooms/postprocessing/gr.py:44-51. -/
def newtonBatches {K V : Type} (f : List V → V → List K) (x y : List V) : Py (List (List K)) := do
  let bl ← batchSize y.length
  let r ← pyRange 0 (y.length - 1) bl
  r.mapM fun ib => do
    let parts ← (rangeList ib (min (ib + bl) (y.length - 1)) 1).mapM fun i => do
      let yi ← pyGet y i
      return f (x.drop (i + 1)) yi
    return parts.flatten

end PP
