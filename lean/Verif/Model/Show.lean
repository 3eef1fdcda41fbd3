import Verif.Model.Output
import Verif.Model.Write

/-!
# `Correlation.show`, atooms/postprocessing/correlation.py:666-677
-/

namespace PP

/-- The calls of `matplotlib.pyplot`, atooms/postprocessing/correlation.py:673-677. -/
inductive PlotCall (K : Type)
  | plot (x y : List K)
  | ylabel (s : Str)
  | xlabel (s : Str)
  | show
deriving DecidableEq

/-- `_is_iterable(self.grid[0])`, atooms/postprocessing/correlation.py:112-118, 672: the first item of a grid of one variable
is a number, that of a grid of two variables is a list. -/
def firstIterable {K : Type} : Grid K → Py Bool
  | .one [] => .error .indexError
  | .one (_ :: _) => .ok false
  | .two _ _ => .ok true
  | .scalar _ => .error .indexError

/-- `plt.plot(self.grid, self.value)`, atooms/postprocessing/correlation.py:673: both must have the same length. Only lists of
numbers are modelled. -/
def pltPlot {K : Type} : Grid K → Value K → Py (PlotCall K)
  | .one g, .one v => if g.length = v.length then .ok (.plot g v) else .error .valueError
  | _, _ => .error .valueError

/-- `show(now)`, atooms/postprocessing/correlation.py:666-677: the calls of matplotlib, if it is there. -/
def showCalls {K : Type} (haveMpl : Bool) (now : Bool) (shortName : Str) (grid : Grid K) (value : Value K) :
    Py (List (PlotCall K)) :=
  if !haveMpl then .ok []
  else do
    let it ← firstIterable grid
    let calls ← if !it then do
        let p ← pltPlot grid value
        let names ← gridName shortName
        let x ← pyGet names 0
        pure [p, .ylabel shortName, .xlabel x]
      else pure []
    return if now then calls ++ [.show] else calls

end PP
