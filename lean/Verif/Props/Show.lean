import Verif.Model.Show
import Verif.Props.Write

/-!
# C198: `show`
-/

namespace PP.Props
open PP

variable {K : Type}

/-- **C198, partial**: for a function of one variable that has been computed, the values are plotted against the grid with the
names of the function and of the variable on the axes, and the plot is shown if asked for. -/
theorem C198_one_variable_partial (now : Bool) (name var : Str) (g v : List K) (hg : g ≠ []) (hl : g.length = v.length)
    (hn : '(' ∉ name) (hv : '(' ∉ var ∧ ',' ∉ var) :
    showCalls true now (name ++ "(".toList ++ var ++ ")".toList) (.one g) (.one v) =
      .ok ([.plot g v, .ylabel (name ++ "(".toList ++ var ++ ")".toList), .xlabel var] ++ if now then [.show] else []) := by
  have hname : gridName (name ++ "(".toList ++ var ++ ")".toList) = .ok [var] := by
    have := (C114_columns name [var] hn (by simp) (by simpa using ⟨hv.2, hv.1⟩)).1
    rw [show List.intercalate [','] [var] = var by simp [List.intercalate]] at this
    exact this
  obtain ⟨a, g, rfl⟩ := List.exists_cons_of_ne_nil hg
  unfold showCalls
  simp only [Bool.not_true, Bool.false_eq_true, if_false, firstIterable, bind, Except.bind, Bool.not_false, if_true, pltPlot, hl,
    hname, pyGet, pure, Except.pure]
  cases now <;> rfl

/-- **C198** holds trivially without matplotlib: nothing is drawn and nothing is raised. -/
theorem C198_without_matplotlib (now : Bool) (s : Str) (grid : Grid K) (value : Value K) :
    showCalls false now s grid value = .ok [] := rfl

/-- **C198 is false** for functions of two variables: nothing is drawn, an empty window is shown. -/
theorem C198_counterexample_two_variables (now : Bool) (s : Str) (x y : List K) (value : Value K) :
    showCalls true now s (.two x y) value = .ok (if now then [.show] else []) := by
  cases now <;> rfl

/-- **C198 is false** before `compute`: the values are an empty list, and `ValueError` is raised (or `IndexError` if there is
no grid either). -/
theorem C198_counterexample_not_computed (now : Bool) (s : Str) (g : List K) :
    showCalls true now s (.one g) (.one []) = .error (if g = [] then .indexError else .valueError) := by
  cases g <;> rfl

/-- **C198 is false** for a function with one point read from its file: the grid is a number. -/
theorem C198_counterexample_one_point (now : Bool) (s : Str) (x : K) (value : Value K) :
    showCalls true now s (.scalar x) value = .error .indexError := rfl

/-- The radial distribution function at two points. -/
example : showCalls true true "g(r)".toList (.one [1, 2]) (.one [(0 : ℚ), 1]) =
    .ok [.plot [1, 2] [0, 1], .ylabel "g(r)".toList, .xlabel "r".toList, .show] := by decide +kernel

end PP.Props
