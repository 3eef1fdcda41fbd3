import Mathlib.Data.Fintype.Prod
import Mathlib.Data.Fintype.Card
import Mathlib.Data.Fin.Basic
import Mathlib.Algebra.Order.Field.Basic
import Mathlib.Algebra.BigOperators.Group.List.Basic

/-!
# Specification of pair counts and of histogram bins
-/

namespace PP.Spec
open Classical

/-- Number of pairs of positions `i < j` in the list `x` with `P x[i] x[j]`. -/
noncomputable def selfPairs {V : Type*} (P : V → V → Prop) (x : List V) : ℕ :=
  (Finset.univ.filter fun q : Fin x.length × Fin x.length => q.1 < q.2 ∧ P x[q.1] x[q.2]).card

/-- Number of pairs `(i, j)`, `i` in the list `x` and `j` in the list `y`, with `P x[i] y[j]`. -/
noncomputable def crossPairs {V W : Type*} (P : V → W → Prop) (x : List V) (y : List W) : ℕ :=
  (Finset.univ.filter fun q : Fin x.length × Fin y.length => P x[q.1] y[q.2]).card

/-- `v` belongs to bin `j` of the histogram with the given edges: bins are half open, except that the last
one includes its upper edge. -/
def InBin {K : Type*} [LinearOrder K] (edges : List K) (j : ℕ) (v : K) : Prop :=
  ∃ a b, edges[j]? = some a ∧ edges[j + 1]? = some b ∧ a ≤ v ∧
    (v < b ∨ (j + 2 = edges.length ∧ v = b))

end PP.Spec

namespace PP.Spec

/-- Sum of `f a b` over the unordered pairs of different positions of a list. -/
def unorderedSum {S M : Type*} [AddMonoid M] (f : S → S → M) : List S → M
  | [] => 0
  | a :: l => (l.map (f a)).sum + unorderedSum f l

end PP.Spec
