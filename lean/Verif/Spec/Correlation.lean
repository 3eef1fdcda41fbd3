import Mathlib.Data.List.Basic
import Mathlib.Algebra.Group.Defs

/-!
# Specification of sampled time averages

Independent of the loops of the model: the sampled pairs are described by filtering all frame
indices with an arithmetic condition.
-/

namespace PP.Spec

/-- Pairs `(i0, i)`: origin frame and separation. For each requested `(off, i)`, in order, all
origins `i0` below `n` which are `off` plus a multiple of `skip` and such that the later frame
`i0 + i` exists. -/
def sampled (n skip : ℕ) (grid : List (ℕ × ℕ)) : List (ℕ × ℕ) :=
  grid.flatMap fun g =>
    ((List.range n).filter fun i0 =>
      decide (g.1 ≤ i0 ∧ (i0 - g.1) % skip = 0 ∧ i0 + g.2 < n)).map fun i0 => (i0, g.2)

/-- The term of a pair: its time difference, the later sample and the earlier sample. -/
def term {T X : Type*} [Sub T] (t : List T) (x : List X) (p : ℕ × ℕ) : Option (T × X × X) :=
  match t[p.1 + p.2]?, t[p.1]?, x[p.1 + p.2]?, x[p.1]? with
  | some ta, some tb, some xa, some xb => some (ta - tb, xa, xb)
  | _, _, _, _ => none

/-- All terms of a list of pairs, in order. -/
def terms {T X : Type*} [Sub T] (t : List T) (x : List X) (ps : List (ℕ × ℕ)) :
    List (T × X × X) := ps.filterMap (term t x)

/-- The terms with time difference `d`. -/
def termsAt {T X : Type*} [DecidableEq T] (d : T) (l : List (T × X × X)) : List (X × X) :=
  (l.filter fun e => decide (e.1 = d)).map Prod.snd

end PP.Spec
