import Verif.Model.GrFull

/-!
# Model of the arrays of two-body correlations with filters, and of the partial correlations
-/

namespace PP

section
variable {K : Type} {d : ℕ} {P S : Type} [DecidableEq S]

/-- What g(r) uses of the cell: `cell.side` and `cell.periodic` (atooms/postprocessing/gr.py:150-158,255-268). -/
structure CellInfo (d : ℕ) (K : Type) where
  side : Vec d K
  periodic : Fin d → Bool

/-- `_pos_0[i]`, `_pos_1[i]` of a frame given the filter callbacks `_cbk`
(atooms/postprocessing/correlation.py:454-479, and 352-361 for at most one filter). `pos p` is the position
of particle `p`. Positions are not unfolded and the center of mass is not fixed (`_fix_cm` is false). -/
def twobodyFrame (pos : P → Vec d K) (cbk : List (System P (CellInfo d K) → System P (CellInfo d K)))
    (s : System P (CellInfo d K)) : GrFrame d K :=
  match cbk with
  | [] => ⟨s.other.side, s.other.periodic, s.particle.map pos, s.particle.map pos⟩
  | [c] => ⟨s.other.side, s.other.periodic, (c s).particle.map pos, (c s).particle.map pos⟩
  | c0 :: c1 :: _ => ⟨s.other.side, s.other.periodic, (c0 s).particle.map pos, (c1 s).particle.map pos⟩

/-- The object on entering `_compute` (atooms/postprocessing/correlation.py:454-479): `_pos_0 is _pos_1` when there
is at most one filter. `o` gives the parameters that do not depend on the trajectory. -/
def twobodyObj (pos : P → Vec d K) (cbk : List (System P (CellInfo d K) → System P (CellInfo d K)))
    (traj : List (System P (CellInfo d K))) (o : GrObj d K) : GrObj d K :=
  { o with frames := traj.map (twobodyFrame pos cbk), same := decide (cbk.length ≤ 1) }

/-- The filters of `Partial.partial[(a, b)]`, atooms/postprocessing/partial.py:38-48. -/
def partialFilters (spc : P → S) (a b : S) : List (System P (CellInfo d K) → System P (CellInfo d K)) :=
  if a ≠ b then [fun s => filterSpecies spc s (some a), fun s => filterSpecies spc s (some b)]
  else [fun s => filterSpecies spc s (some a)]

/-- `_filter_generic(system, condition)`, atooms/postprocessing/filter.py:26-33. A condition, an expression
evaluated with the attributes of the particle, is any function of the particle. -/
def filterGeneric {Y : Type} (cond : P → Bool) (s : System P Y) : System P Y :=
  { s with particle := s.particle.filter cond }

/-- The filters added by `Filter(correlation, condition)` to a two-body correlation; the condition is the list of
its comma separated parts, which is never empty (atooms/postprocessing/filter.py:49-66). -/
def filterCallbacks {Y : Type} : List (P → Bool) → Py (List (System P Y → System P Y))
  | [c] => .ok [filterGeneric c, id]
  | [c0, c1] => .ok [filterGeneric c0, filterGeneric c1]
  | _ => .error .valueError

end
end PP
