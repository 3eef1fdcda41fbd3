import Verif.Model.CommandsBa
import Verif.Model.CommandsGrPartial

/-!
# Model of the default cut-offs and of the partial functions of the command ba
-/

namespace PP

/-- The array `rcut` filled from `_default_rcut` (atooms/postprocessing/ba.py:20-46,77-82), for the species `ids` found in the first
frame: one row per species. The partial radial distribution functions are those of `Partial` with spacing 0.1 and the defaults of the
other options (partial.py:38-49,79-90). An element for which the second loop finds no point is what is in the memory of
`numpy.ndarray`, `uninit`. Values of g(r) that are not numbers are not modelled (`valueError`). -/
noncomputable def baCutoffs {d : ℕ} {S : Type} [DecidableEq S] (bs : ℕ) (huge : ℝ) (uninit : S → S → ℝ) (ids : List S)
    (fr : List (System (S × Vec d ℝ) (CellInfo d ℝ))) : Py (List (List ℝ)) := do
  let D ← partialCompute2 true (fun filters _ => grFiltered false (1 / 10) (-1) .none bs huge fr filters) ids (partialInit2 ids)
  ids.mapM fun a => ids.mapM fun b => do
    let o ← dictGet D (a, b)
    match o.res with
    | none => .error .attributeError
    | some t => do
      let value ← t.mapM fun p => match p.2 with | some v => (.ok v : Py ℝ) | none => .error .valueError
      let r ← baDefaultRcut (t.map Prod.fst) value
      return r.getD (uninit a b)

section
variable {d : ℕ} {S : Type} [DecidableEq S]

/-- `ids.index(_)` (atooms/postprocessing/correlation.py:365,480-481). -/
def speciesNumber (ids : List S) (a : S) : Py ℕ := if a ∈ ids then .ok (ids.idxOf a) else .error .valueError

/-- The arrays of positions and species of a frame, given the species of the filters (atooms/postprocessing/correlation.py:352-366,
454-483). The sides of the cell are those of the trajectory (ba.py:94). -/
def baTyped (ids filters : List S) (s : System (S × Vec d ℝ) (CellInfo d ℝ)) : Py (BaFrame d) := do
  let z := match filters with
    | [] => (s, s)
    | [a] => (filterSpecies Prod.fst s (some a), filterSpecies Prod.fst s (some a))
    | a :: b :: _ => (filterSpecies Prod.fst s (some a), filterSpecies Prod.fst s (some b))
  let i0 ← z.1.particle.mapM fun p => speciesNumber ids p.1
  let i1 ← z.2.particle.mapM fun p => speciesNumber ids p.1
  return ⟨s.other.side, z.1.particle.map Prod.snd, i0, z.2.particle.map Prod.snd, i1⟩

/-- What the object built by the command with the filters of the given species computes (atooms/postprocessing/api.py:337,344,
ba.py:60-117). The cut-offs are found from the whole trajectory. -/
noncomputable def baFiltered (dtheta : ℝ) (norigins : NOrigins) (bs : ℕ) (huge : ℝ) (uninit : S → S → ℝ) (ids : List S)
    (fr : List (System (S × Vec d ℝ) (CellInfo d ℝ))) (filters : List S) : Py (List ℝ × List (Option ℝ)) := do
  let skip ← adjustSkip fr.length bs (fr.map fun s => s.particle.length) norigins
  let grid ← baGrid dtheta
  let frames ← fr.mapM (baTyped ids filters)
  let rc ← baCutoffs bs huge uninit ids fr
  baCompute rc ids.length skip.toNat grid frames

/-- The partial functions that the command ba computes after the total one, for the species `ids` found in the first frame
(atooms/postprocessing/api.py:342-345, partial.py:38-49,79-90). `_symmetric` is false (ba.py:58). Each object is computed once and
has an array of cut-offs of its own, in other memory. -/
noncomputable def baPartials (dtheta : ℝ) (norigins : NOrigins) (bs : ℕ) (huge : ℝ) (uninit : List S → S → S → ℝ) (noPartial : Bool)
    (ids : List S) (fr : List (System (S × Vec d ℝ) (CellInfo d ℝ))) :
    Py (List ((S × S) × PObj S (List ℝ × List (Option ℝ)))) :=
  if 1 < ids.length ∧ noPartial = false then
    partialCompute2 false (fun filters _ => baFiltered dtheta norigins bs huge (uninit filters) ids fr filters) ids (partialInit2 ids)
  else .ok []

end

end PP
