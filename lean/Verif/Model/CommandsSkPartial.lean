import Verif.Model.CommandsK
import Verif.Model.GrPartial
import Verif.Model.Object

/-!
# Model of the command sk with its partial functions

A particle is given by its species and its position. There are no weights and no option `filter`. The wave-numbers given by the option
`kgrid` are one list, used and modified by all the objects.
-/

namespace PP

section
variable {d : ℕ} {S : Type} [DecidableEq S]

/-- The grid and the values of the object built by the command with the filters of the given species
(atooms/postprocessing/api.py:108-110,122-125, partial.py:38-49, correlation.py:454-479, sk.py:54-58). `grid` is the list given to the
constructor, as it is when the calculation starts. The number of frames used is found from the whole frames, before filtering
(correlation.py:214). -/
noncomputable def skFiltered (q : SkOptions) (norigins : NOrigins) (bs : ℕ) (depth : ℕ)
    (pick : ℕ → List (KVec d) → ℕ → List (KVec d)) (fr : List (System (S × Vec d ℝ) (CellInfo d ℝ))) (grid : Option (List ℝ))
    (filters : List S) : Py (List ℝ × List ℝ) := do
  let skip ← adjustSkip fr.length bs (fr.map fun s => s.particle.length) norigins
  let r ← skComputeA ⟨depth, pick, q.params, decide (filters.length ≤ 1), false, skip.toNat⟩
    (fr.map fun s =>
      let g := twobodyFrame Prod.snd (filters.map fun a s => filterSpecies Prod.fst s (some a)) s
      ⟨g.side, g.pos0, g.pos1, [], []⟩)
    (KAttrs.new d grid)
  return (r.1, r.2.1)

/-- The pairs of species that are computed, in this order; `_symmetric` is true (atooms/postprocessing/partial.py:79-85,
correlation.py:189). -/
def pairsComputed : List S → List (S × S)
  | [] => []
  | a :: l => ((a :: l).map fun b => (a, b)) ++ pairsComputed l

/-- The calculations of several objects that share the list of wave-numbers, which each of them modifies
(atooms/postprocessing/fourierspace.py:204-205,216-219,237-238): the results and the list at the end. The cell does not change, so that
the grid of an object is the list at the end of its calculation. -/
noncomputable def skSequence (run : Option (List ℝ) → List S → Py (List ℝ × List ℝ)) :
    Option (List ℝ) → List (List S) → Py (List (List ℝ × List ℝ) × Option (List ℝ))
  | grid, [] => .ok ([], grid)
  | grid, f :: l => do
      let r ← run grid f
      let t ← skSequence run (grid.map fun _ => r.1) l
      return (r :: t.1, t.2)

/-- The results of `Partial`, by pair of species: the grid and the values that are written. The pair `(b, a)` has a copy of the result of
`(a, b)`. Files are written after all the calculations, so that the grid written is the shared list at the end, if there is one
(atooms/postprocessing/partial.py:79-90,99-111). The order of the dictionary is not that of the code. -/
def pairResults (pairs : List (S × S)) (rs : List (List ℝ × List ℝ)) (last : Option (List ℝ)) :
    List ((S × S) × (List ℝ × List ℝ)) :=
  (pairs.zip rs).flatMap fun e => [(e.1, (last.getD e.2.1, e.2.2)), ((e.1.2, e.1.1), (last.getD e.2.1, e.2.2))]

/-- The command sk: the grid and the values of the whole system, and those of the pairs of species `ids`, the ones found in the first
frame: none if there is one species only or with the option `no_partial` (atooms/postprocessing/api.py:93-129). -/
noncomputable def skWithPartials (q : SkOptions) (norigins : NOrigins) (bs : ℕ) (depth : ℕ)
    (pick : ℕ → List (KVec d) → ℕ → List (KVec d)) (noPartial : Bool) (ids : List S)
    (fr : List (System (S × Vec d ℝ) (CellInfo d ℝ))) :
    Py ((List ℝ × List ℝ) × List ((S × S) × (List ℝ × List ℝ))) := do
  let grid ← q.grid
  let total ← skFiltered q norigins bs depth pick fr grid []
  if 1 < ids.length ∧ noPartial = false then
    let r ← skSequence (skFiltered q norigins bs depth pick fr) (grid.map fun _ => total.1)
      ((pairsComputed ids).map fun p => pairFilters p.1 p.2)
    return (total, pairResults (pairsComputed ids) r.1 r.2)
  else return (total, [])

end

end PP
