import Verif.Model.CommandsSkPartial

/-!
# Model of the command fkt with its partial functions

A particle is given by its species and its position. The wave-numbers are one list, used and modified by all the objects. `fix_cm` and
`update` are not represented.
-/

namespace PP

section
variable {d : ℕ} {S : Type} [DecidableEq S]

/-- The calculation of an object of the command fkt with the filters of the given species, given the list of wave-numbers `k`: `grid[0]`,
`grid[1]`, `value` and `value_nonorm` (atooms/postprocessing/api.py:199-205,212-218, partial.py:38-49, fkt.py:54-80,
fourierspace.py:183-187). The cell is that of the first frame. `tsamples` of the object has its default 60 (fkt.py:271). -/
noncomputable def fktFrom (o : TimeOptions) (q : KOptions) (depth : ℕ) (pick : ℕ → List (KVec d) → ℕ → List (KVec d)) (tr : Traj ℝ)
    (side : Vec d ℝ) (x : List (List (S × Vec d ℝ))) (k : List ℝ) (filters : List S) :
    Py (List ℝ × List ℝ × List (List ℝ) × List (List ℝ)) := do
  let f ← funcOf o.func
  let g ← apiTimeGrid .fkt (f.grid o.tsamples) tr.timestep tr.totalTime o.tmax o.fraction
  let skip ← adjustSkip tr.steps.length tr.blockSize tr.npart o.norigins
  let dg ← fktInit tr g 60 true o.norigins.offsetBoth
  let s ← kSetup Real.sqrt Real.pi depth pick q.params side (some k)
  let fr := x.map fun f => twobodyFrame Prod.snd (filters.map fun a s => filterSpecies Prod.fst s (some a))
    (⟨f, ⟨side, fun _ => true⟩⟩ : System (S × Vec d ℝ) (CellInfo d ℝ))
  let r ← fkCompute ⟨tr.steps, tr.timestep, skip.toNat, dg, decide (filters.length ≤ 1), fr.map fun g => g.pos0,
    fr.map fun g => g.pos1, s, true⟩
  return (s.kgrid, r)

/-- The calculations of several objects that share the list of wave-numbers, which each of them modifies
(atooms/postprocessing/partial.py:79-85, fourierspace.py:200-205,216-219,237-238): the results, and the list at the end. -/
noncomputable def fktSequence {F R : Type} (run : List ℝ → F → Py (List ℝ × R)) : List ℝ → List F → Py (List R × List ℝ)
  | k, [] => .ok ([], k)
  | k, f :: l => do
      let r ← run k f
      let t ← fktSequence run r.1 l
      return (r.2 :: t.1, t.2)

/-- The attributes of the objects of `Partial`, by pair of species: `grid[0]`, `grid[1]`, `value` and, if there is one, `value_nonorm`.
The pair `(b, a)` has the grid and the value of `(a, b)`, and no `value_nonorm`. The wave-numbers are those of the shared list `last` at
the end (atooms/postprocessing/partial.py:79-90). The order of the dictionary is not that of the code. -/
def fktPairs (pairs : List (S × S)) (rs : List (List ℝ × List (List ℝ) × List (List ℝ))) (last : List ℝ) :
    List ((S × S) × (List ℝ × List ℝ × List (List ℝ) × Option (List (List ℝ)))) :=
  (pairs.zip rs).flatMap fun e =>
    (e.1, (last, e.2.1, e.2.2.1, some e.2.2.2)) ::
      if e.1.1 = e.1.2 then [] else [((e.1.2, e.1.1), (last, e.2.1, e.2.2.1, none))]

/-- The command fkt: the attributes of the object of the whole system, with the option `total` or if there is one species only, and of
those of the pairs of the species `ids` found in the first frame, if there are several and without the option `no_partial`
(atooms/postprocessing/api.py:199-218). -/
noncomputable def fktWithPartials (o : TimeOptions) (q : KOptions) (total noPartial : Bool) (depth : ℕ)
    (pick : ℕ → List (KVec d) → ℕ → List (KVec d)) (tr : Traj ℝ) (side : Vec d ℝ) (ids : List S) (x : List (List (S × Vec d ℝ))) :
    Py (Option (List ℝ × List ℝ × List (List ℝ) × List (List ℝ)) ×
      List ((S × S) × (List ℝ × List ℝ × List (List ℝ) × Option (List (List ℝ))))) := do
  let k ← q.list
  let t ← if total = true ∨ ids.length = 1 then
      (do
        let r ← fktFrom o q depth pick tr side x k []
        return (some r, r.1))
    else .ok (none, k)
  if 1 < ids.length ∧ noPartial = false then
    let r ← fktSequence (fktFrom o q depth pick tr side x) t.2 ((pairsComputed ids).map fun p => pairFilters p.1 p.2)
    return (t.1, fktPairs (pairsComputed ids) r.1 r.2)
  else return (t.1, [])

end

end PP
