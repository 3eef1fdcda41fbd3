import Verif.Model.CommandsK

/-!
# Model of the command fskt with its partial functions

A particle is given by its species and its position. The wave-numbers are one list, used and modified by all the objects. `fix_cm` and
`update` are not represented.
-/

namespace PP

section
variable {d : ℕ} {S : Type} [DecidableEq S]

/-- The calculation of an object of the command fskt that is given the list of wave-numbers `k`: `grid[0]`, `grid[1]` and `value`
(atooms/postprocessing/api.py:231-237, 244-250, fkt.py:54-80, fourierspace.py:183-187). The cell is that of the first frame. `tsamples` of
the object has its default 60 (fkt.py:97). -/
noncomputable def fsktFrom (impl : Impl) (o : TimeOptions) (q : KOptions) (depth : ℕ)
    (pick : ℕ → List (KVec d) → ℕ → List (KVec d)) (tr : Traj ℝ) (side : Vec d ℝ) (k : List ℝ) (x : List (List (Vec d ℝ))) :
    Py (List ℝ × List ℝ × List (List ℝ)) := do
  let f ← funcOf o.func
  let g ← apiTimeGrid .fskt (f.grid o.tsamples) tr.timestep tr.totalTime o.tmax o.fraction
  let skip ← adjustSkip tr.steps.length tr.blockSize tr.npart o.norigins
  let dg ← fktInit tr g 60 true o.norigins.offsetBoth
  let s ← kSetup Real.sqrt Real.pi depth pick q.params side (some k)
  let ob : FsObj d := ⟨tr.steps, tr.timestep, skip.toNat, dg, x, s, q.lookupMb, true⟩
  let r ← match impl with
    | .legacy => fsLegacy ob
    | .fast => fsFast ob
  return (s.kgrid, r.1, r.2)

/-- What the object with the filter of species `a` reads of a frame (atooms/postprocessing/partial.py:30-36, helpers.py:117-127). -/
def speciesPositions (a : S) (f : List (S × Vec d ℝ)) : List (Vec d ℝ) := (f.filter fun p => decide (p.1 = a)).map Prod.snd

/-- The calculations of several objects that share the list of wave-numbers, which each of them modifies
(atooms/postprocessing/partial.py:73-77, fourierspace.py:200-205,216-219,237-238): the results, and the list at the end. -/
noncomputable def fsktSequence (run : List ℝ → S → Py (List ℝ × List ℝ × List (List ℝ))) :
    List ℝ → List S → Py (List (S × List ℝ × List (List ℝ)) × List ℝ)
  | k, [] => .ok ([], k)
  | k, a :: l => do
      let r ← run k a
      let t ← fsktSequence run r.1 l
      return ((a, r.2) :: t.1, t.2)

/-- The command fskt: `grid[0]`, `grid[1]` and `value` of the whole system, with the option `total` or if there is one species only, and
of each of the species `ids` found in the first frame, if there are several and without the option `no_partial`
(atooms/postprocessing/api.py:231-250). The files of the partial functions are written after all the calculations: the wave-numbers
written are those of the list at the end (partial.py:99-111). -/
noncomputable def fsktWithPartials (impl : Impl) (o : TimeOptions) (q : KOptions) (total noPartial : Bool) (depth : ℕ)
    (pick : ℕ → List (KVec d) → ℕ → List (KVec d)) (tr : Traj ℝ) (side : Vec d ℝ) (ids : List S) (x : List (List (S × Vec d ℝ))) :
    Py (Option (List ℝ × List ℝ × List (List ℝ)) × List (S × List ℝ × List ℝ × List (List ℝ))) := do
  let k ← q.list
  let t ← if total = true ∨ ids.length = 1 then
      (do
        let r ← fsktFrom impl o q depth pick tr side k (x.map fun f => f.map Prod.snd)
        return (some r, r.1))
    else .ok (none, k)
  if 1 < ids.length ∧ noPartial = false then
    let r ← fsktSequence (fun k a => fsktFrom impl o q depth pick tr side k (x.map (speciesPositions a))) t.2 ids
    return (t.1, r.1.map fun e => (e.1, r.2, e.2))
  else return (t.1, [])

end

end PP
