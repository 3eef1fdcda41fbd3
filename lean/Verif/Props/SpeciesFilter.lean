import Verif.Props.GrFilter

/-!
# C215: filters on the species and partial radial distribution functions
-/

set_option linter.unusedSectionVars false

namespace PP.Props
open PP

section
variable {K : Type} [Field K] [LinearOrder K] [IsStrictOrderedRing K] [FloorRing K] {d : ℕ} {P S : Type} [DecidableEq S]

/-- **C215** for two distinct species: `Filter` with the conditions "species a" and "species b" gives the same table as
`Partial` for the pair (a, b), or the same exception, whatever the trajectory. Its groups are the particles of species a
and those of species b, in the order of the frame. -/
theorem C215_distinct_partial (sq : K → K) (pi huge : K) (pos : P → Vec d K) (spc : P → S) {a b : S} (hab : a ≠ b)
    (traj : List (System P (CellInfo d K))) (o : GrObj d K) :
    ∃ cbk, filterCallbacks [fun p => decide (spc p = a), fun p => decide (spc p = b)] = .ok cbk ∧
      (∀ s ∈ traj, (twobodyFrame pos cbk s).pos0 = (s.particle.filter fun p => decide (spc p = a)).map pos ∧
        (twobodyFrame pos cbk s).pos1 = (s.particle.filter fun p => decide (spc p = b)).map pos) ∧
      grLegacy sq pi (twobodyObj pos cbk traj o) = grLegacy sq pi (twobodyObj pos (partialFilters spc a b) traj o) ∧
      grFast sq pi huge (twobodyObj pos cbk traj o) = grFast sq pi huge (twobodyObj pos (partialFilters spc a b) traj o) := by
  have e : (partialFilters spc a b : List (System P (CellInfo d K) → System P (CellInfo d K))) =
      [filterGeneric fun p => decide (spc p = a), filterGeneric fun p => decide (spc p = b)] := by
    unfold partialFilters
    rw [if_pos hab]
    rfl
  refine ⟨_, rfl, fun s _ => ⟨rfl, rfl⟩, ?_, ?_⟩ <;> rw [e]

/-- **C215** is false for a single species: `Filter` with the condition "species a" given twice finds each particle at
distance zero from itself. The first point of g(r) exceeds that of `Partial` for the pair (a, a) by the inverse of the
number of particles expected in the first bin, whatever the trajectory. -/
theorem C215_counterexample_same (sq : K → K) (hsq : ∀ x, 0 ≤ sq x) (hsq0 : sq 0 = 0) {pi : K} (hpi : 0 < pi)
    (pos : P → Vec d K) (spc : P → S) (a : S) (traj : List (System P (CellInfo d K))) (o : GrObj d K) {w : K} {n : ℕ}
    {s0 : System P (CellInfo d K)} (h0 : traj[0]? = some s0)
    (h : GrRegular sq (twobodyObj pos (partialFilters spc a a) traj o) w n n (twobodyFrame pos (partialFilters spc a a) s0))
    (hcut : if 0 < o.rmax then w ≤ 2 * o.rmax else ∀ s ∈ traj, ∀ c, w ≤ s.other.side c) :
    ∃ (cbk : _) (points : List ℕ) (g : ℕ → K) (extra : K),
      filterCallbacks [fun p => decide (spc p = a), fun p => decide (spc p = a)] = .ok cbk ∧ 0 ∈ points ∧ 0 < extra ∧
      grLegacy sq pi (twobodyObj pos (partialFilters spc a a) traj o)
        = .ok (points.map fun j : ℕ => (((j : K) + 1 / 2) * w, some (g j))) ∧
      grLegacy sq pi (twobodyObj pos cbk traj o)
        = .ok (points.map fun j : ℕ => (((j : K) + 1 / 2) * w, some (g j + if j = 0 then extra else 0))) ∧
      ∃ s ∈ traj, extra * ((n : K) / (∏ c, s.other.side c) * shellVol pi d 0 w) = 1 := by
  have e1 : twobodyObj pos (partialFilters spc a a) traj o =
      twobodyObj pos [] (traj.map fun s => filterSpecies spc s (some a)) o := by
    unfold twobodyObj partialFilters
    rw [if_neg (by simp), List.map_map]
    rfl
  have e2 : twobodyFrame pos (partialFilters spc a a) s0 = twobodyFrame pos [] (filterSpecies spc s0 (some a)) := by
    unfold partialFilters
    rw [if_neg (by simp)]
    rfl
  rw [e1, e2] at h
  have hcut' : if 0 < o.rmax then w ≤ 2 * o.rmax else
      ∀ s ∈ traj.map fun s => filterSpecies spc s (some a), ∀ c, w ≤ s.other.side c := by
    split_ifs at hcut ⊢
    · exact hcut
    · intro s hs
      obtain ⟨s', hs', rfl⟩ := List.mem_map.1 hs
      exact hcut s' hs'
  obtain ⟨cbk, points, g, extra, hc, hp, hx, hl, hl', s, hs, hn⟩ := C76_counterexample_filter_all sq hsq hsq0 hpi pos
    (traj.map fun s => filterSpecies spc s (some a)) o (s0 := filterSpecies spc s0 (some a))
    (by rw [List.getElem?_map, h0]; rfl) h hcut' (fun p => decide (spc p = a)) (by
      intro s hs p hp
      obtain ⟨s', -, rfl⟩ := List.mem_map.1 hs
      exact (List.mem_filter.1 hp).2)
  cases hc
  obtain ⟨s', hs', rfl⟩ := List.mem_map.1 hs
  refine ⟨_, points, g, extra, rfl, hp, hx, by rw [e1]; exact hl, ?_, s', hs', hn⟩
  rw [← hl']
  congr 1
  unfold twobodyObj
  rw [List.map_map]
  congr 1
  apply List.map_congr_left
  intro s _
  simp only [Function.comp, twobodyFrame, filterGeneric, filterSpecies, List.filter_filter, Bool.and_self, id]

/-- The hypotheses hold; the values of the first point, of `Partial` and of `Filter`. -/
example : (grLegacy Rat.sqrt 3 (twobodyObj Prod.snd (partialFilters Prod.fst 1 1) partExample partParams)).toOption.bind
      (·.head?) = some (1 / 2, some 0) ∧
    ((do
      let cbk ← filterCallbacks [fun p : ℕ × Vec 2 ℚ => decide (p.1 = 1), fun p => decide (p.1 = 1)]
      grLegacy Rat.sqrt 3 (twobodyObj Prod.snd cbk partExample partParams)) : Py _).toOption.bind (·.head?)
      = some (1 / 2, some (16 / 3)) ∧
    GrRegular Rat.sqrt (twobodyObj Prod.snd (partialFilters Prod.fst 1 1) partExample partParams) 1 3 3
      (twobodyFrame Prod.snd (partialFilters Prod.fst 1 1)
        ⟨[(1, ![0, 0]), (2, ![3, 0]), (1, ![3, -2]), (1, ![-3, 0]), (2, ![1, 1])], ![8, 6], fun _ => true⟩) := by
  refine ⟨by decide +kernel, by decide +kernel, ?_⟩
  exact {
    first := rfl
    skip_pos := by decide
    w_pos := by norm_num
    rgrid := rfl
    dr := rfl
    fit := ⟨0, by decide +kernel⟩
    side_pos := by decide +kernel
    n0_pos := by decide
    n1_pos := by decide
    len0 := by decide +kernel
    len1 := by decide +kernel
    same := by decide +kernel }

/-- A non-trivial case: the table of the pair (1, 2) of the same trajectory. -/
example : ((do
      let cbk ← filterCallbacks [fun p : ℕ × Vec 2 ℚ => decide (p.1 = 1), fun p => decide (p.1 = 2)]
      grLegacy Rat.sqrt 3 (twobodyObj Prod.snd cbk partExample partParams)) : Py _) =
    grLegacy Rat.sqrt 3 (twobodyObj Prod.snd (partialFilters Prod.fst 1 2) partExample partParams) ∧
    (grLegacy Rat.sqrt 3 (twobodyObj Prod.snd (partialFilters Prod.fst 1 2) partExample partParams)).toOption.isSome := by
  obtain ⟨cbk, h1, -, h2, -⟩ := C215_distinct_partial Rat.sqrt 3 0 Prod.snd Prod.fst (by decide : (1 : ℕ) ≠ 2) partExample
    partParams
  refine ⟨?_, by decide +kernel⟩
  rw [h1]
  exact h2

end
end PP.Props
