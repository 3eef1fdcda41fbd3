import Verif.Props.Output
import Verif.Props.TGrid
import Verif.Lemmas.Expo

/-!
# C64: what `Partial.do` leaves in its objects and in their files
-/

set_option linter.unusedSectionVars false

namespace PP.Props
open PP

section
variable {K : Type} [Field K] [LinearOrder K] [IsStrictOrderedRing K] [FloorRing K]

/-- **C64** for `Partial.do`: unless `update` is set and all files are newer than the trajectory, all objects have the grids
and values just computed, and all files are written with them, also those that were up to date. -/
theorem C64_partial_computed (update : Bool) (s : List (OutState K)) (now : ℤ)
    (h : update = false ∨ ∃ o ∈ s, o.file = none ∨ o.stdout = true ∨ ∃ f, o.file = some f ∧ f.mtime ≤ o.trajTime)
    (r : List (Grid K × Value K)) (hl : r.length = s.length) (hr : ∀ p ∈ r, ∃ rows, dumpRows p.1 p.2 = .ok rows) :
    ∃ s', doUpdatePartial update (.ok r) now s = .ok (s', true) ∧ s'.length = s.length ∧
      ∀ (i : ℕ) (h1 : i < s.length) (h2 : i < s'.length) (h3 : i < r.length), s'[i].grid = r[i].1 ∧ s'[i].value = r[i].2 ∧
        (s[i].stdout = false → ∃ rows, dumpRows r[i].1 r[i].2 = .ok rows ∧ s'[i].file = some ⟨now, rows.text⟩) := by
  have hc : (update && !needUpdatePartial s) = false := by
    rcases h with h | ⟨o, ho, h⟩
    · simp [h]
    · have : needUpdatePartial s = true := by
        unfold needUpdatePartial
        rw [List.any_eq_true]
        refine ⟨o, ho, ?_⟩
        unfold needUpdate
        rcases h with h | h | ⟨f, hf, h⟩
        · rw [h]
        · cases hf : o.file <;> simp [h]
        · simp [hf, h]
      simp [this]
  obtain ⟨m, hm, hR⟩ := mapM_forall₂ (l := s.zip r)
    (f := fun p => writeFile now { p.1 with grid := p.2.1, value := p.2.2 })
    (R := fun p o' => o'.grid = p.2.1 ∧ o'.value = p.2.2 ∧ (p.1.stdout = false →
      ∃ rows, dumpRows p.2.1 p.2.2 = .ok rows ∧ o'.file = some ⟨now, rows.text⟩)) (by
    rintro ⟨o, p⟩ hp
    obtain ⟨rows, hrows⟩ := hr p (List.of_mem_zip hp).2
    cases hs : o.stdout with
    | true =>
      refine ⟨{ o with grid := p.1, value := p.2 }, ?_, rfl, rfl, by simp⟩
      simp [writeFile, hrows, bind, Except.bind, pure, Except.pure, hs]
    | false =>
      refine ⟨{ o with grid := p.1, value := p.2, file := some ⟨now, rows.text⟩ }, ?_, rfl, rfl, fun _ => ⟨rows, hrows, rfl⟩⟩
      simp [writeFile, hrows, bind, Except.bind, pure, Except.pure, hs])
  have hlen : m.length = s.length := by
    rw [← hR.length_eq, List.length_zip, hl, min_self]
  refine ⟨m, ?_, hlen, fun i h1 h2 h3 => ?_⟩
  · simp only [doUpdatePartial, hc, Bool.false_eq_true, if_false, bind, Except.bind, pure, Except.pure]
    rw [hm]
  · have := (List.forall₂_iff_get.1 hR).2 i (by rw [List.length_zip, hl, min_self]; exact h1) h2
    simpa [List.get_eq_getElem, List.getElem_zip] using this

/-- **C64** for `Partial.do(update=True)`: if all files are newer than the trajectory and have at least two rows of two
columns, each object has the grid and the values of its own file, whatever `compute` would give. -/
theorem C64_partial_read (s : List (OutState K)) (now : ℤ) (results : Py (List (Grid K × Value K)))
    (table : OutState K → List (K × K))
    (h : ∀ o ∈ s, o.stdout = false ∧ ∃ t, o.file = some ⟨t, .two (table o)⟩ ∧ o.trajTime < t ∧ 2 ≤ (table o).length) :
    doUpdatePartial true results now s = .ok (s.map fun o => { o with
      grid := .one ((table o).map Prod.fst), value := .one ((table o).map Prod.snd) }, false) := by
  have hn : needUpdatePartial s = false := by
    unfold needUpdatePartial
    rw [List.any_eq_false]
    intro o ho
    obtain ⟨a, t, b, c, -⟩ := h o ho
    simp [needUpdate, a, b, c]
  simp only [doUpdatePartial, hn, Bool.not_false, Bool.and_true, if_true, bind, Except.bind, pure, Except.pure]
  rw [mapM_ok_map (g := fun o => { o with
      grid := .one ((table o).map Prod.fst), value := .one ((table o).map Prod.snd) })]
  intro o ho
  obtain ⟨a, t, b, c, e⟩ := h o ho
  unfold readFile
  rw [b]
  match hq : table o, e with
  | p :: q :: l, _ => rfl

end

/-- Two objects, the first one up to date: both are computed and written. -/
example : doUpdatePartial true (.ok [(.one [1, 2], .one [(3 : ℚ), 4]), (.one [1, 2], .one [5, 6])]) 9
    [⟨.one [], .one [], some ⟨5, .two [(0, 1), (1, 2)]⟩, false, 4⟩, ⟨.one [], .one [], none, false, 4⟩] =
    .ok ([⟨.one [1, 2], .one [3, 4], some ⟨9, (Rows.two [(1, 3), (2, 4)]).text⟩, false, 4⟩,
      ⟨.one [1, 2], .one [5, 6], some ⟨9, (Rows.two [(1, 5), (2, 6)]).text⟩, false, 4⟩], true) := rfl

/-- Two objects, both up to date: the files are read. -/
example : doUpdatePartial true (.error .valueError) 9
    [⟨.one [], .one [], some ⟨5, .two [((0 : ℚ), 1), (1, 2)]⟩, false, 4⟩,
     ⟨.one [], .one [], some ⟨6, .two [(0, 3), (1, 4)]⟩, false, 4⟩] =
    .ok ([⟨.one [0, 1], .one [1, 2], some ⟨5, .two [(0, 1), (1, 2)]⟩, false, 4⟩,
      ⟨.one [0, 1], .one [3, 4], some ⟨6, .two [(0, 3), (1, 4)]⟩, false, 4⟩], false) := rfl

end PP.Props
