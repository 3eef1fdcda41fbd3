import Verif.Model.Helpers
import Verif.Lemmas.Dict
import Mathlib.Algebra.BigOperators.Group.List.Lemmas
import Mathlib.Data.List.Nodup

/-!
# C22: filtering by species
-/

namespace PP.Props
open PP

variable {P O S : Type} [DecidableEq S]

/-- **C22.** The filtered particles form, in the original order, the sublist of exactly the particles
of the species; nothing else in the system changes. -/
theorem C22_filter_species (spc : P → S) (s : System P O) (a : S) :
    (filterSpecies spc s (some a)).particle.Sublist s.particle ∧
    (∀ p, p ∈ (filterSpecies spc s (some a)).particle ↔ p ∈ s.particle ∧ spc p = a) ∧
    (∀ p, spc p = a → ∀ [DecidableEq P],
      (filterSpecies spc s (some a)).particle.count p = s.particle.count p) ∧
    (filterSpecies spc s (some a)).other = s.other ∧ filterSpecies spc s none = s := by
  refine ⟨List.filter_sublist, ?_, ?_, rfl, rfl⟩
  · intro p; simp [filterSpecies]
  · intro p hp _
    exact List.count_filter (by simpa using hp)

/-- **C22**, filtering twice is filtering once, and two different species give nothing. -/
theorem C22_filter_twice (spc : P → S) (s : System P O) (a b : S) :
    filterSpecies spc (filterSpecies spc s (some a)) (some a) = filterSpecies spc s (some a) ∧
    (a ≠ b → (filterSpecies spc (filterSpecies spc s (some a)) (some b)).particle = []) := by
  constructor
  · simp only [filterSpecies, List.filter_filter, Bool.and_self]
  · intro h
    simp only [filterSpecies, List.filter_filter]
    rw [List.filter_eq_nil_iff]
    intro p _ hp
    simp only [Bool.and_eq_true, decide_eq_true_eq] at hp
    exact h (hp.2.symm.trans hp.1)

/-- **C22**, the filters of the distinct species partition the system: joined together they are a
rearrangement of all the particles. -/
theorem C22_filter_partition (spc : P → S) (s : System P O) (species : List S) (hn : species.Nodup)
    (hs : ∀ p ∈ s.particle, spc p ∈ species) :
    (species.flatMap fun a => (filterSpecies spc s (some a)).particle).Perm s.particle := by
  obtain ⟨ps, o⟩ := s
  simp only [filterSpecies] at hs ⊢
  induction ps with
  | nil => simp
  | cons p ps ih =>
    have ih' := ih fun q hq => hs q (by simp [hq])
    have hp := hs p (by simp)
    refine List.Perm.trans ?_ (List.Perm.cons p ih')
    clear ih ih' hs
    induction species with
    | nil => simp at hp
    | cons a l ihl =>
      rw [List.nodup_cons] at hn
      simp only [List.flatMap_cons]
      by_cases h : spc p = a
      · subst h
        rw [List.filter_cons_of_pos (by simp), List.cons_append]
        refine List.Perm.cons p (List.Perm.append_left _ (List.Perm.of_eq ?_))
        apply List.flatMap_congr
        intro b hb
        rw [List.filter_cons_of_neg]
        simp only [decide_eq_true_eq]
        rintro rfl
        exact hn.1 hb
      · rw [List.filter_cons_of_neg (by simpa using h)]
        have := ihl hn.2 ((List.mem_cons.1 hp).resolve_left h)
        exact (List.Perm.append_left _ this).trans List.perm_middle

/-- **C22**, the input system is unchanged: on the python heap, the reference passed in, and every
other system reference, still reads the same system, and the returned reference is a new one that
reads the filtered system. -/
theorem C22_input_unchanged (spc : P → S) (h : Heap P O) (r : ℕ) (a : Option S) (s : System P O)
    (hr : h.read r = .ok s) :
    ∃ h' r', filterSpeciesHeap spc h r a = .ok (h', r') ∧ h'.read r' = .ok (filterSpecies spc s a) ∧
      (∀ q t, h.read q = .ok t → h'.read q = .ok t ∧ q ≠ r') := by
  have aux : ∀ {q : ℕ} {t : System P O} {g : Heap P O}, g.read q = .ok t →
      ∃ l, g.sys[q]? = some (l, t.other) ∧ g.lists[l]? = some t.particle := by
    intro q t g hq
    unfold Heap.read pyGet at hq
    cases h1 : g.sys[q]? with
    | none => rw [h1] at hq; cases hq
    | some o =>
      rw [h1] at hq
      simp only [bind, Except.bind, pure, Except.pure] at hq
      cases h2 : g.lists[o.1]? with
      | none => rw [h2] at hq; cases hq
      | some l => rw [h2] at hq; cases hq; exact ⟨o.1, rfl, h2⟩
  have aux2 : ∀ {q l : ℕ} {t : System P O} {g : Heap P O}, g.sys[q]? = some (l, t.other) →
      g.lists[l]? = some t.particle → g.read q = .ok t := by
    intro q l t g h1 h2
    unfold Heap.read pyGet
    rw [h1]
    simp only [bind, Except.bind, pure, Except.pure]
    rw [h2]
  obtain ⟨l, h1, h2⟩ := aux hr
  have hlt : ∀ {q : ℕ} {o}, h.sys[q]? = some o → q < h.sys.length := by
    intro q o hq; exact (List.getElem?_eq_some_iff.1 hq).1
  have hltl : ∀ {q : ℕ} {o}, h.lists[q]? = some o → q < h.lists.length := by
    intro q o hq; exact (List.getElem?_eq_some_iff.1 hq).1
  cases a with
  | none =>
    refine ⟨⟨h.sys ++ [(l, s.other)], h.lists⟩, h.sys.length, ?_, ?_, ?_⟩
    · unfold filterSpeciesHeap pyGet
      rw [h1]; rfl
    · exact aux2 (l := l) (by simp [filterSpecies]) h2
    · intro q t hq
      obtain ⟨l', h3, h4⟩ := aux hq
      refine ⟨aux2 (l := l') ?_ h4, (hlt h3).ne⟩
      simp only
      rw [List.getElem?_append_left (hlt h3), h3]
  | some a =>
    refine ⟨⟨h.sys ++ [(h.lists.length, s.other)],
      h.lists ++ [s.particle.filter fun p => decide (spc p = a)]⟩, h.sys.length, ?_, ?_, ?_⟩
    · have hr1 : Heap.read ⟨h.sys ++ [(l, s.other)], h.lists⟩ r = .ok s := by
        refine aux2 (l := l) ?_ h2
        simp only
        rw [List.getElem?_append_left (hlt h1), h1]
      unfold filterSpeciesHeap pyGet
      rw [h1]
      simp only [bind, Except.bind, pure, Except.pure]
      rw [hr1]
      simp
    · exact aux2 (l := h.lists.length) (by simp [filterSpecies]) (by simp [filterSpecies])
    · intro q t hq
      obtain ⟨l', h3, h4⟩ := aux hq
      refine ⟨aux2 (l := l') ?_ ?_, (hlt h3).ne⟩
      · simp only
        rw [List.getElem?_append_left (hlt h3), h3]
      · simp only
        rw [List.getElem?_append_left (hltl h4), h4]

/-- Five particles of three species. -/
example :
    (filterSpecies (fun p : ℕ × String => p.2)
      ⟨[(0, "A"), (1, "B"), (2, "A"), (3, "C"), (4, "B")], ()⟩ (some "A")).particle
        = [(0, "A"), (2, "A")] ∧
    ["A", "B", "C"].Nodup ∧
    (Heap.read ⟨[(1, ()), (0, ())], [[(0, "A")], [(1, "B"), (2, "A")]]⟩ 0
      : Py (System (ℕ × String) Unit)) = .ok ⟨[(1, "B"), (2, "A")], ()⟩ := by
  refine ⟨by decide, by decide, rfl⟩

end PP.Props
