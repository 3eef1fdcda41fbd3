import Verif.Model.Object
import Mathlib.Data.List.Nodup
import Mathlib.Tactic.Linarith

/-!
# C61: Partial
-/

set_option linter.unusedSectionVars false

namespace PP.Props
open PP

section
variable {κ V : Type} [DecidableEq κ]

theorem dictGet_dictSet (D : List (κ × V)) (k k' : κ) (v : V) :
    dictGet (dictSet D k v) k' = if k' = k then .ok v else dictGet D k' := by
  induction D with
  | nil =>
    simp only [dictSet, dictGet]
    by_cases h : k = k'
    · simp [h]
    · rw [if_neg h, if_neg (fun e => h e.symm)]
  | cons a D ih =>
    obtain ⟨k0, v0⟩ := a
    simp only [dictSet]
    by_cases h : k0 = k
    · rw [if_pos h]
      simp only [dictGet]
      by_cases h' : k0 = k'
      · rw [if_pos h', if_pos (h'.symm.trans h)]
      · rw [if_neg h', if_neg (fun e => h' (h.trans e.symm)), if_neg h']
    · rw [if_neg h]
      simp only [dictGet]
      by_cases h' : k0 = k'
      · rw [if_pos h', if_pos h', if_neg (fun e => h (h'.trans e))]
      · rw [if_neg h', if_neg h', ih]

/-- Setting all the entries of a list of distinct keys. -/
theorem dictGet_foldl_set (L : List κ) (f : κ → V) (D : List (κ × V)) (k : κ) (h : k ∈ L ∨ dictGet D k = .ok (f k)) :
    dictGet (L.foldl (fun D k => dictSet D k (f k)) D) k = .ok (f k) := by
  induction L generalizing D with
  | nil => simpa using h
  | cons a L ih =>
    simp only [List.foldl_cons]
    apply ih
    by_cases ha : k = a
    · right; rw [dictGet_dictSet, if_pos ha, ha]
    · rcases h with h | h
      · rcases List.mem_cons.mp h with h | h
        · exact absurd h ha
        · exact Or.inl h
      · right; rw [dictGet_dictSet, if_neg ha, h]

/-- A loop whose steps keep an invariant on the elements already seen. -/
theorem foldlM_prefix_inv {A B : Type} (L : List A) (step : B → A → Py B) (Inv : List A → B → Prop) (b : B)
    (h0 : Inv [] b)
    (hstep : ∀ pre a post b, L = pre ++ a :: post → Inv pre b → ∃ b', step b a = .ok b' ∧ Inv (pre ++ [a]) b') :
    ∃ b', L.foldlM step b = .ok b' ∧ Inv L b' := by
  have key : ∀ (post pre : List A) (b : B), L = pre ++ post → Inv pre b →
      ∃ b', post.foldlM step b = .ok b' ∧ Inv L b' := by
    intro post
    induction post with
    | nil =>
      intro pre b hL hI
      refine ⟨b, rfl, ?_⟩
      rw [hL]; simpa using hI
    | cons a post ih =>
      intro pre b hL hI
      obtain ⟨b1, h1, h2⟩ := hstep pre a post b hL hI
      obtain ⟨b2, h3, h4⟩ := ih (pre ++ [a]) b1 (by simp [hL]) h2
      refine ⟨b2, ?_, h4⟩
      rw [List.foldlM_cons, h1]
      exact h3
  exact key L [] b rfl h0

end

section
variable {S R : Type} [DecidableEq S]

/-- **C61**, one-body functions: after `Partial(...)` and `compute()` with distinct species, each species has the
result of computing once an object whose only filter is that species. -/
theorem C61_one_body (species : List S) (hnd : species.Nodup) (run : List S → ℕ → Py R) (val : S → R)
    (hrun : ∀ a ∈ species, run [a] 0 = .ok (val a)) :
    ∃ D, partialCompute1 run species (partialInit1 species) = .ok D ∧
      ∀ a ∈ species, dictGet D a = .ok ⟨[a], 1, some (val a)⟩ := by
  have h := foldlM_prefix_inv species (fun (D : List (S × PObj S R)) a => do
    let o ← dictGet D a
    let o' ← o.compute run
    return dictSet D a o')
    (fun pre D => ∀ a ∈ species, dictGet D a =
      .ok (if a ∈ pre then ⟨[a], 1, some (val a)⟩ else ⟨[a], 0, none⟩)) (partialInit1 species)
    (by
      intro a ha
      simpa [partialInit1] using
        dictGet_foldl_set species (fun a => (⟨[a], 0, none⟩ : PObj S R)) [] a (Or.inl ha))
    (by
      intro pre a post D hL hI
      have ha : a ∈ species := by rw [hL]; simp
      have hpre : a ∉ pre := by
        rw [hL] at hnd
        intro h
        have := List.disjoint_of_nodup_append hnd h
        simp at this
      have h1 := hI a ha
      rw [if_neg hpre] at h1
      refine ⟨dictSet D a ⟨[a], 1, some (val a)⟩, ?_, ?_⟩
      · simp only [h1, bind, Except.bind, PObj.compute, hrun a ha, pure, Except.pure]
      · intro b hb
        rw [dictGet_dictSet]
        by_cases hab : b = a
        · subst hab; simp
        · rw [if_neg hab, hI b hb]
          simp [hab])
  obtain ⟨D, h1, h2⟩ := h
  refine ⟨D, h1, ?_⟩
  intro a ha
  rw [h2 a ha, if_pos ha]

/-- **C61**, two-body functions: after `Partial(...)` and `compute()` with distinct species, the entry of each ordered
pair of species has results. They are those of computing the object with the two filters of the pair (or the single
one if the two species are the same), unless the function is symmetric and the pair comes after the exchanged one: in
this case they are those of the exchanged pair. No object is computed more than once. -/
theorem C61_two_body (sym : Bool) (species : List S) (hnd : species.Nodup) (run : List S → ℕ → Py R)
    (one : S → R) (two : S → S → R) (h1 : ∀ a ∈ species, run [a] 0 = .ok (one a))
    (h2 : ∀ a ∈ species, ∀ b ∈ species, a ≠ b → run [a, b] 0 = .ok (two a b)) :
    ∃ D, partialCompute2 sym run species (partialInit2 species) = .ok D ∧
      ∀ i j (hi : i < species.length) (hj : j < species.length),
        ∃ o, dictGet D (species[i], species[j]) = .ok o ∧ o.calls ≤ 1 ∧
          (i = j → o = ⟨[species[i]], 1, some (one species[i])⟩) ∧
          (i < j → o = ⟨[species[i], species[j]], 1, some (two species[i] species[j])⟩) ∧
          (j < i → sym = false → o = ⟨[species[i], species[j]], 1, some (two species[i] species[j])⟩) ∧
          (j < i → sym = true → o = ⟨[species[i], species[j]], 0, some (two species[j] species[i])⟩) := by
  let val : S → S → R := fun a b => if a = b then one a else two a b
  have hrun : ∀ a ∈ species, ∀ b ∈ species, run (pairFilters a b) 0 = .ok (val a b) := by
    intro a ha b hb
    by_cases hab : a = b
    · subst hab; simp [pairFilters, val, h1 a ha]
    · simp [pairFilters, val, hab, h2 a ha b hb hab]
  let n := species.length
  let L : List (ℕ × ℕ) := (List.range n).flatMap fun i => (List.range n).map fun j => (i, j)
  have hmem : ∀ i j, (i, j) ∈ L ↔ i < n ∧ j < n := by
    intro i j
    simp [L]
  have hlex : L.Pairwise (fun p q => p.1 < q.1 ∨ p.1 = q.1 ∧ p.2 < q.2) := by
    refine List.pairwise_flatMap.mpr ⟨?_, ?_⟩
    · intro i _
      refine List.pairwise_map.mpr ?_
      exact List.pairwise_lt_range.imp (fun h => Or.inr ⟨rfl, h⟩)
    · refine List.pairwise_lt_range.imp ?_
      intro i i' hii p hp q hq
      obtain ⟨j, _, rfl⟩ := List.mem_map.mp hp
      obtain ⟨j', _, rfl⟩ := List.mem_map.mp hq
      exact Or.inl hii
  let fin : ℕ → ℕ → S → S → PObj S R := fun i j a b =>
    if i ≤ j ∨ sym = false then ⟨pairFilters a b, 1, some (val a b)⟩ else ⟨pairFilters a b, 0, some (val b a)⟩
  have h := foldlM_prefix_inv L (partialPair sym run species)
    (fun pre D => ∀ i j (hi : i < species.length) (hj : j < species.length), dictGet D (species[i], species[j]) =
      .ok (if (i, j) ∈ pre then fin i j species[i] species[j] else ⟨pairFilters species[i] species[j], 0, none⟩))
    (partialInit2 species)
    (by
      intro i j hi hj
      have hm : (species[i], species[j]) ∈ species.flatMap fun a => species.map fun b => (a, b) := by
        simp
      simpa [partialInit2] using dictGet_foldl_set _ (fun p : S × S => (⟨pairFilters p.1 p.2, 0, none⟩ : PObj S R))
        [] _ (Or.inl hm))
    (by
      rintro pre ⟨i, j⟩ post D hL hI
      have hij : (i, j) ∈ L := by rw [hL]; simp
      obtain ⟨hi, hj⟩ := (hmem i j).mp hij
      have hpre : (i, j) ∉ pre := by
        intro h
        rw [hL, List.pairwise_append] at hlex
        have := hlex.2.2 _ h (i, j) (by simp)
        simp at this
      have hgi : pyGet species i = .ok species[i] := by unfold pyGet; rw [List.getElem?_eq_getElem hi]
      have hgj : pyGet species j = .ok species[j] := by unfold pyGet; rw [List.getElem?_eq_getElem hj]
      have hg := hI i j hi hj
      rw [if_neg hpre] at hg
      refine ⟨dictSet D (species[i], species[j]) (fin i j species[i] species[j]), ?_, ?_⟩
      · unfold partialPair
        simp only [hgi, hgj, hg, bind, Except.bind]
        by_cases hc : j ≥ i ∨ sym = false
        · rw [if_pos hc]
          have hr := hrun species[i] (List.getElem_mem hi) species[j] (List.getElem_mem hj)
          simp only [PObj.compute, hr, bind, Except.bind, pure, Except.pure]
          have : fin i j species[i] species[j] = ⟨pairFilters species[i] species[j], 1,
            some (val species[i] species[j])⟩ := if_pos hc
          rw [this]
        · rw [if_neg hc]
          push Not at hc
          have hji : (j, i) ∈ pre := by
            have hm : (j, i) ∈ L := (hmem j i).mpr ⟨hj, hi⟩
            rw [hL] at hm
            rcases List.mem_append.mp hm with h | h
            · exact h
            · rcases List.mem_cons.mp h with h | h
              · simp only [Prod.mk.injEq] at h; omega
              · rw [hL, List.pairwise_append, List.pairwise_cons] at hlex
                have := hlex.2.1.1 _ h
                simp only at this
                omega
          have hq := hI j i hj hi
          rw [if_pos hji] at hq
          have hf : fin j i species[j] species[i] = ⟨pairFilters species[j] species[i], 1,
            some (val species[j] species[i])⟩ := if_pos (Or.inl (by omega))
          have hf' : fin i j species[i] species[j] = ⟨pairFilters species[i] species[j], 0,
            some (val species[j] species[i])⟩ := if_neg (by
              rintro (h | h)
              · omega
              · exact hc.2 h)
          simp only [hq, hf, hf', pure, Except.pure]
      · intro i' j' hi' hj'
        rw [dictGet_dictSet]
        by_cases he : (i', j') = (i, j)
        · obtain ⟨rfl, rfl⟩ := Prod.mk.inj he
          simp
        · rw [if_neg, hI i' j' hi' hj']
          · simp [he]
          · intro h
            obtain ⟨ha, hb⟩ := Prod.mk.inj h
            exact he (Prod.ext ((List.Nodup.getElem_inj_iff hnd).mp ha) ((List.Nodup.getElem_inj_iff hnd).mp hb)))
  obtain ⟨D, hD, hI⟩ := h
  refine ⟨D, hD, ?_⟩
  intro i j hi hj
  have hg := hI i j hi hj
  rw [if_pos ((hmem i j).mpr ⟨hi, hj⟩)] at hg
  have hne : i ≠ j → species[i] ≠ species[j] := fun h e => h ((List.Nodup.getElem_inj_iff hnd).mp e)
  refine ⟨_, hg, ?_, ?_, ?_, ?_, ?_⟩
  · simp only [fin]; split_ifs <;> simp
  · rintro rfl
    simp [fin, pairFilters, val]
  · intro hlt
    have := hne (by omega)
    have hle : i ≤ j := by omega
    simp [fin, pairFilters, val, hle, this]
  · intro hlt hs
    have := hne (by omega)
    simp [fin, pairFilters, val, hs, this]
  · intro hlt hs
    have h3 := hne (by omega)
    have h4 : ¬ i ≤ j := by omega
    simp [fin, pairFilters, val, hs, h3, Ne.symm h3, h4]

/-- Two species and a function whose result records its filters: the pair `(2, 1)` has the result of `(1, 2)` for a
symmetric function only. -/
example : (partialCompute2 true (fun f n => .ok (f, n)) ([1, 2] : List ℕ) (partialInit2 [1, 2])).map
      (fun D => D.map fun e => (e.1, e.2.calls, e.2.res)) =
    .ok [((1, 1), 1, some ([1], 0)), ((1, 2), 1, some ([1, 2], 0)), ((2, 1), 0, some ([1, 2], 0)),
      ((2, 2), 1, some ([2], 0))] := rfl
example : (partialCompute2 false (fun f n => .ok (f, n)) ([1, 2] : List ℕ) (partialInit2 [1, 2])).map
      (fun D => D.map fun e => (e.1, e.2.calls, e.2.res)) =
    .ok [((1, 1), 1, some ([1], 0)), ((1, 2), 1, some ([1, 2], 0)), ((2, 1), 1, some ([2, 1], 0)),
      ((2, 2), 1, some ([2], 0))] := rfl
example : (partialCompute1 (fun f n => .ok (f, n)) ([3, 5] : List ℕ) (partialInit1 [3, 5])).map
      (fun D => D.map fun e => (e.1, e.2.calls, e.2.res)) =
    .ok [(3, 1, some ([3], 0)), (5, 1, some ([5], 0))] := rfl

end

end PP.Props
