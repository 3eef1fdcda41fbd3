import Verif.Props.WeightFiles

/-!
# C207: filters and weights given in either order
-/

namespace PP.Props
open PP

variable {P Y W : Type}

theorem addFilter_parts {F : Type} (nb : ℕ) (cbk : List F) (f : F) :
    ∃ C R, ∀ o : CorrAttr F W, o.nbodies = nb → o.cbk = cbk → addFilter o f = ({ o with cbk := C }, R) := by
  by_cases h : cbk.length > nb
  · refine ⟨cbk, .error .valueError, fun o h1 h2 => ?_⟩
    subst h1 h2
    unfold addFilter
    rw [if_pos h]
  · refine ⟨cbk ++ [f], .ok (), fun o h1 h2 => ?_⟩
    subst h1 h2
    unfold addFilter
    rw [if_neg h]

theorem addFilter2_parts {F : Type} (nb : ℕ) (cbk : List F) (f g : F) :
    ∃ C R, ∀ o : CorrAttr F W, o.nbodies = nb → o.cbk = cbk → addFilter2 o f g = ({ o with cbk := C }, R) := by
  obtain ⟨C, R, h⟩ := addFilter_parts (W := W) nb cbk f
  cases R with
  | error e =>
    refine ⟨C, .error e, fun o h1 h2 => ?_⟩
    unfold addFilter2
    rw [h o h1 h2]
  | ok u =>
    obtain ⟨C', R', h'⟩ := addFilter_parts (W := W) nb C g
    refine ⟨C', R', fun o h1 h2 => ?_⟩
    unfold addFilter2
    rw [h o h1 h2]
    exact h' _ h1 rfl

theorem applyFilter_parts (nb : ℕ) (cbk : List (System P Y → System P Y)) (conds : List (Cond P)) :
    ∃ C R, ∀ o : CorrAttr (System P Y → System P Y) W, o.nbodies = nb → o.cbk = cbk →
      applyFilter o conds =
        ({ o with tag := filterTag (condText conds), tagDescription := condText conds, cbk := C }, R) := by
  unfold applyFilter
  generalize filterTag (condText conds) = T
  generalize condText conds = D
  dsimp only
  by_cases h1 : nb = 1
  · obtain ⟨C, R, h⟩ := addFilter_parts (W := W) nb cbk (filterGeneric (Y := Y) (evalWhole conds))
    refine ⟨C, R, fun o a1 a2 => ?_⟩
    rw [if_pos (a1.trans h1)]
    exact h { o with tag := T, tagDescription := D } a1 a2
  by_cases h2 : nb = 2
  · rcases conds with _ | ⟨c, _ | ⟨c', _ | ⟨c'', r⟩⟩⟩
    · refine ⟨cbk, .error .valueError, fun o a1 a2 => ?_⟩
      rw [if_neg (by rw [a1]; exact h1), if_pos (a1.trans h2), ← a2]
    · obtain ⟨C, R, h⟩ := addFilter2_parts (W := W) nb cbk (filterGeneric (Y := Y) c.holds) id
      refine ⟨C, R, fun o a1 a2 => ?_⟩
      rw [if_neg (by rw [a1]; exact h1), if_pos (a1.trans h2)]
      exact h { o with tag := T, tagDescription := D } a1 a2
    · obtain ⟨C, R, h⟩ := addFilter2_parts (W := W) nb cbk (filterGeneric (Y := Y) c.holds) (filterGeneric c'.holds)
      refine ⟨C, R, fun o a1 a2 => ?_⟩
      rw [if_neg (by rw [a1]; exact h1), if_pos (a1.trans h2)]
      exact h { o with tag := T, tagDescription := D } a1 a2
    · refine ⟨cbk, .error .valueError, fun o a1 a2 => ?_⟩
      rw [if_neg (by rw [a1]; exact h1), if_pos (a1.trans h2), ← a2]
  · refine ⟨cbk, .ok (), fun o a1 a2 => ?_⟩
    rw [if_neg (by rw [a1]; exact h1), if_neg (by rw [a1]; exact h2), ← a2]

theorem addWeight_parts {F : Type} (o : CorrAttr F W) (t d : Str) (C : List F) (trajectory : Option (List ℕ)) (field : Option Str)
    (fluct : Bool) :
    ∃ t' d', addWeight { o with tag := t, tagDescription := d, cbk := C } trajectory field fluct =
      ({ (addWeight o trajectory field fluct).1 with tag := t', tagDescription := d', cbk := C },
        (addWeight o trajectory field fluct).2) := by
  unfold addWeight
  by_cases h0 : trajectory = none ∧ field = none
  · rw [if_pos h0, if_pos h0]
    exact ⟨t, d, rfl⟩
  · rw [if_neg h0, if_neg h0]
    cases field with
    | none => exact ⟨t, d, rfl⟩
    | some fld =>
      have fin : ∀ u : CorrAttr F W, ∃ t' d', weightTags { u with tag := t, tagDescription := d, cbk := C } fld =
          { weightTags u fld with tag := t', tagDescription := d', cbk := C } := by
        intro u
        unfold weightTags
        exact ⟨_, _, rfl⟩
      cases trajectory with
      | none =>
        dsimp only [weightSource]
        rw [if_neg (by simp), if_neg (by simp)]
        obtain ⟨t', d', h⟩ := fin { o with
          weight := some [], weightFluctuations := fluct, weightField := some fld, weightSteps := some o.trajectory.steps }
        exact ⟨t', d', Prod.ext h rfl⟩
      | some s =>
        dsimp only [weightSource]
        by_cases hs : some s ≠ some o.trajectory.steps
        · rw [if_pos hs, if_pos hs]
          exact ⟨t, d, rfl⟩
        · rw [if_neg hs, if_neg hs]
          obtain ⟨t', d', h⟩ := fin { o with
            weight := some [], weightFluctuations := fluct, weightField := some fld, weightSteps := some s,
            trajectory := { o.trajectory with callbacks := o.trajectory.callbacks ++ [(fld, s)] } }
          exact ⟨t', d', Prod.ext h rfl⟩

theorem addWeight_nbodies {F : Type} (o : CorrAttr F W) (trajectory : Option (List ℕ)) (field : Option Str) (fluct : Bool) :
    (addWeight o trajectory field fluct).1.nbodies = o.nbodies ∧ (addWeight o trajectory field fluct).1.cbk = o.cbk := by
  unfold addWeight
  split_ifs with h
  · exact ⟨rfl, rfl⟩
  · cases field <;> cases trajectory <;> dsimp only [weightSource] <;> try split_ifs
    all_goals exact ⟨rfl, rfl⟩

/-- **C207**, what holds: filters and weights can be given in either order, the calculation is the same: both calls succeed in the
one order if and only if they do in the other, and the filters, the weights and the callbacks of the trajectory are the same. -/
theorem C207_calculation_partial (o : CorrAttr (System P Y → System P Y) W) (conds : List (Cond P)) (trajectory : Option (List ℕ))
    (field : Option Str) (fluct : Bool) :
    let fw := addWeight (applyFilter o conds).1 trajectory field fluct
    let wf := applyFilter (addWeight o trajectory field fluct).1 conds
    ((applyFilter o conds).2 = .ok () ∧ fw.2 = .ok () ↔ (addWeight o trajectory field fluct).2 = .ok () ∧ wf.2 = .ok ()) ∧
    fw.1.cbk = wf.1.cbk ∧ fw.1.weight = wf.1.weight ∧ fw.1.weightFluctuations = wf.1.weightFluctuations ∧
    fw.1.weightField = wf.1.weightField ∧ fw.1.weightSteps = wf.1.weightSteps ∧ fw.1.trajectory = wf.1.trajectory ∧
    fw.1.nbodies = wf.1.nbodies := by
  obtain ⟨C, R, h⟩ := applyFilter_parts (W := W) o.nbodies o.cbk conds
  obtain ⟨a1, a2⟩ := addWeight_nbodies o trajectory field fluct
  intro fw wf
  obtain ⟨t', d', hp⟩ := addWeight_parts o (filterTag (condText conds)) (condText conds) C trajectory field fluct
  have hfw : fw = addWeight { o with tag := filterTag (condText conds), tagDescription := condText conds, cbk := C }
      trajectory field fluct := by
    show addWeight _ _ _ _ = _
    rw [h o rfl rfl]
  have hwf : wf = ({ (addWeight o trajectory field fluct).1 with
      tag := filterTag (condText conds), tagDescription := condText conds, cbk := C }, R) := h _ a1 a2
  have hR : (applyFilter o conds).2 = R := by rw [h o rfl rfl]
  rw [hfw, hwf, hR, hp]
  exact ⟨and_comm, rfl, rfl, rfl, rfl, rfl, rfl, rfl⟩

/-- **C207** is false for the files: if the filter is given after the weight, the results are written to the file of the function
without weights, with the same description, whatever the weight. -/
theorem C207_counterexample_overwritten (o : CorrAttr (System P Y → System P Y) W) (conds : List (Cond P))
    (trajectory : Option (List ℕ)) (field : Option Str) (fluct : Bool) (path symbol : Str) :
    outputFile (defaultPath path symbol (applyFilter (addWeight o trajectory field fluct).1 conds).1.tag) =
      outputFile (defaultPath path symbol (applyFilter o conds).1.tag) ∧
    (applyFilter (addWeight o trajectory field fluct).1 conds).1.tagDescription = (applyFilter o conds).1.tagDescription := by
  obtain ⟨C, R, h⟩ := applyFilter_parts (W := W) o.nbodies o.cbk conds
  obtain ⟨a1, a2⟩ := addWeight_nbodies o trajectory field fluct
  rw [h o rfl rfl, h _ a1 a2]
  exact ⟨rfl, rfl⟩

/-- **C207** is false for the files: with the filter given first, the results are written to a file of their own, different from the
one used in the opposite order. -/
theorem C207_counterexample_order {dir name symbol : Str} (hd : IsDir dir) (hn : CleanName name) (hs : CleanName symbol)
    (o : CorrAttr (System P Y → System P Y) W) (conds : List (Cond P)) (ht : CleanName (filterTag (condText conds)))
    (trajectory : Option (List ℕ)) {field : Str} (hf : CleanName field) (fluct : Bool)
    (h : (addWeight (applyFilter o conds).1 trajectory (some field) fluct).2 = .ok ()) :
    outputFile (defaultPath (dir ++ name) symbol (addWeight (applyFilter o conds).1 trajectory (some field) fluct).1.tag) ≠
    outputFile (defaultPath (dir ++ name) symbol (applyFilter (addWeight o trajectory (some field) fluct).1 conds).1.tag) := by
  have htag : (applyFilter o conds).1.tag = filterTag (condText conds) := by
    obtain ⟨C, R, h⟩ := applyFilter_parts (W := W) o.nbodies o.cbk conds
    rw [h o rfl rfl]
  rw [(C207_counterexample_overwritten o conds trajectory (some field) fluct _ _).1,
    C179_file_partial hd hn hs _ (Or.inr (htag ▸ ht)) trajectory hf fluct h]
  intro e
  have := congrArg List.length e
  simp at this

/-- Weights by the radius of the particles of species A, in either order. -/
example : let o : CorrAttr (System ℕ Unit → System ℕ Unit) Unit := .init _ _ 1 ⟨[0, 10, 20], []⟩
    let c : List (Cond ℕ) := [⟨"species == \"A\"".toList, fun p => p == 1⟩]
    CleanName (filterTag (condText c)) ∧ CleanName "radius".toList ∧
    (addWeight (applyFilter o c).1 none (some "radius".toList) false).2 = .ok () ∧
    outputFile (defaultPath "t.xyz".toList "sk".toList (addWeight (applyFilter o c).1 none (some "radius".toList) false).1.tag)
      = "t.xyz.pp.sk.speciesA.radius".toList ∧
    outputFile (defaultPath "t.xyz".toList "sk".toList (applyFilter (addWeight o none (some "radius".toList) false).1 c).1.tag)
      = "t.xyz.pp.sk.speciesA".toList := by
  refine ⟨?_, ?_, ?_, ?_, ?_⟩ <;> decide +kernel

end PP.Props
