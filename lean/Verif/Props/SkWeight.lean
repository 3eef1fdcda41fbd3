import Verif.Model.SkWeight

/-!
# C180: the weights of the command `sk` apply to all files
-/

namespace PP.Props
open PP

/-- What is expected of an object of the trajectory with the given steps. -/
def Weighted (field : Str) (fluct : Bool) (steps : List ℕ) (o : CorrAttr Unit Unit) : Prop :=
  o.weight.isSome = true ∧ o.weightField = some field ∧ o.weightFluctuations = fluct ∧ o.weightSteps = some steps ∧
    o.trajectory.steps = steps

instance (field : Str) (fluct : Bool) (steps : List ℕ) (o : CorrAttr Unit Unit) : Decidable (Weighted field fluct steps o) := by
  unfold Weighted; infer_instance

theorem addWeight_new (n : ℕ) (t : WTraj) (w : Option (List ℕ)) (hw : w = none ∨ w = some t.steps) (field : Str)
    (fluct : Bool) :
    ∃ o, addWeight (CorrAttr.init Unit Unit n t) w (some field) fluct = (o, .ok ()) ∧ Weighted field fluct t.steps o := by
  unfold addWeight
  rw [if_neg (by simp)]
  rcases hw with rfl | rfl
  · simp only [weightSource, ne_eq, CorrAttr.init, not_true_eq_false, if_false]
    exact ⟨_, rfl, rfl, rfl, rfl, rfl, rfl⟩
  · simp only [weightSource, ne_eq, CorrAttr.init, not_true_eq_false, if_false]
    exact ⟨_, rfl, rfl, rfl, rfl, rfl, rfl⟩

theorem partial_weights (steps : List ℕ) (w : Option (List ℕ)) (hw : w = none ∨ w = some steps) (field : Str)
    (fluct : Bool) (n : ℕ) : ∀ t : WTraj, t.steps = steps →
    ∃ os, skPartialWeights w (some field) fluct n t = (os, .ok ()) ∧ os.length = n ∧
      ∀ o ∈ os, Weighted field fluct steps o := by
  induction n with
  | zero => intro t _; exact ⟨[], rfl, rfl, by simp⟩
  | succ n ih =>
    intro t ht
    obtain ⟨o, h1, h2⟩ := addWeight_new 2 t w (by rw [ht]; exact hw) field fluct
    obtain ⟨os, h3, h4, h5⟩ := ih o.trajectory (h2.2.2.2.2.trans ht)
    refine ⟨o :: os, ?_, by simp [h4], ?_⟩
    · simp only [skPartialWeights, h1, h3]
    · intro x hx
      rcases List.mem_cons.1 hx with rfl | hx
      · rw [← ht]; exact h2
      · exact h5 x hx

/-- The total function and, with several species, one for each pair of them. -/
def skCount (f : SkFile) : ℕ := if f.nspecies > 1 then 1 + f.nspecies * f.nspecies else 1

theorem file_weights (files : Str → Py (List ℕ)) (field : Str) (fluct : Bool) (a a' : Option WeightArg)
    (w : Option (List ℕ)) (f : SkFile) (ha : skOpenWeight files a = .ok (a', w)) (hw : w = none ∨ w = some f.steps) :
    ∃ os, skFileWeights files (some field) fluct a f = (os, .ok a') ∧ os.length = skCount f ∧
      ∀ o ∈ os, Weighted field fluct f.steps o := by
  obtain ⟨o, h1, h2⟩ := addWeight_new 2 ⟨f.steps, []⟩ w hw field fluct
  obtain ⟨os, h3, h4, h5⟩ := partial_weights f.steps w hw field fluct (f.nspecies * f.nspecies) o.trajectory h2.2.2.2.2
  unfold skFileWeights skCount
  simp only [ha, h1, h3]
  split
  · refine ⟨o :: os, rfl, by simp [h4]; omega, ?_⟩
    intro x hx
    rcases List.mem_cons.1 hx with rfl | hx
    · exact h2
    · exact h5 x hx
  · refine ⟨[o], rfl, rfl, ?_⟩
    intro x hx
    rw [List.mem_singleton] at hx
    rw [hx]
    exact h2

/-- **C180, what holds**: weights that are a property of the particles of the trajectory are used for all files, in the
total and partial functions. -/
theorem C180_own_partial (files : Str → Py (List ℕ)) (field : Str) (fluct : Bool) (l : List SkFile) :
    ∃ os, skWeights files (some field) fluct none l = (os, .ok ()) ∧ os.length = l.length ∧
      ∀ (i : ℕ) (f : SkFile) (x : List (CorrAttr Unit Unit)), l[i]? = some f → os[i]? = some x →
        x.length = skCount f ∧ ∀ o ∈ x, Weighted field fluct f.steps o := by
  induction l with
  | nil => exact ⟨[], rfl, rfl, by simp⟩
  | cons f l ih =>
    obtain ⟨os, h1, h2, h3⟩ := ih
    obtain ⟨x, h4, h5, h6⟩ := file_weights files field fluct none none none f rfl (Or.inl rfl)
    refine ⟨x :: os, ?_, by simp [h2], ?_⟩
    · simp only [skWeights, h4, h1]
    · intro i g y hi hy
      cases i with
      | zero =>
        cases hi
        cases hy
        exact ⟨h5, h6⟩
      | succ i => exact h3 i g y hi hy

/-- **C180, what holds**: with a single file and a weight trajectory with the same steps, the weights are used in the
total and partial functions. -/
theorem C180_one_file_partial (files : Str → Py (List ℕ)) (field : Str) (fluct : Bool) (p : Str) (f : SkFile)
    (hp : files p = .ok f.steps) :
    ∃ os, skWeights files (some field) fluct (some (.path p)) [f] = ([os], .ok ()) ∧ os.length = skCount f ∧
      ∀ o ∈ os, Weighted field fluct f.steps o := by
  have ha : skOpenWeight files (some (.path p)) = .ok (some (.traj f.steps), some f.steps) := by
    simp only [skOpenWeight, openXYZ, hp]
    rfl
  obtain ⟨x, h4, h5, h6⟩ := file_weights files field fluct _ _ _ f ha (Or.inr rfl)
  refine ⟨x, ?_, h5, h6⟩
  simp only [skWeights, h4]

/-- **C180** is false: with a weight trajectory and two files or more, only the first one is computed, then `TypeError` is
raised, since the name of the weight trajectory has been replaced by the trajectory. -/
theorem C180_counterexample_files (files : Str → Py (List ℕ)) (field : Str) (fluct : Bool) (p : Str) (f g : SkFile)
    (l : List SkFile) (hp : files p = .ok f.steps) :
    ∃ os, skWeights files (some field) fluct (some (.path p)) (f :: g :: l) = ([os, []], .error .typeError) ∧
      os.length = skCount f := by
  have ha : skOpenWeight files (some (.path p)) = .ok (some (.traj f.steps), some f.steps) := by
    simp only [skOpenWeight, openXYZ, hp]
    rfl
  obtain ⟨x, h4, h5, -⟩ := file_weights files field fluct _ _ _ f ha (Or.inr rfl)
  refine ⟨x, ?_, h5⟩
  have hb : skFileWeights files (some field) fluct (some (.traj f.steps)) g = ([], .error .typeError) := by
    simp only [skFileWeights, skOpenWeight, openXYZ, bind, Except.bind]
  simp only [skWeights, h4, hb]

/-- Two files with the same steps, the second with two species. -/
example : let files : Str → Py (List ℕ) := fun p => if p = "w.xyz".toList then .ok [0, 5] else .error .fileNotFound
    ((skWeights files (some "c".toList) true none [⟨[0, 5], 1⟩, ⟨[0, 5], 2⟩]).1.map List.length = [1, 5] ∧
    (skWeights files (some "c".toList) true none [⟨[0, 5], 1⟩, ⟨[0, 5], 2⟩]).2 = .ok () ∧
    (skWeights files (some "c".toList) true (some (.path "w.xyz".toList)) [⟨[0, 5], 2⟩]).2 = .ok () ∧
    (skWeights files (some "c".toList) true (some (.path "w.xyz".toList)) [⟨[0, 5], 2⟩, ⟨[0, 5], 1⟩]).2
      = .error .typeError) := by
  refine ⟨by decide +kernel, by decide +kernel, by decide +kernel, by decide +kernel⟩

end PP.Props
