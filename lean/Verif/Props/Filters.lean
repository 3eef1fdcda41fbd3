import Verif.Model.Object
import Mathlib.Tactic.Linarith

/-!
# C60, C62, C85: filters
-/

set_option linter.unusedSectionVars false

namespace PP.Props
open PP

section
variable {F W : Type}

/-- **C60** is false: whatever the number of bodies, `nbodies + 1` filters are accepted, one more than allowed. -/
theorem C60_counterexample (nbodies : ℕ) (t : WTraj) (f : F) :
    let r := addFilters (CorrAttr.init F W nbodies t) (List.replicate (nbodies + 1) f)
    (∀ x ∈ r.2, x = .ok ()) ∧ r.1.cbk.length > r.1.nbodies ∧ r.1.nbodies = nbodies := by
  have key : ∀ (k : ℕ) (o : CorrAttr F W), o.cbk.length + k ≤ o.nbodies + 1 →
      (∀ x ∈ (addFilters o (List.replicate k f)).2, x = .ok ()) ∧
      (addFilters o (List.replicate k f)).1.cbk.length = o.cbk.length + k ∧
      (addFilters o (List.replicate k f)).1.nbodies = o.nbodies := by
    intro k
    induction k with
    | zero => intro o _; simp [addFilters]
    | succ k ih =>
      intro o ho
      have h1 : addFilter o f = ({ o with cbk := o.cbk ++ [f] }, .ok ()) := by
        unfold addFilter; rw [if_neg (by omega)]
      obtain ⟨a, b, c⟩ := ih { o with cbk := o.cbk ++ [f] } (by simp; omega)
      simp only [List.replicate_succ, addFilters, h1]
      refine ⟨?_, ?_, ?_⟩
      · intro x hx
        rcases List.mem_cons.mp hx with h | h
        · exact h
        · exact a x h
      · rw [b]; simp; omega
      · rw [c]
  obtain ⟨a, b, c⟩ := key (nbodies + 1) (CorrAttr.init F W nbodies t) (by simp [CorrAttr.init])
  refine ⟨a, ?_, c⟩
  rw [b, c]
  simp [CorrAttr.init]

/-- **C60**, what holds: after any sequence of calls, successful or not, there are at most `nbodies + 1` filters,
those of the successful calls in order; a refused call leaves the object as it was. -/
theorem C60_bound_partial (o : CorrAttr F W) (ho : o.cbk.length ≤ o.nbodies + 1) (fs : List F) :
    (addFilters o fs).1.cbk.length ≤ o.nbodies + 1 ∧
    (addFilters o fs).1 = { o with cbk := o.cbk ++ fs.take (o.nbodies + 1 - o.cbk.length) } ∧
    ∀ i (h : i < (addFilters o fs).2.length), (addFilters o fs).2[i] =
      if o.cbk.length + i ≤ o.nbodies then .ok () else .error .valueError := by
  have key : (addFilters o fs).1 = { o with cbk := o.cbk ++ fs.take (o.nbodies + 1 - o.cbk.length) } ∧
      ∀ i (h : i < (addFilters o fs).2.length), (addFilters o fs).2[i] =
      if o.cbk.length + i ≤ o.nbodies then .ok () else .error .valueError := by
    induction fs generalizing o with
    | nil => simp [addFilters]
    | cons f fs ih =>
      by_cases hl : o.cbk.length > o.nbodies
      · have h1 : addFilter o f = (o, .error .valueError) := by unfold addFilter; rw [if_pos hl]
        have h0 : o.nbodies + 1 - o.cbk.length = 0 := by omega
        obtain ⟨a, b⟩ := ih o ho
        refine ⟨?_, ?_⟩
        · simp only [addFilters, h1, a, h0, List.take_zero]
        · intro i hi
          simp only [addFilters, h1] at hi ⊢
          cases i with
          | zero => rw [if_neg (by omega)]; rfl
          | succ i =>
            rw [List.getElem_cons_succ, b i (by simpa using hi), if_neg (by omega), if_neg (by omega)]
      · have h1 : addFilter o f = ({ o with cbk := o.cbk ++ [f] }, .ok ()) := by
          unfold addFilter; rw [if_neg hl]
        obtain ⟨a, b⟩ := ih { o with cbk := o.cbk ++ [f] } (by simp; omega)
        refine ⟨?_, ?_⟩
        · simp only [addFilters, h1, a, List.length_append, List.length_singleton]
          have : o.nbodies + 1 - o.cbk.length = (o.nbodies + 1 - (o.cbk.length + 1)) + 1 := by omega
          rw [this, List.take_succ_cons]
          simp
        · intro i hi
          simp only [addFilters, h1] at hi ⊢
          cases i with
          | zero => rw [if_pos (by omega)]; rfl
          | succ i =>
            rw [List.getElem_cons_succ, b i (by simpa using hi)]
            simp only [List.length_append, List.length_singleton]
            congr 1
            simp only [eq_iff_iff]
            omega
  refine ⟨?_, key⟩
  rw [key.1]
  simp only [List.length_append, List.length_take]
  omega

/-- Five calls for a two-body function: three are accepted. -/
example : (addFilters (CorrAttr.init ℕ ℕ 2 ⟨[], []⟩) [10, 20, 30, 40, 50]).1.cbk = [10, 20, 30] ∧
    (addFilters (CorrAttr.init ℕ ℕ 2 ⟨[], []⟩) [10, 20, 30, 40, 50]).2 =
      [.ok (), .ok (), .ok (), .error .valueError, .error .valueError] := ⟨rfl, rfl⟩

end

section
variable {P Y W D : Type}

/-- **C60**, consequence: the filter in excess is ignored by the arrays of one-body and two-body functions. -/
theorem C60_counterexample_ignored (dump : System P Y → D) (traj : List (System P Y))
    (f g h : System P Y → System P Y) :
    onebodyArrays [f, g] dump traj = onebodyArrays [f] dump traj ∧
    twobodyArrays [f, g, h] dump traj = twobodyArrays [f, g] dump traj := ⟨rfl, rfl⟩

/-- **C60**, consequence: if there are weights, a two-body function with a filter in excess raises `NameError`. -/
theorem C60_counterexample_weight (dump : System P Y → D) (s : System P Y) (traj : List (System P Y))
    (f g h : System P Y → System P Y) : weightTwobody [f, g, h] dump (s :: traj) = .error .nameError := rfl

/-! ### C62 -/

/-- **C62**: two-body function without filters, one condition: the first group is that of the selected particles, the
second contains all of them. -/
theorem C62_one_condition (o : CorrAttr (System P Y → System P Y) W) (hn : o.nbodies = 2) (ho : o.cbk = [])
    (c : Cond P) (get : P → D) (traj : List (System P Y)) :
    (applyFilter o [c]).2 = .ok () ∧
    twobodyArrays (applyFilter o [c]).1.cbk (fun s => s.particle.map get) traj =
      traj.map fun s => ((s.particle.filter c.holds).map get, s.particle.map get) := by
  simp [applyFilter, addFilter2, addFilter, hn, ho, twobodyArrays, filterGeneric]

/-- **C62**: two-body function without filters, two conditions: each selects one group. -/
theorem C62_two_conditions (o : CorrAttr (System P Y → System P Y) W) (hn : o.nbodies = 2) (ho : o.cbk = [])
    (c d : Cond P) (get : P → D) (traj : List (System P Y)) :
    (applyFilter o [c, d]).2 = .ok () ∧
    twobodyArrays (applyFilter o [c, d]).1.cbk (fun s => s.particle.map get) traj =
      traj.map fun s => ((s.particle.filter c.holds).map get, (s.particle.filter d.holds).map get) := by
  simp [applyFilter, addFilter2, addFilter, hn, ho, twobodyArrays, filterGeneric]

/-- **C62**: two-body function, more than two conditions: refused and the filters are not changed. -/
theorem C62_too_many (o : CorrAttr (System P Y → System P Y) W) (hn : o.nbodies = 2) (conds : List (Cond P))
    (h : 2 < conds.length) : (applyFilter o conds).2 = .error .valueError ∧ (applyFilter o conds).1.cbk = o.cbk := by
  match conds, h with
  | a :: b :: c :: l, _ => simp [applyFilter, hn]

/-- **C62**: one-body function without filters, one condition: the particles used are those selected. -/
theorem C62_one_body_partial (o : CorrAttr (System P Y → System P Y) W) (hn : o.nbodies = 1) (ho : o.cbk = [])
    (c : Cond P) (get : P → D) (traj : List (System P Y)) :
    (applyFilter o [c]).2 = .ok () ∧
    onebodyArrays (applyFilter o [c]).1.cbk (fun s => s.particle.map get) traj =
      traj.map fun s => (s.particle.filter c.holds).map get := by
  simp only [applyFilter, addFilter, hn, ho, if_true, List.length_nil]
  rw [if_neg (by omega)]
  simp only [onebodyArrays, filterGeneric, List.nil_append, true_and]
  rfl

/-- **C62** is false for one-body functions and several conditions: they are not refused, and all the particles are
used whatever the conditions. -/
theorem C62_counterexample_one_body (o : CorrAttr (System P Y → System P Y) W) (hn : o.nbodies = 1) (ho : o.cbk = [])
    (c d : Cond P) (conds : List (Cond P)) (get : P → D) (traj : List (System P Y)) :
    (applyFilter o (c :: d :: conds)).2 = .ok () ∧
    onebodyArrays (applyFilter o (c :: d :: conds)).1.cbk (fun s => s.particle.map get) traj =
      onebodyArrays [] (fun s => s.particle.map get) traj := by
  simp only [applyFilter, addFilter, hn, ho, if_true, List.length_nil]
  rw [if_neg (by omega)]
  simp only [onebodyArrays, filterGeneric, List.nil_append, true_and]
  apply List.map_congr_left
  intro s _
  congr 1
  exact List.filter_eq_self.mpr (fun p _ => rfl)

/-- A refused condition has already changed the tags, hence the name of the output file. -/
theorem C62_counterexample_tag (o : CorrAttr (System P Y → System P Y) W) (hn : o.nbodies = 2)
    (conds : List (Cond P)) (h : 2 < conds.length) :
    (applyFilter o conds).2 = .error .valueError ∧
    (applyFilter o conds).1.tagDescription = List.intercalate [','] (conds.map Cond.text) ∧
    (applyFilter o conds).1.tag = filterTag (List.intercalate [','] (conds.map Cond.text)) := by
  match conds, h with
  | a :: b :: c :: l, _ => exact ⟨by simp [applyFilter, hn], by simp [applyFilter, hn, condText, pyJoin],
      by simp [applyFilter, hn, condText, pyJoin]⟩

/-- Three conditions: the tags remain. -/
example : String.ofList (applyFilter (CorrAttr.init (System ℕ Unit → System ℕ Unit) ℕ 2 ⟨[], []⟩)
      [⟨"x<2".toList, fun p => decide (p < 2)⟩, ⟨"x>1".toList, fun p => decide (p > 1)⟩,
        ⟨"x==1".toList, fun p => decide (p = 1)⟩]).1.tagDescription = "x<2,x>1,x==1" := by decide +kernel

/-- Three particles of which the first condition selects two and the second one. -/
example : twobodyArrays (applyFilter (CorrAttr.init (System ℕ Unit → System ℕ Unit) ℕ 2 ⟨[], []⟩)
      [⟨"x<2".toList, fun p => decide (p < 2)⟩, ⟨"x>1".toList, fun p => decide (p > 1)⟩]).1.cbk
      (fun s => s.particle.map (· + 10)) [⟨[0, 1, 2], ()⟩] = [([10, 11], [12])] ∧
    onebodyArrays (applyFilter (CorrAttr.init (System ℕ Unit → System ℕ Unit) ℕ 1 ⟨[], []⟩)
      [⟨"x<2".toList, fun p => decide (p < 2)⟩, ⟨"x>1".toList, fun p => decide (p > 1)⟩]).1.cbk
      (fun s => s.particle.map (· + 10)) [⟨[0, 1, 2], ()⟩] = [[10, 11, 12]] := by decide +kernel

/-! ### C85 -/

/-- **C85** is false for one-body functions: a second `Filter` is accepted, changes the tags, and the particles used
are still those selected by the first. -/
theorem C85_counterexample_one_body (o : CorrAttr (System P Y → System P Y) W) (hn : o.nbodies = 1) (ho : o.cbk = [])
    (c d : Cond P) (get : P → D) (traj : List (System P Y)) :
    let r := applyFilter (applyFilter o [c]).1 [d]
    r.2 = .ok () ∧ r.1.tagDescription = d.text ∧
    onebodyArrays r.1.cbk (fun s => s.particle.map get) traj =
      traj.map fun s => (s.particle.filter c.holds).map get := by
  have h1 : (applyFilter o [c]).1 = { o with
      tag := filterTag (condText [c]), tagDescription := condText [c], cbk := [filterGeneric (evalWhole [c])] } := by
    simp [applyFilter, addFilter, hn, ho]
  rw [h1]
  simp only [applyFilter, addFilter, hn, if_true, List.length_singleton, gt_iff_lt, lt_irrefl, if_false, true_and]
  refine ⟨?_, ?_⟩
  · simp [condText, pyJoin, List.intercalate]
  · simp only [onebodyArrays, filterGeneric, List.cons_append, List.nil_append]
    rfl

/-- **C85** for two-body functions: a second `Filter` raises, and leaves on the object the tags of the second
condition and the groups of the first. -/
theorem C85_counterexample_two_body (o : CorrAttr (System P Y → System P Y) W) (hn : o.nbodies = 2) (ho : o.cbk = [])
    (c d : Cond P) (get : P → D) (traj : List (System P Y)) :
    let r := applyFilter (applyFilter o [c]).1 [d]
    r.2 = .error .valueError ∧ r.1.tagDescription = d.text ∧
    twobodyArrays r.1.cbk (fun s => s.particle.map get) traj =
      traj.map fun s => ((s.particle.filter c.holds).map get, s.particle.map get) := by
  have h1 : (applyFilter o [c]).1 = { o with
      tag := filterTag (condText [c]), tagDescription := condText [c], cbk := [filterGeneric c.holds, id] } := by
    simp [applyFilter, addFilter2, addFilter, hn, ho]
  rw [h1]
  refine ⟨?_, ?_, ?_⟩
  · simp [applyFilter, addFilter2, addFilter, hn]
  · simp [applyFilter, addFilter2, addFilter, hn, condText, pyJoin, List.intercalate]
  · simp [applyFilter, addFilter2, addFilter, hn, twobodyArrays, filterGeneric]

/-- Particles 0, 1, 2 filtered by `x > 0` and then by `x < 2`: particle 2 is still used. -/
example : onebodyArrays (applyFilter (applyFilter (CorrAttr.init (System ℕ Unit → System ℕ Unit) ℕ 1 ⟨[], []⟩)
      [⟨"x>0".toList, fun p => decide (p > 0)⟩]).1 [⟨"x<2".toList, fun p => decide (p < 2)⟩]).1.cbk
      (fun s => s.particle) [⟨[0, 1, 2], ()⟩] = [[1, 2]] := by decide +kernel

end

end PP.Props
