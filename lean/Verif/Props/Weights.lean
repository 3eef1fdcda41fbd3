import Verif.Model.Object
import Mathlib.Tactic.Linarith
import Mathlib.Tactic.FieldSimp
import Mathlib.Tactic.Ring
import Mathlib.Tactic.NormNum
import Mathlib.Algebra.CharZero.Defs
import Mathlib.Algebra.Order.Ring.Rat
import Mathlib.Algebra.BigOperators.Group.List.Basic

/-!
# C67, C68: weights
-/

set_option linter.unusedSectionVars false

namespace PP.Props
open PP

section
variable {F W : Type}

/-- **C67**: with neither trajectory nor field nothing happens. -/
theorem C67_nothing (o : CorrAttr F W) (fluct : Bool) : addWeight o none none fluct = (o, .ok ()) := by
  simp [addWeight]

/-- **C67**: `add_weight` raises exactly when a trajectory is given without a field, or when the steps of the
trajectory differ. -/
theorem C67_raises_iff (o : CorrAttr F W) (trajectory : Option (List ℕ)) (field : Option Str) (fluct : Bool) :
    (addWeight o trajectory field fluct).2 = .error .valueError ↔
      ∃ steps, trajectory = some steps ∧ (field = none ∨ steps ≠ o.trajectory.steps) := by
  cases trajectory <;> cases field <;> simp [addWeight, weightSource]
  split_ifs <;> simp_all

/-- **C67** is false, whatever the state of the object: when `add_weight` raises, the weights that the object had
have been replaced by an empty list (with no weights, `_weight` was `None`). -/
theorem C67_counterexample (o : CorrAttr F W) (trajectory : Option (List ℕ)) (field : Option Str) (fluct : Bool)
    (h : (addWeight o trajectory field fluct).2 = .error .valueError) :
    (addWeight o trajectory field fluct).1.weight = some [] := by
  cases trajectory <;> cases field <;> simp_all [addWeight, weightSource]
  split_ifs <;> simp_all

/-- **C67** is false: after a call refused because of the steps, the field of the refused trajectory is still copied
on the particles, also by a later call, not refused, which asks for the field of the trajectory itself. -/
theorem C67_counterexample_history (o : CorrAttr F W) (steps : List ℕ) (h : steps ≠ o.trajectory.steps) (field : Str)
    (fluct fluct' : Bool) :
    let r := addWeight (addWeight o (some steps) (some field) fluct).1 none (some field) fluct'
    (addWeight o (some steps) (some field) fluct).2 = .error .valueError ∧ r.2 = .ok () ∧
    r.1.weightSteps = some o.trajectory.steps ∧
    r.1.trajectory.callbacks = o.trajectory.callbacks ++ [(field, steps)] := by
  have h1 : addWeight o (some steps) (some field) fluct = (({ o with
      weight := some [], weightFluctuations := fluct, weightField := some field, weightSteps := some steps,
      trajectory := { o.trajectory with callbacks := o.trajectory.callbacks ++ [(field, steps)] } } : CorrAttr F W),
      .error .valueError) := by
    simp [addWeight, weightSource, h]
  rw [h1]
  simp [addWeight, weightSource, weightTags]

/-- **C67**, what holds: when `add_weight` does not raise and something was given, the weights are reset, the field
and the source are those requested and the filters are unchanged. -/
theorem C67_accepted_partial (o : CorrAttr F W) (trajectory : Option (List ℕ)) (field : Str) (fluct : Bool)
    (h : ∀ steps, trajectory = some steps → steps = o.trajectory.steps) :
    let r := addWeight o trajectory (some field) fluct
    r.2 = .ok () ∧ r.1.weight = some [] ∧ r.1.weightFluctuations = fluct ∧ r.1.weightField = some field ∧
    r.1.weightSteps = some o.trajectory.steps ∧ r.1.cbk = o.cbk ∧ r.1.nbodies = o.nbodies ∧
    r.1.trajectory.callbacks = o.trajectory.callbacks ++ (trajectory.toList.map fun s => (field, s)) ∧
    r.1.tag = o.tag ++ ".".toList ++ field ++ "_".toList ++ (if fluct then "fluctuations".toList else []) := by
  have key : addWeight o trajectory (some field) fluct = (weightTags (weightSource ({ o with
      weight := some [], weightFluctuations := fluct, weightField := some field } : CorrAttr F W) trajectory field)
      field, .ok ()) := by
    cases trajectory with
    | none => simp [addWeight, weightSource]
    | some s => rw [h s rfl]; simp [addWeight, weightSource]
  rw [key]
  cases trajectory with
  | none =>
    refine ⟨rfl, rfl, rfl, rfl, rfl, rfl, rfl, ?_, rfl⟩
    simp [weightTags, weightSource]
  | some s =>
    rw [h s rfl]
    exact ⟨rfl, rfl, rfl, rfl, rfl, rfl, rfl, rfl, rfl⟩

/-- A trajectory with steps 0, 1 and a weight trajectory with steps 0, 2. -/
example : (addWeight (CorrAttr.init ℕ ℕ 1 ⟨[0, 1], []⟩) (some [0, 2]) (some "q".toList) false).2
      = .error .valueError ∧
    (addWeight (CorrAttr.init ℕ ℕ 1 ⟨[0, 1], []⟩) (some [0, 2]) (some "q".toList) false).1.weight = some [] ∧
    (CorrAttr.init ℕ ℕ 1 ⟨[0, 1], []⟩).weight = none := by decide +kernel

end

/-! ### C68 -/

section
variable {K : Type} [Field K]

/-- Average over the frames of the average over the particles. -/
def frameAverage (w : List (List K)) : K := (w.map fun l => l.sum / (l.length : K)).sum / (w.length : K)

theorem subtractMean_foldl (w : List (List K)) (hw : ∀ l ∈ w, l ≠ []) (c : K) :
    (w.map NpArr.float).foldl (fun m f => nanAdd m (NpArr.mean f)) (some c) =
      some (c + (w.map fun l => l.sum / (l.length : K)).sum) := by
  induction w generalizing c with
  | nil => simp
  | cons l w ih =>
    have hl : l ≠ [] := hw l (by simp)
    obtain ⟨x, l', rfl⟩ := List.exists_cons_of_ne_nil hl
    simp only [List.map_cons, List.foldl_cons]
    have h1 : nanAdd (some c) (NpArr.float (x :: l')).mean
        = some (c + (x :: l').sum / ((x :: l').length : K)) := rfl
    rw [h1, ih (fun l hl => hw l (by simp [hl]))]
    simp only [List.sum_cons]
    rw [add_assoc]

theorem subtractMean_float (w : List (List K)) (h0 : w ≠ []) (hw : ∀ l ∈ w, l ≠ []) :
    subtractMean (w.map NpArr.float) = .ok (w.map fun l => l.map fun x => some (x - frameAverage w)) := by
  have hne : w.map (NpArr.float (K := K)) ≠ [] := by simpa using h0
  unfold subtractMean
  rw [if_neg hne]
  simp only [subtractMean_foldl w hw, zero_add, Option.map_some, List.length_map]
  have hm : ∀ v : List (List K), (v.map NpArr.float).mapM (NpArr.subInPlace
      (some ((w.map fun l => l.sum / (l.length : K)).sum / (w.length : K)))) =
      (Except.ok (v.map fun l => l.map fun x => some (x - frameAverage w)) : Py _) := by
    intro v
    induction v with
    | nil => rfl
    | cons l v ih =>
      rw [List.map_cons, List.mapM_cons, ih]
      rfl
  exact hm w

theorem sum_sub_const (l : List K) (c : K) : (l.map fun x => x - c).sum = l.sum - l.length * c := by
  induction l with
  | nil => simp
  | cons x l ih => simp only [List.map_cons, List.sum_cons, ih, List.length_cons]; push_cast; ring

/-- **C68**: for a field of floats, the fluctuations have zero average, the average being taken over the particles of
each frame first and over the frames then. -/
theorem C68_zero_mean [CharZero K] (w : List (List K)) (h0 : w ≠ []) (hw : ∀ l ∈ w, l ≠ []) :
    ∃ w' : List (List K), subtractMean (w.map NpArr.float) = .ok (w'.map fun l => l.map some) ∧
      w'.map List.length = w.map List.length ∧ frameAverage w' = 0 := by
  refine ⟨w.map fun l => l.map fun x => x - frameAverage w, ?_, ?_, ?_⟩
  · rw [subtractMean_float w h0 hw]
    simp [Function.comp_def]
  · simp [Function.comp_def]
  · have hl : (w.length : K) ≠ 0 := by
      have : w.length ≠ 0 := by simpa using h0
      exact_mod_cast this
    have key : ∀ (v : List (List K)) (c : K), (∀ l ∈ v, l ≠ []) →
        ((v.map fun l => l.map fun x => x - c).map fun l => l.sum / (l.length : K)).sum
        = (v.map fun l => l.sum / (l.length : K)).sum - v.length * c := by
      intro v c hv
      induction v with
      | nil => simp
      | cons l v ih =>
        have hn : (l.length : K) ≠ 0 := by
          have : l.length ≠ 0 := by simpa using hv l (by simp)
          exact_mod_cast this
        simp only [List.map_cons, List.sum_cons, ih (fun l hl => hv l (by simp [hl])), sum_sub_const, List.length_map,
          List.length_cons]
        push_cast
        field_simp
        ring
    unfold frameAverage
    rw [key w _ hw, List.length_map]
    field_simp
    ring

/-- **C68**: if all the frames have the same number of particles, the fluctuations add up to zero over all the
particles of all the frames. -/
theorem C68_zero_sum [CharZero K] (w : List (List K)) (h0 : w ≠ []) (n : ℕ) (hn : 0 < n)
    (hw : ∀ l ∈ w, l.length = n) :
    ∃ w' : List (List K), subtractMean (w.map NpArr.float) = .ok (w'.map fun l => l.map some) ∧
      w'.map List.length = w.map List.length ∧ w'.flatten.sum = 0 := by
  have hne : ∀ l ∈ w, l ≠ [] := by
    intro l hl h
    have := hw l hl
    rw [h] at this
    simp at this
    omega
  obtain ⟨w', h1, h2, h3⟩ := C68_zero_mean w h0 hne
  refine ⟨w', h1, h2, ?_⟩
  have hw' : ∀ l ∈ w', l.length = n := by
    intro l hl
    have : l.length ∈ w'.map List.length := List.mem_map_of_mem hl
    rw [h2] at this
    obtain ⟨l', hl', he⟩ := List.mem_map.mp this
    rw [← he]; exact hw l' hl'
  have hlen : w'.length = w.length := by simpa using congrArg List.length h2
  have hwl : (w'.length : K) ≠ 0 := by
    have : w.length ≠ 0 := by simpa using h0
    rw [hlen]
    exact_mod_cast this
  have hnk : (n : K) ≠ 0 := by exact_mod_cast hn.ne'
  have key : ∀ v : List (List K), (∀ l ∈ v, l.length = n) →
      (v.map fun l => l.sum / (l.length : K)).sum = v.flatten.sum / n := by
    intro v hv
    induction v with
    | nil => simp
    | cons l v ih =>
      simp only [List.map_cons, List.sum_cons, List.flatten_cons, List.sum_append, hv l (by simp),
        ih (fun l hl => hv l (by simp [hl]))]
      rw [add_div]
  unfold frameAverage at h3
  rw [key w' hw'] at h3
  rcases div_eq_zero_iff.mp h3 with h | h
  · rcases div_eq_zero_iff.mp h with h | h
    · exact h
    · exact absurd h hnk
  · exact absurd h hwl

/-- **C68**: adding a constant to the field changes nothing. -/
theorem C68_shift [CharZero K] (w : List (List K)) (h0 : w ≠ []) (hw : ∀ l ∈ w, l ≠ []) (c : K) :
    subtractMean ((w.map fun l => l.map fun x => x + c).map NpArr.float) = subtractMean (w.map NpArr.float) := by
  have hw1 : ∀ l ∈ w.map (fun l => l.map fun x => x + c), l ≠ [] := by
    intro l hl
    obtain ⟨l', hl', rfl⟩ := List.mem_map.mp hl
    simpa using hw l' hl'
  rw [subtractMean_float _ (by simpa using h0) hw1, subtractMean_float w h0 hw]
  have hl : (w.length : K) ≠ 0 := by
    have : w.length ≠ 0 := by simpa using h0
    exact_mod_cast this
  have key : ∀ v : List (List K), (∀ l ∈ v, l ≠ []) →
      ((v.map fun l => l.map fun x => x + c).map fun l => l.sum / (l.length : K)).sum
      = (v.map fun l => l.sum / (l.length : K)).sum + v.length * c := by
    intro v hv
    induction v with
    | nil => simp
    | cons l v ih =>
      have hn : (l.length : K) ≠ 0 := by
        have : l.length ≠ 0 := by simpa using hv l (by simp)
        exact_mod_cast this
      have := sum_sub_const l (-c)
      simp only [sub_neg_eq_add] at this
      simp only [List.map_cons, List.sum_cons, ih (fun l hl => hv l (by simp [hl])), this, List.length_map,
        List.length_cons]
      push_cast
      field_simp
      ring
  have havg : frameAverage (w.map fun l => l.map fun x => x + c) = frameAverage w + c := by
    unfold frameAverage
    rw [key w hw, List.length_map]
    field_simp
  rw [havg]
  simp only [List.map_map]
  congr 1
  apply List.map_congr_left
  intro l _
  simp [Function.comp_def]

/-- **C68** is false when the number of particles changes: the fluctuations need not have zero average over the
particles, for instance with two frames of constant field. -/
theorem C68_counterexample_grandcanonical [CharZero K] (n m : ℕ) (hn : 0 < n) (hm : 0 < m) (hnm : n ≠ m) (a b : K)
    (hab : a ≠ b) :
    ∃ w' : List (List K), subtractMean [.float (List.replicate n a), .float (List.replicate m b)] =
      .ok (w'.map fun l => l.map some) ∧ w'.flatten.sum ≠ 0 := by
  have h := subtractMean_float [List.replicate n a, List.replicate m b] (by simp) (by
    intro l hl
    simp only [List.mem_cons, List.not_mem_nil, or_false] at hl
    rcases hl with rfl | rfl <;> simp <;> omega)
  have hnk : (n : K) ≠ 0 := by exact_mod_cast hn.ne'
  have hmk : (m : K) ≠ 0 := by exact_mod_cast hm.ne'
  have hav : frameAverage [List.replicate n a, List.replicate m b] = (a + b) / 2 := by
    simp only [frameAverage, List.map_cons, List.map_nil, List.sum_cons, List.sum_nil, List.sum_replicate,
      List.length_replicate, List.length_cons, List.length_nil, nsmul_eq_mul]
    push_cast
    field_simp
    ring
  refine ⟨[List.replicate n (a - (a + b) / 2), List.replicate m (b - (a + b) / 2)], ?_, ?_⟩
  · rw [hav] at h
    simpa using h
  · simp only [List.flatten_cons, List.flatten_nil, List.append_nil, List.sum_append, List.sum_replicate, nsmul_eq_mul]
    have h2 : (2 : K) ≠ 0 := by exact_mod_cast (by norm_num : (2 : ℕ) ≠ 0)
    have he : (n : K) * (a - (a + b) / 2) + m * (b - (a + b) / 2) = ((n : K) - m) * (a - b) / 2 := by
      field_simp; ring
    rw [he]
    have h3 : (n : K) - m ≠ 0 := by
      rw [sub_ne_zero]; exact_mod_cast hnm
    exact div_ne_zero (mul_ne_zero h3 (sub_ne_zero.mpr hab)) h2

/-- **C68** is false for a field of integers (for instance a number of neighbours): an exception is raised. -/
theorem C68_counterexample_int (w : List (List ℤ)) (h0 : w ≠ []) :
    subtractMean (K := K) (w.map NpArr.int) = .error .typeError := by
  obtain ⟨l, w, rfl⟩ := List.exists_cons_of_ne_nil h0
  unfold subtractMean
  rw [if_neg (by simp), List.map_cons, List.mapM_cons]
  rfl

/-- **C68** is false if a frame has no particles (for instance, after a filter): the mean is nan and all the weights
of all the frames are nan. -/
theorem C68_counterexample_empty (w : List (List K)) (h : [] ∈ w) :
    subtractMean (w.map NpArr.float) = .ok (w.map fun l => l.map fun _ => none) := by
  have hf : ∀ (v : List (List K)) (m : Option K), (m = none ∨ [] ∈ v) →
      (v.map NpArr.float).foldl (fun m f => nanAdd m (NpArr.mean f)) m = none := by
    intro v
    induction v with
    | nil => intro m hm; simpa using hm
    | cons l v ih =>
      intro m hm
      simp only [List.map_cons, List.foldl_cons]
      apply ih
      rcases hm with rfl | hm
      · left; rfl
      · rcases List.mem_cons.mp hm with rfl | hm
        · left; cases m <;> rfl
        · right; exact hm
  have h0 : w ≠ [] := List.ne_nil_of_mem h
  unfold subtractMean
  rw [if_neg (by simpa using h0)]
  simp only [hf w _ (Or.inr h), Option.map_none]
  have : ∀ v : List (List K), (v.map NpArr.float).mapM (NpArr.subInPlace none) =
      (Except.ok (v.map fun l => l.map fun _ => none) : Py _) := by
    intro v
    induction v with
    | nil => rfl
    | cons l v ih => rw [List.map_cons, List.mapM_cons, ih]; rfl
  exact this w

end

/-- Two frames of two particles. -/
example : subtractMean [NpArr.float [(1 : ℚ), 2], .float [3, 6]] =
    .ok [[some (-2), some (-1)], [some 0, some 3]] := by decide +kernel
example : subtractMean [NpArr.float [(11 : ℚ), 12], .float [13, 16]] =
    .ok [[some (-2), some (-1)], [some 0, some 3]] := by decide +kernel
/-- One particle and then three: the sum of the fluctuations is 1 - 3 ≠ 0. -/
example : subtractMean [NpArr.float [(2 : ℚ)], .float [0, 0, 0]] =
    .ok [[some 1], [some (-1), some (-1), some (-1)]] := by decide +kernel

end PP.Props
