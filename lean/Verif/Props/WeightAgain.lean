import Verif.Props.FilterWeight
import Verif.Props.WeightRead

/-!
# C216: adding a weight again
-/

namespace PP.Props
open PP

variable {F W V : Type}

/-- A sequence of calls of `add_weight`, in which exceptions are caught (atooms/postprocessing/correlation.py:242-289). -/
def addWeights (o : CorrAttr F W) (calls : List (Option (List ℕ) × Option Str × Bool)) : CorrAttr F W :=
  calls.foldl (fun o c => (addWeight o c.1 c.2.1 c.2.2).1) o

theorem weightTags_fields (u : CorrAttr F W) (f : Str) : (weightTags u f).trajectory = u.trajectory ∧
    (weightTags u f).weight = u.weight ∧ (weightTags u f).weightField = u.weightField ∧
    (weightTags u f).weightFluctuations = u.weightFluctuations ∧ (weightTags u f).weightSteps = u.weightSteps :=
  ⟨rfl, rfl, rfl, rfl, rfl⟩

/-- The fields set by `add_weight` with a field. -/
theorem addWeight_fields (o : CorrAttr F W) (trajectory : Option (List ℕ)) (f : Str) (b : Bool) :
    let r := addWeight o trajectory (some f) b
    r.2 = (if trajectory.getD o.trajectory.steps = o.trajectory.steps then .ok () else .error .valueError) ∧
    r.1.weightField = some f ∧ r.1.weightFluctuations = b ∧ r.1.weight = some [] ∧
    r.1.weightSteps = some (trajectory.getD o.trajectory.steps) ∧ r.1.trajectory.steps = o.trajectory.steps ∧
    r.1.trajectory.callbacks = o.trajectory.callbacks ++ (trajectory.map fun s => (f, s)).toList := by
  intro r
  have e : r = addWeight o trajectory (some f) b := rfl
  clear_value r
  subst e
  unfold addWeight
  rw [if_neg (by simp)]
  cases trajectory with
  | none =>
    dsimp only [weightSource]
    rw [if_neg (by simp)]
    obtain ⟨h1, h2, h3, h4, h5⟩ := weightTags_fields ({ o with
      weight := some [], weightFluctuations := b, weightField := some f, weightSteps := some o.trajectory.steps }) f
    dsimp only
    rw [h1, h2, h3, h4, h5]
    simp
  | some s =>
    dsimp only [weightSource]
    by_cases hs : some s ≠ some o.trajectory.steps
    · rw [if_pos hs]
      have : s ≠ o.trajectory.steps := fun h => hs (by rw [h])
      simp [this]
    · rw [if_neg hs]
      obtain ⟨h1, h2, h3, h4, h5⟩ := weightTags_fields ({ o with
        weight := some [], weightFluctuations := b, weightField := some f, weightSteps := some s,
        trajectory := { o.trajectory with callbacks := o.trajectory.callbacks ++ [(f, s)] } }) f
      dsimp only
      rw [h1, h2, h3, h4, h5]
      have : s = o.trajectory.steps := by simpa using hs
      simp [this]

theorem addWeight_steps (o : CorrAttr F W) (trajectory : Option (List ℕ)) (field : Option Str) (fluct : Bool) :
    (addWeight o trajectory field fluct).1.trajectory.steps = o.trajectory.steps := by
  unfold addWeight
  split_ifs with h
  · rfl
  · cases field <;> cases trajectory <;> dsimp only [weightSource] <;> try split_ifs
    all_goals rfl

theorem addWeights_steps (o : CorrAttr F W) (calls : List (Option (List ℕ) × Option Str × Bool)) :
    (addWeights o calls).trajectory.steps = o.trajectory.steps ∧ (addWeights o calls).nbodies = o.nbodies ∧
      (addWeights o calls).cbk = o.cbk := by
  unfold addWeights
  induction calls generalizing o with
  | nil => exact ⟨rfl, rfl, rfl⟩
  | cons c cs ih =>
    rw [List.foldl_cons]
    obtain ⟨h1, h2, h3⟩ := ih (addWeight o c.1 c.2.1 c.2.2).1
    obtain ⟨a1, a2⟩ := addWeight_nbodies o c.1 c.2.1 c.2.2
    exact ⟨h1.trans (addWeight_steps _ _ _ _), h2.trans a1, h3.trans a2⟩

/-- **C216, what holds**: whatever calls of `add_weight` came before, a call with the name of a field succeeds if and only
if it does for a new object, and it sets the same field, fluctuations, weights (to be read) and weight trajectory.
Filters are not affected. -/
theorem C216_last_partial (o : CorrAttr F W) (calls : List (Option (List ℕ) × Option Str × Bool))
    (trajectory : Option (List ℕ)) (field : Str) (fluct : Bool) :
    let r := addWeight (addWeights o calls) trajectory (some field) fluct
    let r0 := addWeight o trajectory (some field) fluct
    r.2 = r0.2 ∧ r.1.weightField = some field ∧ r.1.weightFluctuations = fluct ∧ r.1.weight = some [] ∧
      r.1.weightSteps = r0.1.weightSteps ∧ r.1.cbk = o.cbk ∧ r.1.nbodies = o.nbodies := by
  obtain ⟨h1, h2, h3⟩ := addWeights_steps o calls
  obtain ⟨a1, a2⟩ := addWeight_nbodies (addWeights o calls) trajectory (some field) fluct
  obtain ⟨b1, b2, b3, b4, b5, -, -⟩ := addWeight_fields (addWeights o calls) trajectory field fluct
  obtain ⟨c1, -, -, -, c5, -, -⟩ := addWeight_fields o trajectory field fluct
  rw [h1] at b1 b5
  exact ⟨b1.trans c1.symm, b2, b3, b4, b5.trans c5.symm, a2.trans h3, a1.trans h2⟩

/-- **C216** is false: the tags of all the successful calls add up. The tag of a function weighted twice,
and of its file, is not that of the last weight, whatever the fields. -/
theorem C216_counterexample_tag (o : CorrAttr F W) (t1 t2 : Option (List ℕ)) (f1 f2 : Str) (b1 b2 : Bool)
    (h1 : (addWeight o t1 (some f1) b1).2 = .ok ())
    (h2 : (addWeight (addWeight o t1 (some f1) b1).1 t2 (some f2) b2).2 = .ok ()) :
    let o2 := (addWeight (addWeight o t1 (some f1) b1).1 t2 (some f2) b2).1
    let o' := (addWeight o t2 (some f2) b2).1
    o2.tag = o.tag ++ ".".toList ++ f1 ++ "_".toList ++ (if b1 then "fluctuations".toList else []) ++ ".".toList ++ f2 ++
      "_".toList ++ (if b2 then "fluctuations".toList else []) ∧ o2.tag ≠ o'.tag := by
  intro o2 o'
  have hs : (addWeight o t2 (some f2) b2).2 = .ok () := by
    have := (C216_last_partial o [(t1, some f1, b1)] t2 f2 b2).1
    rw [← this]
    exact h2
  have e1 := weight_tag o t1 f1 b1 h1
  have e2 := weight_tag _ t2 f2 b2 h2
  have e3 := weight_tag o t2 f2 b2 hs
  have e : o2.tag = o.tag ++ ".".toList ++ f1 ++ "_".toList ++ (if b1 then "fluctuations".toList else []) ++ ".".toList ++
      f2 ++ "_".toList ++ (if b2 then "fluctuations".toList else []) := by
    show (addWeight (addWeight o t1 (some f1) b1).1 t2 (some f2) b2).1.tag = _
    rw [e2, e1]
  refine ⟨e, ?_⟩
  rw [e]
  show _ ≠ (addWeight o t2 (some f2) b2).1.tag
  rw [e3]
  intro h
  have := congrArg List.length h
  simp only [List.length_append] at this
  have e : (".".toList : Str).length = 1 := rfl
  omega

/-- **C216** is false: if the field has been taken from another trajectory before, a call without trajectory does not
restore the values of the trajectory itself. The callbacks remain and the weights are those of the other trajectory,
whatever their values. -/
theorem C216_counterexample_source (o : CorrAttr F W) (steps : List ℕ) (field : Str) (b1 b2 : Bool)
    (t : FieldTraj V) (source : List (List (PropDict V))) (i : ℕ) (ps so : List (PropDict V)) (w : List V)
    (hr : t.read i = .ok ps) (hs : source[i]? = some so) (hl : so.length = ps.length)
    (hw : so.mapM (getField field) = .ok w) :
    (addWeight (addWeight o (some steps) (some field) b1).1 none (some field) b2).1.trajectory =
      (addWeight o (some steps) (some field) b1).1.trajectory ∧
    (addWeight o (some steps) (some field) b1).1.trajectory.callbacks = o.trajectory.callbacks ++ [(field, steps)] ∧
    (t.addWeight field source).weights field i = .ok w := by
  refine ⟨?_, ?_, ?_⟩
  · generalize (addWeight o (some steps) (some field) b1).1 = u
    obtain ⟨-, -, -, -, -, h6, h7⟩ := addWeight_fields u none field b2
    generalize (addWeight u none (some field) b2).1.trajectory = v at h6 h7
    cases v
    cases hu : u.trajectory
    rw [hu] at h6 h7
    simp only [Option.map_none, Option.toList_none, List.append_nil] at h6 h7
    rw [h6, h7]
  · exact (addWeight_fields o (some steps) field b1).2.2.2.2.2.2
  · rw [C177_weights_partial t field source i ps so w hr hs hl.ge hw]
    have := (mapM_ok_get hw).1
    rw [List.take_of_length_le (by omega)]

/-- A non-trivial case: weights by radius, then by charge. -/
example : let o : CorrAttr (System ℕ Unit → System ℕ Unit) Unit := .init _ _ 1 ⟨[0, 10, 20], []⟩
    let o1 := (addWeight o none (some "radius".toList) false).1
    (addWeight o none (some "radius".toList) false).2 = .ok () ∧
    (addWeight o1 none (some "charge".toList) true).2 = .ok () ∧
    (addWeight o1 none (some "charge".toList) true).1.weightField = some "charge".toList ∧
    outputFile (defaultPath "t.xyz".toList "sk".toList (addWeight o1 none (some "charge".toList) true).1.tag)
      = "t.xyz.pp.sk.radius_.charge_fluctuations".toList ∧
    outputFile (defaultPath "t.xyz".toList "sk".toList (addWeight o none (some "charge".toList) true).1.tag)
      = "t.xyz.pp.sk.charge_fluctuations".toList := by
  refine ⟨?_, ?_, ?_, ?_, ?_⟩ <;> decide +kernel

/-- A non-trivial case: the own weights are 1 and 2, those of the other trajectory 5 and 6. -/
example : let t : FieldTraj ℕ := ⟨[[[("w".toList, 1)], [("w".toList, 2)]]], []⟩
    t.weights "w".toList 0 = .ok [1, 2] ∧
    (t.addWeight "w".toList [[[("w".toList, 5)], [("w".toList, 6)]]]).weights "w".toList 0 = .ok [5, 6] := by
  refine ⟨?_, ?_⟩ <;> decide +kernel

end PP.Props
