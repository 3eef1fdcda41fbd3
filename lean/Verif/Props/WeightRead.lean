import Verif.Model.WeightRead
import Verif.Props.Partials
import Verif.Props.GrLimits
import Verif.Props.KSetup
import Verif.Lemmas.Expo

/-!
# C177, C178: weights taken from another trajectory
-/

set_option linter.unusedSectionVars false

namespace PP.Props
open PP

variable {V : Type}

theorem getField_set (field g : Str) (p : PropDict V) (x : V) :
    getField g (dictSet p field x) = if g = field then .ok x else getField g p := by
  unfold getField
  rw [dictGet_dictSet]
  by_cases h : g = field
  · rw [if_pos h, if_pos h]
  · rw [if_neg h, if_neg h]

theorem zip_copy (field : Str) (ps so : List (PropDict V)) :
    ((ps.zip so).mapM fun e => do
      let x ← getField field e.2
      return dictSet e.1 field x : Py (List (PropDict V))) =
    ((so.take ps.length).mapM (getField field)).map fun a => List.zipWith (fun p x => dictSet p field x) ps a := by
  induction ps generalizing so with
  | nil => cases so <;> rfl
  | cons p ps ih =>
    cases so with
    | nil => rfl
    | cons q so =>
      rw [List.zip_cons_cons, List.mapM_cons, ih, List.length_cons, List.take_succ_cons, List.mapM_cons]
      simp only [bind, Except.bind]
      cases getField field q with
      | error e => rfl
      | ok x =>
        simp only [pure, Except.pure]
        cases (so.take ps.length).mapM (getField field) <;> rfl

theorem zipWith_set_same (field : Str) (ps : List (PropDict V)) (a : List V) (h : a.length ≤ ps.length) :
    (List.zipWith (fun p x => dictSet p field x) ps a).mapM (getField field) = .ok a := by
  induction ps generalizing a with
  | nil => cases a with
    | nil => rfl
    | cons x a => simp at h
  | cons p ps ih =>
    cases a with
    | nil => rfl
    | cons x a =>
      rw [List.zipWith_cons_cons, List.mapM_cons, getField_set, if_pos rfl, ih a (by simpa using h)]
      rfl

theorem zipWith_set_other (field g : Str) (hg : g ≠ field) (ps : List (PropDict V)) (a : List V) :
    (List.zipWith (fun p x => dictSet p field x) ps a).mapM (getField g) = (ps.take a.length).mapM (getField g) := by
  induction ps generalizing a with
  | nil => simp
  | cons p ps ih =>
    cases a with
    | nil => rfl
    | cons x a =>
      rw [List.zipWith_cons_cons, List.mapM_cons, getField_set, if_neg hg, ih a, List.length_cons, List.take_succ_cons,
        List.mapM_cons]

theorem copy_ok {field : Str} {source : List (List (PropDict V))} {i : ℕ} {ps so : List (PropDict V)} {a : List V}
    (hs : source[i]? = some so) (ha : (so.take ps.length).mapM (getField field) = .ok a) :
    copyFieldAt field source i ps = .ok (List.zipWith (fun p x => dictSet p field x) ps a ++ ps.drop so.length) := by
  unfold copyFieldAt pyGet
  rw [hs]
  simp only [bind, Except.bind]
  have h := zip_copy field ps so
  simp only [bind, Except.bind] at h
  rw [h, ha]
  rfl

theorem mapM_append_ok {α β : Type} (f : α → Py β) (l l' : List α) :
    (l ++ l').mapM f = (do
      let a ← l.mapM f
      let b ← l'.mapM f
      return a ++ b) := by
  rw [List.mapM_append]

theorem read_add (t : FieldTraj V) (field : Str) (source : List (List (PropDict V))) (i : ℕ) :
    (t.addWeight field source).read i = (do
      let ps ← t.read i
      copyFieldAt field source i ps) := by
  unfold FieldTraj.read FieldTraj.addWeight
  simp only [List.foldlM_append, List.foldlM_cons, List.foldlM_nil, bind_assoc, bind_pure]

/-- **C177, what holds**: with a weight trajectory that has as many particles, or more, the weights of the particles of the
trajectory are those of the first particles of the weight trajectory, in order, whatever weights were added before. -/
theorem C177_weights_partial (t : FieldTraj V) (field : Str) (source : List (List (PropDict V))) (i : ℕ)
    (ps so : List (PropDict V)) (w : List V) (hr : t.read i = .ok ps) (hs : source[i]? = some so)
    (hl : ps.length ≤ so.length) (hw : so.mapM (getField field) = .ok w) :
    (t.addWeight field source).weights field i = .ok (w.take ps.length) := by
  have ha : (so.take ps.length).mapM (getField field) = .ok (w.take ps.length) := by
    have h := mapM_append_ok (getField field) (so.take ps.length) (so.drop ps.length)
    rw [List.take_append_drop, hw] at h
    obtain ⟨a, h1, h⟩ := bind_ok_iff.1 h.symm
    obtain ⟨b, h2, h⟩ := bind_ok_iff.1 h
    cases h
    have hlen := (mapM_ok_get h1).1
    rw [List.length_take] at hlen
    rw [h1, List.take_append_of_le_length (by omega), List.take_of_length_le (by omega)]
  have hlen := (mapM_ok_get ha).1
  unfold FieldTraj.weights
  rw [read_add, hr]
  show (copyFieldAt field source i ps >>= fun ps => ps.mapM (getField field)) = _
  rw [copy_ok hs ha, List.drop_eq_nil_of_le hl, List.append_nil]
  exact zipWith_set_same field ps _ (by rw [hlen, List.length_take]; omega)

/-- Copying another property does not change the values of a property. -/
theorem copy_other {field g : Str} (hg : g ≠ field) {source : List (List (PropDict V))} {i : ℕ} {ps r : List (PropDict V)}
    (h : copyFieldAt field source i ps = .ok r) : r.mapM (getField g) = ps.mapM (getField g) := by
  unfold copyFieldAt at h
  obtain ⟨so, -, h⟩ := bind_ok_iff.1 h
  obtain ⟨new, hn, h⟩ := bind_ok_iff.1 h
  cases h
  rw [zip_copy] at hn
  cases ha : (so.take ps.length).mapM (getField field) with
  | error e => rw [ha] at hn; cases hn
  | ok a =>
    rw [ha] at hn
    cases hn
    have hlen := (mapM_ok_get ha).1
    rw [List.length_take] at hlen
    rw [mapM_append_ok, zipWith_set_other field g hg]
    have h2 := mapM_append_ok (getField g) (ps.take so.length) (ps.drop so.length)
    rw [List.take_append_drop] at h2
    rw [h2]
    have e : ps.take a.length = ps.take so.length := by
      rcases le_total so.length ps.length with h | h
      · rw [show a.length = so.length by omega]
      · rw [List.take_of_length_le (by omega), List.take_of_length_le h]
    rw [e]

/-- **C177**: the weights of a frame from a property that no weight trajectory has set are the values of that property in
the same frame of the trajectory, in order. -/
theorem C177_own_partial (t : FieldTraj V) (g : Str) (hg : ∀ c ∈ t.callbacks, g ≠ c.1) (i : ℕ) (ps r : List (PropDict V))
    (w : List V) (hf : t.frames[i]? = some ps) (hr : t.read i = .ok r) (hw : ps.mapM (getField g) = .ok w) :
    t.weights g i = .ok w := by
  unfold FieldTraj.weights
  rw [hr]
  show r.mapM (getField g) = _
  rw [← hw]
  unfold FieldTraj.read pyGet at hr
  rw [hf] at hr
  have hr' : t.callbacks.foldlM (fun ps c => copyFieldAt c.1 c.2 i ps) ps = .ok r := hr
  clear hr hf hw
  generalize t.callbacks = cs at hg hr'
  induction cs generalizing ps with
  | nil => cases hr'; rfl
  | cons c cs ih =>
    rw [List.foldlM_cons] at hr'
    obtain ⟨ps', h1, h2⟩ := bind_ok_iff.1 hr'
    rw [ih ps' (fun c hc => hg c (List.mem_cons_of_mem _ hc)) h2, copy_other (hg c (by simp)) h1]

/-- Two frames; the radius has been taken from another trajectory, the mass has not. -/
example : let t : FieldTraj ℕ := ⟨[[[("m".toList, 1), ("r".toList, 3)]], [[("m".toList, 2), ("r".toList, 4)]]],
      [("r".toList, [[[("r".toList, 7)]], [[("r".toList, 8)]]])]⟩
    t.weights "m".toList 1 = .ok [2] ∧ t.weights "r".toList 1 = .ok [8] := by decide +kernel

/-- **C177** is false if the weight trajectory has fewer particles: the other particles keep the value of the property
they have in the trajectory, with no exception. -/
theorem C177_counterexample_fewer (t : FieldTraj V) (field : Str) (source : List (List (PropDict V))) (i : ℕ)
    (ps so : List (PropDict V)) (w own : List V) (hr : t.read i = .ok ps) (hs : source[i]? = some so)
    (hl : so.length ≤ ps.length) (hw : so.mapM (getField field) = .ok w) (ho : t.weights field i = .ok own) :
    (t.addWeight field source).weights field i = .ok (w ++ own.drop so.length) := by
  have ha : (so.take ps.length).mapM (getField field) = .ok w := by rw [List.take_of_length_le hl, hw]
  have hlen := (mapM_ok_get hw).1
  have hown : (ps.drop so.length).mapM (getField field) = .ok (own.drop so.length) := by
    unfold FieldTraj.weights at ho
    rw [hr] at ho
    have ho : ps.mapM (getField field) = .ok own := ho
    have h := mapM_append_ok (getField field) (ps.take so.length) (ps.drop so.length)
    rw [List.take_append_drop, ho] at h
    obtain ⟨a, h1, h⟩ := bind_ok_iff.1 h.symm
    obtain ⟨b, h2, h⟩ := bind_ok_iff.1 h
    cases h
    have hlen := (mapM_ok_get h1).1
    rw [List.length_take, Nat.min_eq_left hl] at hlen
    rw [h2, ← hlen, List.drop_left]
  unfold FieldTraj.weights
  rw [read_add, hr]
  show (copyFieldAt field source i ps >>= fun ps => ps.mapM (getField field)) = _
  rw [copy_ok hs ha]
  show List.mapM (getField field) (_ ++ _) = _
  rw [mapM_append_ok, zipWith_set_same field ps w (by omega), hown]
  rfl

/-- **C178, what holds**: weights from another property do not change the weights of an object, if the particles of the
weight trajectory all have that property. -/
theorem C178_other_field_partial (t : FieldTraj V) (field g : Str) (hg : g ≠ field) (source : List (List (PropDict V)))
    (i : ℕ) (so : List (PropDict V)) (w : List V) (hs : source[i]? = some so) (hw : so.mapM (getField g) = .ok w) :
    (t.addWeight g source).weights field i = t.weights field i := by
  unfold FieldTraj.weights
  rw [read_add]
  cases hr : t.read i with
  | error e => rfl
  | ok ps =>
    show (copyFieldAt g source i ps >>= fun ps => ps.mapM (getField field)) = ps.mapM (getField field)
    have h := mapM_append_ok (getField g) (so.take ps.length) (so.drop ps.length)
    rw [List.take_append_drop, hw] at h
    obtain ⟨a, h1, -⟩ := bind_ok_iff.1 h.symm
    have hlen := (mapM_ok_get h1).1
    rw [List.length_take] at hlen
    rw [copy_ok hs h1]
    show List.mapM (getField field) (_ ++ _) = _
    rw [mapM_append_ok, zipWith_set_other g field hg.symm, ← mapM_append_ok]
    congr 1
    rw [hlen]
    rcases Nat.le_total ps.length so.length with hl | hl
    · rw [Nat.min_eq_left hl, List.take_length, List.drop_eq_nil_of_le hl, List.append_nil]
    · rw [Nat.min_eq_right hl, List.take_append_drop]

/-- **C178, what holds**: adding the same weights again, as `Partial.add_weight` does for each pair of species, does not
change them. -/
theorem C178_again_partial (t : FieldTraj V) (field : Str) (source : List (List (PropDict V))) (i : ℕ)
    (ps so : List (PropDict V)) (w : List V) (hr : t.read i = .ok ps) (hs : source[i]? = some so)
    (hl : ps.length ≤ so.length) (hw : so.mapM (getField field) = .ok w) :
    ((t.addWeight field source).addWeight field source).weights field i = (t.addWeight field source).weights field i := by
  have ha : ∃ a, (so.take ps.length).mapM (getField field) = .ok a ∧ a.length = ps.length := by
    have h := mapM_append_ok (getField field) (so.take ps.length) (so.drop ps.length)
    rw [List.take_append_drop, hw] at h
    obtain ⟨a, h1, -⟩ := bind_ok_iff.1 h.symm
    have hlen := (mapM_ok_get h1).1
    rw [List.length_take] at hlen
    exact ⟨a, h1, by omega⟩
  obtain ⟨a, ha, hal⟩ := ha
  have hr' : (t.addWeight field source).read i = .ok (List.zipWith (fun p x => dictSet p field x) ps a ++ ps.drop so.length) := by
    rw [read_add, hr]
    exact copy_ok hs ha
  have hlen : (List.zipWith (fun p x => dictSet p field x) ps a ++ ps.drop so.length).length = ps.length := by
    rw [List.length_append, List.length_zipWith, List.length_drop]
    omega
  rw [C177_weights_partial _ field source i _ so w hr' hs (by omega) hw, C177_weights_partial t field source i ps so w hr hs hl hw,
    hlen]

/-- **C178** is false: once another object has been given weights from the same property of another trajectory, the
weights of the first object are those of the second. -/
theorem C178_counterexample_same_field (t : FieldTraj V) (field : Str) (source source' : List (List (PropDict V))) (i : ℕ)
    (ps so so' : List (PropDict V)) (w w' : List V) (hr : t.read i = .ok ps) (hs : source[i]? = some so)
    (hs' : source'[i]? = some so') (hl : so.length = ps.length) (hl' : so'.length = ps.length)
    (hw : so.mapM (getField field) = .ok w) (hw' : so'.mapM (getField field) = .ok w') :
    (t.addWeight field source).weights field i = .ok w ∧
    ((t.addWeight field source).addWeight field source').weights field i = .ok w' := by
  have e := (mapM_ok_get hw).1
  have e' := (mapM_ok_get hw').1
  have ha : (so.take ps.length).mapM (getField field) = .ok w := by rw [← hl, List.take_length, hw]
  have hr' : (t.addWeight field source).read i = .ok (List.zipWith (fun p x => dictSet p field x) ps w ++ ps.drop so.length) := by
    rw [read_add, hr]
    exact copy_ok hs ha
  have hlen : (List.zipWith (fun p x => dictSet p field x) ps w ++ ps.drop so.length).length = ps.length := by
    rw [List.length_append, List.length_zipWith, List.length_drop]
    omega
  constructor
  · rw [C177_weights_partial t field source i ps so w hr hs (by omega) hw, List.take_of_length_le (by omega)]
  · rw [C177_weights_partial _ field source' i _ so' w' hr' hs' (by omega) hw', List.take_of_length_le (by omega)]

/-- **C178** is false: if the particles of a weight trajectory do not have the property, the frames cannot be read any more,
by any object. -/
theorem C178_counterexample_missing (t : FieldTraj V) (field : Str) (source : List (List (PropDict V))) (i : ℕ)
    (ps so : List (PropDict V)) (hr : t.read i = .ok ps) (hne : ps ≠ []) (hs : source[i]? = some so) (p : PropDict V)
    (h0 : so.head? = some p) (hp : field ∉ p.map Prod.fst) (g : Str) :
    (t.addWeight field source).read i = .error .attributeError ∧
    (t.addWeight field source).weights g i = .error .attributeError := by
  have hget : getField field p = .error .attributeError := by
    unfold getField
    have : dictGet p field = .error .keyError := by
      clear h0
      induction p with
      | nil => rfl
      | cons e p ih =>
        rw [List.map_cons, List.mem_cons, not_or] at hp
        obtain ⟨k, v⟩ := e
        rw [dictGet, if_neg (Ne.symm hp.1)]
        exact ih hp.2
    rw [this]
  have key : (t.addWeight field source).read i = .error .attributeError := by
    rw [read_add, hr]
    show copyFieldAt field source i ps = _
    unfold copyFieldAt pyGet
    rw [hs]
    obtain ⟨q, qs, rfl⟩ := List.exists_cons_of_ne_nil hne
    cases so with
    | nil => cases h0
    | cons x so =>
      cases h0
      simp only [bind, Except.bind, List.zip_cons_cons, List.mapM_cons, hget]
  exact ⟨key, by unfold FieldTraj.weights; rw [key]; rfl⟩

/-- Two frames of two particles; the weights of the second trajectory are `7` and `8`, then `9` and `10`. -/
def weightExample : FieldTraj ℤ :=
  ⟨[[[("mass".toList, 1)], [("mass".toList, 2)]], [[("mass".toList, 1)], [("mass".toList, 2)]]], []⟩

def weightSource1 : List (List (PropDict ℤ)) :=
  [[[("mass".toList, 7), ("c".toList, 0)], [("mass".toList, 8), ("c".toList, 0)]],
   [[("mass".toList, 9), ("c".toList, 0)], [("mass".toList, 10), ("c".toList, 0)]]]

example : weightExample.weights "mass".toList 1 = .ok [1, 2] ∧
    (weightExample.addWeight "mass".toList weightSource1).weights "mass".toList 1 = .ok [9, 10] ∧
    (weightExample.addWeight "mass".toList [[], [[("mass".toList, 5)]]]).weights "mass".toList 1 = .ok [5, 2] ∧
    (weightExample.addWeight "c".toList weightSource1).weights "mass".toList 1 = .ok [1, 2] ∧
    ((weightExample.addWeight "mass".toList weightSource1).addWeight "mass".toList weightExample.frames).weights
      "mass".toList 1 = .ok [1, 2] ∧
    (weightExample.addWeight "radius".toList weightSource1).weights "mass".toList 1 = .error .attributeError := by
  refine ⟨by decide +kernel, by decide +kernel, by decide +kernel, by decide +kernel, by decide +kernel, by decide +kernel⟩

end PP.Props
