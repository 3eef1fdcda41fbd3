import Verif.Model.Arrays
import Verif.Lemmas.Expo
import Verif.Props.GrLimits
import Mathlib.Algebra.Order.Field.Basic
import Mathlib.Data.Rat.Floor
import Mathlib.Data.Fin.VecNotation
import Mathlib.Data.List.Dedup
import Mathlib.Tactic.FinCases

/-!
# C102-C104: the arrays dumped before a calculation
-/

set_option linter.unusedSectionVars false

namespace PP.Props
open PP

variable {d : ℕ} {S K Y : Type} [DecidableEq S] [Field K]

/-- A new object, whose arrays are empty. -/
structure _root_.PP.Spec.FreshArrays (o : ArrObj d S K Y) : Prop where
  unfolded : o.unfolded = none
  pos : o.pos = []
  vel : o.vel = []
  ids : o.ids = []
  posUnf : o.posUnf = []

/-- What a trajectory is after it has been unfolded: it has as many frames, and particles have the attribute
`position_unfolded` if they had it before. -/
def _root_.PP.Spec.KeepsFrames (f : List (ASys d S K Y) → List (ASys d S K Y)) (traj : List (ASys d S K Y)) : Prop :=
  (f traj).length = traj.length ∧ hasUnfolded (f traj) = hasUnfolded traj

theorem hasUnfolded_ne {traj : List (ASys d S K Y)} {b : Bool} (h : hasUnfolded traj = .ok b) : traj ≠ [] := by
  rintro rfl
  cases h

theorem pyGet_zero {α : Type} {l : List α} (h : l ≠ []) : ∃ a, pyGet l 0 = .ok a := by
  match l, h with
  | a :: l, _ => exact ⟨a, rfl⟩

theorem readFolded_ok (distinct : List S → List S) {th : List (ASys d S K Y)} (hth : th ≠ []) (o : ArrObj d S K Y)
    (hids : .ids ∉ o.phasespace) :
    readFolded distinct th o = .ok { o with
      pos := o.pos ++ (if .pos ∈ o.phasespace then th.map (fun s => dumpPos (firstFilter o.cbk s)) else [])
      vel := o.vel ++ (if .vel ∈ o.phasespace then th.map (fun s => dumpVel (firstFilter o.cbk s)) else []) } := by
  unfold readFolded
  by_cases h : PhaseVar.pos ∈ o.phasespace ∨ PhaseVar.vel ∈ o.phasespace ∨ PhaseVar.ids ∈ o.phasespace
  · rw [if_pos h]
    obtain ⟨s, hs⟩ := pyGet_zero hth
    simp only [hs, dumpAllIds, if_neg hids, bind, Except.bind, pure, Except.pure, List.append_nil, List.map_map]
    rfl
  · rw [if_neg h]
    push Not at h
    rw [if_neg h.1, if_neg h.2.1, List.append_nil, List.append_nil]

theorem chooseTraj_missing (dec : Decorators d S K Y) (o : ArrObj d S K Y) (traj : List (ASys d S K Y))
    (ho : o.unfolded = none) (hunf : .posUnf ∈ o.phasespace) (hm : hasUnfolded traj = .ok false) :
    chooseTraj dec o traj =
      (let u := if .pos ∈ o.phasespace then (dec.unfolded o.fixCm traj).map dec.fold else dec.unfolded o.fixCm traj
       .ok (u, some u)) := by
  unfold chooseTraj unfoldedMissing
  rw [if_pos hunf, hm, ho]
  simp only [Except.map, bind, Except.bind, Bool.not_false, true_or, if_true, pure, Except.pure]

/-! ## C102 -/

/-- **C102.** If unfolded positions are requested, folded ones are not and the trajectory has no unfolded positions,
the analysed positions are those of the unfolded trajectory, filtered. -/
theorem C102_unfolded_partial (distinct : List S → List S) (dec : Decorators d S K Y) (o : ArrObj d S K Y)
    (traj : List (ASys d S K Y)) (hdec : Spec.KeepsFrames (dec.unfolded o.fixCm) traj)
    (ho : Spec.FreshArrays o) (hunf : .posUnf ∈ o.phasespace) (hpos : .pos ∉ o.phasespace) (hids : .ids ∉ o.phasespace)
    (hm : hasUnfolded traj = .ok false) :
    ∃ o', setupOnebody distinct dec traj o = .ok o' ∧
      o'.posUnf = (dec.unfolded o.fixCm traj).map fun s => dumpPos (firstFilter o.cbk s) := by
  have hne : dec.unfolded o.fixCm traj ≠ [] := by
    intro h
    have := hdec.1
    rw [h] at this
    exact hasUnfolded_ne hm (List.eq_nil_of_length_eq_zero this.symm)
  unfold setupOnebody
  rw [chooseTraj_missing dec o traj ho.unfolded hunf hm]
  simp only [bind, Except.bind, if_neg hpos]
  rw [readFolded_ok distinct hne { o with unfolded := some (dec.unfolded o.fixCm traj) } hids]
  simp only [readUnfolded, if_pos hunf, hdec.2, hm, bind, Except.bind, pure, Except.pure]
  exact ⟨_, rfl, by simp [ho.posUnf]⟩

/-- **C102** is false if folded positions are requested, too, as the base class and the four-point structure factor do:
the unfolded positions are equal to the folded ones. -/
theorem C102_counterexample (distinct : List S → List S) (dec : Decorators d S K Y) (o : ArrObj d S K Y)
    (traj : List (ASys d S K Y)) (hdec : Spec.KeepsFrames (dec.unfolded o.fixCm) traj)
    (hfold : Spec.KeepsFrames (List.map dec.fold) (dec.unfolded o.fixCm traj))
    (ho : Spec.FreshArrays o) (hunf : .posUnf ∈ o.phasespace) (hpos : .pos ∈ o.phasespace) (hids : .ids ∉ o.phasespace)
    (hm : hasUnfolded traj = .ok false) :
    ∃ o', setupOnebody distinct dec traj o = .ok o' ∧
      o'.posUnf = (dec.unfolded o.fixCm traj).map (fun s => dumpPos (firstFilter o.cbk (dec.fold s))) ∧
      o'.posUnf = o'.pos := by
  have hne : (dec.unfolded o.fixCm traj).map dec.fold ≠ [] := by
    intro h
    have := hdec.1
    rw [List.map_eq_nil_iff] at h
    rw [h] at this
    exact hasUnfolded_ne hm (List.eq_nil_of_length_eq_zero this.symm)
  unfold setupOnebody
  rw [chooseTraj_missing dec o traj ho.unfolded hunf hm]
  simp only [bind, Except.bind, if_pos hpos]
  rw [readFolded_ok distinct hne { o with unfolded := some ((dec.unfolded o.fixCm traj).map dec.fold) } hids]
  simp only [readUnfolded, if_pos hunf, hfold.2, hdec.2, hm, bind, Except.bind, pure, Except.pure,
    if_pos hpos]
  exact ⟨_, rfl, by simp [ho.posUnf], by simp [ho.posUnf, ho.pos]⟩

/-- **C102** is false: in the same situation the unfolded positions are all in the cell, so that no displacement
between two frames exceeds its side, whatever the motion of the particles. -/
theorem C102_counterexample_bounded [LinearOrder K] [IsStrictOrderedRing K] (distinct : List S → List S)
    (dec : Decorators d S K Y) (o : ArrObj d S K Y)
    (traj : List (ASys d S K Y)) (hdec : Spec.KeepsFrames (dec.unfolded o.fixCm) traj)
    (hfold : Spec.KeepsFrames (List.map dec.fold) (dec.unfolded o.fixCm traj)) (side : Vec d K)
    (hcell : ∀ s, ∀ p ∈ (dec.fold s).particle, ∀ c, |p.pos c| ≤ side c / 2)
    (hcbk : ∀ f ∈ o.cbk, ∀ s, ∀ p ∈ (f s).particle, p ∈ s.particle)
    (ho : Spec.FreshArrays o) (hunf : .posUnf ∈ o.phasespace) (hpos : .pos ∈ o.phasespace) (hids : .ids ∉ o.phasespace)
    (hm : hasUnfolded traj = .ok false) :
    ∃ o', setupOnebody distinct dec traj o = .ok o' ∧ o'.posUnf.length = traj.length ∧
      ∀ x ∈ o'.posUnf, ∀ y ∈ o'.posUnf, ∀ u ∈ x, ∀ v ∈ y, ∀ c, |u c - v c| ≤ side c := by
  obtain ⟨o', h1, h2, -⟩ := C102_counterexample distinct dec o traj hdec hfold ho hunf hpos hids hm
  refine ⟨o', h1, by rw [h2, List.length_map, hdec.1], ?_⟩
  have key : ∀ x ∈ o'.posUnf, ∀ u ∈ x, ∀ c, |u c| ≤ side c / 2 := by
    intro x hx u hu c
    rw [h2, List.mem_map] at hx
    obtain ⟨s, -, rfl⟩ := hx
    unfold dumpPos at hu
    rw [List.mem_map] at hu
    obtain ⟨p, hp, rfl⟩ := hu
    refine hcell s p ?_ c
    unfold firstFilter at hp
    match hc : o.cbk with
    | [] => rw [hc] at hp; exact hp
    | f :: fs =>
      rw [hc] at hp
      exact hcbk f (by rw [hc]; simp) _ p hp
  intro x hx y hy u hu v hv c
  have h3 := abs_le.1 (key x hx u hu c)
  have h4 := abs_le.1 (key y hy v hv c)
  rw [abs_le]
  constructor <;> linarith [h3.1, h3.2, h4.1, h4.2]

/-- **C102.** If the trajectory has unfolded positions and the centre of mass is not fixed, they are the analysed ones,
whatever else is requested. -/
theorem C102_present_partial (distinct : List S → List S) (dec : Decorators d S K Y) (o : ArrObj d S K Y)
    (traj : List (ASys d S K Y)) (sel : Option (APart d S K → Bool))
    (ho : Spec.FreshArrays o) (hcbk : o.cbk = (sel.map fun f => filterGeneric f).toList)
    (hunf : .posUnf ∈ o.phasespace) (hids : .ids ∉ o.phasespace) (hcm : o.fixCm = false)
    (x : APart d S K → Vec d K) (hx : ∀ s ∈ traj, ∀ p ∈ s.particle, p.unf = some (x p))
    (hne : traj ≠ []) (hnp : ∀ s ∈ traj, s.particle ≠ []) :
    ∃ o', setupOnebody distinct dec traj o = .ok o' ∧
      o'.posUnf = traj.map fun s => (match sel with
        | none => s.particle
        | some f => s.particle.filter f).map x := by
  have hh : hasUnfolded traj = .ok true := by
    match traj, hne with
    | s :: traj, _ =>
      have h1 := hnp s (by simp)
      have h2 := hx s (by simp)
      match hs : s.particle, h1 with
      | p :: ps, _ =>
        have h3 := h2 p (by rw [hs]; simp)
        simp only [hasUnfolded, pyGet, List.getElem?_cons_zero, bind, Except.bind, hs, pure, Except.pure, h3,
          Option.isSome_some]
  have h1 : chooseTraj dec o traj = .ok (traj, none) := by
    unfold chooseTraj unfoldedMissing
    rw [if_pos hunf, hh, ho.unfolded, hcm]
    simp [Except.map, bind, Except.bind, pure, Except.pure]
  have hdump : ∀ l : List (APart d S K), ∀ y : Y, (∀ p ∈ l, p.unf = some (x p)) →
      dumpUnf (⟨l, y⟩ : ASys d S K Y) = .ok (l.map x) := by
    intro l y hl
    exact mapM_ok_map (g := x) fun p hp => by simp only [APart.getUnf, hl p hp]
  unfold setupOnebody
  rw [h1]
  simp only [bind, Except.bind]
  rw [readFolded_ok distinct hne { o with unfolded := none } hids]
  simp only [readUnfolded, if_pos hunf, hh, bind, Except.bind, pure, Except.pure, if_true]
  rw [mapM_ok_map (g := fun s : ASys d S K Y => (match sel with
        | none => s.particle
        | some f => s.particle.filter f).map x)]
  · exact ⟨_, rfl, by simp [ho.posUnf]⟩
  · intro s hs
    unfold readUnfFrame
    simp only [hcm, bind, Except.bind, hcbk]
    cases sel with
    | none => exact hdump s.particle s.other (hx s hs)
    | some f =>
      refine hdump (s.particle.filter f) s.other fun p hp => hx s hs p ?_
      exact (List.mem_filter.1 hp).1

/-! ## C103 -/

/-- **C103** is false for two-body functions with two filters, such as the unlike-species partials of the intermediate
scattering function: the arrays are the same with and without `fix_cm`. -/
theorem C103_counterexample (distinct : List S → List S) (dec : Decorators d S K Y) (o : ArrObj d S K Y)
    (traj : List (ASys d S K Y)) (h2 : o.nbodies = 2) (hc : 2 ≤ o.cbk.length) :
    setupArrays distinct dec traj { o with fixCm := true } =
      (setupArrays distinct dec traj { o with fixCm := false }).map fun o' => { o' with fixCm := true } := by
  unfold setupArrays
  simp only [h2]
  match hcbk : o.cbk, hc with
  | c0 :: c1 :: cs, _ =>
    unfold setupTwobody readTwo
    simp only [hcbk, OfNat.ofNat_ne_one, if_false, if_true, bind, Except.bind, pure, Except.pure]
    by_cases h : PhaseVar.pos ∈ o.phasespace ∨ PhaseVar.vel ∈ o.phasespace ∨ PhaseVar.ids ∈ o.phasespace
    · simp only [if_pos h]
      cases pyGet traj 0 with
      | error e => rfl
      | ok first =>
        simp only
        cases dumpAllIds o.phasespace (distinct (first.particle.map APart.species)) (traj.map c0) with
        | error e => rfl
        | ok i0 =>
          simp only
          cases dumpAllIds o.phasespace (distinct (first.particle.map APart.species)) (traj.map c1) with
          | error e => rfl
          | ok i1 => by_cases hu : PhaseVar.posUnf ∈ o.phasespace <;> simp [hu, Except.map]
    · simp only [if_neg h]
      by_cases hu : PhaseVar.posUnf ∈ o.phasespace <;> simp [hu, Except.map]

/-- All particles of a frame displaced by the same vector. -/
def _root_.PP.Spec.shift (u : Vec d K) (s : ASys d S K Y) : ASys d S K Y :=
  { s with particle := s.particle.map fun p =>
      { p with pos := fun c => p.pos c + u c, unf := p.unf.map fun x c => x c + u c } }

/-- A trajectory whose frames are displaced by arbitrary vectors. -/
def _root_.PP.Spec.drift (us : List (Vec d K)) (traj : List (ASys d S K Y)) : List (ASys d S K Y) :=
  List.zipWith Spec.shift us traj

theorem hasUnfolded_drift (us : List (Vec d K)) (traj : List (ASys d S K Y)) (h : us.length = traj.length) :
    hasUnfolded (Spec.drift us traj) = hasUnfolded traj := by
  match us, traj, h with
  | [], [], _ => rfl
  | u :: us, s :: traj, _ =>
    obtain ⟨ps, y⟩ := s
    match ps with
    | [] => rfl
    | p :: ps =>
      simp only [Spec.drift, hasUnfolded, List.zipWith_cons_cons, pyGet, List.getElem?_cons_zero, bind, Except.bind,
        Spec.shift, List.map_cons, pure, Except.pure]
      cases p.unf <;> rfl

theorem filter_shift (q : S → Bool) (u : Vec d K) (s : ASys d S K Y) :
    filterGeneric (fun p : APart d S K => q p.species) (Spec.shift u s) =
      Spec.shift u (filterGeneric (fun p : APart d S K => q p.species) s) := by
  simp only [filterGeneric, Spec.shift, List.filter_map]
  rfl

/-- **C103** is false: with two filters on the species and `fix_cm`, a drift of the whole system by arbitrary vectors
is added to the arrays of both groups. -/
theorem C103_counterexample_drift (distinct : List S → List S) (dec : Decorators d S K Y) (o : ArrObj d S K Y)
    (traj : List (ASys d S K Y)) (q0 q1 : S → Bool) (us : List (Vec d K)) (hus : us.length = traj.length)
    (h2 : o.nbodies = 2) (hps : o.phasespace = [.pos]) (hcm : o.fixCm = true) (h0 : o.pos0 = []) (h1 : o.pos1 = [])
    (hc : o.cbk = [filterGeneric fun p => q0 p.species, filterGeneric fun p => q1 p.species]) (hne : traj ≠ []) :
    ∃ o1 o2, setupArrays distinct dec traj o = .ok o1 ∧ setupArrays distinct dec (Spec.drift us traj) o = .ok o2 ∧
      o2.pos0 = List.zipWith (fun u x => x.map fun (r : Vec d K) c => r c + u c) us o1.pos0 ∧
      o2.pos1 = List.zipWith (fun u x => x.map fun (r : Vec d K) c => r c + u c) us o1.pos1 := by
  have key : ∀ t : List (ASys d S K Y), t ≠ [] → setupArrays distinct dec t o = .ok { o with
      pos0 := t.map fun s => dumpPos (filterGeneric (fun p : APart d S K => q0 p.species) s)
      pos1 := t.map fun s => dumpPos (filterGeneric (fun p : APart d S K => q1 p.species) s) } := by
    intro t ht
    obtain ⟨s, hs⟩ := pyGet_zero ht
    simp [setupArrays, h2, setupTwobody, hc, readTwo, dumpAllIds, hps, hs, bind, Except.bind, pure, Except.pure, h0, h1]
  have hd : Spec.drift us traj ≠ [] := by
    intro h
    have := congrArg List.length h
    simp only [Spec.drift, List.length_zipWith, hus, min_self, List.length_nil] at this
    exact hne (List.eq_nil_of_length_eq_zero this)
  have aux : ∀ (q : S → Bool) (us : List (Vec d K)) (t : List (ASys d S K Y)),
      (Spec.drift us t).map (fun s => dumpPos (filterGeneric (fun p : APart d S K => q p.species) s)) =
        List.zipWith (fun u x => x.map fun (r : Vec d K) c => r c + u c) us
          (t.map fun s => dumpPos (filterGeneric (fun p : APart d S K => q p.species) s)) := by
    intro q us t
    induction us generalizing t with
    | nil => rfl
    | cons u us ih =>
      cases t with
      | nil => rfl
      | cons s t =>
        have ih' := ih t
        simp only [Spec.drift] at ih'
        simp only [Spec.drift, List.zipWith_cons_cons, List.map_cons, List.cons.injEq, ih', and_true]
        rw [filter_shift]
        simp only [dumpPos, Spec.shift, List.map_map]
        rfl
  exact ⟨_, _, key traj hne, key _ hd, aux q0 us traj, aux q1 us traj⟩

/-- **C103.** With at most one filter, if `Unfolded` with `fixed_cm` removes the drift, all the arrays of one- and
two-body functions that analyse folded positions, or unfolded ones that the trajectory does not have, are independent of
it. -/
theorem C103_fix_cm_partial (distinct : List S → List S) (dec : Decorators d S K Y) (o : ArrObj d S K Y)
    (traj : List (ASys d S K Y)) (us : List (Vec d K)) (hus : us.length = traj.length)
    (hn : o.nbodies = 1 ∨ o.nbodies = 2) (hc : o.cbk.length ≤ 1) (hcm : o.fixCm = true) (hu : o.unfolded = none)
    (hps : .pos ∈ o.phasespace ∨ (.posUnf ∈ o.phasespace ∧ hasUnfolded traj = .ok false))
    (hdec : dec.unfolded true (Spec.drift us traj) = dec.unfolded true traj) :
    setupArrays distinct dec (Spec.drift us traj) o = setupArrays distinct dec traj o := by
  have h1 : chooseTraj dec o (Spec.drift us traj) = chooseTraj dec o traj := by
    have hmm : unfoldedMissing o (Spec.drift us traj) = unfoldedMissing o traj := by
      unfold unfoldedMissing
      rw [hasUnfolded_drift us traj hus]
    unfold chooseTraj
    rw [hmm, hu, hcm, hdec]
    rcases hps with h | ⟨h, h'⟩
    · cases unfoldedMissing o traj with
      | error e => rfl
      | ok b => simp [bind, Except.bind, h]
    · simp [unfoldedMissing, if_pos h, h', Except.map, bind, Except.bind]
  have h2 : setupOnebody distinct dec (Spec.drift us traj) o = setupOnebody distinct dec traj o := by
    unfold setupOnebody
    rw [h1]
  unfold setupArrays setupTwobody
  rw [h2]
  match o.cbk, hc with
  | [], _ => rfl
  | [c], _ => rfl

theorem dumpUnf_map (f : Vec d K → Vec d K) (g : APart d S K → Vec d K) (l : List (APart d S K)) :
    (l.map fun p : APart d S K => ({ p with pos := g p, unf := p.unf.map f } : APart d S K)).mapM APart.getUnf =
      (l.mapM APart.getUnf).map (List.map f) := by
  induction l with
  | nil => rfl
  | cons p l ih =>
    rw [List.map_cons, List.mapM_cons, List.mapM_cons, ih]
    have e1 : APart.getUnf ({ p with pos := g p, unf := p.unf.map f } : APart d S K) = (APart.getUnf p).map f := by
      unfold APart.getUnf
      cases p.unf <;> rfl
    rw [e1]
    cases APart.getUnf p with
    | error e => rfl
    | ok x =>
      cases List.mapM APart.getUnf l with
      | error e => rfl
      | ok r => rfl

theorem dumpUnf_move (g : APart d S K → Vec d K) (l : List (APart d S K)) (y y' : Y) :
    dumpUnf (⟨l.map fun p : APart d S K => ({ p with pos := g p } : APart d S K), y⟩ : ASys d S K Y) =
      dumpUnf (⟨l, y'⟩ : ASys d S K Y) := by
  have h := dumpUnf_map (fun x => x) g l
  simp only [Option.map_id', List.map_id'] at h
  unfold dumpUnf
  simp only
  rw [h]
  cases List.mapM APart.getUnf l with
  | error e => rfl
  | ok r => simp [Except.map]

theorem getUnf_all {l : List (APart d S K)} {xs : List (Vec d K)} (h : l.mapM APart.getUnf = .ok xs) :
    xs.length = l.length := by
  induction l generalizing xs with
  | nil => cases h; rfl
  | cons p l ih =>
    rw [List.mapM_cons] at h
    simp only [bind, Except.bind, pure, Except.pure] at h
    cases hp : p.getUnf with
    | error e => rw [hp] at h; cases h
    | ok x =>
      rw [hp] at h
      simp only at h
      cases hl : List.mapM APart.getUnf l with
      | error e => rw [hl] at h; cases h
      | ok r =>
        rw [hl] at h
        cases h
        simp [ih hl]

/-- The centre of mass moves with the system, which leaves the positions relative to it unchanged. -/
theorem subtractCm_shift (u : Vec d K) (s : ASys d S K Y) (hm : (s.particle.map APart.mass).sum ≠ 0) :
    subtractCm (Spec.shift u s) = (subtractCm s).map fun s' =>
      ⟨s'.particle.map fun p => { p with pos := fun c => p.pos c + u c }, s'.other⟩ := by
  obtain ⟨l, y⟩ := s
  simp only at hm
  have hd : dumpUnf (Spec.shift u (⟨l, y⟩ : ASys d S K Y)) =
      (l.mapM APart.getUnf).map (List.map fun x c => x c + u c) :=
    dumpUnf_map (fun x c => x c + u c) (fun p c => p.pos c + u c) l
  by_cases hl : l = []
  · subst hl
    rfl
  · obtain ⟨p0, h1⟩ := pyGet_zero hl
    obtain ⟨q, h2⟩ : ∃ q, pyGet (Spec.shift u (⟨l, y⟩ : ASys d S K Y)).particle 0 = .ok q :=
      pyGet_zero (by simpa [Spec.shift] using hl)
    unfold subtractCm
    rw [hd, h2]
    simp only [h1, bind, Except.bind, dumpUnf]
    cases hx : l.mapM APart.getUnf with
    | error e => rfl
    | ok xs =>
      have hlen := getUnf_all hx
      have hms : ((Spec.shift u (⟨l, y⟩ : ASys d S K Y)).particle.map APart.mass).sum = (l.map APart.mass).sum := by
        simp only [Spec.shift, List.map_map]
        rfl
      have hcm : ∀ c, ((((Spec.shift u (⟨l, y⟩ : ASys d S K Y)).particle.zip
            (xs.map fun (x : Vec d K) c => x c + u c)).map fun e => e.2 c * e.1.mass).sum) / (l.map APart.mass).sum =
          ((l.zip xs).map fun e => e.2 c * e.1.mass).sum / (l.map APart.mass).sum + u c := by
        intro c
        have : ∀ (l : List (APart d S K)) (xs : List (Vec d K)), xs.length = l.length →
            (((Spec.shift u (⟨l, y⟩ : ASys d S K Y)).particle.zip
              (xs.map fun (x : Vec d K) c => x c + u c)).map fun e => e.2 c * e.1.mass).sum =
            ((l.zip xs).map fun e => e.2 c * e.1.mass).sum + u c * (l.map APart.mass).sum := by
          intro l
          induction l with
          | nil => intro xs _; simp [Spec.shift]
          | cons p l ih =>
            intro xs hxs
            match xs, hxs with
            | x :: xs, hxs =>
              have := ih xs (by simpa using hxs)
              simp only [Spec.shift] at this
              simp only [Spec.shift, List.map_cons, List.zip_cons_cons, List.sum_cons, this]
              ring
        rw [this l xs hlen]
        field_simp
      simp only [Except.map, pure, Except.pure, hms, hcm]
      congr 1
      simp only [Spec.shift, List.map_map]
      congr 1
      apply List.map_congr_left
      intro p _
      simp only [Function.comp_apply, Option.map_map]
      congr 1
      cases p.unf with
      | none => rfl
      | some x =>
        simp only [Option.map_some, Function.comp_apply]
        congr 1
        funext c
        ring

/-- **C103.** If the trajectory has unfolded positions, which alone are analysed, the result with `fix_cm` is
independent of the drift. The filter, if any, selects species; total masses are not zero. -/
theorem C103_present_partial (distinct : List S → List S) (dec : Decorators d S K Y) (o : ArrObj d S K Y)
    (traj : List (ASys d S K Y)) (us : List (Vec d K)) (hus : us.length = traj.length) (sel : Option (S → Bool))
    (hc : o.cbk = (sel.map fun q => filterGeneric fun p : APart d S K => q p.species).toList)
    (hn : o.nbodies = 1) (hcm : o.fixCm = true) (hps : o.phasespace = [.posUnf])
    (hm : hasUnfolded traj = .ok true) (hmass : ∀ s ∈ traj, (s.particle.map APart.mass).sum ≠ 0) :
    setupArrays distinct dec (Spec.drift us traj) o = setupArrays distinct dec traj o := by
  have hframe : ∀ s ∈ traj, ∀ u, readUnfFrame o (Spec.shift u s) = readUnfFrame o s := by
    intro s hs u
    unfold readUnfFrame
    simp only [hcm, if_true, bind, Except.bind]
    rw [subtractCm_shift u s (hmass s hs)]
    cases subtractCm s with
    | error e => rfl
    | ok s' =>
      simp only [Except.map, hc]
      cases sel with
      | none => exact dumpUnf_move _ s'.particle s'.other s'.other
      | some q =>
        simp only [Option.map_some, Option.toList_some, firstFilter, filterGeneric]
        rw [List.filter_map]
        exact dumpUnf_move _ _ _ _
  have hh := hasUnfolded_drift us traj hus
  have key : ∀ t : List (ASys d S K Y), hasUnfolded t = .ok true → setupArrays distinct dec t o =
      (t.mapM (readUnfFrame o)).map fun x => { o with posUnf := o.posUnf ++ x } := by
    intro t ht
    unfold setupArrays setupOnebody chooseTraj unfoldedMissing
    simp only [hn, hps, ht, if_true, List.mem_singleton, Except.map, bind, Except.bind, pure, Except.pure,
      Bool.not_true, Bool.false_eq_true, reduceCtorEq, false_and, or_self, if_false]
    simp only [readFolded, hps, List.mem_singleton, reduceCtorEq, or_self, if_false, readUnfolded, if_true, ht, bind,
      Except.bind, pure, Except.pure]
    rfl
  rw [key traj hm, key _ (hh.trans hm)]
  congr 1
  clear key hh hm hn
  unfold Spec.drift
  induction traj generalizing us with
  | nil =>
    match us with
    | [] => rfl
    | u :: us => rfl
  | cons s traj ih =>
    match us, hus with
    | u :: us, hus =>
      rw [List.zipWith_cons_cons, List.mapM_cons, List.mapM_cons, hframe s (by simp),
        ih us (by simpa using hus) (fun s hs => hmass s (by simp [hs])) fun s hs => hframe s (by simp [hs])]

/-! ## C104 -/

/-- **C104** is false: two-body functions with at most one filter that request unfolded positions do not get them,
the arrays of both groups are empty. -/
theorem C104_counterexample (distinct : List S → List S) (dec : Decorators d S K Y) (o o' : ArrObj d S K Y)
    (traj : List (ASys d S K Y)) (h2 : o.nbodies = 2) (hc : o.cbk.length ≤ 1) (h0 : o.posUnf0 = []) (h1 : o.posUnf1 = [])
    (h : setupArrays distinct dec traj o = .ok o') : o'.posUnf0 = [] ∧ o'.posUnf1 = [] := by
  have hone : ∀ o1, setupOnebody distinct dec traj o = .ok o1 → o1.posUnf0 = [] ∧ o1.posUnf1 = [] := by
    intro o1 ho1
    unfold setupOnebody at ho1
    simp only [bind, Except.bind] at ho1
    cases hch : chooseTraj dec o traj with
    | error e => rw [hch] at ho1; cases ho1
    | ok tc =>
      rw [hch] at ho1
      simp only at ho1
      cases hr : readFolded distinct tc.1 { o with unfolded := tc.2 } with
      | error e => rw [hr] at ho1; cases ho1
      | ok o2 =>
        rw [hr] at ho1
        simp only at ho1
        have h3 : o2.posUnf0 = [] ∧ o2.posUnf1 = [] := by
          unfold readFolded at hr
          simp only [bind, Except.bind, pure, Except.pure] at hr
          split at hr
          · cases hp : pyGet tc.1 0 with
            | error e => rw [hp] at hr; cases hr
            | ok s =>
              rw [hp] at hr
              simp only at hr
              split at hr
              · cases hr
              · cases hr
                exact ⟨h0, h1⟩
          · cases hr
            exact ⟨h0, h1⟩
        unfold readUnfolded at ho1
        split_ifs at ho1
        · simp only [bind, Except.bind, pure, Except.pure] at ho1
          split at ho1
          · cases ho1
          · split at ho1
            · split at ho1
              · cases ho1
              · cases ho1; exact h3
            · cases ho1; exact h3
        · cases ho1; exact h3
  unfold setupArrays at h
  simp only [h2, OfNat.ofNat_ne_one, if_false, if_true] at h
  unfold setupTwobody at h
  match hcbk : o.cbk, hc with
  | [], _ =>
    simp only [hcbk, bind, Except.bind, pure, Except.pure] at h
    cases h1 : setupOnebody distinct dec traj o with
    | error e => rw [h1] at h; cases h
    | ok o1 => rw [h1] at h; cases h; exact hone o1 h1
  | [c], _ =>
    simp only [hcbk, bind, Except.bind, pure, Except.pure] at h
    cases h1 : setupOnebody distinct dec traj o with
    | error e => rw [h1] at h; cases h
    | ok o1 => rw [h1] at h; cases h; exact hone o1 h1

/-- **C104.** Folded positions and velocities requested by a one-body function: one array per frame, of the
particles selected by the filter. -/
theorem C104_one_body_partial (distinct : List S → List S) (dec : Decorators d S K Y) (o : ArrObj d S K Y)
    (traj : List (ASys d S K Y)) (ho : Spec.FreshArrays o) (h1 : o.nbodies = 1) (hcm : o.fixCm = false)
    (hunf : .posUnf ∉ o.phasespace) (hids : .ids ∉ o.phasespace) (hne : traj ≠ []) :
    ∃ o', setupArrays distinct dec traj o = .ok o' ∧
      (.pos ∈ o.phasespace → o'.pos = traj.map fun s => (firstFilter o.cbk s).particle.map APart.pos) ∧
      (.vel ∈ o.phasespace → o'.vel = traj.map fun s => (firstFilter o.cbk s).particle.map APart.vel) := by
  unfold setupArrays setupOnebody chooseTraj unfoldedMissing
  simp only [h1, if_true, if_neg hunf, hcm, bind, Except.bind, pure, Except.pure, Bool.false_eq_true, and_false, or_self,
    if_false]
  rw [readFolded_ok distinct hne { o with nbodies := 1, fixCm := false } hids]
  simp only [readUnfolded, if_neg hunf]
  refine ⟨_, rfl, ?_, ?_⟩
  · intro h; simp only [if_pos h, ho.pos, List.nil_append]; rfl
  · intro h; simp only [if_pos h, ho.vel, List.nil_append]; rfl

theorem speciesIndex_ok {names : List S} {a : S} (h : a ∈ names) :
    ∃ i, speciesIndex names a = .ok i ∧ names[i]? = some a := by
  obtain ⟨i, hi⟩ : ∃ i, names.idxOf? a = some i := by
    rw [← Option.isSome_iff_exists, List.isSome_idxOf?]
    exact h
  refine ⟨i, by simp [speciesIndex, hi], ?_⟩
  rw [List.idxOf?_eq_some_iff] at hi
  obtain ⟨hlt, h1, -⟩ := hi
  rw [List.getElem?_eq_getElem hlt]
  exact congrArg some h1

theorem dumpIds_ok {names : List S} (l : List (APart d S K)) (y : Y) (h : ∀ p ∈ l, p.species ∈ names) :
    ∃ r, dumpIds names (⟨l, y⟩ : ASys d S K Y) = .ok r ∧
      r.map (fun i => names[i]?) = l.map fun p => some p.species := by
  choose f hf using fun p : { p // p ∈ l } => speciesIndex_ok (h p.1 p.2)
  classical
  refine ⟨l.map fun p => if hp : p ∈ l then f ⟨p, hp⟩ else 0, ?_, ?_⟩
  · unfold dumpIds
    refine mapM_ok_map fun p hp => ?_
    simp only [dif_pos hp]
    exact (hf ⟨p, hp⟩).1
  · rw [List.map_map]
    apply List.map_congr_left
    intro p hp
    simp only [Function.comp_apply, dif_pos hp]
    exact (hf ⟨p, hp⟩).2

theorem mapM_dumpIds {names : List S} (traj : List (ASys d S K Y)) (c : ASys d S K Y → ASys d S K Y)
    (h : ∀ s ∈ traj, ∀ p ∈ (c s).particle, p.species ∈ names) :
    ∃ r, ((traj.map c).mapM (dumpIds names)) = .ok r ∧
      r.map (fun l => l.map fun i => names[i]?) = traj.map fun s => (c s).particle.map fun p => some p.species := by
  induction traj with
  | nil => exact ⟨[], rfl, rfl⟩
  | cons s traj ih =>
    obtain ⟨r, h1, h2⟩ := ih fun s hs => h s (by simp [hs])
    obtain ⟨l, h3, h4⟩ := dumpIds_ok (c s).particle (c s).other (h s (by simp))
    refine ⟨l :: r, ?_, by simp [h2, h4]⟩
    rw [List.map_cons, List.mapM_cons]
    have h3' : dumpIds names (c s) = .ok l := h3
    rw [h3', h1]
    rfl

/-- **C104.** The species requested by a two-body function such as the bond-angle distribution: with two filters, if
all the species appear in the first frame, the entries of the two arrays are indices in its list of species, and they
are those of the particles of each group. -/
theorem C104_ids_partial (distinct : List S → List S) (hdist : ∀ l a, a ∈ distinct l ↔ a ∈ l)
    (dec : Decorators d S K Y) (o : ArrObj d S K Y) (s0 : ASys d S K Y) (traj : List (ASys d S K Y))
    (c0 c1 : ASys d S K Y → ASys d S K Y) (hc : o.cbk = [c0, c1])
    (hsub : ∀ s, (∀ p ∈ (c0 s).particle, p ∈ s.particle) ∧ ∀ p ∈ (c1 s).particle, p ∈ s.particle)
    (h2 : o.nbodies = 2) (hps : o.phasespace = [.pos, .ids]) (h0 : o.ids0 = []) (h1 : o.ids1 = [])
    (hspc : ∀ s ∈ s0 :: traj, ∀ p ∈ s.particle, ∃ p0 ∈ s0.particle, p0.species = p.species) :
    ∃ o', setupArrays distinct dec (s0 :: traj) o = .ok o' ∧
      (let names := distinct (s0.particle.map APart.species)
       o'.ids0.map (fun l => l.map fun i => names[i]?) =
        (s0 :: traj).map fun s => (c0 s).particle.map fun p => some p.species) ∧
      (let names := distinct (s0.particle.map APart.species)
       o'.ids1.map (fun l => l.map fun i => names[i]?) =
        (s0 :: traj).map fun s => (c1 s).particle.map fun p => some p.species) := by
  have hn : ∀ s ∈ s0 :: traj, ∀ p ∈ s.particle, p.species ∈ distinct (s0.particle.map APart.species) := by
    intro s hs p hp
    obtain ⟨p0, hp0, he⟩ := hspc s hs p hp
    rw [hdist, ← he]
    exact List.mem_map_of_mem hp0
  obtain ⟨r0, h3, h4⟩ := mapM_dumpIds (s0 :: traj) c0 fun s hs p hp => hn s hs p ((hsub s).1 p hp)
  obtain ⟨r1, h5, h6⟩ := mapM_dumpIds (s0 :: traj) c1 fun s hs p hp => hn s hs p ((hsub s).2 p hp)
  have hg : pyGet (s0 :: traj) 0 = .ok s0 := rfl
  refine ⟨{ o with
    pos0 := o.pos0 ++ (s0 :: traj).map fun s => dumpPos (c0 s)
    pos1 := o.pos1 ++ (s0 :: traj).map fun s => dumpPos (c1 s)
    ids0 := r0, ids1 := r1 }, ?_, h4, h6⟩
  unfold setupArrays setupTwobody
  simp only [h2, OfNat.ofNat_ne_one, if_false, if_true, hc, readTwo, hps, hg, bind, Except.bind, pure, Except.pure]
  simp only [List.mem_cons, true_or, or_true, if_true, dumpAllIds, h3, h5]
  simp [h0, h1]

/-- **C104** is false if a species is missing from the first frame, as in a simulation where the composition changes:
`ValueError`, even though the filters select it. -/
theorem C104_counterexample_ids (distinct : List S → List S) (hdist : ∀ l a, a ∈ distinct l ↔ a ∈ l)
    (dec : Decorators d S K Y) (o : ArrObj d S K Y) (s0 : ASys d S K Y) (traj : List (ASys d S K Y))
    (c0 c1 : ASys d S K Y → ASys d S K Y) (hc : o.cbk = [c0, c1])
    (h2 : o.nbodies = 2) (hps : .ids ∈ o.phasespace)
    (s : ASys d S K Y) (hs : s ∈ traj) (p : APart d S K) (hp : p ∈ (c0 s).particle)
    (hnew : ∀ p0 ∈ s0.particle, p0.species ≠ p.species) :
    setupArrays distinct dec (s0 :: traj) o = .error .valueError := by
  have hg : pyGet (s0 :: traj) 0 = .ok s0 := rfl
  have hidx : ∀ (names : List S) (q : APart d S K), speciesIndex names q.species = .error .valueError ∨
      ∃ i, speciesIndex names q.species = .ok i := by
    intro names q
    unfold speciesIndex
    cases names.idxOf? q.species <;> simp
  have hd : ∀ (names : List S) (t : ASys d S K Y), dumpIds names t = .error .valueError ∨ ∃ r, dumpIds names t = .ok r := by
    intro names t
    by_cases hq : ∃ q ∈ t.particle, speciesIndex names q.species = .error .valueError
    · obtain ⟨q, hq, he⟩ := hq
      exact Or.inl (mapM_error (fun a _ => hidx names a) q hq he)
    · right
      push Not at hq
      cases hr : dumpIds names t with
      | ok r => exact ⟨r, rfl⟩
      | error e =>
        exfalso
        have : ∀ q ∈ t.particle, ∃ i, speciesIndex names q.species = .ok i := fun q h =>
          (hidx names q).resolve_left (hq q h)
        choose! f hf using this
        unfold dumpIds at hr
        rw [mapM_ok_map (g := f) hf] at hr
        cases hr
  have hne : speciesIndex (distinct (s0.particle.map APart.species)) p.species = .error .valueError := by
    have : p.species ∉ distinct (s0.particle.map APart.species) := by
      rw [hdist, List.mem_map]
      rintro ⟨p0, hp0, he⟩
      exact hnew p0 hp0 he
    unfold speciesIndex
    rw [List.idxOf?_eq_none_iff.2 this]
  have he : dumpAllIds o.phasespace (distinct (s0.particle.map APart.species)) ((s0 :: traj).map c0) =
      .error .valueError := by
    unfold dumpAllIds
    rw [if_pos hps]
    exact mapM_error (fun a _ => hd _ a) (c0 s) (List.mem_map_of_mem (by simp [hs]))
      (mapM_error (fun a _ => hidx _ a) p hp hne)
  unfold setupArrays setupTwobody
  simp only [h2, OfNat.ofNat_ne_one, if_false, if_true, hc, readTwo, hg, bind, Except.bind, hps, or_true, he]

/-! ## Examples -/

/-- One particle that moves by 3 in each frame in a cell of side 10, as folded in the file. -/
def arraysExample : List (ASys 1 ℕ ℚ Unit) :=
  [0, 3, -4, -1, 2].map fun x : ℚ => ⟨[⟨![x], none, ![3], 1, 1⟩], ()⟩

/-- Distance to the nearest image in a cell of side 10. -/
def nearest10 (x : ℚ) : ℚ := x - 10 * ⌊x / 10 + 1 / 2⌋

/-- Decorators that unfold and fold one-dimensional trajectories of one particle in a cell of side 10. -/
def decExample : Decorators 1 ℕ ℚ Unit where
  unfolded _ traj := (traj.foldl (fun acc s =>
    let x := ((s.particle.map fun p => p.pos 0).head?).getD 0
    let y := match acc.2 with
      | none => x
      | some y => y + nearest10 (x - y)
    (acc.1 ++ [{ s with particle := s.particle.map fun p => { p with pos := ![y] } }], some y))
    (([] : List (ASys 1 ℕ ℚ Unit)), (none : Option ℚ))).1
  fold s := { s with particle := s.particle.map fun p => { p with pos := ![nearest10 (p.pos 0)] } }

/-- The positions as a table of numbers. -/
def table (l : List (List (Vec 1 ℚ))) : List (List ℚ) := l.map fun x => x.map fun v => v 0

/-- The object of a one-body function. -/
def objExample (ps : List PhaseVar) : ArrObj 1 ℕ ℚ Unit := { nbodies := 1, phasespace := ps, fixCm := false, cbk := [] }

theorem freshExample (ps : List PhaseVar) : Spec.FreshArrays (objExample ps) := ⟨rfl, rfl, rfl, rfl, rfl⟩

theorem missingExample : hasUnfolded arraysExample = .ok false := rfl

/-- Unfolded positions only: those of the motion. -/
example : ((setupArrays (fun l => l.dedup) decExample arraysExample (objExample [.posUnf])).map fun o =>
    table o.posUnf) = .ok [[0], [3], [6], [9], [12]] := by decide +kernel

/-- Both: folded ones. -/
example : ((setupArrays (fun l => l.dedup) decExample arraysExample (objExample [.pos, .posUnf])).map fun o =>
    table o.posUnf) = .ok [[0], [3], [-4], [-1], [2]] := by decide +kernel

/-- The hypotheses of the theorems on C102 hold for this trajectory. -/
example : ∃ o', setupOnebody (fun l => l.dedup) decExample arraysExample (objExample [.posUnf]) = .ok o' ∧
    o'.posUnf = (decExample.unfolded false arraysExample).map dumpPos :=
  C102_unfolded_partial _ _ (objExample [.posUnf]) _ ⟨rfl, rfl⟩ (freshExample _) (by decide) (by decide) (by decide)
    missingExample

theorem nearest10_le (x : ℚ) : |nearest10 x| ≤ 10 / 2 := by
  unfold nearest10
  rw [abs_le]
  have h1 := Int.floor_le (x / 10 + 1 / 2)
  have h2 := Int.lt_floor_add_one (x / 10 + 1 / 2)
  constructor <;> linarith

example : ∃ o', setupOnebody (fun l => l.dedup) decExample arraysExample (objExample [.pos, .posUnf]) = .ok o' ∧
    o'.posUnf.length = 5 ∧ ∀ x ∈ o'.posUnf, ∀ y ∈ o'.posUnf, ∀ u ∈ x, ∀ v ∈ y, ∀ c, |u c - v c| ≤ 10 := by
  refine C102_counterexample_bounded _ _ (objExample [.pos, .posUnf]) arraysExample ⟨rfl, rfl⟩ ⟨rfl, rfl⟩ (fun _ => 10) ?_
    (by intro f hf; cases hf) (freshExample _) (by decide) (by decide) (by decide) missingExample
  intro s p hp c
  simp only [decExample, List.mem_map] at hp
  obtain ⟨q, -, rfl⟩ := hp
  fin_cases c
  exact nearest10_le _

/-- Two particles of different species, with unfolded positions in the file; everything drifts by 1 in the second
frame. -/
def driftExample : List (ASys 1 ℕ ℚ Unit) :=
  [⟨[⟨![0], some ![0], ![1], 1, 1⟩, ⟨![2], some ![2], ![1], 2, 3⟩], ()⟩,
   ⟨[⟨![1], some ![1], ![1], 1, 1⟩, ⟨![4], some ![14], ![1], 2, 3⟩], ()⟩]

/-- Those of the theorems on unfolded positions in the file. -/
example : ∃ o', setupOnebody (fun l => l.dedup) decExample driftExample
      { objExample [.pos, .posUnf] with cbk := [filterGeneric fun p => p.species = 2] } = .ok o' ∧
    o'.posUnf = driftExample.map fun s => (s.particle.filter fun p => p.species = 2).map fun p => p.unf.getD 0 := by
  refine C102_present_partial _ _ { objExample [.pos, .posUnf] with cbk := [filterGeneric fun p => p.species = 2] }
    driftExample (some fun p => p.species = 2) ⟨rfl, rfl, rfl, rfl, rfl⟩ rfl (by decide) (by decide) rfl
    (fun p => p.unf.getD 0) ?_ (by simp [driftExample]) (by simp [driftExample])
  intro s hs p hp
  simp only [driftExample, List.mem_cons, List.not_mem_nil, or_false] at hs
  rcases hs with rfl | rfl <;>
  · simp only [List.mem_cons, List.not_mem_nil, or_false] at hp
    rcases hp with rfl | rfl <;> rfl

/-- The centre of mass is at 3/2, which is subtracted from the position of the second particle. -/
example : ((setupArrays (fun l => l.dedup) decExample driftExample
    { nbodies := 1, phasespace := [.posUnf], fixCm := true, cbk := [filterGeneric fun p => p.species = 2] }).map fun o =>
      table o.posUnf) = .ok [[1 / 2], [13 / 4]] := by decide +kernel

/-- A drift that does not change it. -/
example : setupArrays (fun l => l.dedup) decExample (Spec.drift [![5], ![7]] driftExample)
    { nbodies := 1, phasespace := [.posUnf], fixCm := true, cbk := [filterGeneric fun p => p.species = 2] } =
    setupArrays (fun l => l.dedup) decExample driftExample
      { nbodies := 1, phasespace := [.posUnf], fixCm := true, cbk := [filterGeneric fun p => p.species = 2] } :=
  C103_present_partial _ _ _ _ _ rfl (some fun a => a = 2) rfl rfl rfl rfl rfl (by
    intro s hs
    simp only [driftExample, List.mem_cons, List.not_mem_nil, or_false] at hs
    rcases hs with rfl | rfl <;> norm_num)

/-- The object of a two-body function with a filter for each species. -/
def pairExample (cm : Bool) : ArrObj 1 ℕ ℚ Unit :=
  { nbodies := 2, phasespace := [.pos], fixCm := cm
    cbk := [filterGeneric fun p => p.species = 1, filterGeneric fun p => p.species = 2] }

/-- It does change the positions of two groups. -/
example : ((setupArrays (fun l => l.dedup) decExample driftExample (pairExample true)).map fun o =>
      (table o.pos0, table o.pos1)) = .ok ([[0], [1]], [[2], [4]]) ∧
    ((setupArrays (fun l => l.dedup) decExample (Spec.drift [![5], ![7]] driftExample) (pairExample true)).map fun o =>
      (table o.pos0, table o.pos1)) = .ok ([[5], [8]], [[7], [11]]) := by decide +kernel

example : ∃ o1 o2, setupArrays (fun l => l.dedup) decExample driftExample (pairExample true) = .ok o1 ∧
    setupArrays (fun l => l.dedup) decExample (Spec.drift [![5], ![7]] driftExample) (pairExample true) = .ok o2 ∧
    o2.pos0 = List.zipWith (fun u x => x.map fun (r : Vec 1 ℚ) c => r c + u c) [![5], ![7]] o1.pos0 ∧
    o2.pos1 = List.zipWith (fun u x => x.map fun (r : Vec 1 ℚ) c => r c + u c) [![5], ![7]] o1.pos1 :=
  C103_counterexample_drift _ _ _ _ (fun a => a = 1) (fun a => a = 2) _ rfl rfl rfl rfl rfl rfl rfl (by simp [driftExample])

/-- A decorator that subtracts the position of the first particle, as far as one particle is concerned the centre of
mass: with it `C103_fix_cm_partial` applies to any drift of `arraysExample`. -/
def decFirst : Decorators 1 ℕ ℚ Unit where
  unfolded cm traj := if cm then traj.map fun s => { s with particle := s.particle.map fun p => { p with pos := ![0] } }
    else traj
  fold s := s

example (us : List (Vec 1 ℚ)) (hus : us.length = 5) :
    setupArrays (fun l => l.dedup) decFirst (Spec.drift us arraysExample) { objExample [.pos, .vel] with fixCm := true } =
      setupArrays (fun l => l.dedup) decFirst arraysExample { objExample [.pos, .vel] with fixCm := true } := by
  refine C103_fix_cm_partial _ _ _ _ us hus (Or.inl rfl) (by decide) rfl rfl (Or.inl (by decide)) ?_
  match us, hus with
  | [a, b, c, e, f], _ => rfl

/-- A two-body function that requests unfolded positions, with one filter: none are available. -/
example : ((setupArrays (fun l => l.dedup) decExample driftExample
    { pairExample false with phasespace := [.posUnf], cbk := [] }).map fun o =>
      (table o.posUnf0, table o.posUnf)) = .ok ([], [[0, 2], [1, 14]]) := by decide +kernel

/-- The species of the two groups, as indices in the list of species of the first frame. -/
example : ((setupArrays (fun l => l.dedup) decExample driftExample
    { pairExample false with phasespace := [.pos, .ids] }).map fun o => (o.ids0, o.ids1)) =
      .ok ([[0], [0]], [[1], [1]]) := by decide +kernel

example : ∃ o', setupArrays (fun l => l.dedup) decExample driftExample
      { pairExample false with phasespace := [.pos, .ids] } = .ok o' ∧
    o'.ids1.map (fun l => l.map fun i => [1, 2][i]?) = [[some 2], [some 2]] := by
  obtain ⟨o', h1, -, h2⟩ := C104_ids_partial (fun l : List ℕ => l.dedup) (fun l a => List.mem_dedup) decExample
    { pairExample false with phasespace := [.pos, .ids] } ⟨[⟨![0], some ![0], ![1], 1, 1⟩, ⟨![2], some ![2], ![1], 2, 3⟩], ()⟩
    [⟨[⟨![1], some ![1], ![1], 1, 1⟩, ⟨![4], some ![14], ![1], 2, 3⟩], ()⟩]
    (filterGeneric fun p => p.species = 1) (filterGeneric fun p => p.species = 2) rfl
    (fun s => ⟨fun p hp => (List.mem_filter.1 hp).1, fun p hp => (List.mem_filter.1 hp).1⟩) rfl rfl rfl rfl (by
      intro s hs p hp
      simp only [List.mem_cons, List.not_mem_nil, or_false] at hs
      rcases hs with rfl | rfl <;>
      · simp only [List.mem_cons, List.not_mem_nil, or_false] at hp
        rcases hp with rfl | rfl <;> simp)
  exact ⟨o', h1, h2⟩

/-- The species 2 is not in the first frame. -/
example : setupArrays (fun l => l.dedup) decExample
    (⟨[⟨![0], none, ![1], 1, 1⟩], ()⟩ :: driftExample) { pairExample false with
      phasespace := [.pos, .ids]
      cbk := [filterGeneric fun p => p.species = 2, filterGeneric fun p => p.species = 1] } = .error .valueError :=
  C104_counterexample_ids _ (fun l a => List.mem_dedup) _ _ _ driftExample _ _ rfl rfl (by decide)
    ⟨[⟨![0], some ![0], ![1], 1, 1⟩, ⟨![2], some ![2], ![1], 2, 3⟩], ()⟩ (by simp [driftExample])
    ⟨![2], some ![2], ![1], 2, 3⟩ (by simp [filterGeneric]) (by simp)

/-- Positions and velocities of a one-body function with a filter. -/
example : ∃ o', setupArrays (fun l => l.dedup) decExample driftExample
      { objExample [.pos, .vel] with cbk := [filterGeneric fun p => p.species = 2] } = .ok o' ∧
    o'.pos = [[![2]], [![4]]] := by
  obtain ⟨o', h1, h2, -⟩ := C104_one_body_partial (fun l : List ℕ => l.dedup) decExample
    { objExample [.pos, .vel] with cbk := [filterGeneric fun p => p.species = 2] } driftExample
    ⟨rfl, rfl, rfl, rfl, rfl⟩ rfl rfl (by decide) (by decide) (by simp [driftExample])
  exact ⟨o', h1, h2 (by decide)⟩

end PP.Props
