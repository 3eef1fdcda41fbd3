import Verif.Model.Memory
import Verif.Props.Arrays

/-!
# C128: calculations on the same trajectory do not affect each other
-/

set_option linter.unusedSectionVars false

namespace PP.Spec
variable {d : ℕ} {S K Y : Type} [Field K]

/-- Centre of mass of the unfolded positions. -/
def centre (s : ASys d S K Y) : Vec d K :=
  fun c => (s.particle.map fun p => p.unf.getD 0 c * p.mass).sum / (s.particle.map APart.mass).sum

/-- The frame with the centre of mass of the unfolded positions at the origin. -/
def centred (s : ASys d S K Y) : ASys d S K Y :=
  { s with particle := s.particle.map fun p => { p with unf := some fun c => p.unf.getD 0 c - centre s c } }

/-- Frames of at least one particle, all with unfolded positions, and total mass not zero. -/
def HasPositions (s : ASys d S K Y) : Prop :=
  s.particle ≠ [] ∧ (∀ p ∈ s.particle, p.unf.isSome) ∧ (s.particle.map APart.mass).sum ≠ 0

end PP.Spec

namespace PP.Props
open PP

variable {d : ℕ} {S K Y : Type} [Field K] [DecidableEq S]

theorem dumpUnf_some {l : List (APart d S K)} (y : Y) (h : ∀ p ∈ l, p.unf.isSome) :
    dumpUnf (⟨l, y⟩ : ASys d S K Y) = .ok (l.map fun p => p.unf.getD 0) := by
  unfold dumpUnf
  refine mapM_ok_map fun p hp => ?_
  obtain ⟨x, hx⟩ := Option.isSome_iff_exists.1 (h p hp)
  unfold APart.getUnf
  rw [hx]
  rfl

theorem subtractCm_ok {s : ASys d S K Y} (h : Spec.HasPositions s) : subtractCm s = .ok (Spec.centred s) := by
  obtain ⟨l, y⟩ := s
  obtain ⟨hne, hs, -⟩ := h
  unfold subtractCm
  obtain ⟨p0, hp0⟩ := pyGet_zero hne
  rw [hp0, dumpUnf_some y hs]
  simp only [bind, Except.bind, pure, Except.pure]
  congr 1
  unfold Spec.centred Spec.centre
  simp only
  congr 1
  apply List.map_congr_left
  intro p hp
  obtain ⟨x, hx⟩ := Option.isSome_iff_exists.1 (hs p hp)
  rw [hx]
  congr 1
  simp only [Option.map_some, Option.getD_some]
  congr 1
  funext c
  congr 3
  have : ∀ l : List (APart d S K), (l.zip (l.map fun p => p.unf.getD 0)).map (fun e => e.2 c * e.1.mass) =
      l.map fun p => p.unf.getD 0 c * p.mass := by
    intro l
    induction l with
    | nil => rfl
    | cons q l ih => simp only [List.map_cons, List.zip_cons_cons, ih]
  rw [this]

theorem centre_centred {s : ASys d S K Y} (h : Spec.HasPositions s) : Spec.centre (Spec.centred s) = 0 := by
  obtain ⟨l, y⟩ := s
  obtain ⟨-, -, hm⟩ := h
  funext c
  unfold Spec.centre
  have e1 : ∀ (u : Vec d K), (Spec.centred (⟨l, y⟩ : ASys d S K Y)).particle.map APart.mass = l.map APart.mass := by
    intro u
    unfold Spec.centred
    simp only [List.map_map]
    rfl
  rw [e1 0]
  have e2 : (Spec.centred (⟨l, y⟩ : ASys d S K Y)).particle.map (fun p => p.unf.getD 0 c * p.mass) =
      l.map fun p => p.unf.getD 0 c * p.mass - Spec.centre (⟨l, y⟩ : ASys d S K Y) c * p.mass := by
    unfold Spec.centred
    simp only [List.map_map]
    apply List.map_congr_left
    intro p _
    simp only [Function.comp_apply, Option.getD_some]
    ring
  rw [e2]
  have e3 : ∀ (l : List (APart d S K)) (u : K), (l.map fun p => p.unf.getD 0 c * p.mass - u * p.mass).sum =
      (l.map fun p => p.unf.getD 0 c * p.mass).sum - u * (l.map APart.mass).sum := by
    intro l u
    induction l with
    | nil => simp
    | cons p l ih =>
      simp only [List.map_cons, List.sum_cons, ih]
      ring
  rw [e3]
  simp only at hm
  unfold Spec.centre
  simp only
  rw [div_mul_cancel₀ _ hm, sub_self, zero_div]
  rfl

theorem centred_has {s : ASys d S K Y} (h : Spec.HasPositions s) : Spec.HasPositions (Spec.centred s) := by
  obtain ⟨l, y⟩ := s
  obtain ⟨hne, -, hm⟩ := h
  refine ⟨?_, ?_, ?_⟩
  · unfold Spec.centred
    simpa using hne
  · intro p hp
    unfold Spec.centred at hp
    obtain ⟨q, -, rfl⟩ := List.mem_map.1 hp
    rfl
  · unfold Spec.centred
    simp only [List.map_map]
    exact hm

/-- Fixing the centre of mass twice is the same as once. -/
theorem centred_centred {s : ASys d S K Y} (h : Spec.HasPositions s) :
    Spec.centred (Spec.centred s) = Spec.centred s := by
  have h0 := centre_centred h
  show ({ Spec.centred s with particle := (Spec.centred s).particle.map fun p =>
    { p with unf := some fun c => p.unf.getD 0 c - Spec.centre (Spec.centred s) c } } : ASys d S K Y) = _
  rw [h0]
  obtain ⟨l, y⟩ := s
  unfold Spec.centred
  simp only [List.map_map]
  congr 1
  apply List.map_congr_left
  intro p _
  simp

theorem hasUnfolded_true {traj : List (ASys d S K Y)} (hne : traj ≠ []) (h : ∀ s ∈ traj, Spec.HasPositions s) :
    hasUnfolded traj = .ok true := by
  match traj, hne with
  | s :: traj, _ =>
    obtain ⟨l, y⟩ := s
    obtain ⟨h1, h2, -⟩ := h _ (List.mem_cons_self ..)
    match l, h1 with
    | p :: l, _ =>
      have := h2 p (List.mem_cons_self ..)
      unfold hasUnfolded
      simp only [pyGet, bind, Except.bind, pure, Except.pure]
      simp [this]

theorem setup_posUnf (distinct : List S → List S) (dec : Decorators d S K Y) (o : ArrObj d S K Y)
    {traj : List (ASys d S K Y)} (hps : o.phasespace = [.posUnf]) (hm : hasUnfolded traj = .ok true) :
    setupOnebody distinct dec traj o =
      (traj.mapM (readUnfFrame o)).map fun x => { o with posUnf := o.posUnf ++ x } := by
  obtain ⟨nb, ps, fixCm, cbk, unfolded, pos, vel, ids, posUnf, pos0, pos1, vel0, vel1, ids0, ids1, u0, u1⟩ := o
  simp only at hps
  subst hps
  unfold setupOnebody chooseTraj unfoldedMissing
  simp only [List.mem_cons, reduceCtorEq, List.not_mem_nil, or_false, if_true, Except.map, bind,
    Except.bind, Bool.not_true, false_and, or_self, if_false, pure, Except.pure, Bool.false_eq_true, hm]
  unfold readFolded
  simp only [List.mem_cons, reduceCtorEq, List.not_mem_nil, or_self, if_false]
  unfold readUnfolded
  simp only [List.mem_cons, true_or, if_true, hm, bind, Except.bind, pure, Except.pure]

theorem framesAfter_same (o : ArrObj d S K Y) {traj : List (ASys d S K Y)} (hcm : o.fixCm = false)
    {o' : ArrObj d S K Y} {distinct : List S → List S} {dec : Decorators d S K Y}
    (h : setupOnebody distinct dec traj o = .ok o') : framesAfter o traj = .ok traj := by
  unfold setupOnebody chooseTraj at h
  unfold framesAfter unfoldsFirst
  cases hm : unfoldedMissing o traj with
  | error e => rw [hm] at h; cases h
  | ok b =>
    simp only [bind, Except.bind, pure, Except.pure]
    rw [if_neg]
    rintro ⟨-, -, h3⟩
    rw [hcm] at h3
    cases h3

theorem framesAfter_centred (o : ArrObj d S K Y) {traj : List (ASys d S K Y)} (hcm : o.fixCm = true)
    (hps : o.phasespace = [.posUnf]) (hne : traj ≠ []) (ht : ∀ s ∈ traj, Spec.HasPositions s) :
    framesAfter o traj = .ok (traj.map Spec.centred) := by
  unfold framesAfter unfoldsFirst unfoldedMissing
  rw [hasUnfolded_true hne ht, hps, hcm]
  simp only [List.mem_cons, reduceCtorEq, List.not_mem_nil, or_false, if_true, Except.map, bind, Except.bind, pure,
    Except.pure, Bool.not_true, decide_false, Bool.false_and, Bool.or_self, and_self]
  exact mapM_ok_map fun s hs => subtractCm_ok (ht s hs)

theorem readUnf_fixed (o : ArrObj d S K Y) {s : ASys d S K Y} (h : Spec.HasPositions s) :
    readUnfFrame { o with fixCm := true } s = dumpUnf (firstFilter o.cbk (Spec.centred s)) := by
  unfold readUnfFrame
  simp only [if_true]
  rw [subtractCm_ok h]
  rfl

theorem readUnf_plain (o : ArrObj d S K Y) (s : ASys d S K Y) :
    readUnfFrame { o with fixCm := false } s = dumpUnf (firstFilter o.cbk s) := rfl

theorem mapM_congr_mem {α β : Type} {f g : α → Py β} {l : List α} (h : ∀ a ∈ l, f a = g a) : l.mapM f = l.mapM g := by
  induction l with
  | nil => rfl
  | cons a l ih =>
    rw [List.mapM_cons, List.mapM_cons, h a (List.mem_cons_self ..), ih fun b hb => h b (List.mem_cons_of_mem _ hb)]

theorem centred_traj {traj : List (ASys d S K Y)} (ht : ∀ s ∈ traj, Spec.HasPositions s) :
    ∀ s ∈ traj.map Spec.centred, Spec.HasPositions s := by
  intro s hs
  obtain ⟨s', hs', rfl⟩ := List.mem_map.1 hs
  exact centred_has (ht s' hs')

/-- **C128.** If none of the functions fixes the centre of mass, each of them reads what it would alone. What is missing:
see `C128_counterexample`. -/
theorem C128_plain_partial (distinct : List S → List S) (dec : Decorators d S K Y) (traj : List (ASys d S K Y))
    (os : List (ArrObj d S K Y)) (h : ∀ o ∈ os, o.fixCm = false) :
    setupAll distinct dec traj os = os.mapM (setupOnebody distinct dec traj) := by
  induction os with
  | nil => rfl
  | cons o os ih =>
    rw [List.mapM_cons, setupAll]
    unfold setupOnebodyMem
    cases h1 : setupOnebody distinct dec traj o with
    | error e => rfl
    | ok o' =>
      simp only [bind, Except.bind, pure, Except.pure]
      rw [framesAfter_same o (h o (List.mem_cons_self ..)) h1]
      simp only
      rw [ih fun q hq => h q (List.mem_cons_of_mem _ hq)]

/-- **C128**, all functions of the unfolded positions with fixed centre of mass, as `Partial` creates them. -/
theorem C128_fixed_partial (distinct : List S → List S) (dec : Decorators d S K Y) (traj : List (ASys d S K Y))
    (hne : traj ≠ []) (ht : ∀ s ∈ traj, Spec.HasPositions s)
    (os : List (ArrObj d S K Y)) (h : ∀ o ∈ os, o.fixCm = true ∧ o.phasespace = [.posUnf]) :
    setupAll distinct dec traj os = os.mapM (setupOnebody distinct dec traj) := by
  induction os generalizing traj with
  | nil => rfl
  | cons o os ih =>
    rw [List.mapM_cons, setupAll]
    unfold setupOnebodyMem
    cases h1 : setupOnebody distinct dec traj o with
    | error e => rfl
    | ok o' =>
      obtain ⟨hcm, hps⟩ := h o (List.mem_cons_self ..)
      simp only [bind, Except.bind, pure, Except.pure]
      rw [framesAfter_centred o hcm hps hne ht]
      simp only
      have hs : ∀ q ∈ os, setupOnebody distinct dec (traj.map Spec.centred) q = setupOnebody distinct dec traj q := by
        intro q hq
        obtain ⟨hqc, hqp⟩ := h q (List.mem_cons_of_mem _ hq)
        rw [setup_posUnf distinct dec q hqp (hasUnfolded_true hne ht),
          setup_posUnf distinct dec q hqp (hasUnfolded_true (by simpa using hne) (centred_traj ht)), List.mapM_map]
        congr 1
        refine mapM_congr_mem fun s hs => ?_
        have e : q = { q with fixCm := true } := by rw [← hqc]
        rw [e, Function.comp_apply, readUnf_fixed q (ht s hs), readUnf_fixed q (centred_has (ht s hs)),
          centred_centred (ht s hs)]
      rw [ih _ (by simpa using hne) (centred_traj ht) fun q hq => h q (List.mem_cons_of_mem _ hq),
        mapM_congr_mem hs]

/-- **C128, false.** After a function of the unfolded positions with fixed centre of mass has been computed, another one
without it reads the positions with fixed centre of mass. Without filters, the positions are those read by the function
alone if and only if the centre of mass is at the origin in all frames. -/
theorem C128_counterexample (distinct : List S → List S) (dec : Decorators d S K Y) (traj : List (ASys d S K Y))
    (hne : traj ≠ []) (ht : ∀ s ∈ traj, Spec.HasPositions s) (o1 o2 : ArrObj d S K Y)
    (h1 : o1.fixCm = true) (h2 : o2.fixCm = false) (hp1 : o1.phasespace = [.posUnf]) (hp2 : o2.phasespace = [.posUnf])
    (hc1 : o1.cbk = []) (hc2 : o2.cbk = []) (hu1 : o1.posUnf = []) (hu2 : o2.posUnf = []) :
    ∃ a b a' b', setupAll distinct dec traj [o1, o2] = .ok [a, b] ∧
      setupOnebody distinct dec traj o1 = .ok a' ∧ setupOnebody distinct dec traj o2 = .ok b' ∧
      a.posUnf = a'.posUnf ∧ b.posUnf = a'.posUnf ∧
      (b.posUnf = b'.posUnf ↔ ∀ s ∈ traj, Spec.centre s = 0) := by
  have hH := hasUnfolded_true hne ht
  have hne' : traj.map Spec.centred ≠ [] := by simpa using hne
  have e1 : o1 = { o1 with fixCm := true } := by rw [← h1]
  have e2 : o2 = { o2 with fixCm := false } := by rw [← h2]
  have m1 : traj.mapM (readUnfFrame o1) = .ok (traj.map fun s => (Spec.centred s).particle.map fun p => p.unf.getD 0) := by
    refine mapM_ok_map fun s hs => ?_
    rw [e1, readUnf_fixed o1 (ht s hs), hc1]
    exact dumpUnf_some _ (centred_has (ht s hs)).2.1
  have m2 : ∀ t : List (ASys d S K Y), (∀ s ∈ t, Spec.HasPositions s) →
      t.mapM (readUnfFrame o2) = .ok (t.map fun s => s.particle.map fun p => p.unf.getD 0) := by
    intro t htt
    refine mapM_ok_map fun s hs => ?_
    rw [e2, readUnf_plain, hc2]
    exact dumpUnf_some _ (htt s hs).2.1
  have s1 := setup_posUnf distinct dec o1 hp1 hH
  have s2 := setup_posUnf distinct dec o2 hp2 hH
  have s3 := setup_posUnf distinct dec o2 hp2 (hasUnfolded_true hne' (centred_traj ht))
  rw [m1] at s1
  rw [m2 _ ht] at s2
  rw [m2 _ (centred_traj ht)] at s3
  have hall : setupAll distinct dec traj [o1, o2] = .ok
      [{ o1 with posUnf := o1.posUnf ++ traj.map fun s => (Spec.centred s).particle.map fun p => p.unf.getD 0 },
       { o2 with posUnf := o2.posUnf ++ (traj.map Spec.centred).map fun s => s.particle.map fun p => p.unf.getD 0 }] := by
    unfold setupAll setupOnebodyMem
    rw [s1, framesAfter_centred o1 h1 hp1 hne ht]
    simp only [Except.map, bind, Except.bind, pure, Except.pure]
    unfold setupAll setupOnebodyMem
    rw [s3, framesAfter_same o2 h2 s3]
    rfl
  refine ⟨_, _, _, _, hall, s1, s2, rfl, ?_, ?_⟩
  · simp only [hu1, hu2, List.nil_append, List.map_map]
    rfl
  · simp only [hu2, List.nil_append, List.map_map]
    rw [List.map_inj_left]
    refine forall₂_congr fun s hs => ?_
    obtain ⟨hn, -, -⟩ := ht s hs
    simp only [Function.comp_apply]
    have : (Spec.centred s).particle.map (fun p => p.unf.getD 0) =
        s.particle.map fun p => fun c => p.unf.getD 0 c - Spec.centre s c := by
      unfold Spec.centred
      simp only [List.map_map]
      rfl
    rw [this, List.map_inj_left]
    constructor
    · intro h
      obtain ⟨p, hp⟩ := List.exists_mem_of_ne_nil _ hn
      have := h p hp
      funext c
      have := congrFun this c
      simp only [sub_eq_self] at this
      exact this
    · intro h p _
      funext c
      rw [h]
      simp

/-- Two particles of masses 1 and 3 that move, the first object with fixed centre of mass. -/
example : (setupAll (d := 1) (S := ℕ) (K := ℚ) (Y := Unit) id decExample
      [⟨[⟨![0], some ![0], ![0], 1, 1⟩, ⟨![4], some ![4], ![0], 2, 3⟩], ()⟩,
       ⟨[⟨![1], some ![9], ![0], 1, 1⟩, ⟨![5], some ![13], ![0], 2, 3⟩], ()⟩]
      [{ nbodies := 1, phasespace := [.posUnf], fixCm := true, cbk := [] },
       { nbodies := 1, phasespace := [.posUnf], fixCm := false, cbk := [] }]).map
      (fun l => l.map fun o => table o.posUnf) = .ok [[[-3, 1], [-3, 1]], [[-3, 1], [-3, 1]]] := by
  decide +kernel

end PP.Props
