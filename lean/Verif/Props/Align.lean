import Verif.Model.Object

/-!
# C98: positions and weights belong to the same particles
-/

namespace PP.Props
open PP

variable {P Y D W : Type}

/-- **C98**: one-body functions. Positions and weights of each frame are those of one and the same system: the frame
itself or, if there are filters, the frame seen through the first one. -/
theorem C98_one_body (cbk : List (System P Y → System P Y)) (dump : System P Y → D) (wdump : System P Y → W)
    (traj : List (System P Y)) :
    ∃ g : System P Y → System P Y, (cbk = [] → g = id) ∧ (∀ c, cbk = [c] → g = c) ∧
      onebodyArrays cbk dump traj = traj.map (fun s => dump (g s)) ∧
      weightOnebody cbk wdump traj [] = traj.map (fun s => wdump (g s)) := by
  match cbk with
  | [] => exact ⟨id, fun _ => rfl, by simp, rfl, rfl⟩
  | c :: cs =>
    refine ⟨c, by simp, ?_, rfl, rfl⟩
    intro c' h
    simp only [List.cons.injEq] at h
    exact h.1

/-- **C98**: two-body functions with up to two filters. Positions and weights of the two groups of each frame are those
of the same two systems: the frame itself twice, the frame seen through the filter twice, or the frame seen through
the first and through the second filter. -/
theorem C98_two_body_partial (cbk : List (System P Y → System P Y)) (h : cbk.length ≤ 2) (dump : System P Y → D)
    (wdump : System P Y → W) (traj : List (System P Y)) :
    ∃ g0 g1 : System P Y → System P Y, (cbk = [] → g0 = id ∧ g1 = id) ∧ (∀ c, cbk = [c] → g0 = c ∧ g1 = c) ∧
      (∀ c0 c1, cbk = [c0, c1] → g0 = c0 ∧ g1 = c1) ∧
      twobodyArrays cbk dump traj = traj.map (fun s => (dump (g0 s), dump (g1 s))) ∧
      weightTwobody cbk wdump traj = .ok (traj.map fun s => wdump (g0 s), traj.map fun s => wdump (g1 s)) := by
  match cbk, h with
  | [], _ => exact ⟨id, id, fun _ => ⟨rfl, rfl⟩, by simp, by simp, rfl, rfl⟩
  | [c], _ =>
    refine ⟨c, c, by simp, ?_, by simp, rfl, rfl⟩
    intro c' h
    simp only [List.cons.injEq, and_true] at h
    exact ⟨h, h⟩
  | [c0, c1], _ =>
    refine ⟨c0, c1, by simp, by simp, ?_, rfl, ?_⟩
    · intro a b h
      simp only [List.cons.injEq, and_true] at h
      exact h
    · unfold weightTwobody
      rw [if_neg (by simp)]
      have : traj.mapM (weightTwobodyFrame [c0, c1] wdump) =
          .ok (traj.map fun s => (wdump (c0 s), wdump (c1 s))) := by
        induction traj with
        | nil => rfl
        | cons s traj ih => rw [List.mapM_cons, ih]; rfl
      rw [this]
      simp only [bind, Except.bind, pure, Except.pure, List.map_map]
      rfl

/-- **C98**, with filters that select particles: the `i`-th weight of a group is the weight of the particle whose
position is the `i`-th of the group. -/
theorem C98_particles_partial (sel0 sel1 : P → Bool) (pos : P → D) (weight : P → W) (traj : List (System P Y)) :
    ∃ groups : List (List P × List P),
      groups = traj.map (fun s => (s.particle.filter sel0, s.particle.filter sel1)) ∧
      twobodyArrays [filterGeneric sel0, filterGeneric sel1] (fun s : System P Y => s.particle.map pos) traj =
        groups.map (fun g => (g.1.map pos, g.2.map pos)) ∧
      weightTwobody [filterGeneric sel0, filterGeneric sel1] (fun s : System P Y => s.particle.map weight) traj =
        .ok (groups.map fun g => g.1.map weight, groups.map fun g => g.2.map weight) := by
  obtain ⟨g0, g1, -, -, h2, h3, h4⟩ := C98_two_body_partial [filterGeneric sel0, filterGeneric sel1] (by simp)
    (fun s : System P Y => s.particle.map pos) (fun s : System P Y => s.particle.map weight) traj
  obtain ⟨rfl, rfl⟩ := h2 _ _ rfl
  refine ⟨_, rfl, ?_, ?_⟩
  · rw [h3, List.map_map]; rfl
  · rw [h4]
    simp only [List.map_map]
    rfl

/-- **C98** is false for three filters, which `add_filter` accepts: the positions are those of the first two groups, the
weights cannot be set up. -/
theorem C98_counterexample (c0 c1 c2 : System P Y → System P Y) (dump : System P Y → D) (wdump : System P Y → W)
    (s : System P Y) (traj : List (System P Y)) :
    twobodyArrays [c0, c1, c2] dump (s :: traj) = (s :: traj).map (fun s => (dump (c0 s), dump (c1 s))) ∧
    weightTwobody [c0, c1, c2] wdump (s :: traj) = .error .nameError := by
  refine ⟨rfl, ?_⟩
  unfold weightTwobody
  rw [if_neg (by simp)]
  rfl

/-- Three particles, labelled by position and weight, and two groups that overlap. -/
example : twobodyArrays [filterGeneric fun p : ℕ × ℕ => decide (p.1 < 2), filterGeneric fun p => decide (1 ≤ p.1)]
      (fun s : System (ℕ × ℕ) Unit => s.particle.map Prod.fst) [⟨[(0, 5), (1, 6), (2, 7)], ()⟩] = [([0, 1], [1, 2])] ∧
    weightTwobody [filterGeneric fun p : ℕ × ℕ => decide (p.1 < 2), filterGeneric fun p => decide (1 ≤ p.1)]
      (fun s : System (ℕ × ℕ) Unit => s.particle.map Prod.snd) [⟨[(0, 5), (1, 6), (2, 7)], ()⟩] =
        .ok ([[5, 6]], [[6, 7]]) := by
  constructor <;> rfl

/-- **C98**: a second `compute()` of a one-body function finds two weights where there was one: the arrays of the first
call are kept. -/
theorem C98_one_body_again (cbk : List (System P Y → System P Y)) (wdump : System P Y → W) (traj : List (System P Y)) :
    (weightOnebody cbk wdump traj (weightOnebody cbk wdump traj [])).length = 2 * traj.length ∧
    ∀ (i : ℕ) (w : W), (weightOnebody cbk wdump traj [])[i]? = some w →
      (weightOnebody cbk wdump traj (weightOnebody cbk wdump traj []))[i]? = some w ∧
      (weightOnebody cbk wdump traj (weightOnebody cbk wdump traj []))[traj.length + i]? = some w := by
  have hl : (weightOnebody cbk wdump traj []).length = traj.length := by simp [weightOnebody]
  have e : weightOnebody cbk wdump traj (weightOnebody cbk wdump traj []) =
      weightOnebody cbk wdump traj [] ++ weightOnebody cbk wdump traj [] := by simp [weightOnebody]
  rw [e]
  refine ⟨by simp [hl]; omega, fun i w h => ⟨?_, ?_⟩⟩
  · rw [List.getElem?_append_left (List.getElem?_eq_some_iff.1 h).1, h]
  · rw [← hl, List.getElem?_append_right (by omega), Nat.add_sub_cancel_left, h]

/-- Two frames, a filter that keeps the positive particles: the weights of the two frames are found twice. -/
example : weightOnebody [fun s : System ℤ Unit => { s with particle := s.particle.filter fun p => decide (0 < p) }]
    (fun s => s.particle) [⟨[1, -2, 3], ()⟩, ⟨[-1, 5], ()⟩]
    (weightOnebody [fun s : System ℤ Unit => { s with particle := s.particle.filter fun p => decide (0 < p) }]
      (fun s => s.particle) [⟨[1, -2, 3], ()⟩, ⟨[-1, 5], ()⟩] []) = [[1, 3], [5], [1, 3], [5]] := by decide +kernel

end PP.Props
