import Verif.Props.Overlap
import Mathlib.Algebra.Order.Archimedean.Basic
import Mathlib.Algebra.Order.BigOperators.Group.Finset

/-!
# C105: the collective overlap and periodic images
-/

set_option linter.unusedSectionVars false

namespace PP.Props
open PP Classical

variable {K : Type} [Field K] [LinearOrder K] [IsStrictOrderedRing K] [FloorRing K] {n d : ℕ}

/-- The same configuration in a periodic cell, with other images of the particles. -/
def _root_.PP.Spec.image (side : Fin d → K) (m : Fin n → Fin d → ℤ) (x : Frame n d K) : Frame n d K :=
  fun p c => x p c + m p c * side c

/-- Number of ordered pairs (particle of the first frame, particle of the second frame) that have images closer than
`a`. -/
noncomputable def _root_.PP.Spec.imagePairs (side : Fin d → K) (a : K) (x y : Frame n d K) : ℕ :=
  (Finset.univ.filter fun q : Fin n × Fin n =>
    ∃ m : Fin d → ℤ, ∑ c, (x q.1 c - y q.2 c + m c * side c) ^ 2 < a ^ 2).card

/-- The number does not depend on the images. -/
theorem imagePairs_image (side : Fin d → K) (a : K) (m m' : Fin n → Fin d → ℤ) (x y : Frame n d K) :
    Spec.imagePairs side a (Spec.image side m x) (Spec.image side m' y) = Spec.imagePairs side a x y := by
  unfold Spec.imagePairs Spec.image
  congr 1
  apply Finset.filter_congr
  intro q _
  constructor
  · rintro ⟨k, hk⟩
    refine ⟨fun c => k c + m q.1 c - m' q.2 c, lt_of_eq_of_lt (Finset.sum_congr rfl fun c _ => ?_) hk⟩
    push_cast
    ring
  · rintro ⟨k, hk⟩
    refine ⟨fun c => k c - m q.1 c + m' q.2 c, lt_of_eq_of_lt (Finset.sum_congr rfl fun c _ => ?_) hk⟩
    push_cast
    ring

theorem pairsBelow_le_imagePairs (side : Fin d → K) (a : K) (x y : Frame n d K) :
    Spec.pairsBelow a x y ≤ Spec.imagePairs side a x y := by
  unfold Spec.pairsBelow Spec.imagePairs
  apply Finset.card_le_card
  intro q hq
  simp only [Finset.mem_filter, Finset.mem_univ, true_and] at hq ⊢
  exact ⟨fun _ => 0, by simpa using hq⟩

theorem pairsBelow_eq_imagePairs (side : Fin d → K) {a : K} (ha : 0 ≤ a) (x y : Frame n d K)
    (h : ∀ p q c, |x p c - y q c| ≤ side c - a) :
    Spec.pairsBelow a x y = Spec.imagePairs side a x y := by
  refine le_antisymm (pairsBelow_le_imagePairs side a x y) ?_
  unfold Spec.pairsBelow Spec.imagePairs
  apply Finset.card_le_card
  intro q hq
  simp only [Finset.mem_filter, Finset.mem_univ, true_and] at hq ⊢
  obtain ⟨m, hm⟩ := hq
  have hz : ∀ c, m c = 0 := by
    intro c
    by_contra hc
    have h1 : (x q.1 c - y q.2 c + m c * side c) ^ 2 < a ^ 2 :=
      lt_of_le_of_lt (Finset.single_le_sum (f := fun c => (x q.1 c - y q.2 c + m c * side c) ^ 2)
        (fun c _ => sq_nonneg _) (Finset.mem_univ c)) hm
    have h2 := abs_lt_of_sq_lt_sq h1 ha
    have h3 := h q.1 q.2 c
    have hs : 0 ≤ side c := by linarith [abs_nonneg (x q.1 c - y q.2 c)]
    have h4 : side c ≤ |(m c : K) * side c| := by
      rw [abs_mul, abs_of_nonneg hs]
      have : (1 : K) ≤ |(m c : K)| := by
        rw [← Int.cast_abs]
        exact_mod_cast Int.one_le_abs hc
      nlinarith
    have h5 : |(m c : K) * side c| ≤ |x q.1 c - y q.2 c + m c * side c| + |x q.1 c - y q.2 c| := by
      have := abs_sub (x q.1 c - y q.2 c + m c * side c) (x q.1 c - y q.2 c)
      simpa using this
    linarith
  have e : ∀ c, x q.1 c - y q.2 c + (m c : K) * side c = x q.1 c - y q.2 c := fun c => by simp [hz c]
  simpa only [e] using hm

theorem qt_kernel (a : K) (hn : 0 < n) (pos : List (Frame n d K)) : ∀ x ∈ pos, ∀ y ∈ pos,
    (fun x y => (.ok (perParticle n (collectiveOverlap x y (a ^ 2) : K)) : Py (Option K))) x y =
      .ok (some ((Spec.pairsBelow a x y : K) / (n : K))) := by
  intro x _ y _
  simp only [perParticle, if_neg hn.ne', collectiveOverlap_card]

/-- **C105.** The collective overlap never exceeds the mean number of pairs of images closer than `a`, divided by `N`,
and is equal to it if all separations, along each axis, are smaller than the side of the cell by at least `a`. -/
theorem C105_images_partial (tr : Traj K) (dg : List (ℕ × ℕ)) (skip : ℕ) (a : K) (ha : 0 ≤ a)
    (side : Fin d → K) (pos : List (Frame n d K)) (hn : 0 < n) (hskip : 0 < skip)
    (hlen : pos.length ≤ tr.steps.length) :
    ∃ ts vs vi : List K, qtCompute tr dg skip a pos = .ok (ts, vs.map some) ∧
      (∃ lags : List ℤ, ts = lags.map (fun δ : ℤ => (δ : K) * tr.timestep) ∧ vi = lags.map fun δ : ℤ =>
        Spec.mean (Spec.valuesAt (fun x y : Frame n d K => (Spec.imagePairs side a x y : K) / (n : K)) skip dg tr.steps
          pos δ)) ∧
      List.Forall₂ (· ≤ ·) vs vi ∧
      ((∀ x ∈ pos, ∀ y ∈ pos, ∀ p q c, |x p c - y q c| ≤ side c - a) → vs = vi) := by
  obtain ⟨lags, -, -, h3⟩ := timeCorr_mean (dg := dg) (tr := tr) hskip hlen (qt_kernel a hn pos)
  refine ⟨lags.map fun δ : ℤ => (δ : K) * tr.timestep,
    lags.map fun δ => Spec.mean (Spec.valuesAt (fun x y : Frame n d K =>
      (Spec.pairsBelow a x y : K) / (n : K)) skip dg tr.steps pos δ), _, ?_, ⟨lags, rfl, rfl⟩, ?_, ?_⟩
  · unfold qtCompute; rw [h3, List.map_map]; rfl
  · rw [List.forall₂_map_left_iff, List.forall₂_map_right_iff, List.forall₂_same]
    intro δ _
    unfold Spec.mean Spec.valuesAt
    rw [List.length_map, List.length_map]
    gcongr
    apply List.sum_le_sum
    intro p _
    refine div_le_div_of_nonneg_right ?_ (Nat.cast_nonneg n)
    exact Nat.cast_le.2 (pairsBelow_le_imagePairs side a p.1 p.2)
  · intro h
    apply List.map_congr_left
    intro δ _
    congr 1
    unfold Spec.valuesAt
    apply List.map_congr_left
    intro p hp
    have hmem : p.1 ∈ pos ∧ p.2 ∈ pos := by
      unfold Spec.termsAt Spec.terms at hp
      simp only [List.mem_map, List.mem_filter, List.mem_filterMap] at hp
      obtain ⟨e, ⟨⟨q, -, hqe⟩, -⟩, rfl⟩ := hp
      unfold Spec.term at hqe
      cases h1 : tr.steps[q.1 + q.2]? <;> cases h2 : tr.steps[q.1]? <;> cases h3 : pos[q.1 + q.2]? <;>
        cases h4 : pos[q.1]? <;> simp only [h1, h2, h3, h4] at hqe <;> try cases hqe
      exact ⟨List.mem_of_getElem? h3, List.mem_of_getElem? h4⟩
    beta_reduce
    rw [pairsBelow_eq_imagePairs side ha p.1 p.2 (h _ hmem.1 _ hmem.2)]

/-- **C105** is false: whatever the trajectory, there are images of its particles for which the collective overlap is
zero at all times but zero, with the same time grid. -/
theorem C105_counterexample (tr : Traj K) (dg : List (ℕ × ℕ)) (skip : ℕ) (a : K) (side : Fin d → K)
    (hside : ∀ c, 0 < side c) (pos : List (Frame n d K)) (hn : 0 < n) (hd : 0 < d) (hskip : 0 < skip)
    (hlen : pos.length ≤ tr.steps.length) :
    ∃ pos' : List (Frame n d K), List.Forall₂ (fun x x' => ∃ m, x' = Spec.image side m x) pos pos' ∧
      ∃ ts vs vs', qtCompute tr dg skip a pos = .ok (ts, vs) ∧ qtCompute tr dg skip a pos' = .ok (ts, vs') ∧
        ∀ p ∈ ts.zip vs', p.1 ≠ 0 → p.2 = some 0 := by
  let c0 : Fin d := ⟨0, hd⟩
  obtain ⟨B, hB⟩ : ∃ B : K, ∀ x ∈ pos, ∀ p, |x p c0| ≤ B := by
    clear hlen
    induction pos with
    | nil => exact ⟨0, by simp⟩
    | cons x pos ih =>
      obtain ⟨B, hB⟩ := ih
      refine ⟨max B (∑ p, |x p c0|), ?_⟩
      intro y hy p
      rcases List.mem_cons.1 hy with rfl | hy
      · exact le_max_of_le_right (Finset.single_le_sum (f := fun p => |y p c0|) (fun _ _ => abs_nonneg _)
          (Finset.mem_univ p))
      · exact le_max_of_le_left (hB y hy p)
  let M : ℤ := ⌈(2 * B + |a|) / side c0⌉
  have hM : 2 * B + |a| ≤ (M : K) * side c0 := by
    rw [← div_le_iff₀ (hside c0)]
    exact Int.le_ceil _
  let mv : ℕ → Frame n d K → Frame n d K := fun i x => Spec.image side (fun _ _ => (i : ℤ) * M) x
  let pos' := pos.zipIdx.map fun e => mv e.2 e.1
  have hget : ∀ i, pos'[i]? = (pos[i]?).map (mv i) := by
    intro i
    simp only [pos', List.getElem?_map, List.getElem?_zipIdx]
    cases pos[i]? <;> simp
  have hl' : pos'.length = pos.length := by simp [pos']
  obtain ⟨la, h1, h2, h3⟩ := timeCorr_mean (dg := dg) (tr := tr) hskip hlen (qt_kernel a hn pos)
  obtain ⟨lb, h4, h5, h6⟩ := timeCorr_mean (dg := dg) (tr := tr) hskip (by omega) (qt_kernel a hn pos')
  have hl : lb = la := by
    refine sorted_unique h4 h1 fun δ => ?_
    rw [h2, h5, hl']
    have hterm : ∀ q, (Spec.term tr.steps pos' q).map Prod.fst = (Spec.term tr.steps pos q).map Prod.fst := by
      intro q
      unfold Spec.term
      rw [hget, hget]
      cases tr.steps[q.1 + q.2]? <;> cases tr.steps[q.1]? <;> cases pos[q.1 + q.2]? <;> cases pos[q.1]? <;> rfl
    have hex : ∀ (x : List (Frame n d K)) (S : List (ℕ × ℕ)), (∃ e ∈ Spec.terms tr.steps x S, e.1 = δ) ↔
        ∃ q ∈ S, (Spec.term tr.steps x q).map Prod.fst = some δ := by
      intro x S
      unfold Spec.terms
      simp only [List.mem_filterMap]
      constructor
      · rintro ⟨e, ⟨q, hq, he⟩, rfl⟩
        exact ⟨q, hq, by rw [he]; rfl⟩
      · rintro ⟨q, hq, h⟩
        rw [Option.map_eq_some_iff] at h
        obtain ⟨e, he, rfl⟩ := h
        exact ⟨e, ⟨q, hq, he⟩, rfl⟩
    rw [hex, hex]
    simp only [hterm]
  subst hl
  refine ⟨pos', ?_, _, _, _, h3, h6, ?_⟩
  · rw [List.forall₂_iff_get]
    refine ⟨hl'.symm, ?_⟩
    intro i hi hi'
    refine ⟨fun _ _ => (i : ℤ) * M, ?_⟩
    have := hget i
    rw [List.getElem?_eq_getElem hi', List.getElem?_eq_getElem hi] at this
    simpa [mv] using this
  · intro p hp hp0
    rw [List.zip_map'] at hp
    obtain ⟨δ, hδ, rfl⟩ := List.mem_map.1 hp
    simp only at hp0 ⊢
    congr 1
    refine mean_const (valuesAt_length ((h5 δ).1 hδ)) ?_
    intro v hv
    obtain ⟨i0, i, ta, tb, xa, xb, -, e1, e2, e3, e4, e5, rfl⟩ := mem_valuesAt hv
    have hi : i ≠ 0 := by
      rintro rfl
      rw [Nat.add_zero, e2] at e1
      cases e1
      apply hp0
      rw [← e5]
      simp
    rw [hget, Option.map_eq_some_iff] at e3 e4
    obtain ⟨x, hx, rfl⟩ := e3
    obtain ⟨y, hy, rfl⟩ := e4
    have : Spec.pairsBelow a (mv (i0 + i) x) (mv i0 y) = 0 := by
      unfold Spec.pairsBelow
      rw [Finset.card_eq_zero, Finset.filter_eq_empty_iff]
      rintro ⟨p, q⟩ -
      have hfar : |a| ≤ |mv (i0 + i) x p c0 - mv i0 y q c0| := by
        have b1 := abs_le.1 (hB x (List.mem_of_getElem? hx) p)
        have b2 := abs_le.1 (hB y (List.mem_of_getElem? hy) q)
        have hi' : (1 : K) ≤ i := by exact_mod_cast Nat.one_le_iff_ne_zero.2 hi
        have hM0 : 0 ≤ (M : K) * side c0 := by linarith [abs_nonneg a, b1.1, b1.2]
        have e : mv (i0 + i) x p c0 - mv i0 y q c0 = x p c0 - y q c0 + i * ((M : K) * side c0) := by
          simp only [mv, Spec.image]
          push_cast
          ring
        rw [e]
        refine le_trans ?_ (le_abs_self _)
        nlinarith [b1.1, b1.2, b2.1, b2.2]
      have h7 : a ^ 2 ≤ (mv (i0 + i) x p c0 - mv i0 y q c0) ^ 2 := sq_le_sq.2 hfar
      have h8 := Finset.single_le_sum (f := fun c => (mv (i0 + i) x p c - mv i0 y q c) ^ 2)
        (fun c _ => sq_nonneg _) (Finset.mem_univ c0)
      exact not_lt.2 (h7.trans h8)
    rw [this]
    simp

/-- Two particles on both sides of a face of a cell of side 10 exchange their places through it: the collective overlap
of the folded positions misses the pairs of images. -/
example :
    qtCompute (K := ℚ) (n := 1) (d := 1) ⟨[0, 1], 1, 1, 1, [1, 1]⟩ [(0, 0), (0, 1)] 1 (3 / 10)
      [![![49 / 10]], ![![-49 / 10]]] = .ok ([0, 1], [some 1, some 0]) ∧
    qtCompute (K := ℚ) (n := 1) (d := 1) ⟨[0, 1], 1, 1, 1, [1, 1]⟩ [(0, 0), (0, 1)] 1 (3 / 10)
      [![![49 / 10]], ![![51 / 10]]] = .ok ([0, 1], [some 1, some 1]) := by
  refine ⟨by decide +kernel, by decide +kernel⟩

/-- The hypotheses of `C105_images_partial` with equality hold away from the faces. -/
example : ∀ x ∈ [![![0], ![3]], ![![1], ![2]]], ∀ y ∈ [![![0], ![3]], ![![1], ![2]]], ∀ (p q : Fin 2) (c : Fin 1),
    |(x p c : ℚ) - y q c| ≤ (fun _ : Fin 1 => (10 : ℚ)) c - 3 / 10 := by
  decide +kernel

end PP.Props
