import Verif.Model.Analysis
import Verif.Props.Fit
import Verif.Props.Roots
import Mathlib.Algebra.Order.Chebyshev

/-!
# C94: analysis of the mean square displacement
-/

set_option linter.unusedSectionVars false

namespace PP.Spec

/-- The data points above a threshold. -/
def above {K : Type} [LinearOrder K] (c : K) (grid value : List K) : List (K × K) :=
  (List.zip grid value).filter fun p => decide (c < p.2)

end PP.Spec

namespace PP.Props
open PP

variable {K : Type} [Field K] [LinearOrder K] [IsStrictOrderedRing K]

theorem mask_zip (grid value l : List K) (c : K) (h : grid.length = value.length) (hl : l.length = value.length) :
    ((List.zip l (value.map fun v => decide (v > c))).filter Prod.snd).map Prod.fst =
      ((List.zip l value).filter fun p => decide (c < p.2)).map Prod.fst := by
  rw [List.zip_map_right, List.filter_map, List.map_map]
  rfl

theorem zip_self_filter (value : List K) (p : K → Bool) :
    ((List.zip value value).filter fun q => p q.2).map Prod.fst = value.filter p := by
  induction value with
  | nil => rfl
  | cons v l ih =>
    rw [List.zip_cons_cons]
    by_cases hv : p v
    · rw [List.filter_cons_of_pos (by simpa using hv), List.filter_cons_of_pos (by simpa using hv), List.map_cons, ih]
    · rw [List.filter_cons_of_neg (by simpa using hv), List.filter_cons_of_neg (by simpa using hv), ih]

theorem zip_filter_snd (grid value : List K) (p : K → Bool) (h : grid.length = value.length) :
    ((List.zip grid value).filter fun q => p q.2).map Prod.snd = value.filter p := by
  induction grid generalizing value with
  | nil => cases value with
    | nil => rfl
    | cons => simp at h
  | cons g grid ih => cases value with
    | nil => simp at h
    | cons v l =>
      rw [List.zip_cons_cons]
      have := ih l (by simpa using h)
      by_cases hv : p v
      · rw [List.filter_cons_of_pos (by simpa using hv), List.filter_cons_of_pos (by simpa using hv), List.map_cons, this]
      · rw [List.filter_cons_of_neg (by simpa using hv), List.filter_cons_of_neg (by simpa using hv), this]

/-- The fitted data are the points above the threshold. -/
theorem msdDiffusion_eq (grid value : List K) (sigma : K) (ndim : ℕ) (hlen : grid.length = value.length)
    (h2 : 2 ≤ (Spec.above (sigma ^ 2) grid value).length) :
    msdDiffusion grid value sigma ndim = (linearFit ((Spec.above (sigma ^ 2) grid value).map Prod.fst)
      ((Spec.above (sigma ^ 2) grid value).map Prod.snd)).map
        fun fit => some (fit.map fun r => r.1 / ((2 * ndim : ℕ) : K)) := by
  have hs : (Spec.above (sigma ^ 2) grid value).map Prod.snd = value.filter fun v => decide (sigma ^ 2 < v) :=
    zip_filter_snd grid value (fun v => decide (sigma ^ 2 < v)) hlen
  have hl : ((value.map fun v => decide (v > sigma ^ 2)).filter id).length =
      (Spec.above (sigma ^ 2) grid value).length := by
    rw [← List.length_map (f := Prod.snd), hs, List.filter_map, List.length_map]
    rfl
  unfold msdDiffusion
  simp only [hl, List.length_map, hlen, ne_eq, not_true_eq_false, if_false]
  rw [if_neg (by omega), mask_zip grid value grid _ hlen hlen, mask_zip grid value value _ hlen rfl,
    zip_self_filter value (fun v => decide (sigma ^ 2 < v)), ← hs]
  change (linearFit ((Spec.above (sigma ^ 2) grid value).map Prod.fst)
    ((Spec.above (sigma ^ 2) grid value).map Prod.snd) >>= _) = _
  cases linearFit ((Spec.above (sigma ^ 2) grid value).map Prod.fst)
    ((Spec.above (sigma ^ 2) grid value).map Prod.snd) <;> rfl

theorem above_pairwise (grid value : List K) (c : K) (hg : grid.Pairwise (· < ·)) :
    ((Spec.above c grid value).map Prod.fst).Pairwise (· < ·) := by
  have h1 : ((List.zip grid value).map Prod.fst).Sublist grid := by
    clear hg
    induction grid generalizing value with
    | nil => simp
    | cons g grid ih => cases value with
      | nil => simp
      | cons v value => exact (ih value).cons_cons g
  exact ((hg.sublist h1).sublist ((List.filter_sublist).map _))

theorem above_two (grid value : List K) (c : K) (hg : grid.Pairwise (· < ·))
    (h2 : 2 ≤ (Spec.above c grid value).length) :
    ∃ u ∈ (Spec.above c grid value).map Prod.fst, ∃ v ∈ (Spec.above c grid value).map Prod.fst, u ≠ v := by
  have hp := above_pairwise grid value c hg
  have hl : ((Spec.above c grid value).map Prod.fst).length = (Spec.above c grid value).length := List.length_map _
  match h : (Spec.above c grid value).map Prod.fst with
  | [] => rw [h] at hl; simp only [List.length_nil] at hl; omega
  | [a] => rw [h] at hl; simp only [List.length_singleton] at hl; omega
  | a :: b :: l =>
    rw [h] at hp
    refine ⟨a, by simp, b, by simp, ?_⟩
    exact ne_of_lt (List.rel_of_pairwise_cons hp (by simp))

/-- `feqc` does not raise on increasing grids, so that the time is that of the first crossing. -/
theorem msdTau_ok (grid value : List K) (sigma : K) (hv : value ≠ []) (hg : grid.Pairwise (· < ·)) :
    ∃ t, msdTau grid value sigma = .ok t := by
  obtain ⟨f0, l, rfl⟩ := List.exists_cons_of_ne_nil hv
  unfold msdTau
  rcases C12_feqc grid (f0 :: l) (sigma ^ 2) f0 rfl hg with ⟨h, -⟩ | ⟨_, _, _, _, _, _, h, -⟩ <;> rw [h] <;> exact ⟨_, rfl⟩

/-- **C94.** With at least two points above `sigma²`, the diffusion coefficient is reported, and `2 ndim D` is the
slope of the straight line which fits best exactly the points above `sigma²`. -/
theorem C94_diffusion (grid value : List K) (sigma : K) (ndim : ℕ) (hn : 0 < ndim) (hlen : grid.length = value.length)
    (hg : grid.Pairwise (· < ·)) (h2 : 2 ≤ (Spec.above (sigma ^ 2) grid value).length) :
    ∃ tau D b, msdAnalyze grid value sigma ndim = .ok ⟨tau, some (some D)⟩ ∧
      ∀ a' b', (a', b') ≠ (2 * ndim * D, b) →
        Spec.residual ((Spec.above (sigma ^ 2) grid value).map Prod.fst)
          ((Spec.above (sigma ^ 2) grid value).map Prod.snd) (2 * ndim * D) b <
        Spec.residual ((Spec.above (sigma ^ 2) grid value).map Prod.fst)
          ((Spec.above (sigma ^ 2) grid value).map Prod.snd) a' b' := by
  have hv : value ≠ [] := by rintro rfl; simp [Spec.above] at h2
  obtain ⟨tau, ht⟩ := msdTau_ok grid value sigma hv hg
  obtain ⟨a, b, sa, sb, hfit, hmin, huniq, -⟩ := C11_linear_fit ((Spec.above (sigma ^ 2) grid value).map Prod.fst)
    ((Spec.above (sigma ^ 2) grid value).map Prod.snd) (by simp) (above_two grid value _ hg h2)
  have hnd : (2 * (ndim : K)) ≠ 0 := by
    have : (0 : K) < ndim := by exact_mod_cast hn
    positivity
  have hD : 2 * (ndim : K) * (a / (2 * ndim)) = a := by field_simp
  refine ⟨tau, a / (2 * ndim), b, ?_, ?_⟩
  · unfold msdAnalyze
    rw [ht, msdDiffusion_eq grid value sigma ndim hlen h2, hfit]
    simp [Except.map, bind, Except.bind, pure, Except.pure]
  · rw [hD]
    intro a' b' hne
    refine lt_of_le_of_ne (hmin a' b') fun h => hne ?_
    obtain ⟨rfl, rfl⟩ := huniq a' b' h.symm
    rfl

/-- **C94**: if the mean square displacement above `sigma²` is `A t + B`, the diffusion coefficient is `A / (2 ndim)`,
whatever the values below. -/
theorem C94_exact (grid value : List K) (sigma : K) (ndim : ℕ) (hlen : grid.length = value.length)
    (hg : grid.Pairwise (· < ·)) (h2 : 2 ≤ (Spec.above (sigma ^ 2) grid value).length) (A B : K)
    (hlin : ∀ p ∈ List.zip grid value, sigma ^ 2 < p.2 → p.2 = A * p.1 + B) :
    ∃ tau, msdAnalyze grid value sigma ndim = .ok ⟨tau, some (some (A / (2 * ndim)))⟩ := by
  have hv : value ≠ [] := by rintro rfl; simp [Spec.above] at h2
  obtain ⟨tau, ht⟩ := msdTau_ok grid value sigma hv hg
  have e : (Spec.above (sigma ^ 2) grid value).map Prod.snd =
      ((Spec.above (sigma ^ 2) grid value).map Prod.fst).map fun x => A * x + B := by
    rw [List.map_map]
    apply List.map_congr_left
    intro p hp
    unfold Spec.above at hp
    rw [List.mem_filter, decide_eq_true_eq] at hp
    exact hlin p hp.1 hp.2
  refine ⟨tau, ?_⟩
  unfold msdAnalyze
  rw [ht, msdDiffusion_eq grid value sigma ndim hlen h2, e, C11_linear_fit_exact _ A B (above_two grid value _ hg h2)]
  simp [Except.map, bind, Except.bind, pure, Except.pure]

theorem fit_slope_nonneg (xs ys : List K) (hlen : xs.length = ys.length) (r : K × K × K × K)
    (hx : xs.Pairwise (· ≤ ·)) (hy : ys.Pairwise (· ≤ ·)) (h : linearFit xs ys = .ok (some r)) : 0 ≤ r.1 := by
  obtain ⟨n, X, rfl⟩ : ∃ n, ∃ X : Fin n → K, xs = List.ofFn X := ⟨xs.length, xs.get, by simp⟩
  obtain ⟨Y, rfl⟩ : ∃ Y : Fin n → K, ys = List.ofFn Y := by
    have : ys.length = n := by simpa using hlen.symm
    subst this
    exact ⟨ys.get, by simp⟩
  rw [List.pairwise_ofFn] at hx hy
  have hmono : Monovary X Y := by
    intro i j hij
    rcases lt_trichotomy i j with h1 | h1 | h1
    · exact hx h1
    · rw [h1]
    · exact absurd hij (not_lt.2 (hy h1))
  have hch := hmono.sum_mul_sum_le_card_mul_sum
  rw [Fintype.card_fin] at hch
  have hcs := sq_sum_le_card_mul_sum_sq (s := (Finset.univ : Finset (Fin n))) (f := X)
  rw [Finset.card_univ, Fintype.card_fin] at hcs
  have hmsq : ∀ Z : Fin n → K, ((List.ofFn Z).map (· ^ 2)).sum = ∑ i, Z i ^ 2 := by
    intro Z; rw [List.map_ofFn, List.sum_ofFn]; rfl
  unfold linearFit at h
  rw [if_neg (by simp)] at h
  simp only [hmsq, List.sum_ofFn, zipWith_ofFn, List.length_ofFn] at h
  by_cases hd : (n : K) * ∑ i, X i ^ 2 - (∑ i, X i) ^ 2 = 0
  · rw [if_pos hd] at h; cases h
  · rw [if_neg hd] at h
    cases h
    apply div_nonneg
    · linarith
    · linarith

/-- **C94**: if the mean square displacement does not decrease with time, the diffusion coefficient is not negative. -/
theorem C94_nonneg (grid value : List K) (sigma : K) (ndim : ℕ) (hlen : grid.length = value.length)
    (hg : grid.Pairwise (· < ·)) (hm : value.Pairwise (· ≤ ·)) (tau : Option K) (D : K)
    (h : msdAnalyze grid value sigma ndim = .ok ⟨tau, some (some D)⟩) : 0 ≤ D := by
  by_cases h2 : 2 ≤ (Spec.above (sigma ^ 2) grid value).length
  · unfold msdAnalyze at h
    rw [msdDiffusion_eq grid value sigma ndim hlen h2] at h
    cases ht : msdTau grid value sigma with
    | error e => rw [ht] at h; cases h
    | ok t =>
      rw [ht] at h
      cases hf : linearFit ((Spec.above (sigma ^ 2) grid value).map Prod.fst)
          ((Spec.above (sigma ^ 2) grid value).map Prod.snd) with
      | error e => rw [hf] at h; cases h
      | ok fit =>
        rw [hf] at h
        simp only [Except.map, bind, Except.bind, pure, Except.pure, Except.ok.injEq, MsdAnalysis.mk.injEq,
          Option.some.injEq] at h
        obtain ⟨-, h⟩ := h
        cases fit with
        | none => cases h
        | some r =>
          simp only [Option.map_some, Option.some.injEq] at h
          rw [← h]
          refine div_nonneg (fit_slope_nonneg _ _ (by simp) r
            ((above_pairwise grid value _ hg).imp le_of_lt) ?_ hf) (Nat.cast_nonneg _)
          have : (Spec.above (sigma ^ 2) grid value).map Prod.snd = value.filter fun v => decide (sigma ^ 2 < v) :=
            zip_filter_snd grid value (fun v => decide (sigma ^ 2 < v)) hlen
          rw [this]
          exact hm.sublist List.filter_sublist
  · exfalso
    have hs : (Spec.above (sigma ^ 2) grid value).map Prod.snd = value.filter fun v => decide (sigma ^ 2 < v) :=
      zip_filter_snd grid value (fun v => decide (sigma ^ 2 < v)) hlen
    have hl : ((value.map fun v => decide (v > sigma ^ 2)).filter id).length =
        (Spec.above (sigma ^ 2) grid value).length := by
      rw [← List.length_map (f := Prod.snd), hs, List.filter_map, List.length_map]
      rfl
    unfold msdAnalyze msdDiffusion at h
    simp only [hl] at h
    rw [if_pos (by omega)] at h
    cases ht : msdTau grid value sigma <;> rw [ht] at h <;> cases h

/-- **C94**: with fewer than two points above `sigma²` there is no diffusion coefficient, and the diffusive time is
reported all the same. -/
theorem C94_not_enough (grid value : List K) (sigma : K) (ndim : ℕ) (hv : value ≠ [])
    (hg : grid.Pairwise (· < ·)) (h2 : (value.filter fun v => decide (sigma ^ 2 < v)).length < 2) :
    ∃ tau, msdTau grid value sigma = .ok tau ∧ msdAnalyze grid value sigma ndim = .ok ⟨tau, none⟩ := by
  obtain ⟨tau, ht⟩ := msdTau_ok grid value sigma hv hg
  refine ⟨tau, ht, ?_⟩
  have hl : ((value.map fun v => decide (v > sigma ^ 2)).filter id).length =
      (value.filter fun v => decide (sigma ^ 2 < v)).length := by
    rw [List.filter_map, List.length_map]; rfl
  unfold msdAnalyze msdDiffusion
  rw [ht]
  simp only [hl]
  rw [if_pos h2]
  rfl

/-- **C94**: the mean square displacement starts below `sigma²`. The diffusive time is `None` if it never exceeds
`sigma²`; otherwise it lies in the interval before the first sample above `sigma²`, where the interpolated mean square
displacement equals `sigma²`. -/
theorem C94_tau (grid value : List K) (sigma v0 : K) (ndim : ℕ) (r : MsdAnalysis K)
    (hlen : grid.length = value.length) (hg : grid.Pairwise (· < ·)) (h0 : value[0]? = some v0) (hv0 : v0 < sigma ^ 2)
    (h : msdAnalyze grid value sigma ndim = .ok r) :
    (r.tauD = none ∧ ∀ v ∈ value, v ≤ sigma ^ 2) ∨
    ∃ t i tp ti vp vi, r.tauD = some t ∧ grid[i]? = some tp ∧ grid[i + 1]? = some ti ∧ value[i]? = some vp ∧
      value[i + 1]? = some vi ∧ sigma ^ 2 < vi ∧ (∀ j ≤ i, ∀ v, value[j]? = some v → v ≤ sigma ^ 2) ∧
      tp ≤ t ∧ t < ti ∧ vp + (vi - vp) / (ti - tp) * (t - tp) = sigma ^ 2 := by
  have hopp : ∀ v, Spec.Opposite (sigma ^ 2) v0 v ↔ sigma ^ 2 < v := by
    intro v
    unfold Spec.Opposite
    constructor
    · rintro (h | h)
      · exact h.2
      · exact absurd h.1 (not_lt.2 hv0.le)
    · intro h; exact Or.inl ⟨hv0, h⟩
  have htau : msdTau grid value sigma = .ok r.tauD := by
    unfold msdAnalyze at h
    cases ht : msdTau grid value sigma with
    | error e => rw [ht] at h; cases h
    | ok t =>
      rw [ht] at h
      cases hd : msdDiffusion grid value sigma ndim with
      | error e => simp only [bind, Except.bind, hd] at h; cases h
      | ok D => simp only [bind, Except.bind, hd, pure, Except.pure] at h; cases h; rfl
  unfold msdTau at htau
  rcases C12_feqc grid value (sigma ^ 2) v0 h0 hg with ⟨hf, hall⟩ |
    ⟨t, i, tp, ti, vp, vi, hf, hi, htp, hti, hvp, hvi, ho, hfirst, h1, h3, h4⟩
  · rw [hf] at htau
    left
    simp only [Option.map_none, Except.ok.injEq] at htau
    refine ⟨htau.symm, ?_⟩
    intro v hv
    obtain ⟨i, hi, rfl⟩ := List.mem_iff_getElem.1 hv
    have := hall i (by rw [hlen, min_self]; exact hi) _ (List.getElem?_eq_getElem hi)
    rw [hopp, not_lt] at this
    exact this
  · rw [hf] at htau
    simp only [Option.map_some, Except.ok.injEq] at htau
    right
    obtain ⟨i, rfl⟩ : ∃ j, i = j + 1 := ⟨i - 1, by omega⟩
    refine ⟨t, i, tp, ti, vp, vi, htau.symm, htp, hti, hvp, hvi, (hopp _).1 ho, ?_, h1, h3, h4⟩
    intro j hj v hjv
    have := hfirst j (by omega) v hjv
    rwa [hopp, not_lt] at this

/-- Ballistic up to `t = 1`, then diffusive with `D = 1/3` in three dimensions. -/
example : msdAnalyze ([0, 1 / 2, 1, 2, 3] : List ℚ) [0, 1 / 4, 1, 3, 5] 1 3 = .ok ⟨some 1, some (some (1 / 3))⟩ ∧
    (Spec.above (1 ^ 2) ([0, 1 / 2, 1, 2, 3] : List ℚ) [0, 1 / 4, 1, 3, 5]).length = 2 ∧
    msdAnalyze ([0, 1 / 2, 1, 2] : List ℚ) [0, 1 / 4, 1, 3] 1 3 = .ok ⟨some 1, none⟩ := by decide +kernel

end PP.Props
