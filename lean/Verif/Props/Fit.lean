import Verif.Model.Helpers
import Verif.Props.Peaks
import Mathlib.Algebra.BigOperators.Fin
import Mathlib.Algebra.BigOperators.Ring.Finset
import Mathlib.Algebra.Order.BigOperators.Group.Finset
import Mathlib.Tactic.FieldSimp
import Mathlib.Tactic.Linarith
import Mathlib.Tactic.LinearCombination
import Mathlib.Tactic.NormNum
import Mathlib.Tactic.Positivity

/-!
# C11-C13: `linear_fit` and `feqc`
-/

namespace PP.Spec

/-- Sum of the squared deviations of the data from the line `a x + b`. -/
def residual {K : Type} [Field K] (xs ys : List K) (a b : K) : K :=
  (List.zipWith (fun x y => (y - (a * x + b)) ^ 2) xs ys).sum

end PP.Spec

namespace PP.Props
open PP

variable {K : Type} [Field K] [LinearOrder K] [IsStrictOrderedRing K]

theorem zipWith_ofFn {α β γ : Type} {n : ℕ} (f : α → β → γ) (X : Fin n → α) (Y : Fin n → β) :
    List.zipWith f (List.ofFn X) (List.ofFn Y) = List.ofFn fun i => f (X i) (Y i) := by
  apply List.ext_getElem <;> simp

/-- Everything needed about the sums entering the fit. -/
theorem fit_core {n : ℕ} (X Y : Fin n → K) (hne : ∃ i j, X i ≠ X j) :
    let sx := ∑ i, X i
    let sxx := ∑ i, X i ^ 2
    (0 : K) < n ∧ 0 < n * sxx - sx ^ 2 ∧
      (n : K) * ∑ i, (X i - sx / n) ^ 2 = n * sxx - sx ^ 2 ∧
      ∀ a b, ∑ i, (Y i - (a * X i + b)) ^ 2 = ∑ i, Y i ^ 2 + a ^ 2 * sxx + n * b ^ 2
        - 2 * a * ∑ i, X i * Y i - 2 * b * ∑ i, Y i + 2 * a * b * sx := by
  intro sx sxx
  obtain ⟨i0, j0, hij⟩ := hne
  have hn : (0 : K) < n := by
    have : 0 < n := i0.pos
    exact_mod_cast this
  have hD : (n : K) * ∑ i, (X i - sx / n) ^ 2 = n * sxx - sx ^ 2 := by
    have h1 : ∀ i, (X i - sx / n) ^ 2 = X i ^ 2 - 2 * (sx / n) * X i + (sx / n) ^ 2 := by
      intro i; ring
    simp only [h1, Finset.sum_add_distrib, Finset.sum_sub_distrib, ← Finset.mul_sum,
      Finset.sum_const, Finset.card_univ, Fintype.card_fin, nsmul_eq_mul]
    show (n : K) * (sxx - 2 * (sx / n) * sx + n * (sx / n) ^ 2) = _
    field_simp; ring
  refine ⟨hn, ?_, hD, ?_⟩
  · rw [← hD]
    apply mul_pos hn
    rcases (Finset.sum_nonneg fun i (_ : i ∈ Finset.univ) => sq_nonneg (X i - sx / n)).lt_or_eq with h | h
    · exact h
    · exfalso
      have := (Finset.sum_eq_zero_iff_of_nonneg
        (fun i (_ : i ∈ Finset.univ) => sq_nonneg (X i - sx / n))).1 h.symm
      apply hij
      have h1 := pow_eq_zero_iff (two_ne_zero) |>.1 (this i0 (Finset.mem_univ _))
      have h2 := pow_eq_zero_iff (two_ne_zero) |>.1 (this j0 (Finset.mem_univ _))
      linarith
  · intro a b
    have h1 : ∀ i, (Y i - (a * X i + b)) ^ 2 = Y i ^ 2 + a ^ 2 * X i ^ 2 + b ^ 2
      - 2 * a * (X i * Y i) - 2 * b * Y i + 2 * a * b * X i := by intro i; ring
    simp only [h1, Finset.sum_add_distrib, Finset.sum_sub_distrib, ← Finset.mul_sum,
      Finset.sum_const, Finset.card_univ, Fintype.card_fin, nsmul_eq_mul]
    rfl

/-- **C11.** If at least two abscissae differ, `linear_fit` returns slope and intercept which minimise
the sum of squared deviations over all lines (and are the only minimiser); the quantities under the
square roots are non-negative and are the usual variance estimates
`sa = RSS/((n-2) Σ(x-x̄)²)` (0 for `n = 2`) and `sb = sa Σx²/n`. -/
theorem C11_linear_fit (xs ys : List K) (hlen : xs.length = ys.length)
    (hne : ∃ u ∈ xs, ∃ v ∈ xs, u ≠ v) :
    ∃ a b sa sb, linearFit xs ys = .ok (some (a, b, sa, sb)) ∧
      (∀ a' b', Spec.residual xs ys a b ≤ Spec.residual xs ys a' b') ∧
      (∀ a' b', Spec.residual xs ys a' b' = Spec.residual xs ys a b → a' = a ∧ b' = b) ∧
      0 ≤ sa ∧ 0 ≤ sb ∧
      (2 < xs.length → sa * (((xs.length : K) - 2) *
        (xs.map fun x => (x - xs.sum / (xs.length : K)) ^ 2).sum) = Spec.residual xs ys a b) ∧
      (xs.length = 2 → sa = 0) ∧ sb * xs.length = sa * (xs.map (· ^ 2)).sum := by
  obtain ⟨n, X, rfl⟩ : ∃ n, ∃ X : Fin n → K, xs = List.ofFn X := ⟨xs.length, xs.get, by simp⟩
  obtain ⟨Y, rfl⟩ : ∃ Y : Fin n → K, ys = List.ofFn Y := by
    have : ys.length = n := by simpa using hlen.symm
    subst this
    exact ⟨ys.get, by simp⟩
  have hne' : ∃ i j, X i ≠ X j := by
    obtain ⟨u, hu, v, hv, h⟩ := hne
    rw [List.mem_ofFn] at hu hv
    obtain ⟨i, rfl⟩ := hu
    obtain ⟨j, rfl⟩ := hv
    exact ⟨i, j, h⟩
  obtain ⟨hn, hD, hvar, hexp⟩ := fit_core X Y hne'
  set sx := ∑ i, X i with hsx
  set sxx := ∑ i, X i ^ 2 with hsxx
  have hres : ∀ a b, Spec.residual (List.ofFn X) (List.ofFn Y) a b
      = ∑ i, (Y i - (a * X i + b)) ^ 2 := by
    intro a b; unfold Spec.residual; rw [zipWith_ofFn, List.sum_ofFn]
  have hmsq : ∀ Z : Fin n → K, ((List.ofFn Z).map (· ^ 2)).sum = ∑ i, Z i ^ 2 := by
    intro Z; rw [List.map_ofFn, List.sum_ofFn]; rfl
  set sy := ∑ i, Y i with hsy
  set sxy := ∑ i, X i * Y i with hsxy
  set syy := ∑ i, Y i ^ 2 with hsyy
  set den := (n : K) * sxx - sx ^ 2 with hden
  set a := ((n : K) * sxy - sx * sy) / den with ha
  set b := sy / n - a * sx / n with hb
  set s := (if (n : ℤ) - 2 > 0 then (n * syy - sy ^ 2 - a ^ 2 * den) / (n * (((n : ℤ) - 2 : ℤ) : K)) else 0)
    with hs
  have hfit : linearFit (List.ofFn X) (List.ofFn Y)
      = .ok (some (a, b, n * s / den, n * s / den * sxx / n)) := by
    unfold linearFit
    rw [if_neg (by simp)]
    simp only [hmsq, List.sum_ofFn, zipWith_ofFn, List.length_ofFn]
    simp only [← hsx, ← hsy, ← hsxy, ← hsxx, ← hsyy, ← hden, if_neg hD.ne', ← ha, ← hb, ← hs]
  have hn0 : (n : K) ≠ 0 := hn.ne'
  have hD0 : den ≠ 0 := hD.ne'
  -- normal equations
  have n1 : sy - a * sx - n * b = 0 := by rw [hb]; field_simp; ring
  have n2 : a * den = n * sxy - sx * sy := by rw [ha]; field_simp
  have n3 : sxy - a * sxx - b * sx = 0 := by
    have : (n : K) * (sxy - a * sxx - b * sx) = 0 := by
      rw [hden] at n2
      linear_combination -n2 + (-sx) * n1 * (-1)
    exact (mul_eq_zero.1 this).resolve_left hn0
  -- gap between any line and the fitted one
  have gap : ∀ a' b', (n : K) * (∑ i, (Y i - (a' * X i + b')) ^ 2 - ∑ i, (Y i - (a * X i + b)) ^ 2)
      = (n * (b' - b) + (a' - a) * sx) ^ 2 + (a' - a) ^ 2 * den := by
    intro a' b'
    rw [hexp, hexp, hden]
    linear_combination (2 * n * (a - a')) * n3 + (2 * n * (b - b')) * n1
  have hrss : (n : K) * ∑ i, (Y i - (a * X i + b)) ^ 2 = n * syy - sy ^ 2 - a ^ 2 * den := by
    rw [hexp]
    have e : (n : K) * b = sy - a * sx := by linear_combination -n1
    have e2 : a * den = n * sxy - sx * sy := n2
    rw [hden] at e2 ⊢
    linear_combination (n * b - sy + a * sx) * e + 2 * a * e2
  have hrss0 : 0 ≤ ∑ i, (Y i - (a * X i + b)) ^ 2 := Finset.sum_nonneg fun i _ => sq_nonneg _
  have hs0 : 0 ≤ s := by
    rw [hs]
    split_ifs with h
    · apply div_nonneg
      · rw [← hrss]; positivity
      · apply mul_nonneg hn.le
        have : (0 : ℤ) ≤ (n : ℤ) - 2 := h.le
        exact_mod_cast this
    · exact le_rfl
  have hsxx0 : 0 ≤ sxx := Finset.sum_nonneg fun i _ => sq_nonneg _
  have hsa0 : 0 ≤ n * s / den := div_nonneg (mul_nonneg hn.le hs0) hD.le
  refine ⟨a, b, _, _, hfit, ?_, ?_, hsa0, ?_, ?_, ?_, ?_⟩
  · intro a' b'
    rw [hres, hres]
    have h1 := gap a' b'
    have h2 : 0 ≤ (n * (b' - b) + (a' - a) * sx) ^ 2 + (a' - a) ^ 2 * den :=
      add_nonneg (sq_nonneg _) (mul_nonneg (sq_nonneg _) hD.le)
    rw [← h1] at h2
    have := nonneg_of_mul_nonneg_right h2 hn
    linarith
  · intro a' b' h
    rw [hres, hres] at h
    have h1 := gap a' b'
    rw [h, sub_self, mul_zero] at h1
    have h3 : 0 ≤ (a' - a) ^ 2 * den := mul_nonneg (sq_nonneg _) hD.le
    have h2 : 0 ≤ (n * (b' - b) + (a' - a) * sx) ^ 2 := sq_nonneg _
    have h4 : (a' - a) ^ 2 * den = 0 := by linarith
    have h5 : (n * (b' - b) + (a' - a) * sx) ^ 2 = 0 := by linarith
    have h6 : a' - a = 0 := by
      rcases mul_eq_zero.1 h4 with h | h
      · exact pow_eq_zero_iff two_ne_zero |>.1 h
      · exact absurd h hD0
    have h7 := pow_eq_zero_iff two_ne_zero |>.1 h5
    rw [h6, zero_mul, add_zero] at h7
    have h8 := (mul_eq_zero.1 h7).resolve_left hn0
    exact ⟨sub_eq_zero.1 h6, sub_eq_zero.1 h8⟩
  · exact div_nonneg (mul_nonneg hsa0 hsxx0) hn.le
  · intro h2
    rw [List.length_ofFn] at h2
    have h3 : (n : ℤ) - 2 > 0 := by omega
    have h4 : (((n : ℤ) - 2 : ℤ) : K) = (n : K) - 2 := by push_cast; ring
    have h5 : (n : K) - 2 ≠ 0 := by
      have : (2 : K) < n := by exact_mod_cast h2
      exact (sub_pos.2 this).ne'
    rw [hres, List.map_ofFn, List.sum_ofFn, List.sum_ofFn, List.length_ofFn]
    show n * s / den * (((n : K) - 2) * ∑ i, (X i - sx / n) ^ 2) = _
    rw [hs, if_pos h3, h4, ← hrss]
    have : ∑ i, (X i - sx / n) ^ 2 = den / n := by
      rw [eq_div_iff hn0]; linarith [hvar]
    rw [this]
    field_simp
  · intro h2
    rw [List.length_ofFn] at h2
    have h3 : ¬ ((n : ℤ) - 2 > 0) := by omega
    have hs' : s = 0 := by rw [hs, if_neg h3]
    rw [hs', mul_zero, zero_div]
  · rw [hmsq, List.length_ofFn]; exact div_mul_cancel₀ _ hn0

/-- **C11**, exactness: data on a line are reproduced with zero uncertainty. -/
theorem C11_linear_fit_exact (xs : List K) (A B : K) (hne : ∃ u ∈ xs, ∃ v ∈ xs, u ≠ v) :
    linearFit xs (xs.map fun x => A * x + B) = .ok (some (A, B, 0, 0)) := by
  obtain ⟨a, b, sa, sb, h, hmin, huniq, h0, h1, hv, h2, hsb⟩ :=
    C11_linear_fit xs (xs.map fun x => A * x + B) (by simp) hne
  have hz : Spec.residual xs (xs.map fun x => A * x + B) A B = 0 := by
    unfold Spec.residual
    rw [List.zipWith_map_right]
    induction xs with
    | nil => rfl
    | cons x xs _ =>
      have : ∀ l : List K, (List.zipWith (fun x y => (A * y + B - (A * x + B)) ^ 2) l l).sum = 0 := by
        intro l; induction l with
        | nil => rfl
        | cons a l ih => simp [ih]
      exact this _
  have hnn : ∀ a b, 0 ≤ Spec.residual xs (xs.map fun x => A * x + B) a b := by
    intro a b
    unfold Spec.residual
    rw [List.zipWith_map_right]
    apply List.sum_nonneg
    intro v hv
    rw [List.mem_iff_getElem] at hv
    obtain ⟨i, hi, rfl⟩ := hv
    rw [List.getElem_zipWith]
    exact sq_nonneg _
  have hle := hmin A B
  rw [hz] at hle
  have heq : Spec.residual xs (xs.map fun x => A * x + B) a b = 0 := le_antisymm hle (hnn a b)
  obtain ⟨rfl, rfl⟩ := huniq A B (hz.trans heq.symm)
  have hlen : 2 ≤ xs.length := by
    obtain ⟨u, hu, v, hv, huv⟩ := hne
    match xs, hu, hv with
    | [c], hu, hv => simp at hu hv; exact absurd (hu.trans hv.symm) huv
    | _ :: _ :: _, _, _ => simp
  have hxl : (0 : K) < xs.length := by
    have : 0 < xs.length := by omega
    exact_mod_cast this
  have hsa : sa = 0 := by
    rcases Nat.lt_or_ge 2 xs.length with hl | hl
    · have hv' := hv hl
      rw [heq] at hv'
      rcases mul_eq_zero.1 hv' with h | h
      · exact h
      · exfalso
        have h5 : (0 : K) < (xs.length : K) - 2 := by
          have : (2 : K) < xs.length := by exact_mod_cast hl
          linarith
        have h6 := (mul_eq_zero.1 h).resolve_left h5.ne'
        -- a vanishing variance forces equal abscissae
        have hall : ∀ u ∈ xs, u = xs.sum / xs.length := by
          intro u hu
          have hnn : ∀ v ∈ xs.map fun x => (x - xs.sum / (xs.length : K)) ^ 2, 0 ≤ v := by
            intro v hv
            rw [List.mem_map] at hv
            obtain ⟨w, -, rfl⟩ := hv
            exact sq_nonneg _
          have hle := List.single_le_sum hnn _ (List.mem_map_of_mem (f := fun x => (x - xs.sum / (xs.length : K)) ^ 2) hu)
          rw [h6] at hle
          have := le_antisymm hle (sq_nonneg _)
          have := pow_eq_zero_iff two_ne_zero |>.1 this
          linarith
        obtain ⟨u, hu, v, hv, huv⟩ := hne
        exact huv ((hall u hu).trans (hall v hv).symm)
    · exact h2 (by omega)
  subst hsa
  have : sb = 0 := by
    rw [zero_mul] at hsb
    exact (mul_eq_zero.1 hsb).resolve_right hxl.ne'
  rw [h, this]

/-- **C11**, degenerate input: if all abscissae are equal the result is not finite. -/
theorem C11_linear_fit_degenerate (c : K) (ys : List K) :
    linearFit (List.replicate ys.length c) ys = .ok none := by
  unfold linearFit
  rw [if_neg (by simp)]
  have h : (ys.length : K) * ((List.replicate ys.length c).map (· ^ 2)).sum
      - (List.replicate ys.length c).sum ^ 2 = 0 := by
    simp only [List.map_replicate, List.sum_replicate, nsmul_eq_mul]; ring
  simp only [h, if_true]

example : ([0, 1, 2] : List ℚ).length = ([1, 2, 5] : List ℚ).length ∧
    (∃ u ∈ ([0, 1, 2] : List ℚ), ∃ v ∈ ([0, 1, 2] : List ℚ), u ≠ v) ∧
    linearFit ([0, 1, 2] : List ℚ) [1, 2, 5] = .ok (some (2, 2 / 3, 1 / 3, 5 / 9)) := by
  refine ⟨rfl, ⟨0, by simp, 1, by simp, by norm_num⟩, by decide +kernel⟩

end PP.Props
