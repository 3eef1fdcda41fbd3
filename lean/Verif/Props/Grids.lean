import Verif.Model.Helpers
import Verif.Model.HelpersReal
import Verif.Lemmas.Dict
import Mathlib.Tactic.FieldSimp
import Mathlib.Tactic.Linarith
import Mathlib.Tactic.NormNum
import Mathlib.Tactic.Positivity

/-!
# C06-C09: `linear_grid` and `logx_grid`
-/

namespace PP.Props
open PP

section linear
variable {K : Type} [Field K] [LinearOrder K] [IsStrictOrderedRing K] [FloorRing K]

/-- **C06.** With an integer third argument `n` the grid has `n` points (none if `n ≤ 0`), starts at
`a`, ends at `b` if `n ≥ 2`, and has constant spacing `(b-a)/(n-1)`. -/
theorem C06_linear_grid_count (a b : K) (n : ℤ) :
    ∃ l, linearGrid a b (.int n) = .ok l ∧ (l.length : ℤ) = max n 0 ∧
      (∀ h : 0 < l.length, l[0] = a) ∧
      (2 ≤ n → ∀ h : l.length - 1 < l.length, l[l.length - 1] = b) ∧
      (∀ i (h : i + 1 < l.length), l[i + 1] - l[i] = (b - a) / ((n : K) - 1)) := by
  refine ⟨_, rfl, ?_, ?_, ?_, ?_⟩
  · simp
  · intro h; simp
  · intro hn h
    have h1 : (1 : ℤ) < n := by omega
    have h2 : ((n.toNat : ℕ) : ℤ) = n := Int.toNat_of_nonneg (by omega)
    have h3 : ((n.toNat - 1 : ℕ) : K) = (n : K) - 1 := by
      have : ((n.toNat - 1 : ℕ) : ℤ) = n - 1 := by omega
      have := congrArg (Int.cast : ℤ → K) this
      push_cast at this; simpa using this
    have h4 : (n : K) - 1 ≠ 0 := by
      have : (1 : K) < n := by exact_mod_cast h1
      exact sub_ne_zero.2 (ne_of_gt this)
    simp only [List.getElem_map, List.length_map, List.length_range, List.getElem_range, h1, if_true,
      gt_iff_lt]
    rw [h3]; field_simp; ring
  · intro i h
    simp only [List.length_map, List.length_range] at h
    have h1 : n > 1 := by omega
    simp only [List.getElem_map, List.getElem_range, h1, if_true]
    push_cast; ring

example : linearGrid (0 : ℚ) 3 (.int 4) = .ok [0, 1, 2, 3] := by decide +kernel
example : linearGrid (0 : ℚ) 3 (.int (-2)) = .ok [] := by decide +kernel

/-- **C07.** With a positive spacing the grid starts at `a`, has spacing `d`, never exceeds `b` and
stops less than `d` before `b`. -/
theorem C07_linear_grid_spacing (a b d : K) (hab : a ≤ b) (hd : 0 < d) :
    ∃ l, linearGrid a b (.float d) = .ok l ∧ 0 < l.length ∧
      (∀ h : 0 < l.length, l[0] = a) ∧
      (∀ i (h : i + 1 < l.length), l[i + 1] = l[i] + d) ∧
      (∀ v ∈ l, a ≤ v ∧ v ≤ b) ∧
      (∀ h : l.length - 1 < l.length, b - l[l.length - 1] < d) := by
  have hq : 0 ≤ (b - a) / d := div_nonneg (sub_nonneg.2 hab) hd.le
  have hf : 0 ≤ ⌊(b - a) / d⌋ := Int.floor_nonneg.2 hq
  have hn : (pyInt ((b - a) / d) + 1).toNat = ⌊(b - a) / d⌋.toNat + 1 := by
    unfold pyInt; rw [if_pos hq]; omega
  have hl : linearGrid a b (.float d) =
      .ok ((List.range (⌊(b - a) / d⌋.toNat + 1)).map fun i : ℕ => a + (i : K) * d) := by
    simp only [linearGrid, if_neg hd.ne', hn]
  have hc : ((⌊(b - a) / d⌋.toNat : ℕ) : K) = (⌊(b - a) / d⌋ : K) := by
    have : ((⌊(b - a) / d⌋.toNat : ℕ) : ℤ) = ⌊(b - a) / d⌋ := Int.toNat_of_nonneg hf
    exact_mod_cast congrArg (Int.cast : ℤ → K) this
  refine ⟨_, hl, by simp, by simp, ?_, ?_, ?_⟩
  · intro i h; simp only [List.getElem_map, List.getElem_range]; push_cast; ring
  · intro v hv
    simp only [List.mem_map, List.mem_range] at hv
    obtain ⟨i, hi, rfl⟩ := hv
    have h0 : (0 : K) ≤ i := Nat.cast_nonneg i
    refine ⟨by nlinarith, ?_⟩
    have h1 : (i : K) ≤ (⌊(b - a) / d⌋ : K) := by
      rw [← hc]; exact_mod_cast Nat.lt_succ_iff.1 hi
    have h2 : (⌊(b - a) / d⌋ : K) ≤ (b - a) / d := Int.floor_le _
    have h3 : (i : K) * d ≤ (b - a) / d * d := mul_le_mul_of_nonneg_right (h1.trans h2) hd.le
    rw [div_mul_cancel₀ _ hd.ne'] at h3
    linarith
  · intro h
    simp only [List.length_map, List.length_range, List.getElem_map, List.getElem_range,
      Nat.add_sub_cancel, hc]
    have h2 : (b - a) / d < (⌊(b - a) / d⌋ : K) + 1 := Int.lt_floor_add_one _
    have h3 := mul_lt_mul_of_pos_right h2 hd
    rw [div_mul_cancel₀ _ hd.ne'] at h3
    linarith

example : (0 : ℚ) ≤ 1 ∧ (0 : ℚ) < 3 / 10 ∧
    linearGrid (0 : ℚ) 1 (.float (3 / 10)) = .ok [0, 3 / 10, 6 / 10, 9 / 10] := by
  refine ⟨by norm_num, by norm_num, by decide +kernel⟩

end linear

section logx

/-- **C08.** From a positive start the grid has `n` points, the first is `x1`, the others are
`x1 (x2/x1)^((i+1)/n)`; the grid is strictly increasing and ends at `x2` (for `n ≥ 2`). -/
theorem C08_logx_grid_pos (x1 x2 : ℝ) (n : ℕ) (h1 : 0 < x1) (h12 : x1 < x2) (hn : 1 ≤ n) :
    ∃ l, logxGrid x1 x2 n = .ok l ∧ l.length = n ∧ (∀ h : 0 < l.length, l[0] = x1) ∧
      l.Pairwise (· < ·) ∧
      (∀ i (h : i < l.length), 1 ≤ i → l[i] = x1 * (x2 / x1) ^ (((i : ℝ) + 1) / n)) ∧
      (2 ≤ n → ∀ h : l.length - 1 < l.length, l[l.length - 1] = x2) := by
  have hn0 : n ≠ 0 := by omega
  have hnR : (n : ℝ) ≠ 0 := by exact_mod_cast hn0
  have hr : 1 < x2 / x1 := (one_lt_div h1).2 h12
  have hr0 : 0 < x2 / x1 := by linarith
  have hxx : 1 < (x2 / x1) ^ ((1 : ℝ) / n) := Real.one_lt_rpow hr (by positivity)
  have hpow : ∀ i : ℕ, ((x2 / x1) ^ ((1 : ℝ) / n)) ^ (i + 1) = (x2 / x1) ^ (((i : ℝ) + 1) / n) := by
    intro i
    rw [← Real.rpow_natCast, ← Real.rpow_mul hr0.le]
    congr 1; push_cast; ring
  have hl : logxGrid x1 x2 n = .ok ([x1] ++ (rangeList 1 n 1).map fun i =>
      x1 * ((x2 / x1) ^ ((1 : ℝ) / n)) ^ (i + 1)) := by
    unfold logxGrid; rw [if_neg hn0, if_pos h1]
  have hlen : (rangeList 1 n 1).length = n - 1 := by simp [rangeList]
  have hget : ∀ i (h : i < (rangeList 1 n 1).length), (rangeList 1 n 1)[i] = 1 + i := by
    intro i h; simp [rangeList]
  have hval : ∀ i (h : i < ([x1] ++ (rangeList 1 n 1).map fun i =>
      x1 * ((x2 / x1) ^ ((1 : ℝ) / n)) ^ (i + 1)).length), 1 ≤ i →
      ([x1] ++ (rangeList 1 n 1).map fun i =>
      x1 * ((x2 / x1) ^ ((1 : ℝ) / n)) ^ (i + 1))[i] = x1 * (x2 / x1) ^ (((i : ℝ) + 1) / n) := by
    intro i h hi
    rw [List.getElem_append_right (by simpa using hi)]
    simp only [List.getElem_map, List.length_singleton]
    rw [hget, ← hpow]
    congr 2; omega
  refine ⟨_, hl, ?_, by simp, ?_, hval, ?_⟩
  · simp [hlen]; omega
  · rw [List.pairwise_append]
    refine ⟨by simp, ?_, ?_⟩
    · rw [List.pairwise_map]
      refine (rangeList_lt one_pos).imp ?_
      intro i j hij
      exact mul_lt_mul_of_pos_left (pow_lt_pow_right₀ hxx (by omega)) h1
    · intro a ha b hb
      simp only [List.mem_singleton] at ha
      subst ha
      simp only [List.mem_map] at hb
      obtain ⟨i, -, rfl⟩ := hb
      exact lt_mul_of_one_lt_right h1 (one_lt_pow₀ hxx (by omega))
  · intro h2 h
    have hL : ([x1] ++ (rangeList 1 n 1).map fun i =>
      x1 * ((x2 / x1) ^ ((1 : ℝ) / n)) ^ (i + 1)).length - 1 = n - 1 := by simp [hlen]
    rw [hval _ h (by omega)]
    rw [hL]
    have : (((n - 1 : ℕ) : ℝ) + 1) / n = 1 := by
      rw [Nat.cast_sub hn]; field_simp; simp
    rw [this, Real.rpow_one]; field_simp

example : (0 : ℝ) < 1 ∧ (1 : ℝ) < 100 ∧ 1 ≤ 5 := by norm_num

/-- **C09, partial.** From a non-positive start (the default grid starts at 0) and `x2 > 1` the grid
has `n` points, starts at `x1`, is strictly increasing, and its last point is `x2 - 1`.
Missing: the last point should be `x2`. -/
theorem C09_logx_grid_zero_partial (x1 x2 : ℝ) (n : ℕ) (h1 : x1 ≤ 0) (h2 : 1 < x2) (hn : 1 ≤ n) :
    ∃ l, logxGrid x1 x2 n = .ok l ∧ l.length = n ∧ (∀ h : 0 < l.length, l[0] = x1) ∧
      l.Pairwise (· < ·) ∧
      (2 ≤ n → ∀ h : l.length - 1 < l.length, l[l.length - 1] = x2 - 1) := by
  have hn0 : n ≠ 0 := by omega
  have hnR : (n : ℝ) ≠ 0 := by exact_mod_cast hn0
  have hxx : 1 < x2 ^ ((1 : ℝ) / n) := Real.one_lt_rpow h2 (by positivity)
  have hl : logxGrid x1 x2 n = .ok ([x1] ++ (rangeList 1 n 1).map fun i =>
      (x2 ^ ((1 : ℝ) / n)) ^ (i + 1) - 1) := by
    unfold logxGrid; rw [if_neg hn0, if_neg (by linarith)]
  have hlen : (rangeList 1 n 1).length = n - 1 := by simp [rangeList]
  have hget : ∀ i (h : i < (rangeList 1 n 1).length), (rangeList 1 n 1)[i] = 1 + i := by
    intro i h; simp [rangeList]
  refine ⟨_, hl, ?_, by simp, ?_, ?_⟩
  · simp [hlen]; omega
  · rw [List.pairwise_append]
    refine ⟨by simp, ?_, ?_⟩
    · rw [List.pairwise_map]
      refine (rangeList_lt one_pos).imp ?_
      intro i j hij
      have := pow_lt_pow_right₀ hxx (show i + 1 < j + 1 by omega)
      linarith
    · intro a ha b hb
      simp only [List.mem_singleton] at ha
      subst ha
      simp only [List.mem_map] at hb
      obtain ⟨i, -, rfl⟩ := hb
      have := one_lt_pow₀ hxx (show i + 1 ≠ 0 by omega)
      linarith
  · intro h2n h
    rw [List.getElem_append_right (by simp [hlen]; omega)]
    simp only [List.getElem_map, List.length_append, List.length_map, List.length_singleton]
    rw [hget]
    have e : 1 + (1 + (rangeList 1 n 1).length - 1 - 1) + 1 = n := by rw [hlen]; omega
    rw [e, ← Real.rpow_natCast, ← Real.rpow_mul (by linarith)]
    congr 1
    have : (1 : ℝ) / n * n = 1 := by field_simp
    rw [this, Real.rpow_one]

example : (0 : ℝ) ≤ 0 ∧ (1 : ℝ) < 100 ∧ 1 ≤ 5 := by norm_num

/-- **C09 is false** for the code: from zero the grid never ends at `x2`, for any `x2 ≥ 0` and any
`n ≥ 2`. -/
theorem C09_counterexample (x2 : ℝ) (n : ℕ) (h2 : 0 ≤ x2) (hn : 2 ≤ n) :
    ∃ l, logxGrid 0 x2 n = .ok l ∧ ∀ h : l.length - 1 < l.length, l[l.length - 1] ≠ x2 := by
  have hn0 : n ≠ 0 := by omega
  have hnR : (n : ℝ) ≠ 0 := by exact_mod_cast hn0
  have hl : logxGrid 0 x2 n = .ok ([0] ++ (rangeList 1 n 1).map fun i =>
      (x2 ^ ((1 : ℝ) / n)) ^ (i + 1) - 1) := by
    unfold logxGrid; rw [if_neg hn0, if_neg (by simp)]
  have hlen : (rangeList 1 n 1).length = n - 1 := by simp [rangeList]
  have hget : ∀ i (h : i < (rangeList 1 n 1).length), (rangeList 1 n 1)[i] = 1 + i := by
    intro i h; simp [rangeList]
  refine ⟨_, hl, ?_⟩
  intro h
  rw [List.getElem_append_right (by simp [hlen]; omega)]
  simp only [List.getElem_map, List.length_append, List.length_map, List.length_singleton]
  rw [hget]
  have e : 1 + (1 + (rangeList 1 n 1).length - 1 - 1) + 1 = n := by rw [hlen]; omega
  rw [e, ← Real.rpow_natCast, ← Real.rpow_mul h2]
  have : (1 : ℝ) / n * n = 1 := by field_simp
  rw [this, Real.rpow_one]
  intro h; linarith

end logx
end PP.Props
