import Verif.Model.Sk
import Mathlib.Tactic.Linarith

/-!
# Test of a variable cell (C59)
-/

namespace PP.Props

variable {S : Type} [DecidableEq S]

/-- Frames compared to the first one. -/
theorem cellVar_mem {n s k : ℕ} (hs : 0 < s) :
    k ∈ ((List.range ((n - 1 + (s - 1)) / s)).map fun k => n - 1 - k * s) ↔ 0 < k ∧ k < n ∧ (n - 1 - k) % s = 0 := by
  simp only [List.mem_map, List.mem_range]
  constructor
  · rintro ⟨j, hj, rfl⟩
    have h1 : j * s < n - 1 := by
      have h2 : (j + 1) * s ≤ n - 1 + (s - 1) := by
        have := Nat.div_mul_le_self (n - 1 + (s - 1)) s
        have h3 : j + 1 ≤ (n - 1 + (s - 1)) / s := hj
        exact (Nat.mul_le_mul_right s h3).trans this
      rw [Nat.add_mul, Nat.one_mul] at h2
      omega
    refine ⟨by omega, by omega, ?_⟩
    rw [show n - 1 - (n - 1 - j * s) = j * s by omega]
    exact Nat.mul_mod_left j s
  · rintro ⟨h1, h2, h3⟩
    obtain ⟨j, hj⟩ := Nat.dvd_of_mod_eq_zero h3
    refine ⟨j, ?_, ?_⟩
    · rw [Nat.lt_iff_add_one_le, Nat.le_div_iff_mul_le hs, Nat.add_mul, Nat.one_mul, Nat.mul_comm]
      omega
    · rw [Nat.mul_comm]; omega

/-- The stride between the frames that are compared. -/
def cellStride (frames : ℕ) (tests : ℤ) : ℕ := if tests > 0 then max 1 (frames / tests.toNat) else 1

theorem isCellVariable_iff {sides : List S} (hne : sides ≠ []) (tests : ℤ) :
    ∃ b, isCellVariable sides tests = .ok b ∧ (b = true ↔ ∃ i, 0 < i ∧ i < sides.length ∧
      (sides.length - 1 - i) % cellStride sides.length tests = 0 ∧ sides[i]? ≠ sides[0]?) := by
  rcases sides with _ | ⟨L0, r⟩
  · exact absurd rfl hne
  refine ⟨_, rfl, ?_⟩
  have hs : 0 < cellStride (L0 :: r).length tests := by
    unfold cellStride; split_ifs <;> omega
  rw [List.any_eq_true]
  constructor
  · rintro ⟨i, hi, h⟩
    obtain ⟨h1, h2, h3⟩ := (cellVar_mem hs).1 hi
    refine ⟨i, h1, h2, h3, ?_⟩
    rw [List.getElem?_eq_getElem h2] at h ⊢
    simp only [decide_eq_true_eq] at h
    intro hc
    apply h
    simpa using hc.symm
  · rintro ⟨i, h1, h2, h3, h⟩
    refine ⟨i, (cellVar_mem hs).2 ⟨h1, h2, h3⟩, ?_⟩
    rw [List.getElem?_eq_getElem h2] at h ⊢
    simp only [decide_eq_true_eq]
    intro hc
    exact h (congrArg some hc.symm)

/-- C59: if `is_cell_variable` returns `True`, the cell of some frame differs from the one of the first frame, for all
trajectories and number of tests. -/
theorem C59_sound_partial {sides : List S} {tests : ℤ} (h : isCellVariable sides tests = .ok true) :
    ∃ i < sides.length, sides[i]? ≠ sides[0]? := by
  have hne : sides ≠ [] := by rintro rfl; cases h
  obtain ⟨b, hb, hiff⟩ := isCellVariable_iff hne tests
  rw [h] at hb
  cases hb
  obtain ⟨i, -, h2, -, h4⟩ := hiff.1 rfl
  exact ⟨i, h2, h4⟩

/-- C59: the answer is exact if `tests` is not positive or is more than half of the number of frames. -/
theorem C59_exact_partial {sides : List S} (hne : sides ≠ []) {tests : ℤ}
    (ht : tests ≤ 0 ∨ (sides.length : ℤ) < 2 * tests) :
    ∃ b, isCellVariable sides tests = .ok b ∧ (b = true ↔ ∃ i < sides.length, sides[i]? ≠ sides[0]?) := by
  obtain ⟨b, hb, hiff⟩ := isCellVariable_iff hne tests
  refine ⟨b, hb, hiff.trans ?_⟩
  have hs : cellStride sides.length tests = 1 := by
    unfold cellStride
    split_ifs with h
    · have : sides.length / tests.toNat ≤ 1 := by
        have h2 : sides.length / tests.toNat < 2 := by
          rw [Nat.div_lt_iff_lt_mul (by omega)]; omega
        omega
      omega
    · rfl
  rw [hs]
  constructor
  · rintro ⟨i, -, h2, -, h4⟩; exact ⟨i, h2, h4⟩
  · rintro ⟨i, h2, h4⟩
    refine ⟨i, ?_, h2, Nat.mod_one _, h4⟩
    rcases Nat.eq_zero_or_pos i with rfl | h
    · exact absurd rfl h4
    · exact h

/-- C59 (negation): with the default `tests=1`, used by the structure factor, only the last frame is compared to the
first one. -/
theorem C59_counterexample_default {sides : List S} (hne : sides ≠ []) :
    ∃ b, isCellVariable sides 1 = .ok b ∧ (b = true ↔ sides[sides.length - 1]? ≠ sides[0]?) := by
  obtain ⟨b, hb, hiff⟩ := isCellVariable_iff hne 1
  refine ⟨b, hb, hiff.trans ?_⟩
  have hl : 0 < sides.length := List.length_pos_iff.2 hne
  have hs : cellStride sides.length 1 = sides.length := by
    unfold cellStride; rw [if_pos one_pos]; simp; omega
  rw [hs]
  constructor
  · rintro ⟨i, h1, h2, h3, h4⟩
    rw [Nat.mod_eq_of_lt (by omega)] at h3
    rw [show sides.length - 1 = i by omega]; exact h4
  · intro h
    have h1 : 0 < sides.length - 1 := by
      rcases Nat.eq_zero_or_pos (sides.length - 1) with h0 | h0
      · rw [h0] at h; exact absurd rfl h
      · exact h0
    exact ⟨sides.length - 1, h1, by omega, by simp, h⟩

/-- C59 (negation): for every positive number of tests there are trajectories of a variable cell for which
`is_cell_variable` returns `False`. -/
theorem C59_counterexample_missed (tests : ℕ) (ht : 0 < tests) {a b : S} (hab : a ≠ b) :
    isCellVariable (a :: b :: List.replicate (4 * tests - 2) a) tests = .ok false := by
  have hlen : (a :: b :: List.replicate (4 * tests - 2) a).length = 4 * tests := by simp; omega
  obtain ⟨r, hr, hiff⟩ := isCellVariable_iff (sides := a :: b :: List.replicate (4 * tests - 2) a) (by simp) tests
  rw [hr]
  rcases r with _ | _
  · rfl
  · exfalso
    obtain ⟨i, h1, h2, h3, h4⟩ := hiff.1 rfl
    have hs : cellStride (4 * tests) tests = 4 := by
      unfold cellStride
      rw [if_pos (by omega), Int.toNat_natCast, Nat.mul_div_cancel _ ht]; rfl
    rw [hlen] at h2 h3
    rw [hs] at h3
    rcases i with _ | _ | i
    · omega
    · omega
    · apply h4
      simp only [List.getElem?_cons_succ, List.getElem?_cons_zero, List.getElem?_replicate]
      rw [if_pos (by omega)]

/-- Cases of C59: a cell that changes in the last frame is detected, one that comes back to the initial value is not;
with `tests=0` it is. -/
example : isCellVariable [(1 : ℕ), 1, 2] 1 = .ok true ∧ isCellVariable [(1 : ℕ), 2, 3, 1] 1 = .ok false ∧
    isCellVariable [(1 : ℕ), 2, 3, 1] 0 = .ok true ∧ isCellVariable [(1 : ℕ), 2, 3, 1] 3 = .ok true ∧
    isCellVariable [(5 : ℕ)] 1 = .ok false := by decide +kernel

end PP.Props
