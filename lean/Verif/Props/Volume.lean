import Verif.Spec.Volume
import Mathlib.MeasureTheory.Measure.Lebesgue.VolumeOfBalls

/-!
# C74: the volume of a ball
-/

namespace PP.Props
open PP

open scoped Nat in
/-- `Spec.ballVolume` is the Lebesgue measure of a ball. -/
theorem C74_ball {d : ℕ} (hd : 0 < d) (r : ℝ) (hr : 0 ≤ r) :
    MeasureTheory.volume (Metric.ball (0 : EuclideanSpace ℝ (Fin d)) r)
      = ENNReal.ofReal (Spec.ballVolume Real.pi d r) := by
  haveI : Nonempty (Fin d) := ⟨⟨0, hd⟩⟩
  rw [EuclideanSpace.volume_ball, Fintype.card_fin, ← ENNReal.ofReal_pow hr,
    ← ENNReal.ofReal_mul (by positivity)]
  congr 1
  unfold Spec.ballVolume
  have hs : Real.sqrt Real.pi ^ 2 = Real.pi := Real.sq_sqrt Real.pi_pos.le
  split_ifs with he
  · obtain ⟨k, rfl⟩ := he
    have e1 : ((k + k : ℕ) : ℝ) / 2 + 1 = (k : ℝ) + 1 := by push_cast; ring
    rw [e1, Real.Gamma_nat_eq_factorial, show (k + k) / 2 = k by omega, ← two_mul, pow_mul (Real.sqrt _) 2 k, hs]
    ring
  · obtain ⟨k, rfl⟩ := Nat.not_even_iff_odd.1 he
    have e1 : ((2 * k + 1 : ℕ) : ℝ) / 2 + 1 = ((k + 1 : ℕ) : ℝ) + 1 / 2 := by push_cast; ring
    rw [e1, Real.Gamma_nat_add_half, show (2 * k + 1) / 2 = k by omega, show 2 * (k + 1) - 1 = 2 * k + 1 by omega,
      pow_succ (Real.sqrt Real.pi) (2 * k), pow_mul _ 2 k, hs, Nat.factorial_eq_mul_doubleFactorial,
      Nat.doubleFactorial_two_mul]
    have h1 : ((2 * k + 1)‼ : ℝ) ≠ 0 := by exact_mod_cast (Nat.doubleFactorial_pos _).ne'
    have h2 : (k ! : ℝ) ≠ 0 := by exact_mod_cast Nat.factorial_ne_zero _
    have h3 : Real.sqrt Real.pi ≠ 0 := (Real.sqrt_pos.2 Real.pi_pos).ne'
    push_cast
    rw [mul_pow, show (4 : ℝ) = 2 * 2 by norm_num, mul_pow]
    field_simp
    ring

/-- In three dimensions. -/
example : MeasureTheory.volume (Metric.ball (0 : EuclideanSpace ℝ (Fin 3)) 2)
    = ENNReal.ofReal (32 / 3 * Real.pi) := by
  rw [C74_ball (by norm_num) 2 (by norm_num)]
  congr 1
  have : ¬Even 3 := by decide
  simp only [Spec.ballVolume, this, if_false, show 3 / 2 = 1 by norm_num, pow_one, Nat.factorial_one,
    Nat.cast_one, show Nat.factorial 3 = 6 by rfl]
  push_cast
  ring

end PP.Props
