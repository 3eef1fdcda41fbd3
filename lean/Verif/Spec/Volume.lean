import Mathlib.Algebra.Order.Field.Basic
import Mathlib.Data.Nat.Factorial.Basic
import Mathlib.Algebra.Ring.Parity

/-!
# Specification of volumes
-/

namespace PP.Spec

/-- Volume of the ball of radius `r` in `d` dimensions, `pi` being the number π: `π^k r^d / k!` if `d = 2k` and
`2 k! (4π)^k r^d / d!` if `d = 2k+1`. It is the Lebesgue measure of the ball, see `C74_ball`. -/
def ballVolume {K : Type*} [Field K] (pi : K) (d : ℕ) (r : K) : K :=
  if Even d then pi ^ (d / 2) / ((d / 2).factorial : K) * r ^ d
  else 2 * ((d / 2).factorial : K) * (4 * pi) ^ (d / 2) / (d.factorial : K) * r ^ d

/-- Neighbours per particle according to a table of `g(r)`: the sum of `g`, times the density `rho`, times the
volume of the shell of thickness `w` around `r`. -/
def neighbours {K : Type*} [Field K] (pi w rho : K) (d : ℕ) (t : List (K × Option K)) : K :=
  (t.map fun p =>
    p.2.getD 0 * rho * (ballVolume pi d (p.1 + w / 2) - ballVolume pi d (p.1 - w / 2))).sum

end PP.Spec
