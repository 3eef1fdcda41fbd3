import Mathlib.Algebra.Order.Field.Basic

/-!
# Specifications for the small analysis helpers
-/

namespace PP.Spec

variable {K : Type} [Field K] [LinearOrder K]

/-- The parabola `a t² + b t + c` passes through the data points `i-1, i, i+1`. -/
def ThroughThree (x f : List K) (i : ℕ) (a b c : K) : Prop :=
  ∀ j ∈ [i - 1, i, i + 1], ∀ xj fj, x[j]? = some xj → f[j]? = some fj → a * xj ^ 2 + b * xj + c = fj

/-- `p` is an acceptable estimate of the maximum of the data: `i` is the first index of the largest
value; at the ends `p` is the data point; inside, `p` is the top of the parabola through the three
points around `i`, its abscissa is between the midpoints of the two adjacent intervals, and it is
not below the data. -/
def IsPeak (x f : List K) (p : K × K) : Prop :=
  ∃ (i : ℕ) (xi fi : K), x[i]? = some xi ∧ f[i]? = some fi ∧
    (∀ v ∈ f, v ≤ fi) ∧ (∀ j < i, ∀ v, f[j]? = some v → v < fi) ∧
    ((i = 0 ∨ i + 1 = f.length) → p = (xi, fi)) ∧
    (0 < i → i + 1 < f.length → ∀ xl xr, x[i - 1]? = some xl → x[i + 1]? = some xr →
      (xl + xi) / 2 < p.1 ∧ p.1 ≤ (xi + xr) / 2 ∧ fi ≤ p.2 ∧
      (∃ a b c, a < 0 ∧ ThroughThree x f i a b c) ∧
      ∀ a b c, ThroughThree x f i a b c →
        a * p.1 ^ 2 + b * p.1 + c = p.2 ∧ ∀ t, a * t ^ 2 + b * t + c ≤ p.2)

/-- `p` is an acceptable estimate of the minimum: the mirror image of `IsPeak`. -/
def IsDip (x f : List K) (p : K × K) : Prop := IsPeak x (f.map (- ·)) (p.1, -p.2)

end PP.Spec
