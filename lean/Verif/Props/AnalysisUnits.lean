import Verif.Props.Symmetry
import Verif.Props.GrUnits
import Verif.Props.GrOpen
import Verif.Model.Relax
import Mathlib.Tactic.FieldSimp
import Mathlib.Tactic.Ring

/-!
# C159: the results of the analysis carry the units of the data
-/

set_option linter.unusedSectionVars false

namespace PP.Props
open PP

variable {K : Type} [Field K] [LinearOrder K] [IsStrictOrderedRing K] [FloorRing K]

/-! ## Roots -/

theorem feqc_loop_affine {p q : K} (hp : p ≠ 0) (hq : q ≠ 0) (x0 f0 : K) (x f : List K) (fstar s : K) (l : List ℕ) :
    feqc.loop (x.map fun t => p * t + x0) (f.map fun v => q * v + f0) (q * fstar + f0) (q * s) l
      = (feqc.loop x f fstar s l).map (Option.map fun r => (p * r.1 + x0, r.2)) := by
  induction l with
  | nil => rfl
  | cons i l ih =>
    rw [feqc.loop, feqc.loop, pyGet_mapL _ f i, pyGet_mapL _ f (i - 1), pyGet_mapL _ x i, pyGet_mapL _ x (i - 1)]
    cases pyGet f i with
    | error e => rfl
    | ok fi =>
      simp only [Except.map, bind, Except.bind]
      have hc : (q * fi + f0 - (q * fstar + f0)) * (q * s) < 0 ↔ (fi - fstar) * s < 0 := by
        rw [show (q * fi + f0 - (q * fstar + f0)) * (q * s) = q ^ 2 * ((fi - fstar) * s) by ring]
        have hq2 : 0 < q ^ 2 := by positivity
        exact ⟨fun h => by by_contra hn; exact absurd h (not_lt.2 (mul_nonneg hq2.le (not_lt.1 hn))),
          fun h => mul_neg_of_pos_of_neg hq2 h⟩
      by_cases h : (fi - fstar) * s < 0
      · rw [if_pos h, if_pos (hc.2 h)]
        cases pyGet f (i - 1) with
        | error e => rfl
        | ok fp =>
          cases pyGet x i with
          | error e => rfl
          | ok xi =>
            cases pyGet x (i - 1) with
            | error e => rfl
            | ok xp =>
              simp only [pyDiv]
              rw [show q * fi + f0 - (q * fp + f0) = q * (fi - fp) by ring,
                show p * xi + x0 - (p * xp + x0) = p * (xi - xp) by ring,
                show q * fstar + f0 - (q * fp + f0) = q * (fstar - fp) by ring]
              by_cases hx : xi - xp = 0
              · simp [hx]
              · rw [if_neg hx, if_neg (mul_ne_zero hp hx)]
                simp only
                by_cases hf : fi - fp = 0
                · simp [hf]
                · rw [if_neg (div_ne_zero hf hx), if_neg (div_ne_zero (mul_ne_zero hq hf) (mul_ne_zero hp hx))]
                  simp only [pure, Except.pure, Option.map]
                  congr 3
                  field_simp
                  ring
      · rw [if_neg h, if_neg (fun h' => h (hc.1 h'))]
        exact ih

/-- **C159**, roots: if the abscissas, the values and the value to be reached undergo a change of unit and of origin, so does
the root; it is found between the same points, with the same exceptions. -/
theorem C159_feqc (p q x0 f0 : K) (hp : p ≠ 0) (hq : q ≠ 0) (x f : List K) (fstar : K) :
    feqc (x.map fun t => p * t + x0) (f.map fun v => q * v + f0) (q * fstar + f0)
      = (feqc x f fstar).map (Option.map fun r => (p * r.1 + x0, r.2)) := by
  unfold feqc
  rw [pyGet_mapL _ f 0]
  cases pyGet f 0 with
  | error e => rfl
  | ok v =>
    simp only [Except.map, bind, Except.bind, List.length_map]
    rw [show q * v + f0 - (q * fstar + f0) = q * (v - fstar) by ring]
    exact feqc_loop_affine hp hq x0 f0 x f fstar _ _

/-! ## Extrema -/

theorem parabola_affine {p q : K} (hp : p ≠ 0) (hq : q ≠ 0) (x0 f0 x1 y1 x2 y2 x3 y3 : K) :
    (do let abc ← parabola3 (p * x1 + x0) (q * y1 + f0) (p * x2 + x0) (q * y2 + f0) (p * x3 + x0) (q * y3 + f0)
        vertexParabola abc.1 abc.2.1 abc.2.2)
      = (do let abc ← parabola3 x1 y1 x2 y2 x3 y3
            vertexParabola abc.1 abc.2.1 abc.2.2).map fun v : K × K => (p * v.1 + x0, q * v.2 + f0) := by
  unfold parabola3 vertexParabola pyDiv
  simp only [bind, Except.bind, pure, Except.pure]
  rw [show (p * x1 + x0 - (p * x2 + x0)) * (p * x1 + x0 - (p * x3 + x0)) * (p * x2 + x0 - (p * x3 + x0))
    = p ^ 3 * ((x1 - x2) * (x1 - x3) * (x2 - x3)) by ring]
  by_cases hd : (x1 - x2) * (x1 - x3) * (x2 - x3) = 0
  · simp only [hd, mul_zero, if_true]; rfl
  · have h12 : x1 - x2 ≠ 0 := fun h => hd (by rw [h]; ring)
    have h13 : x1 - x3 ≠ 0 := fun h => hd (by rw [h]; ring)
    have h23 : x2 - x3 ≠ 0 := fun h => hd (by rw [h]; ring)
    have hp3 : p ^ 3 ≠ 0 := pow_ne_zero _ hp
    simp only [if_neg hd, if_neg (mul_ne_zero hp3 hd)]
    rw [show (p * x3 + x0) * (q * y2 + f0 - (q * y1 + f0)) + (p * x2 + x0) * (q * y1 + f0 - (q * y3 + f0))
        + (p * x1 + x0) * (q * y3 + f0 - (q * y2 + f0))
      = p * q * (x3 * (y2 - y1) + x2 * (y1 - y3) + x1 * (y3 - y2)) by ring]
    rw [show (p * x3 + x0) ^ 2 * (q * y1 + f0 - (q * y2 + f0)) + (p * x2 + x0) ^ 2 * (q * y3 + f0 - (q * y1 + f0))
        + (p * x1 + x0) ^ 2 * (q * y2 + f0 - (q * y3 + f0))
      = p ^ 2 * q * (x3 ^ 2 * (y1 - y2) + x2 ^ 2 * (y3 - y1) + x1 ^ 2 * (y2 - y3))
        - 2 * p * q * x0 * (x3 * (y2 - y1) + x2 * (y1 - y3) + x1 * (y3 - y2)) by ring]
    rw [show (p * x2 + x0) * (p * x3 + x0) * (p * x2 + x0 - (p * x3 + x0)) * (q * y1 + f0)
        + (p * x3 + x0) * (p * x1 + x0) * (p * x3 + x0 - (p * x1 + x0)) * (q * y2 + f0)
        + (p * x1 + x0) * (p * x2 + x0) * (p * x1 + x0 - (p * x2 + x0)) * (q * y3 + f0)
      = p ^ 3 * q * (x2 * x3 * (x2 - x3) * y1 + x3 * x1 * (x3 - x1) * y2 + x1 * x2 * (x1 - x2) * y3)
        + p ^ 3 * f0 * ((x1 - x2) * (x1 - x3) * (x2 - x3))
        - p ^ 2 * q * x0 * (x3 ^ 2 * (y1 - y2) + x2 ^ 2 * (y3 - y1) + x1 ^ 2 * (y2 - y3))
        + p * q * x0 ^ 2 * (x3 * (y2 - y1) + x2 * (y1 - y3) + x1 * (y3 - y2)) by ring]
    generalize x3 * (y2 - y1) + x2 * (y1 - y3) + x1 * (y3 - y2) = A
    generalize x3 ^ 2 * (y1 - y2) + x2 ^ 2 * (y3 - y1) + x1 ^ 2 * (y2 - y3) = B
    generalize x2 * x3 * (x2 - x3) * y1 + x3 * x1 * (x3 - x1) * y2 + x1 * x2 * (x1 - x2) * y3 = C
    generalize (x1 - x2) * (x1 - x3) * (x2 - x3) = D at hd ⊢
    by_cases hA : A = 0
    · simp [hA, Except.map]
    · have h1 : 2 * (A / D) ≠ 0 := mul_ne_zero two_ne_zero (div_ne_zero hA hd)
      have h2 : 4 * (A / D) ≠ 0 := mul_ne_zero four_ne_zero (div_ne_zero hA hd)
      have h3 : 2 * (p * q * A / (p ^ 3 * D)) ≠ 0 :=
        mul_ne_zero two_ne_zero (div_ne_zero (mul_ne_zero (mul_ne_zero hp hq) hA) (mul_ne_zero hp3 hd))
      have h4 : 4 * (p * q * A / (p ^ 3 * D)) ≠ 0 :=
        mul_ne_zero four_ne_zero (div_ne_zero (mul_ne_zero (mul_ne_zero hp hq) hA) (mul_ne_zero hp3 hd))
      simp only [if_neg h1, if_neg h2, if_neg h3, if_neg h4, Except.map]
      congr 2
      · field_simp
        ring
      · field_simp
        ring

theorem interpolateAt_affine {p q : K} (hp : p ≠ 0) (hq : q ≠ 0) (x0 f0 : K) (x f : List K) (i : ℕ) :
    interpolateAt (x.map fun t => p * t + x0) (f.map fun v => q * v + f0) i
      = (interpolateAt x f i).map fun v => (p * v.1 + x0, q * v.2 + f0) := by
  unfold interpolateAt
  rw [List.length_map]
  by_cases h : i = f.length - 1 ∨ i = 0
  · rw [if_pos h, if_pos h, pyGet_mapL _ x i, pyGet_mapL _ f i]
    cases pyGet x i <;> [rfl; (cases pyGet f i <;> rfl)]
  · rw [if_neg h, if_neg h, pyGet_mapL _ x (i - 1), pyGet_mapL _ f (i - 1), pyGet_mapL _ x i, pyGet_mapL _ f i,
      pyGet_mapL _ x (i + 1), pyGet_mapL _ f (i + 1)]
    cases pyGet x (i - 1) with
    | error e => rfl
    | ok x1 =>
      cases pyGet f (i - 1) with
      | error e => rfl
      | ok y1 =>
        cases pyGet x i with
        | error e => rfl
        | ok x2 =>
          cases pyGet f i with
          | error e => rfl
          | ok y2 =>
            cases pyGet x (i + 1) with
            | error e => rfl
            | ok x3 =>
              cases pyGet f (i + 1) with
              | error e => rfl
              | ok y3 => exact parabola_affine hp hq x0 f0 x1 y1 x2 y2 x3 y3

theorem foldl_better_map (g : K → K) (better better' : K → K → Bool) (hb : ∀ a b, better' (g a) (g b) = better a b)
    (r : List K) (a : K) :
    (r.map g).foldl (fun best b => if better' b best then b else best) (g a)
      = g (r.foldl (fun best b => if better b best then b else best) a) := by
  induction r generalizing a with
  | nil => rfl
  | cons b r ih =>
    simp only [List.map_cons, List.foldl_cons, hb]
    by_cases h : better b a = true
    · rw [if_pos h, if_pos h]; exact ih b
    · rw [if_neg h, if_neg h]; exact ih a

theorem firstExtremum_map (g : K → K) (hg : Function.Injective g) (better better' : K → K → Bool)
    (hb : ∀ a b, better' (g a) (g b) = better a b) (f : List K) :
    firstExtremum better' (f.map g) = firstExtremum better f := by
  unfold firstExtremum
  cases f with
  | nil => rfl
  | cons a r =>
    simp only [List.map_cons]
    rw [foldl_better_map g better better' hb, ← List.map_cons, List.findIdx_map]
    congr 2
    funext v
    simp only [Function.comp_apply, hg.eq_iff]

/-- **C159**, extrema: a change of unit and of origin of the abscissas and of the values applies to the minimum and to the
maximum, including the points outside the grid obtained by interpolation, with the same exceptions. -/
theorem C159_ifabsmm (p q x0 f0 : K) (hp : p ≠ 0) (hq : 0 < q) (x f : List K) :
    ifabsmm (x.map fun t => p * t + x0) (f.map fun v => q * v + f0)
      = (ifabsmm x f).map fun r => ((p * r.1.1 + x0, q * r.1.2 + f0), (p * r.2.1 + x0, q * r.2.2 + f0)) := by
  unfold ifabsmm
  have hinj : Function.Injective fun v : K => q * v + f0 := fun a b h =>
    mul_left_cancel₀ hq.ne' (add_right_cancel (h : q * a + f0 = q * b + f0))
  have hlt : ∀ a b : K, decide (q * a + f0 < q * b + f0) = decide (a < b) := by
    intro a b; exact decide_eq_decide.2 (by rw [add_lt_add_iff_right, mul_lt_mul_iff_right₀ hq])
  rw [firstExtremum_map _ hinj (fun b a => decide (b < a)) _ (fun a b => hlt a b),
    firstExtremum_map _ hinj (fun b a => decide (a < b)) _ (fun a b => hlt b a)]
  cases firstExtremum (fun b a => decide (b < a)) f with
  | error e => rfl
  | ok i =>
    cases firstExtremum (fun b a => decide (a < b)) f with
    | error e => rfl
    | ok j =>
      simp only [bind, Except.bind, interpolateAt_affine hp hq.ne' x0 f0 x f]
      cases interpolateAt x f i with
      | error e => rfl
      | ok lo => cases interpolateAt x f j <;> rfl

/-- **C159**, extrema: with the opposite sign of the values, minimum and maximum are exchanged. -/
theorem C159_ifabsmm_neg (x f : List K) (lo hi : K × K) (h : ifabsmm x f = .ok (lo, hi)) :
    ifabsmm x (f.map fun v => -v) = .ok ((hi.1, -hi.2), (lo.1, -lo.2)) := by
  have hx : (x.map fun t : K => 1 * t + 0) = x := by simp
  have hf : (f.map fun v : K => -1 * v + 0) = f.map fun v => -v := by simp
  have hi' : ∀ i, interpolateAt x (f.map fun v => -v) i = (interpolateAt x f i).map fun v => (v.1, -v.2) := by
    intro i
    have := interpolateAt_affine (p := (1 : K)) (q := -1) one_ne_zero (neg_ne_zero.2 one_ne_zero) 0 0 x f i
    rw [hx, hf] at this
    rw [this]
    cases interpolateAt x f i with
    | error e => rfl
    | ok v => simp [Except.map]
  unfold ifabsmm at h ⊢
  rw [firstExtremum_map (fun v : K => -v) neg_injective (fun b a => decide (a < b)) _ (fun a b => by
      simp [neg_lt_neg_iff]),
    firstExtremum_map (fun v : K => -v) neg_injective (fun b a => decide (b < a)) _ (fun a b => by
      simp [neg_lt_neg_iff])]
  cases h1 : firstExtremum (fun b a => decide (b < a)) f with
  | error e => rw [h1] at h; cases h
  | ok i =>
    cases h2 : firstExtremum (fun b a => decide (a < b)) f with
    | error e => rw [h1, h2] at h; cases h
    | ok j =>
      rw [h1, h2] at h
      simp only [bind, Except.bind, hi'] at h ⊢
      cases h3 : interpolateAt x f i with
      | error e => rw [h3] at h; cases h
      | ok u =>
        cases h4 : interpolateAt x f j with
        | error e => rw [h3, h4] at h; cases h
        | ok v =>
          rw [h3, h4] at h
          cases h
          rfl

/-! ## Fit -/

theorem sum_affine (q f0 : K) (l : List K) : (l.map fun v => q * v + f0).sum = q * l.sum + l.length * f0 := by
  induction l with
  | nil => simp
  | cons a l ih => simp only [List.map_cons, List.sum_cons, ih, List.length_cons]; push_cast; ring

theorem sum_sq_affine (q f0 : K) (l : List K) : ((l.map fun v => q * v + f0).map (· ^ 2)).sum
    = q ^ 2 * (l.map (· ^ 2)).sum + 2 * q * f0 * l.sum + l.length * f0 ^ 2 := by
  induction l with
  | nil => simp
  | cons a l ih => simp only [List.map_cons, List.sum_cons, ih, List.length_cons]; push_cast; ring

theorem sum_mul_affine (p q x0 f0 : K) (xs ys : List K) (h : xs.length = ys.length) :
    (List.zipWith (· * ·) (xs.map fun t => p * t + x0) (ys.map fun v => q * v + f0)).sum
      = p * q * (List.zipWith (· * ·) xs ys).sum + p * f0 * xs.sum + q * x0 * ys.sum + xs.length * (x0 * f0) := by
  induction xs generalizing ys with
  | nil =>
    cases ys with
    | nil => simp
    | cons b ys => cases h
  | cons a xs ih =>
    cases ys with
    | nil => cases h
    | cons b ys =>
      simp only [List.map_cons, List.zipWith_cons_cons, List.sum_cons, ih ys (Nat.succ.inj h), List.length_cons]
      push_cast
      ring

/-- **C159**, fit: slope, intercept and the (squared) uncertainty of the slope follow a change of unit and of origin of the
data, also if the fit is not defined, with the same exceptions. -/
theorem C159_linear_fit (p q x0 f0 : K) (hp : p ≠ 0) (xs ys : List K) :
    (linearFit (xs.map fun t => p * t + x0) (ys.map fun v => q * v + f0)).map (Option.map fun r => (r.1, r.2.1, r.2.2.1))
      = (linearFit xs ys).map (Option.map fun r =>
          (q / p * r.1, q * r.2.1 + f0 - q / p * r.1 * x0, (q / p) ^ 2 * r.2.2.1)) := by
  unfold linearFit
  rw [List.length_map, List.length_map]
  by_cases hlen : xs.length = ys.length
  · rw [if_neg (not_not.2 hlen), if_neg (not_not.2 hlen)]
    simp only [sum_affine, sum_sq_affine, sum_mul_affine p q x0 f0 xs ys hlen, hlen]
    set n : K := (ys.length : K) with hn
    have hden : n * (p ^ 2 * (xs.map (· ^ 2)).sum + 2 * p * x0 * xs.sum + n * x0 ^ 2) - (p * xs.sum + n * x0) ^ 2
        = p ^ 2 * (n * (xs.map (· ^ 2)).sum - xs.sum ^ 2) := by ring
    rw [hden]
    by_cases hd : n * (xs.map (· ^ 2)).sum - xs.sum ^ 2 = 0
    · rw [if_pos hd, if_pos (by rw [hd, mul_zero])]; rfl
    · rw [if_neg hd, if_neg (mul_ne_zero (pow_ne_zero _ hp) hd)]
      have hn0 : n ≠ 0 := by
        intro h0
        apply hd
        have hl : ys.length = 0 := by exact_mod_cast hn.symm.trans h0
        rw [h0, List.length_eq_zero_iff.1 (hlen.trans hl)]
        simp
      set sxx := (xs.map (· ^ 2)).sum
      set syy := (ys.map (· ^ 2)).sum
      set sx := xs.sum
      set sy := ys.sum
      set sxy := (List.zipWith (· * ·) xs ys).sum
      have e1 : (n * (p * q * sxy + p * f0 * sx + q * x0 * sy + n * (x0 * f0)) - (p * sx + n * x0) * (q * sy + n * f0))
          / (p ^ 2 * (n * sxx - sx ^ 2)) = q / p * ((n * sxy - sx * sy) / (n * sxx - sx ^ 2)) := by
        field_simp
        ring
      rw [e1]
      generalize (n * sxy - sx * sy) / (n * sxx - sx ^ 2) = a
      simp only [Except.map, Option.map]
      congr 2
      refine Prod.ext rfl (Prod.ext ?_ ?_)
      · show (q * sy + n * f0) / n - q / p * a * (p * sx + n * x0) / n = q * (sy / n - a * sx / n) + f0 - q / p * a * x0
        field_simp
        ring
      · show n * (if (ys.length : ℤ) - 2 > 0 then _ else 0) / (p ^ 2 * (n * sxx - sx ^ 2))
          = (q / p) ^ 2 * (n * (if (ys.length : ℤ) - 2 > 0 then _ else 0) / (n * sxx - sx ^ 2))
        by_cases hf : (ys.length : ℤ) - 2 > 0
        · rw [if_pos hf, if_pos hf]
          have hdof : (((ys.length : ℤ) - 2 : ℤ) : K) ≠ 0 := by exact_mod_cast hf.ne'
          field_simp
          ring
        · rw [if_neg hf, if_neg hf]; simp
  · rw [if_pos hlen, if_pos hlen]; rfl

/-- **C159**, fit: without a change of the origin of the abscissas, also the (squared) uncertainty of the intercept follows. -/
theorem C159_linear_fit_units (p q f0 : K) (hp : p ≠ 0) (xs ys : List K) :
    linearFit (xs.map fun t => p * t) (ys.map fun v => q * v + f0)
      = (linearFit xs ys).map (Option.map fun r =>
          (q / p * r.1, q * r.2.1 + f0, (q / p) ^ 2 * r.2.2.1, q ^ 2 * r.2.2.2)) := by
  have key := C159_linear_fit p q 0 f0 hp xs ys
  simp only [add_zero, mul_zero, sub_zero] at key
  have hsb : ∀ (us vs : List K) r, linearFit us vs = .ok (some r) →
      r.2.2.2 = r.2.2.1 * (us.map (· ^ 2)).sum / (vs.length : K) := by
    intro us vs r h
    unfold linearFit at h
    by_cases hl : us.length ≠ vs.length
    · rw [if_pos hl] at h; cases h
    · rw [if_neg hl] at h
      dsimp only at h
      by_cases hd : (vs.length : K) * (us.map (· ^ 2)).sum - us.sum ^ 2 = 0
      · rw [if_pos hd] at h; cases h
      · rw [if_neg hd] at h
        cases h
        rfl
  have hsq : ((xs.map fun t => p * t).map (· ^ 2)).sum = p ^ 2 * (xs.map (· ^ 2)).sum := by
    have := sum_sq_affine p 0 xs
    simpa using this
  cases h1 : linearFit xs ys with
  | error e =>
    rw [h1] at key
    cases h2 : linearFit (xs.map fun t => p * t) (ys.map fun v => q * v + f0) with
    | error e' => rw [h2] at key; cases key; rfl
    | ok r => rw [h2] at key; cases key
  | ok r =>
    rw [h1] at key
    cases h2 : linearFit (xs.map fun t => p * t) (ys.map fun v => q * v + f0) with
    | error e' => rw [h2] at key; cases key
    | ok r' =>
      rw [h2] at key
      cases r with
      | none =>
        cases r' with
        | none => rfl
        | some r' => simp [Except.map] at key
      | some r =>
        cases r' with
        | none => simp [Except.map] at key
        | some r' =>
          simp only [Except.map, Option.map, Except.ok.injEq, Option.some.injEq, Prod.mk.injEq] at key ⊢
          have e1 := hsb _ _ _ h1
          have e2 := hsb _ _ _ h2
          rw [hsq, List.length_map] at e2
          refine Prod.ext key.1 (Prod.ext key.2.1 (Prod.ext key.2.2 ?_))
          show r'.2.2.2 = q ^ 2 * r.2.2.2
          rw [e2, e1, key.2.2]
          field_simp

/-! ## Analysis of the correlation functions -/

theorem msdTau_units (c s : K) (hc : 0 < c) (hs : 0 < s) (grid value : List K) (sigma : K) :
    msdTau (grid.map (c * ·)) (value.map (s ^ 2 * ·)) (s * sigma) = (msdTau grid value sigma).map (Option.map (c * ·)) := by
  have h := C159_feqc c (s ^ 2) 0 0 hc.ne' (pow_ne_zero 2 hs.ne') grid value (sigma ^ 2)
  simp only [add_zero] at h
  unfold msdTau
  rw [mul_pow, h]
  cases feqc grid value (sigma ^ 2) with
  | ok r => cases r <;> rfl
  | error e => cases e <;> rfl

theorem filter_zip_map {α β : Type} (g : α → β) (l : List α) (m : List Bool) :
    ((List.zip (l.map g) m).filter Prod.snd).map Prod.fst
      = (((List.zip l m).filter Prod.snd).map Prod.fst).map g := by
  induction l generalizing m with
  | nil => rfl
  | cons a l ih =>
    cases m with
    | nil => rfl
    | cons b m => cases b <;> simp [ih]

/-- **C159**, diffusion: in another unit of time (factor `c`) and of length (factor `s`), the diffusive time is multiplied by
`c` and the diffusion coefficient by `s² / c`, with the same exceptions. -/
theorem C159_diffusion (c s : K) (hc : 0 < c) (hs : 0 < s) (grid value : List K) (sigma : K) (ndim : ℕ) :
    msdAnalyze (grid.map (c * ·)) (value.map (s ^ 2 * ·)) (s * sigma) ndim
      = (msdAnalyze grid value sigma ndim).map fun r =>
          ⟨r.tauD.map (c * ·), r.diffusion.map (Option.map (s ^ 2 / c * ·))⟩ := by
  unfold msdAnalyze
  rw [msdTau_units c s hc hs]
  cases msdTau grid value sigma with
  | error e => rfl
  | ok t =>
    have hd : msdDiffusion (grid.map (c * ·)) (value.map (s ^ 2 * ·)) (s * sigma) ndim
        = (msdDiffusion grid value sigma ndim).map (Option.map (Option.map (s ^ 2 / c * ·))) := by
      unfold msdDiffusion
      have hm : ((value.map (s ^ 2 * ·)).map fun v => decide (v > (s * sigma) ^ 2))
          = value.map fun v => decide (v > sigma ^ 2) := by
        rw [List.map_map]
        refine List.map_congr_left fun v _ => decide_eq_decide.2 ?_
        show (s * sigma) ^ 2 < s ^ 2 * v ↔ sigma ^ 2 < v
        rw [mul_pow]
        exact mul_lt_mul_iff_right₀ (by positivity)
      simp only [hm]
      by_cases h2 : ((value.map fun v => decide (v > sigma ^ 2)).filter id).length < 2
      · rw [if_pos h2, if_pos h2]; rfl
      · rw [if_neg h2, if_neg h2, List.length_map (f := (c * ·))]
        by_cases hl : grid.length ≠ (value.map fun v => decide (v > sigma ^ 2)).length
        · rw [if_pos hl, if_pos hl]; rfl
        · rw [if_neg hl, if_neg hl, filter_zip_map, filter_zip_map]
          have hf := C159_linear_fit_units c (s ^ 2) 0 hc.ne'
            (((List.zip grid (value.map fun v => decide (v > sigma ^ 2))).filter Prod.snd).map Prod.fst)
            (((List.zip value (value.map fun v => decide (v > sigma ^ 2))).filter Prod.snd).map Prod.fst)
          simp only [add_zero] at hf
          rw [hf]
          cases linearFit (((List.zip grid (value.map fun v => decide (v > sigma ^ 2))).filter Prod.snd).map Prod.fst)
            (((List.zip value (value.map fun v => decide (v > sigma ^ 2))).filter Prod.snd).map Prod.fst) with
          | error e => rfl
          | ok r =>
            cases r with
            | none => rfl
            | some r =>
              simp only [bind, Except.bind, Except.map, pure, Except.pure, Option.map, mul_div_assoc]
    simp only [Except.map, bind, Except.bind, hd]
    cases msdDiffusion grid value sigma ndim <;> rfl

/-- **C159**, relaxation time of the self overlap: it is multiplied by the factor of the unit of time. -/
theorem C159_overlap_time (c : K) (hc : 0 < c) (e : K) (grid value : List K) :
    qstAnalyze e (grid.map (c * ·)) value = (qstAnalyze e grid value).map (Option.map (c * ·)) := by
  have h := C159_feqc c 1 0 0 hc.ne' one_ne_zero grid value (1 / e)
  simp only [add_zero, one_mul, List.map_id'] at h
  unfold qstAnalyze
  rw [h]
  cases feqc grid value (1 / e) with
  | ok r => cases r <;> rfl
  | error e => cases e <;> rfl

/-! ### Peaks -/

theorem firstExtremumNan_scaled (g : K → K) (hg : Function.Injective g) (better : K → K → Bool)
    (hb : ∀ a b, better (g a) (g b) = better a b) (f : List (Option K)) :
    firstExtremumNan better (f.map (Option.map g)) = firstExtremumNan better f := by
  have hfold : ∀ F : K → Option K → K, (∀ a, F a none = a) → (∀ a b, F a (some b) = if better b a then b else a) →
      ∀ (r : List (Option K)) (a : K), (r.map (Option.map g)).foldl F (g a) = g (r.foldl F a) := by
    intro F h0 h1 r
    induction r with
    | nil => intro a; rfl
    | cons b r ih =>
      intro a
      cases b with
      | none => simp only [List.map_cons, List.foldl_cons, Option.map, h0]; exact ih a
      | some b =>
        simp only [List.map_cons, List.foldl_cons, Option.map, h1, hb]
        by_cases h : better b a = true
        · rw [if_pos h, if_pos h]; exact ih b
        · rw [if_neg h, if_neg h]; exact ih a
  cases f with
  | nil => rfl
  | cons o r =>
    cases o with
    | none => rfl
    | some a =>
      simp only [firstExtremumNan, List.map_cons, Option.map]
      rw [hfold _ (fun _ => rfl) (fun _ _ => rfl), show (some (g a) :: r.map (Option.map g)) = (some a :: r).map (Option.map g) from rfl, List.findIdx_map]
      congr 2
      funext v
      cases v with
      | none => simp
      | some v => simp [hg.eq_iff]

theorem interpolateAtNan_units {p q : K} (hp : p ≠ 0) (hq : q ≠ 0) (x : List K) (f : List (Option K)) (i : ℕ) :
    interpolateAtNan (x.map (p * ·)) (f.map (Option.map (q * ·))) i
      = (interpolateAtNan x f i).map fun v => (v.1.map (p * ·), v.2.map (q * ·)) := by
  unfold interpolateAtNan
  rw [List.length_map]
  by_cases h : i = f.length - 1 ∨ i = 0
  · rw [if_pos h, if_pos h, pyGet_mapL _ x i, pyGet_mapL _ f i]
    cases pyGet x i <;> [rfl; (cases pyGet f i <;> rfl)]
  · rw [if_neg h, if_neg h, pyGet_mapL _ x (i - 1), pyGet_mapL _ f (i - 1), pyGet_mapL _ x i, pyGet_mapL _ f i,
      pyGet_mapL _ x (i + 1), pyGet_mapL _ f (i + 1)]
    cases pyGet x (i - 1) with
    | error e => rfl
    | ok x1 =>
      cases pyGet f (i - 1) with
      | error e => rfl
      | ok y1 =>
        cases pyGet x i with
        | error e => rfl
        | ok x2 =>
          cases pyGet f i with
          | error e => rfl
          | ok y2 =>
            cases pyGet x (i + 1) with
            | error e => rfl
            | ok x3 =>
              cases pyGet f (i + 1) with
              | error e => rfl
              | ok y3 =>
                cases y1 with
                | none => rfl
                | some y1 =>
                  cases y2 with
                  | none => rfl
                  | some y2 =>
                    cases y3 with
                    | none => rfl
                    | some y3 =>
                      have := parabola_affine hp hq 0 0 x1 y1 x2 y2 x3 y3
                      simp only [add_zero] at this
                      simp only [Except.map, bind, Except.bind, Option.map] at this ⊢
                      cases h1 : parabola3 x1 y1 x2 y2 x3 y3 with
                      | error e =>
                        rw [h1] at this
                        cases h2 : parabola3 (p * x1) (q * y1) (p * x2) (q * y2) (p * x3) (q * y3) with
                        | error e' => rw [h2] at this; cases this; rfl
                        | ok abc =>
                          rw [h2] at this
                          simp only at this ⊢
                          rw [this]
                      | ok abc =>
                        rw [h1] at this
                        cases h2 : parabola3 (p * x1) (q * y1) (p * x2) (q * y2) (p * x3) (q * y3) with
                        | error e' =>
                          rw [h2] at this
                          simp only at this ⊢
                          cases h3 : vertexParabola abc.1 abc.2.1 abc.2.2 with
                          | error e => rw [h3] at this; cases this; rfl
                          | ok v => rw [h3] at this; cases this
                        | ok abc' =>
                          rw [h2] at this
                          simp only at this ⊢
                          rw [this]
                          cases vertexParabola abc.1 abc.2.1 abc.2.2 <;> rfl

/-- **C159**, peaks of the non-Gaussian parameter and of the dynamic susceptibility: position and height of the peak are
multiplied by the factors of the abscissas and of the values, also if some of the values are nan. -/
theorem C159_peak (p q : K) (hp : 0 < p) (hq : 0 < q) (grid : List K) (value : List (Option K)) :
    peakAnalyze (grid.map (p * ·)) (value.map (Option.map (q * ·)))
      = (peakAnalyze grid value).map (Option.map fun r => (r.1.map (p * ·), r.2.map (q * ·))) := by
  have hinj : Function.Injective fun v : K => q * v := fun a b h => mul_left_cancel₀ hq.ne' h
  have hlt : ∀ a b : K, decide (q * a < q * b) = decide (a < b) := by
    intro a b; exact decide_eq_decide.2 (mul_lt_mul_iff_right₀ hq)
  have h : ifabsmmNan (grid.map (p * ·)) (value.map (Option.map (q * ·)))
      = (ifabsmmNan grid value).map fun r =>
        ((r.1.1.map (p * ·), r.1.2.map (q * ·)), (r.2.1.map (p * ·), r.2.2.map (q * ·))) := by
    unfold ifabsmmNan
    rw [firstExtremumNan_scaled _ hinj (fun b a => decide (b < a)) (fun a b => hlt a b),
      firstExtremumNan_scaled _ hinj (fun b a => decide (a < b)) (fun a b => hlt b a)]
    cases firstExtremumNan (fun b a => decide (b < a)) value with
    | error e => rfl
    | ok i =>
      cases firstExtremumNan (fun b a => decide (a < b)) value with
      | error e => rfl
      | ok j =>
        simp only [bind, Except.bind, interpolateAtNan_units hp.ne' hq.ne' grid value]
        cases interpolateAtNan grid value i with
        | error e => rfl
        | ok lo => cases interpolateAtNan grid value j <;> rfl
  unfold peakAnalyze
  rw [h]
  cases ifabsmmNan grid value with
  | ok r => rfl
  | error e => cases e <;> rfl

/-- **C159**, relaxation times of the intermediate scattering functions: they are multiplied by the factor of the unit of
time, and do not depend on the normalisation of the functions. -/
theorem C159_relaxation_times (c q : ℝ) (hc : 0 < c) (hq : q ≠ 0) (e : ℝ) (ks t : List ℝ) (f : List (List ℝ)) :
    extractTau e ks (t.map (c * ·)) (f.map (List.map (q * ·)))
      = (extractTau e ks t f).map (List.map fun r => (r.1, r.2.map (c * ·))) := by
  have hroot : ∀ (fi : List ℝ) (f0 : ℝ), extractTau.tauRoot (t.map (c * ·)) (fi.map (q * ·)) (q * f0 * (1 / e))
      = (extractTau.tauRoot t fi (f0 * (1 / e))).map (Option.map (c * ·)) := by
    intro fi f0
    have h := C159_feqc c q 0 0 hc.ne' hq t fi (f0 * (1 / e))
    simp only [add_zero] at h
    unfold extractTau.tauRoot
    rw [mul_assoc, h]
    cases feqc t fi (f0 * (1 / e)) with
    | ok r => cases r <;> rfl
    | error e => cases e <;> rfl
  have hset : ∀ (tau : List (ℝ × Option ℝ)) (k : ℝ) (r : Option ℝ),
      dictSet (tau.map fun r => (r.1, r.2.map (c * ·))) k (r.map (c * ·))
        = (dictSet tau k r).map fun r => (r.1, r.2.map (c * ·)) := by
    intro tau k r
    induction tau with
    | nil => rfl
    | cons a tau ih =>
      simp only [List.map_cons, dictSet]
      by_cases h : a.1 = k
      · simp [h]
      · simp only [h, if_false, List.map_cons, ih]
  unfold extractTau
  rw [pyGet_mapL _ t 0]
  cases pyGet t 0 with
  | error e => rfl
  | ok t0 =>
    simp only [Except.map, bind, Except.bind]
    have h0 : c * t0 > 0 ↔ t0 > 0 := ⟨fun h => (pos_iff_pos_of_mul_pos h).1 hc, fun h => mul_pos hc h⟩
    by_cases ht : t0 > 0
    · rw [if_pos ht, if_pos (h0.2 ht)]
    · rw [if_neg ht, if_neg (fun h => ht (h0.1 h))]
      have := foldlM_map_state (List.map fun r : ℝ × Option ℝ => (r.1, r.2.map (c * ·)))
        (g := fun tau (ki : ℝ × ℕ) => do
          let fi ← pyGet f ki.2
          let f0 ← pyGet fi 0
          let r ← extractTau.tauRoot t fi (f0 * (1 / e))
          return dictSet tau ki.1 r)
        (g' := fun tau (ki : ℝ × ℕ) => do
          let fi ← pyGet (f.map (List.map (q * ·))) ki.2
          let f0 ← pyGet fi 0
          let r ← extractTau.tauRoot (t.map (c * ·)) fi (f0 * (1 / e))
          return dictSet tau ki.1 r) (by
          intro st ki
          rw [pyGet_mapL _ f ki.2]
          cases pyGet f ki.2 with
          | error e => rfl
          | ok fi =>
            simp only [Except.map, bind, Except.bind]
            rw [pyGet_mapL _ fi 0]
            cases pyGet fi 0 with
            | error e => rfl
            | ok f0 =>
              simp only [Except.map, hroot]
              cases extractTau.tauRoot t fi (f0 * (1 / e)) with
              | error e => rfl
              | ok r => simp only [Except.map, pure, Except.pure, hset]) ks.zipIdx []
      exact this

/-- **C159**, end to end: if the mean square displacement has numbers `vs` at times `ts`, the analysis of the one computed in
another unit of time (factor `c`) and with the particles moved by a transformation that multiplies distances by `s` gives the
diffusive time multiplied by `c` and the diffusion coefficient multiplied by `s² / c`. -/
theorem C159_msd {n d : ℕ} (c s : K) (hc : 0 < c) (hs : 0 < s) (h : (Fin d → K) → Fin d → K)
    (hh : ∀ u v, ∑ i, (h u i - h v i) ^ 2 = s ^ 2 * ∑ i, (u i - v i) ^ 2) (tr : Traj K) (skip : ℕ)
    (grid : Option (List K)) (rmax : K) (tsamples : ℤ) (offset : Bool) (x : List (Frame n d K)) (ts vs : List K) (sigma : K)
    (hx : msdCompute tr skip grid rmax tsamples offset x = .ok (ts, vs.map some)) :
    ∃ ts' vs', msdCompute { tr with timestep := c * tr.timestep, totalTime := c * tr.totalTime } skip
        (grid.map (List.map (c * ·))) (s * rmax) tsamples offset (x.map fun f p => h (f p)) = .ok (ts', vs'.map some) ∧
      msdAnalyze ts' vs' (s * sigma) d = (msdAnalyze ts vs sigma d).map fun r =>
        ⟨r.tauD.map (c * ·), r.diffusion.map (Option.map (s ^ 2 / c * ·))⟩ := by
  refine ⟨ts.map (c * ·), vs.map (s ^ 2 * ·), ?_, C159_diffusion c s hc hs ts vs sigma d⟩
  have h1 := (C108_unit_of_time c hc tr skip grid [] (s * rmax) tsamples offset (.str ['1']) 0 (x.map (moved h))).2.1
  have h2 := (C109_similarity s hs h hh tr skip grid rmax tsamples offset [] 0 x).1
  rw [h2, hx] at h1
  simp only [Except.map, List.map_map] at h1 ⊢
  exact h1.trans rfl

/-! ## Cases -/

example : feqc [(0 : ℚ), 1, 2] [4, 2, 0] 1 = .ok (some (3 / 2, 2)) ∧
    feqc [(5 : ℚ), 8, 11] [-7, -3, 1] (-1) = .ok (some (3 * (3 / 2) + 5, 2)) := by decide +kernel

example : ifabsmm [(0 : ℚ), 1, 2, 3] [1, 3, 2, 0] = .ok ((3, 0), (7 / 6, 73 / 24)) ∧
    ifabsmm [(5 : ℚ), 7, 9, 11] [4, 10, 7, 1] = .ok ((2 * 3 + 5, 3 * 0 + 1), (2 * (7 / 6) + 5, 3 * (73 / 24) + 1)) ∧
    ifabsmm [(0 : ℚ), 1, 2, 3] [-1, -3, -2, 0] = .ok ((7 / 6, -(73 / 24)), (3, -0)) := by decide +kernel

example : linearFit [(0 : ℚ), 1, 2] [1, 2, 5] = .ok (some (2, 2 / 3, 1 / 3, 5 / 9)) ∧
    linearFit [(0 : ℚ), 2, 4] [4, 7, 16] = .ok (some (3 / 2 * 2, 3 * (2 / 3) + 1, (3 / 2) ^ 2 * (1 / 3), 3 ^ 2 * (5 / 9))) := by
  decide +kernel

example : msdAnalyze [(0 : ℚ), 1, 2, 3] [0, 2, 4, 6] 1 3 = .ok ⟨some (1 / 2), some (some (1 / 3))⟩ ∧
    msdAnalyze [(0 : ℚ), 5, 10, 15] [0, 8, 16, 24] 2 3 = .ok ⟨some (5 * (1 / 2)), some (some (2 ^ 2 / 5 * (1 / 3)))⟩ := by
  decide +kernel

example : peakAnalyze [(0 : ℚ), 1, 2, 3, 4] [some 1, some 3, some 2, some 0, none] = .ok (some (some (7 / 6), some (73 / 24))) ∧
    peakAnalyze [(0 : ℚ), 2, 4, 6, 8] [some 3, some 9, some 6, some 0, none]
      = .ok (some (some (2 * (7 / 6)), some (3 * (73 / 24)))) := by decide +kernel

example : qstAnalyze (2 : ℚ) [0, 1, 2] [1, 3 / 4, 1 / 4] = .ok (some (3 / 2)) ∧
    qstAnalyze (2 : ℚ) [0, 7, 14] [1, 3 / 4, 1 / 4] = .ok (some (7 * (3 / 2))) := by decide +kernel

example : extractTau (Real.exp 1) [1, 2] ([0, 1, 2].map (3 * ·)) ([[1, 1 / 2, 0], [1, 1, 1]].map (List.map (2 * ·)))
    = (extractTau (Real.exp 1) [1, 2] [0, 1, 2] [[1, 1 / 2, 0], [1, 1, 1]]).map
      (List.map fun r => (r.1, r.2.map (3 * ·))) :=
  C159_relaxation_times 3 2 (by norm_num) (by norm_num) _ _ _ _

end PP.Props
