import Verif.Model.Helpers
import Verif.Props.Peaks
import Mathlib.Tactic.FieldSimp
import Mathlib.Tactic.Linarith
import Mathlib.Tactic.LinearCombination
import Mathlib.Tactic.NormNum
import Mathlib.Tactic.Positivity

/-!
# C12, C13: `feqc`
-/

namespace PP.Spec

/-- `v` is strictly on the other side of `fstar` with respect to `f0`. -/
def Opposite {K : Type} [LT K] (fstar f0 v : K) : Prop :=
  (f0 < fstar ∧ fstar < v) ∨ (fstar < f0 ∧ v < fstar)

end PP.Spec

namespace PP.Props
open PP

variable {K : Type} [Field K] [LinearOrder K] [IsStrictOrderedRing K]

theorem opposite_iff (fstar f0 v : K) :
    Spec.Opposite fstar f0 v ↔ (v - fstar) * (f0 - fstar) < 0 := by
  unfold Spec.Opposite
  rw [mul_neg_iff, sub_pos, sub_neg, sub_pos, sub_neg]
  constructor
  · rintro (⟨h1, h2⟩ | ⟨h1, h2⟩)
    · exact Or.inl ⟨h2, h1⟩
    · exact Or.inr ⟨h2, h1⟩
  · rintro (⟨h1, h2⟩ | ⟨h1, h2⟩)
    · exact Or.inl ⟨h2, h1⟩
    · exact Or.inr ⟨h2, h1⟩

/-- The loop skips indices at which there is no crossing. -/
theorem feqc_loop_skip (x f : List K) (fstar s : K) (l l' : List ℕ)
    (h : ∀ i ∈ l, ∃ v, f[i]? = some v ∧ ¬ (v - fstar) * s < 0) :
    feqc.loop x f fstar s (l ++ l') = feqc.loop x f fstar s l' := by
  induction l with
  | nil => rfl
  | cons i l ih =>
    obtain ⟨v, hv, hn⟩ := h i (by simp)
    rw [List.cons_append, feqc.loop, pyGet_some hv]
    simp only [bind, Except.bind]
    rw [if_neg hn]
    exact ih fun j hj => h j (by simp [hj])

/-- **C12.** For non-empty data over strictly increasing abscissae `feqc` raises nothing and:
either no value (among the first `min(len x, len f)`) is strictly on the other side of `fstar` from
`f[0]`, and the result is `(None, None)`; or `i ≥ 1` is the first such index and the returned
abscissa is in `[x[i-1], x[i])`, where the chord through the points `i-1`, `i` takes the value
`fstar`. -/
theorem C12_feqc (x f : List K) (fstar f0 : K) (hf : f[0]? = some f0) (hx : x.Pairwise (· < ·)) :
    (feqc x f fstar = .ok none ∧
      ∀ i < min x.length f.length, ∀ v, f[i]? = some v → ¬ Spec.Opposite fstar f0 v) ∨
    (∃ xstar i xp xi fp fi, feqc x f fstar = .ok (some (xstar, i)) ∧ 1 ≤ i ∧
      x[i - 1]? = some xp ∧ x[i]? = some xi ∧ f[i - 1]? = some fp ∧ f[i]? = some fi ∧
      Spec.Opposite fstar f0 fi ∧ (∀ j < i, ∀ v, f[j]? = some v → ¬ Spec.Opposite fstar f0 v) ∧
      xp ≤ xstar ∧ xstar < xi ∧ fp + (fi - fp) / (xi - xp) * (xstar - xp) = fstar) := by
  have hunf : feqc x f fstar = feqc.loop x f fstar (f0 - fstar) (List.range (min x.length f.length)) := by
    unfold feqc; rw [pyGet_some hf]; rfl
  by_cases hex : ∃ i, i < min x.length f.length ∧ ∃ v, f[i]? = some v ∧ Spec.Opposite fstar f0 v
  · right
    classical
    let i := Nat.find hex
    obtain ⟨hi, fi, hfi, hopp⟩ := Nat.find_spec hex
    have hmin : ∀ j < i, ∀ v, f[j]? = some v → ¬ Spec.Opposite fstar f0 v := by
      intro j hj v hv hop
      exact Nat.find_min hex hj ⟨lt_trans hj hi, v, hv, hop⟩
    change i < _ at hi
    change f[i]? = some fi at hfi
    have hi1 : 1 ≤ i := by
      rcases Nat.eq_zero_or_pos i with h0 | h0
      · rw [h0, hf] at hfi
        cases hfi
        rw [opposite_iff] at hopp
        exact absurd hopp (not_lt.2 (mul_self_nonneg _))
      · exact h0
    obtain ⟨fp, hfp⟩ : ∃ v, f[i - 1]? = some v := ⟨f[i - 1], List.getElem?_eq_getElem (by omega)⟩
    obtain ⟨xp, hxp⟩ : ∃ v, x[i - 1]? = some v := ⟨x[i - 1], List.getElem?_eq_getElem (by omega)⟩
    obtain ⟨xi, hxi⟩ : ∃ v, x[i]? = some v := ⟨x[i], List.getElem?_eq_getElem (by omega)⟩
    have hxx : xp < xi := by
      obtain ⟨h1, rfl⟩ := List.getElem?_eq_some_iff.1 hxp
      obtain ⟨h2, rfl⟩ := List.getElem?_eq_some_iff.1 hxi
      exact List.pairwise_iff_getElem.1 hx _ _ h1 h2 (by omega)
    have hprev : ¬ (fp - fstar) * (f0 - fstar) < 0 := by
      rw [← opposite_iff]; exact hmin (i - 1) (by omega) fp hfp
    have hcur : (fi - fstar) * (f0 - fstar) < 0 := (opposite_iff _ _ _).1 hopp
    push Not at hprev
    have hdf : fi - fp ≠ 0 := by
      intro h
      have : fi = fp := sub_eq_zero.1 h
      rw [this] at hcur; linarith
    have hdx : xi - xp ≠ 0 := (sub_pos.2 hxx).ne'
    have hslope : (fi - fp) / (xi - xp) ≠ 0 := div_ne_zero hdf hdx
    have hloop : feqc x f fstar = .ok (some (xp + (fstar - fp) / ((fi - fp) / (xi - xp)), i)) := by
      rw [hunf]
      have hsplit : List.range (min x.length f.length)
          = List.range i ++ (i :: (List.range (min x.length f.length - i - 1)).map (fun k => i + (k + 1))) := by
        have hN : min x.length f.length = i + ((min x.length f.length - i - 1) + 1) := by omega
        conv_lhs => rw [hN, List.range_add, List.range_succ_eq_map]
        simp [Function.comp_def]
      rw [hsplit, feqc_loop_skip]
      · rw [feqc.loop, pyGet_some hfi]
        simp only [bind, Except.bind]
        rw [if_pos hcur, pyGet_some hfp, pyGet_some hxi, pyGet_some hxp]
        simp only [pyDiv, if_neg hdx, if_neg hslope]
        rfl
      · intro j hj
        rw [List.mem_range] at hj
        refine ⟨f[j], List.getElem?_eq_getElem (by omega), ?_⟩
        rw [← opposite_iff]
        exact hmin j hj _ (List.getElem?_eq_getElem (by omega))
    have hq : (fstar - fp) / ((fi - fp) / (xi - xp)) = (fstar - fp) / (fi - fp) * (xi - xp) := by
      field_simp
    -- the weight along the chord lies in [0,1)
    have hw : 0 ≤ (fstar - fp) / (fi - fp) ∧ (fstar - fp) / (fi - fp) < 1 := by
      rcases mul_neg_iff.1 hcur with ⟨h1, h2⟩ | ⟨h1, h2⟩
      · have h3 : fp - fstar ≤ 0 := by
          by_contra h; push Not at h
          have := mul_neg_of_pos_of_neg h h2
          linarith
        have h4 : 0 < fi - fp := by linarith
        exact ⟨div_nonneg (by linarith) h4.le, (div_lt_one h4).2 (by linarith)⟩
      · have h3 : 0 ≤ fp - fstar := by
          by_contra h; push Not at h
          have := mul_neg_of_neg_of_pos h h2
          linarith
        have h4 : fi - fp < 0 := by linarith
        exact ⟨div_nonneg_of_nonpos (by linarith) h4.le, (div_lt_one_of_neg h4).2 (by linarith)⟩
    have hpos : 0 < xi - xp := sub_pos.2 hxx
    refine ⟨_, i, xp, xi, fp, fi, hloop, hi1, hxp, hxi, hfp, hfi, hopp, hmin, ?_, ?_, ?_⟩
    · rw [hq]; have := mul_nonneg hw.1 hpos.le; linarith
    · rw [hq]; have := mul_lt_mul_of_pos_right hw.2 hpos; linarith
    · rw [hq]; field_simp; ring
  · left
    push Not at hex
    refine ⟨?_, fun i hi v hv => hex i hi v hv⟩
    rw [hunf, ← List.append_nil (List.range _), feqc_loop_skip]
    · rfl
    · intro i hi
      rw [List.mem_range] at hi
      refine ⟨f[i], List.getElem?_eq_getElem (by omega), ?_⟩
      rw [← opposite_iff]
      exact hex i hi _ (List.getElem?_eq_getElem (by omega))

/-- On empty data `feqc` raises `IndexError`. -/
theorem C12_feqc_empty (x : List K) (fstar : K) : feqc x [] fstar = .error .indexError := rfl

example : ([1, 1 / 2, 1 / 4, 1 / 8] : List ℚ)[0]? = some 1 ∧ ([0, 1, 2, 4] : List ℚ).Pairwise (· < ·) ∧
    feqc ([0, 1, 2, 4] : List ℚ) [1, 1 / 2, 1 / 4, 1 / 8] (1 / 5) = .ok (some (14 / 5, 3)) := by
  refine ⟨rfl, by norm_num, by decide +kernel⟩

/-- **C13, partial.** A sample that equals `fstar` and is followed by the first strict crossing is
found exactly. Missing: samples equal to `fstar` that are not followed by a change of side, and the
first sample. -/
theorem C13_feqc_partial (x f : List K) (fstar f0 fj xj v : K) (j : ℕ) (hf : f[0]? = some f0)
    (hx : x.Pairwise (· < ·)) (hj : f[j]? = some fstar) (hxj : x[j]? = some xj)
    (hjx : j + 1 < x.length) (hv : f[j + 1]? = some v) (hopp : Spec.Opposite fstar f0 v)
    (hfirst : ∀ k < j + 1, ∀ w, f[k]? = some w → ¬ Spec.Opposite fstar f0 w) :
    feqc x f fstar = .ok (some (xj, j + 1)) := by
  have hvl : j + 1 < f.length := (List.getElem?_eq_some_iff.1 hv).1
  rcases C12_feqc x f fstar f0 hf hx with ⟨-, h⟩ | ⟨xs, i, xp, xi, fp, fi, hr, hi1, hxp, hxi, hfp, hfi, ho, hm, h1, h2, h3⟩
  · exact absurd hopp (h (j + 1) (by omega) v hv)
  · have hi : i = j + 1 := by
      rcases lt_trichotomy i (j + 1) with h | h | h
      · exact absurd ho (hfirst i h fi hfi)
      · exact h
      · exact absurd hopp (hm (j + 1) h v hv)
    subst hi
    simp only [Nat.add_sub_cancel] at hxp hfp
    rw [hxj] at hxp; rw [hj] at hfp
    cases hxp; cases hfp
    have hdx : xi - xj ≠ 0 := by intro h; linarith
    have hne : fi - fstar ≠ 0 := by
      rcases ho with h | h
      · exact (sub_pos.2 h.2).ne'
      · exact (sub_neg.2 h.2).ne
    have h4 : (fi - fstar) / (xi - xj) * (xs - xj) = 0 := by linarith
    have h5 := (mul_eq_zero.1 h4).resolve_left (div_ne_zero hne hdx)
    have : xs = xj := by linarith
    rw [hr, this]

example : ([2, 1, 0, -1] : List ℚ)[2]? = some 0 ∧ Spec.Opposite (0 : ℚ) 2 (-1) ∧
    feqc ([0, 1, 2, 4] : List ℚ) [2, 1, 0, -1] 0 = .ok (some (2, 3)) := by
  refine ⟨rfl, Or.inr ⟨by norm_num, by norm_num⟩, by decide +kernel⟩

/-- **C13 is false** for the code: whenever the first sample equals `fstar`, no root is reported,
whatever the rest of the data. -/
theorem C13_counterexample (x f : List K) (fstar : K) (hf : f[0]? = some fstar)
    (hx : x.Pairwise (· < ·)) : feqc x f fstar = .ok none := by
  rcases C12_feqc x f fstar fstar hf hx with ⟨h, -⟩ | ⟨_, _, _, _, _, _, -, -, -, -, -, -, ho, -⟩
  · exact h
  · rcases ho with h | h <;> exact absurd h.1 (lt_irrefl _)

/-- ... and neither is a root at which the data touches `fstar` without crossing it. -/
theorem C13_counterexample_touch : feqc ([0, 1, 2] : List ℚ) [1, 0, 1] 0 = .ok none := by
  decide +kernel

end PP.Props
