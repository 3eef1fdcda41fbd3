import Verif.Model.Helpers
import Verif.Spec.Helpers
import Mathlib.Tactic.FieldSimp
import Mathlib.Tactic.Linarith
import Mathlib.Tactic.LinearCombination
import Mathlib.Tactic.NormNum
import Mathlib.Tactic.Positivity

/-!
# C10: `ifabsmm`
-/

namespace PP.Props
open PP

variable {K : Type} [Field K] [LinearOrder K] [IsStrictOrderedRing K]

theorem foldl_best (le : K → K → Prop) (better : K → K → Bool)
    (hb : ∀ b a, better b a = true ↔ ¬ le b a) (htr : ∀ a b c, le a b → le b c → le a c)
    (htot : ∀ a b, le a b ∨ le b a) (r : List K) (a : K) :
    let m := r.foldl (fun best b => if better b best then b else best) a
    m ∈ a :: r ∧ le a m ∧ ∀ v ∈ r, le v m := by
  induction r generalizing a with
  | nil => exact ⟨by simp, (htot a a).elim id id, by simp⟩
  | cons c r ih =>
    simp only [List.foldl_cons]
    by_cases h : better c a = true
    · rw [if_pos h]
      obtain ⟨h1, h2, h3⟩ := ih c
      have hac : le a c := (htot a c).resolve_right ((hb c a).1 h)
      refine ⟨List.mem_cons_of_mem _ h1, htr _ _ _ hac h2, ?_⟩
      intro v hv
      rcases List.mem_cons.1 hv with rfl | hv
      · exact h2
      · exact h3 v hv
    · rw [if_neg h]
      obtain ⟨h1, h2, h3⟩ := ih a
      have hca : le c a := by
        by_contra hn; exact h ((hb c a).2 hn)
      refine ⟨?_, h2, ?_⟩
      · rcases List.mem_cons.1 h1 with h1 | h1
        · rw [h1]; simp
        · exact List.mem_cons_of_mem _ (List.mem_cons_of_mem _ h1)
      intro v hv
      rcases List.mem_cons.1 hv with rfl | hv
      · exact htr _ _ _ hca h2
      · exact h3 v hv

theorem firstExtremum_spec (le : K → K → Prop) (better : K → K → Bool)
    (hb : ∀ b a, better b a = true ↔ ¬ le b a) (htr : ∀ a b c, le a b → le b c → le a c)
    (htot : ∀ a b, le a b ∨ le b a) (hanti : ∀ a b, le a b → le b a → a = b) (f : List K)
    (hf : f ≠ []) :
    ∃ (i : ℕ) (m : K), firstExtremum better f = .ok i ∧ f[i]? = some m ∧ (∀ v ∈ f, le v m) ∧
      ∀ j < i, ∀ v, f[j]? = some v → ¬ le m v := by
  obtain ⟨a, r, rfl⟩ := List.exists_cons_of_ne_nil hf
  obtain ⟨h1, h2, h3⟩ := foldl_best le better hb htr htot r a
  set m := r.foldl (fun best b => if better b best then b else best) a with hm
  have hall : ∀ v ∈ a :: r, le v m := by
    intro v hv
    rcases List.mem_cons.1 hv with rfl | hv
    · exact h2
    · exact h3 v hv
  have hlt : (a :: r).findIdx (fun v => decide (v = m)) < (a :: r).length := by
    rw [List.findIdx_lt_length]; exact ⟨m, h1, by simp⟩
  refine ⟨_, m, rfl, ?_, hall, ?_⟩
  · have := List.findIdx_getElem (w := hlt)
    rw [List.getElem?_eq_getElem hlt]
    simpa using this
  · intro j hj v hv hle
    have hjl : j < (a :: r).length := lt_trans hj hlt
    have h := List.not_of_lt_findIdx hj
    rw [List.getElem?_eq_getElem hjl] at hv
    have hv' : (a :: r)[j] = v := by simpa using hv
    have : v = m := hanti _ _ (hall v (hv' ▸ List.getElem_mem hjl)) hle
    have h' : decide ((a :: r)[j] = m) = false := by simpa using h
    rw [hv', this] at h'
    simp at h'

/-- The parabola through three points and its vertex. -/
theorem vertex_core (x1 y1 x2 y2 x3 y3 : K) (h12 : x1 < x2) (h23 : x2 < x3) (hy1 : y1 < y2)
    (hy3 : y3 ≤ y2) :
    ∃ a b c p, parabola3 x1 y1 x2 y2 x3 y3 = .ok (a, b, c) ∧ vertexParabola a b c = .ok p ∧ a < 0 ∧
      a * x1 ^ 2 + b * x1 + c = y1 ∧ a * x2 ^ 2 + b * x2 + c = y2 ∧ a * x3 ^ 2 + b * x3 + c = y3 ∧
      (x1 + x2) / 2 < p.1 ∧ p.1 ≤ (x2 + x3) / 2 ∧ y2 ≤ p.2 ∧ a * p.1 ^ 2 + b * p.1 + c = p.2 ∧
      ∀ t, a * t ^ 2 + b * t + c ≤ p.2 := by
  have e12 : x1 - x2 ≠ 0 := sub_ne_zero.2 (ne_of_lt h12)
  have e13 : x1 - x3 ≠ 0 := sub_ne_zero.2 (ne_of_lt (h12.trans h23))
  have e23 : x2 - x3 ≠ 0 := sub_ne_zero.2 (ne_of_lt h23)
  set delta := (x1 - x2) * (x1 - x3) * (x2 - x3) with hdelta
  have hd0 : delta ≠ 0 := mul_ne_zero (mul_ne_zero e12 e13) e23
  have hd : delta < 0 := by
    have h1 : 0 < (x1 - x2) * (x1 - x3) := mul_pos_of_neg_of_neg (by linarith) (by linarith)
    exact mul_neg_of_pos_of_neg h1 (by linarith)
  set a := (x3 * (y2 - y1) + x2 * (y1 - y3) + x1 * (y3 - y2)) / delta with ha
  set b := (x3 ^ 2 * (y1 - y2) + x2 ^ 2 * (y3 - y1) + x1 ^ 2 * (y2 - y3)) / delta with hb
  set c := (x2 * x3 * (x2 - x3) * y1 + x3 * x1 * (x3 - x1) * y2 + x1 * x2 * (x1 - x2) * y3)
    / delta with hc
  have hp : parabola3 x1 y1 x2 y2 x3 y3 = .ok (a, b, c) := by
    unfold parabola3 pyDiv
    simp only [← hdelta, if_neg hd0]
    rfl
  have ha0 : a < 0 := by
    apply div_neg_of_pos_of_neg _ hd
    have : x3 * (y2 - y1) + x2 * (y1 - y3) + x1 * (y3 - y2)
      = (y2 - y1) * (x3 - x2) + (y2 - y3) * (x2 - x1) := by ring
    rw [this]
    have h1 : 0 < (y2 - y1) * (x3 - x2) := mul_pos (by linarith) (by linarith)
    have h2 : 0 ≤ (y2 - y3) * (x2 - x1) := mul_nonneg (by linarith) (by linarith)
    linarith
  have hane : a ≠ 0 := ne_of_lt ha0
  have t1 : a * x1 ^ 2 + b * x1 + c = y1 := by
    rw [ha, hb, hc]; field_simp; rw [hdelta]; ring
  have t2 : a * x2 ^ 2 + b * x2 + c = y2 := by
    rw [ha, hb, hc]; field_simp; rw [hdelta]; ring
  have t3 : a * x3 ^ 2 + b * x3 + c = y3 := by
    rw [ha, hb, hc]; field_simp; rw [hdelta]; ring
  have hv : vertexParabola a b c = .ok (-b / (2 * a), -(b ^ 2 - 4 * a * c) / (4 * a)) := by
    unfold vertexParabola pyDiv
    rw [if_neg (mul_ne_zero two_ne_zero hane), if_neg (mul_ne_zero four_ne_zero hane)]
    rfl
  clear_value a b c
  clear hdelta ha hb hc hd hd0
  have hp2 : ∀ t, a * t ^ 2 + b * t + c
      = a * (t - -b / (2 * a)) ^ 2 + -(b ^ 2 - 4 * a * c) / (4 * a) := by
    intro t; field_simp; ring
  have htop : ∀ t, a * t ^ 2 + b * t + c ≤ -(b ^ 2 - 4 * a * c) / (4 * a) := by
    intro t
    rw [hp2]
    have : a * (t - -b / (2 * a)) ^ 2 ≤ 0 := mul_nonpos_of_nonpos_of_nonneg ha0.le (sq_nonneg _)
    linarith
  refine ⟨a, b, c, _, hp, hv, ha0, t1, t2, t3, ?_, ?_, ?_, ?_, htop⟩
  · have h0 : y2 - y1 = (x2 - x1) * (a * (x1 + x2) + b) := by rw [← t1, ← t2]; ring
    have h1 : 0 < a * (x1 + x2) + b := by
      by_contra hn
      push Not at hn
      have := mul_nonpos_of_nonneg_of_nonpos (sub_nonneg.2 h12.le) hn
      linarith
    rw [lt_div_iff_of_neg (by linarith)]
    linarith
  · have h0 : y3 - y2 = (x3 - x2) * (a * (x2 + x3) + b) := by rw [← t3, ← t2]; ring
    have h1 : a * (x2 + x3) + b ≤ 0 := by
      by_contra hn
      push Not at hn
      have := mul_pos (sub_pos.2 h23) hn
      linarith
    rw [div_le_iff_of_neg (by linarith)]
    linarith
  · rw [← t2]; exact htop x2
  · rw [hp2]; simp


/-- Uniqueness of the interpolating parabola. -/
theorem parabola_unique {x1 x2 x3 a b c a' b' c' : K} (h12 : x1 < x2) (h23 : x2 < x3)
    (e1 : a * x1 ^ 2 + b * x1 + c = a' * x1 ^ 2 + b' * x1 + c')
    (e2 : a * x2 ^ 2 + b * x2 + c = a' * x2 ^ 2 + b' * x2 + c')
    (e3 : a * x3 ^ 2 + b * x3 + c = a' * x3 ^ 2 + b' * x3 + c') : a = a' ∧ b = b' ∧ c = c' := by
  have k1 : (x2 - x1) * ((a - a') * (x1 + x2) + (b - b')) = 0 := by linear_combination e2 - e1
  have k2 : (x3 - x2) * ((a - a') * (x2 + x3) + (b - b')) = 0 := by linear_combination e3 - e2
  have m1 := (mul_eq_zero.1 k1).resolve_left (sub_ne_zero.2 (ne_of_gt h12))
  have m2 := (mul_eq_zero.1 k2).resolve_left (sub_ne_zero.2 (ne_of_gt h23))
  have k3 : (a - a') * (x3 - x1) = 0 := by linear_combination m2 - m1
  have ha : a = a' := sub_eq_zero.1
    ((mul_eq_zero.1 k3).resolve_right (sub_ne_zero.2 (ne_of_gt (h12.trans h23))))
  subst ha
  have hb : b = b' := by linear_combination m1
  subst hb
  exact ⟨rfl, rfl, by linear_combination e1⟩

theorem pyGet_some {α : Type} {l : List α} {i : ℕ} {a : α} (h : l[i]? = some a) :
    pyGet l i = .ok a := by unfold pyGet; rw [h]

/-- Interpolation around a first maximum. -/
theorem interpolateAt_peak (x f : List K) (hlen : x.length = f.length) (hx : x.Pairwise (· < ·))
    (i : ℕ) (fi : K) (hfi : f[i]? = some fi) (hmax : ∀ v ∈ f, v ≤ fi)
    (hfirst : ∀ j < i, ∀ v, f[j]? = some v → v < fi) :
    ∃ p, interpolateAt x f i = .ok p ∧ Spec.IsPeak x f p := by
  have hi : i < f.length := (List.getElem?_eq_some_iff.1 hfi).1
  obtain ⟨xi, hxi⟩ : ∃ xi, x[i]? = some xi := ⟨x[i], List.getElem?_eq_getElem (by omega)⟩
  by_cases hb : i = f.length - 1 ∨ i = 0
  · refine ⟨(xi, fi), ?_, i, xi, fi, hxi, hfi, hmax, hfirst, fun _ => rfl, ?_⟩
    · unfold interpolateAt
      rw [if_pos hb, pyGet_some hxi, pyGet_some hfi]; rfl
    · intro h1 h2; omega
  · push Not at hb
    have hi0 : 0 < i := by omega
    have hi1 : i + 1 < f.length := by omega
    obtain ⟨x1, hx1⟩ : ∃ v, x[i - 1]? = some v := ⟨x[i - 1], List.getElem?_eq_getElem (by omega)⟩
    obtain ⟨x3, hx3⟩ : ∃ v, x[i + 1]? = some v := ⟨x[i + 1], List.getElem?_eq_getElem (by omega)⟩
    obtain ⟨f1, hf1⟩ : ∃ v, f[i - 1]? = some v := ⟨f[i - 1], List.getElem?_eq_getElem (by omega)⟩
    obtain ⟨f3, hf3⟩ : ∃ v, f[i + 1]? = some v := ⟨f[i + 1], List.getElem?_eq_getElem (by omega)⟩
    have hlt : ∀ (j k : ℕ) (u v : K), j < k → x[j]? = some u → x[k]? = some v → u < v := by
      intro j k u v hjk hu hv
      obtain ⟨h1, rfl⟩ := List.getElem?_eq_some_iff.1 hu
      obtain ⟨h2, rfl⟩ := List.getElem?_eq_some_iff.1 hv
      exact List.pairwise_iff_getElem.1 hx j k h1 h2 hjk
    have h12 : x1 < xi := hlt _ _ _ _ (by omega : i - 1 < i) hx1 hxi
    have h23 : xi < x3 := hlt _ _ _ _ (by omega : i < i + 1) hxi hx3
    have hy1 : f1 < fi := hfirst (i - 1) (by omega) f1 hf1
    have hy3 : f3 ≤ fi := hmax f3 (List.mem_of_getElem? hf3)
    obtain ⟨a, b, c, p, hp, hv, ha, t1, t2, t3, hl, hr, hh, hpp, htop⟩ :=
      vertex_core x1 f1 xi fi x3 f3 h12 h23 hy1 hy3
    refine ⟨p, ?_, i, xi, fi, hxi, hfi, hmax, hfirst, fun h => by omega, ?_⟩
    · unfold interpolateAt
      rw [if_neg (by push Not; exact hb), pyGet_some hx1, pyGet_some hf1, pyGet_some hxi,
        pyGet_some hfi, pyGet_some hx3, pyGet_some hf3]
      simp only [bind, Except.bind, hp, hv]
    · intro _ _ xl xr hxl hxr
      rw [hx1] at hxl; rw [hx3] at hxr
      cases hxl; cases hxr
      have hthr : ∀ a b c, Spec.ThroughThree x f i a b c →
          a * x1 ^ 2 + b * x1 + c = f1 ∧ a * xi ^ 2 + b * xi + c = fi ∧ a * x3 ^ 2 + b * x3 + c = f3 := by
        intro a b c h
        exact ⟨h _ (by simp) _ _ hx1 hf1, h _ (by simp) _ _ hxi hfi, h _ (by simp) _ _ hx3 hf3⟩
      refine ⟨hl, hr, hh, ⟨a, b, c, ha, ?_⟩, ?_⟩
      · intro j hj xj fj hxj hfj
        simp only [List.mem_cons, List.not_mem_nil, or_false] at hj
        rcases hj with rfl | rfl | rfl
        · rw [hx1] at hxj; rw [hf1] at hfj; cases hxj; cases hfj; exact t1
        · rw [hxi] at hxj; rw [hfi] at hfj; cases hxj; cases hfj; exact t2
        · rw [hx3] at hxj; rw [hf3] at hfj; cases hxj; cases hfj; exact t3
      · intro a' b' c' h
        obtain ⟨s1, s2, s3⟩ := hthr a' b' c' h
        obtain ⟨rfl, rfl, rfl⟩ := parabola_unique h12 h23 (s1.trans t1.symm) (s2.trans t2.symm)
          (s3.trans t3.symm)
        exact ⟨hpp, htop⟩

theorem pyGet_map {α β : Type} (h : α → β) (l : List α) (i : ℕ) :
    pyGet (l.map h) i = (pyGet l i).map h := by
  unfold pyGet; rw [List.getElem?_map]; cases l[i]? <;> rfl

theorem pyDiv_neg (a b : K) : pyDiv (-a) b = (pyDiv a b).map (- ·) := by
  unfold pyDiv; split_ifs <;> simp [Except.map, neg_div]

theorem pyDiv_neg_neg (a b : K) : pyDiv (-a) (-b) = pyDiv a b := by
  unfold pyDiv; simp [neg_div_neg_eq]

theorem pyDiv_neg_right (a b : K) : pyDiv a (-b) = (pyDiv a b).map (- ·) := by
  unfold pyDiv; simp only [neg_eq_zero]; split_ifs <;> simp [Except.map, div_neg]

/-- Changing the sign of the data mirrors the interpolation. -/
theorem interpolateAt_neg (x f : List K) (i : ℕ) :
    interpolateAt x (f.map (- ·)) i = (interpolateAt x f i).map fun p => (p.1, -p.2) := by
  unfold interpolateAt
  rw [List.length_map]
  split_ifs with h
  · rw [pyGet_map]
    cases pyGet x i <;> cases pyGet f i <;> rfl
  · rw [pyGet_map, pyGet_map, pyGet_map]
    cases pyGet x (i - 1) <;> cases pyGet f (i - 1) <;> cases pyGet x i <;> cases pyGet f i <;>
      cases pyGet x (i + 1) <;> cases pyGet f (i + 1) <;> try rfl
    rename_i x1 f1 x2 f2 x3 f3
    have hp : parabola3 x1 (-f1) x2 (-f2) x3 (-f3)
        = (parabola3 x1 f1 x2 f2 x3 f3).map fun q => (-q.1, -q.2.1, -q.2.2) := by
      unfold parabola3
      have e1 : x3 * (-f2 - -f1) + x2 * (-f1 - -f3) + x1 * (-f3 - -f2)
        = -(x3 * (f2 - f1) + x2 * (f1 - f3) + x1 * (f3 - f2)) := by ring
      have e2 : x3 ^ 2 * (-f1 - -f2) + x2 ^ 2 * (-f3 - -f1) + x1 ^ 2 * (-f2 - -f3)
        = -(x3 ^ 2 * (f1 - f2) + x2 ^ 2 * (f3 - f1) + x1 ^ 2 * (f2 - f3)) := by ring
      have e3 : x2 * x3 * (x2 - x3) * -f1 + x3 * x1 * (x3 - x1) * -f2 + x1 * x2 * (x1 - x2) * -f3
        = -(x2 * x3 * (x2 - x3) * f1 + x3 * x1 * (x3 - x1) * f2 + x1 * x2 * (x1 - x2) * f3) := by
        ring
      simp only [e1, e2, e3, pyDiv_neg]
      generalize pyDiv (x3 * (f2 - f1) + x2 * (f1 - f3) + x1 * (f3 - f2)) _ = A
      generalize pyDiv (x3 ^ 2 * (f1 - f2) + x2 ^ 2 * (f3 - f1) + x1 ^ 2 * (f2 - f3)) _ = B
      generalize pyDiv (x2 * x3 * (x2 - x3) * f1 + x3 * x1 * (x3 - x1) * f2 + x1 * x2 * (x1 - x2) * f3) _ = C
      cases A <;> cases B <;> cases C <;> rfl
    simp only [bind, Except.bind, Except.map]
    rw [hp]
    cases parabola3 x1 f1 x2 f2 x3 f3 with
    | error e => rfl
    | ok q =>
      obtain ⟨a, b, c⟩ := q
      simp only [Except.map]
      unfold vertexParabola
      have e1 : (2 : K) * -a = -(2 * a) := by ring
      have e2 : (4 : K) * -a = -(4 * a) := by ring
      have e3 : -((-b) ^ 2 - 4 * -a * -c) = -(b ^ 2 - 4 * a * c) := by ring
      rw [e3, e1, e2, pyDiv_neg_neg, pyDiv_neg_right, pyDiv_neg]
      generalize pyDiv (-(b ^ 2 - 4 * a * c)) (4 * a) = B
      generalize pyDiv b (2 * a) = A
      cases A <;> cases B <;> rfl

/-- **C10.** For strictly increasing abscissae and non-empty data `ifabsmm` raises no exception
(in particular never divides by zero) and returns an acceptable minimum and maximum in the sense of
`Spec.IsDip` and `Spec.IsPeak`: data points at the ends; inside, the vertex of the parabola through
the three points around the first extremum, with the abscissa between the adjacent midpoints and a
height not below (above) the data. -/
theorem C10_ifabsmm (x f : List K) (hlen : x.length = f.length) (hf : f ≠ [])
    (hx : x.Pairwise (· < ·)) :
    ∃ lo hi, ifabsmm x f = .ok (lo, hi) ∧ Spec.IsDip x f lo ∧ Spec.IsPeak x f hi := by
  obtain ⟨i, m, h1, h2, h3, h4⟩ := firstExtremum_spec (K := K) (fun a b => a ≤ b)
    (fun b a => decide (a < b)) (by simp) (fun _ _ _ => le_trans) le_total
    (fun _ _ => le_antisymm) f hf
  obtain ⟨hi, hhi, hpk⟩ := interpolateAt_peak x f hlen hx i m h2 h3
    (fun j hj v hv => lt_of_not_ge (h4 j hj v hv))
  obtain ⟨i', m', h1', h2', h3', h4'⟩ := firstExtremum_spec (K := K) (fun a b => b ≤ a)
    (fun b a => decide (b < a)) (by simp) (fun _ _ _ h h' => le_trans h' h) (fun a b => le_total b a)
    (fun _ _ h h' => le_antisymm h' h) f hf
  obtain ⟨lo, hlo, hdp⟩ := interpolateAt_peak x (f.map (- ·)) (by simpa using hlen) hx i' (-m')
    (by rw [List.getElem?_map, h2']; rfl)
    (by
      intro v hv
      simp only [List.mem_map] at hv
      obtain ⟨w, hw, rfl⟩ := hv
      exact neg_le_neg (h3' w hw))
    (by
      intro j hj v hv
      rw [List.getElem?_map] at hv
      cases hw : f[j]? with
      | none => rw [hw] at hv; cases hv
      | some w =>
        rw [hw] at hv
        cases hv
        exact neg_lt_neg (lt_of_not_ge (h4' j hj w hw)))
  rw [interpolateAt_neg] at hlo
  cases hq : interpolateAt x f i' with
  | error e => rw [hq] at hlo; cases hlo
  | ok q =>
    rw [hq] at hlo
    cases hlo
    refine ⟨q, hi, ?_, ?_, hpk⟩
    · unfold ifabsmm
      simp only [bind, Except.bind, h1', h1, hq, hhi]; rfl
    · exact hdp

/-- An interior maximum and an interior minimum. -/
example : ([0, 1, 3, 4, 5] : List ℚ).length = ([0, -1, 2, 5, 1] : List ℚ).length ∧
    ([0, -1, 2, 5, 1] : List ℚ) ≠ [] ∧ ([0, 1, 3, 4, 5] : List ℚ).Pairwise (· < ·) ∧
    ifabsmm ([0, 1, 3, 4, 5] : List ℚ) [0, -1, 2, 5, 1]
      = .ok ((11 / 10, -121 / 120), (55 / 14, 281 / 56)) := by
  refine ⟨rfl, by simp, by norm_num, by decide +kernel⟩

/-- On empty data `ifabsmm` raises `ValueError`, whatever the abscissae. -/
theorem C10_ifabsmm_empty (x : List K) : ifabsmm x [] = .error .valueError := rfl

/-- One value is enough. -/
example : ifabsmm ([1] : List ℚ) [3] = .ok ((1, 3), (1, 3)) ∧ ifabsmm ([1, 2] : List ℚ) [] = .error .valueError :=
  ⟨by decide +kernel, C10_ifabsmm_empty _⟩

end PP.Props
