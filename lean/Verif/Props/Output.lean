import Verif.Model.Output
import Mathlib.Tactic.Linarith
import Mathlib.Tactic.FieldSimp
import Mathlib.Tactic.Ring
import Mathlib.Tactic.NormNum
import Mathlib.Tactic.Positivity
import Mathlib.Data.List.GetD

/-!
# C63-C65, C87: output files
-/

set_option linter.unusedSectionVars false

namespace PP.Props
open PP

section
variable {K : Type} [Field K] [LinearOrder K] [IsStrictOrderedRing K] [FloorRing K]

/-! ### Layout -/

theorem npRepeat_getElem? (x : List K) (n i j : ℕ) (hi : i < x.length) (hj : j < n) :
    (npRepeat x n)[i * n + j]? = some x[i] := by
  induction x generalizing i with
  | nil => simp at hi
  | cons a x ih =>
    unfold npRepeat at ih ⊢
    rw [List.flatMap_cons]
    cases i with
    | zero =>
      rw [List.getElem?_append_left (by simpa using hj)]
      simp [hj]
    | succ i =>
      rw [List.getElem?_append_right (by simp; nlinarith)]
      simp only [List.length_replicate]
      rw [show (i + 1) * n + j - n = i * n + j by rw [Nat.succ_mul]; omega]
      simpa using ih i (by simpa using hi)

theorem npRepeat_length (x : List K) (n : ℕ) : (npRepeat x n).length = x.length * n := by
  simp [npRepeat]

theorem pyListMul_length (l : List K) (n : ℕ) : (pyListMul l n).length = n * l.length := by
  simp [pyListMul]

theorem flatten_getElem? {A : Type} (v : List (List A)) (n : ℕ) (hv : ∀ l ∈ v, l.length = n) (i j : ℕ)
    (hi : i < v.length) (hj : j < n) : v.flatten[i * n + j]? = v[i][j]? := by
  induction v generalizing i with
  | nil => simp at hi
  | cons a v ih =>
    rw [List.flatten_cons]
    have ha := hv a (by simp)
    cases i with
    | zero => rw [List.getElem?_append_left (by omega)]; simp
    | succ i =>
      rw [List.getElem?_append_right (by rw [ha]; nlinarith), ha,
        show (i + 1) * n + j - n = i * n + j by rw [Nat.succ_mul]; omega,
        ih (fun l hl => hv l (by simp [hl])) i (by simpa using hi)]
      simp

theorem flatten_length {A : Type} (v : List (List A)) (n : ℕ) (hv : ∀ l ∈ v, l.length = n) :
    v.flatten.length = v.length * n := by
  induction v with
  | nil => simp
  | cons a v ih =>
    rw [List.flatten_cons, List.length_append, hv a (by simp), ih (fun l hl => hv l (by simp [hl])), List.length_cons]
    ring

/-- **C63**, functions of two variables: if there is one value for every pair of grid points, the rows are
`(x_i, y_j, A_ij)`, for all `i` and `j`, in row-major order. -/
theorem C63_two_variables (gx gy : List K) (v : List (List K)) (hx : gx ≠ []) (hv : v.length = gx.length)
    (hy : ∀ l ∈ v, l.length = gy.length) :
    ∃ r, dumpRows (.two gx gy) (.two v) = .ok (.three r) ∧ r.length = gx.length * gy.length ∧
      ∀ i j (hi : i < gx.length) (hj : j < gy.length),
        ∃ a, (v[i]'(hv ▸ hi))[j]? = some a ∧ r[i * gy.length + j]? = some (gx[i], gy[j], a) := by
  obtain ⟨v0, v', rfl⟩ : ∃ v0 v', v = v0 :: v' := by
    apply List.exists_cons_of_ne_nil
    rintro rfl
    simp at hv
    exact hx (List.eq_nil_of_length_eq_zero hv.symm)
  have h0 := hy v0 (by simp)
  have hf := flatten_length (v0 :: v') gy.length hy
  refine ⟨(npRepeat gx v0.length).zip ((pyListMul gy gx.length).zip (v0 :: v').flatten), ?_, ?_, ?_⟩
  · simp only [dumpRows]
    rw [if_pos]
    refine ⟨fun l hl => (hy l hl).trans h0.symm, ?_, ?_⟩
    · rw [npRepeat_length, pyListMul_length, h0]
    · rw [pyListMul_length, hf, hv]
  · rw [List.length_zip, List.length_zip, npRepeat_length, pyListMul_length, hf, hv, h0]
    simp
  · intro i j hi hj
    have hi' : i < (v0 :: v').length := hv ▸ hi
    have hl : ((v0 :: v')[i]).length = gy.length := hy _ (List.getElem_mem hi')
    refine ⟨((v0 :: v')[i])[j], List.getElem?_eq_getElem (by omega), ?_⟩
    have e1 := npRepeat_getElem? gx v0.length i j hi (by omega)
    have e2 : (pyListMul gy gx.length)[i * gy.length + j]? = some gy[j] := by
      unfold pyListMul
      rw [flatten_getElem? (List.replicate gx.length gy) gy.length (by
        intro l hl
        rw [List.eq_of_mem_replicate hl]) i j (by simpa using hi) hj]
      simp [hj]
    have e3 := flatten_getElem? (v0 :: v') gy.length hy i j hi' hj
    have e3 := e3.trans (List.getElem?_eq_getElem (by omega))
    rw [h0] at e1
    rw [List.getElem?_zip_eq_some, List.getElem?_zip_eq_some]
    rw [h0]
    exact ⟨e1, e2, e3⟩

/-- **C63**, functions of one variable: one row per grid point. -/
theorem C63_one_variable (g v : List K) (hg : g ≠ []) (hv : g.length = v.length) :
    ∃ r, dumpRows (.one g) (.one v) = .ok (.two r) ∧ r.length = g.length ∧
      ∀ i (hi : i < g.length), r[i]? = some (g[i], v[i]'(hv ▸ hi)) := by
  obtain ⟨a, g, rfl⟩ := List.exists_cons_of_ne_nil hg
  refine ⟨(a :: g).zip v, by simp only [dumpRows]; rw [if_pos hv], by simp [List.length_zip, ← hv], ?_⟩
  intro i hi
  rw [List.getElem?_zip_eq_some]
  exact ⟨List.getElem?_eq_getElem hi, List.getElem?_eq_getElem (hv ▸ hi)⟩

/-- If grid and values do not match nothing is written. -/
theorem C63_mismatch (g v : List K) (hg : g ≠ []) (hv : g.length ≠ v.length) :
    dumpRows (.one g) (.one v) = .error .valueError := by
  obtain ⟨a, g, rfl⟩ := List.exists_cons_of_ne_nil hg
  simp only [dumpRows]
  rw [if_neg hv]

example : dumpRows (.two [(1 : ℚ), 2] [10, 20, 30]) (.two [[1, 2, 3], [4, 5, 6]]) =
    .ok (.three [(1, 10, 1), (1, 20, 2), (1, 30, 3), (2, 10, 4), (2, 20, 5), (2, 30, 6)]) := rfl

/-! ### Precision -/

theorem ten_zpow_pos (e : ℤ) : (0 : K) < (10 : K) ^ e := zpow_pos (by norm_num) e

/-- The number read back differs from the one written by at most 5 parts in a million. -/
theorem g6_error (x : K) : |g6 x - x| ≤ 5 / 10 ^ 6 * |x| := by
  unfold g6
  by_cases hx : x = 0
  · simp [hx]
  · simp only [hx, if_false]
    have hpos : 0 < |x| := abs_pos.mpr hx
    have hlog : ((10 : ℕ) : K) ^ Int.log 10 |x| ≤ |x| := Int.zpow_log_le_self (by norm_num) hpos
    rw [Nat.cast_ofNat] at hlog
    set u : K := (10 : K) ^ (Int.log 10 |x| - 5) with hu
    have hu0 : 0 < u := ten_zpow_pos _
    have hux : u ≤ |x| / 10 ^ 5 := by
      rw [hu, zpow_sub₀ (by norm_num), show (10 : K) ^ (5 : ℤ) = 10 ^ 5 by norm_cast]
      gcongr
    have hr := abs_sub_round (x / u)
    have he : (round (x / u) : K) * u - x = -((x / u - round (x / u)) * u) := by
      field_simp
      ring
    rw [he, abs_neg, abs_mul, abs_of_pos hu0]
    calc |x / u - round (x / u)| * u ≤ 1 / 2 * u := by gcongr
      _ ≤ 1 / 2 * (|x| / 10 ^ 5) := by gcongr
      _ = 5 / 10 ^ 6 * |x| := by ring

/-- Numbers with at most six significant digits are read back exactly. -/
theorem g6_exact (m : ℤ) (hm : |m| < 10 ^ 6) (e : ℤ) : g6 ((m : K) * (10 : K) ^ e) = (m : K) * (10 : K) ^ e := by
  unfold g6
  by_cases hx : (m : K) * (10 : K) ^ e = 0
  · simp [hx]
  · simp only [hx, if_false]
    set x : K := (m : K) * (10 : K) ^ e with hxd
    have hpos : 0 < |x| := abs_pos.mpr hx
    have hlog : ((10 : ℕ) : K) ^ Int.log 10 |x| ≤ |x| := Int.zpow_log_le_self (by norm_num) hpos
    rw [Nat.cast_ofNat] at hlog
    have hlt : |x| < (10 : K) ^ (e + 6) := by
      rw [hxd, abs_mul, abs_of_pos (a := (10 : K) ^ e) (ten_zpow_pos e), zpow_add₀ (by norm_num), mul_comm]
      have : |(m : K)| < (10 : K) ^ (6 : ℤ) := by
        rw [← Int.cast_abs]
        have : ((|m| : ℤ) : K) < ((10 ^ 6 : ℤ) : K) := Int.cast_lt.mpr hm
        calc ((|m| : ℤ) : K) < ((10 ^ 6 : ℤ) : K) := this
          _ = (10 : K) ^ (6 : ℤ) := by norm_cast
      exact mul_lt_mul_of_pos_left this (ten_zpow_pos e)
    have hL : Int.log 10 |x| < e + 6 :=
      (zpow_lt_zpow_iff_right₀ (by norm_num : (1 : K) < 10)).mp (hlog.trans_lt hlt)
    set L := Int.log 10 |x| with hLd
    obtain ⟨k, hk⟩ : ∃ k : ℕ, e - (L - 5) = k := ⟨(e - (L - 5)).toNat, by omega⟩
    have hdiv : x / (10 : K) ^ (L - 5) = ((m * 10 ^ k : ℤ) : K) := by
      rw [hxd, mul_div_assoc, ← zpow_sub₀ (by norm_num), hk]
      push_cast
      norm_cast
    rw [hdiv, round_intCast, ← hdiv]
    exact div_mul_cancel₀ _ (ten_zpow_pos _).ne'

/-- Numbers between 1 and 1.000005 are all read back as 1. -/
theorem g6_lost (x : K) (h1 : 1 ≤ x) (h2 : x < 1 + 5 / 10 ^ 6) : g6 x = 1 := by
  have hx : x ≠ 0 := by linarith
  unfold g6
  simp only [hx, if_false]
  have hlog : Int.log 10 |x| = 0 := by
    rw [abs_of_pos (by linarith)]
    have hx0 : 0 < x := by linarith
    apply le_antisymm
    · have : Int.log 10 x < 1 := by
        rw [← Int.lt_zpow_iff_log_lt (by norm_num) hx0]
        norm_num
        linarith
      omega
    · rw [← Int.zpow_le_iff_le_log (by norm_num) hx0]
      simpa using h1
  rw [hlog]
  have hu : (10 : K) ^ ((0 : ℤ) - 5) = 1 / 10 ^ 5 := by
    rw [zero_sub, zpow_neg, one_div]
    norm_cast
  rw [hu]
  have hr : round (x / (1 / 10 ^ 5 : K)) = 10 ^ 5 := by
    rw [round_eq]
    rw [Int.floor_eq_iff]
    constructor
    · push_cast
      rw [div_div_eq_mul_div, div_one]
      linarith
    · push_cast
      rw [div_div_eq_mul_div, div_one]
      linarith
  rw [hr]
  push_cast
  norm_num

/-- **C63** is false about reading back: values that differ by less than the precision of the format are read back as
the same number. -/
theorem C63_counterexample_precision (s : OutState K) (now : ℤ) (hs : s.stdout = false) (x : K) (h1 : 1 < x)
    (h2 : x < 1 + 5 / 10 ^ 6) :
    ((writeFile now { s with grid := .one [1, 2], value := .one [x, 2] }) >>= readFile).map OutState.value =
      .ok (.one [1, 2]) := by
  have hg2 : g6 (2 : K) = 2 := by
    have := g6_exact (K := K) 2 (by norm_num) 0
    simpa using this
  have hg1 : g6 (1 : K) = 1 := by
    have := g6_exact (K := K) 1 (by norm_num) 0
    simpa using this
  simp [writeFile, dumpRows, hs, readFile, Rows.text, bind, Except.bind, pure, Except.pure, Except.map, g6_lost x h1.le h2,
    hg1, hg2]

/-- **C63** about reading back, what holds: a two-column file with at least two rows gives grid and values with a
relative error of at most 5 parts in a million, and without error for numbers of six significant digits. -/
theorem C63_read_back_partial (s : OutState K) (now : ℤ) (hs : s.stdout = false) (g v : List K) (hg : 2 ≤ g.length)
    (hv : g.length = v.length) :
    ∃ s' g' v', (writeFile now { s with grid := .one g, value := .one v } >>= readFile) = .ok s' ∧
      s'.grid = .one g' ∧ s'.value = .one v' ∧ g'.length = g.length ∧ v'.length = v.length ∧
      (∀ i (h : i < g.length) (h' : i < g'.length), |g'[i] - g[i]| ≤ 5 / 10 ^ 6 * |g[i]| ∧
        ((∃ m e : ℤ, |m| < 10 ^ 6 ∧ g[i] = m * (10 : K) ^ e) → g'[i] = g[i])) ∧
      (∀ i (h : i < v.length) (h' : i < v'.length), |v'[i] - v[i]| ≤ 5 / 10 ^ 6 * |v[i]| ∧
        ((∃ m e : ℤ, |m| < 10 ^ 6 ∧ v[i] = m * (10 : K) ^ e) → v'[i] = v[i])) := by
  match g, v, hg, hv with
  | a :: b :: g, c :: d :: v, _, hv =>
    have hz : ∀ (x y : List K), x.length = y.length →
        ((x.zip y).map fun p => (g6 p.1, g6 p.2)).map Prod.fst = x.map g6 ∧
        ((x.zip y).map fun p => (g6 p.1, g6 p.2)).map Prod.snd = y.map g6 := by
      intro x
      induction x with
      | nil => intro y h; cases y <;> simp at h ⊢
      | cons a x ih =>
        intro y h
        cases y with
        | nil => simp at h
        | cons b y => have := ih y (by simpa using h); simp [this.1, this.2] at this ⊢
    have hzz := hz (a :: b :: g) (c :: d :: v) hv
    have key : (writeFile now { s with grid := .one (a :: b :: g), value := .one (c :: d :: v) } >>= readFile) =
        .ok { s with grid := .one ((a :: b :: g).map g6), value := .one ((c :: d :: v).map g6)
                     file := some ⟨now, .two (((a :: b :: g).zip (c :: d :: v)).map fun p => (g6 p.1, g6 p.2))⟩ } := by
      rw [← hzz.1, ← hzz.2]
      have hd : dumpRows (.one (a :: b :: g)) (.one (c :: d :: v)) = .ok (.two ((a :: b :: g).zip (c :: d :: v))) := by
        simp only [dumpRows]; rw [if_pos hv]
      simp only [writeFile, hd, bind, Except.bind, hs, Bool.false_eq_true, if_false, pure, Except.pure, readFile, Rows.text]
      rfl
    have hgen : ∀ l : List K, ∀ i (h : i < l.length) (h' : i < (l.map g6).length),
        |(l.map g6)[i] - l[i]| ≤ 5 / 10 ^ 6 * |l[i]| ∧
        ((∃ m e : ℤ, |m| < 10 ^ 6 ∧ l[i] = m * (10 : K) ^ e) → (l.map g6)[i] = l[i]) := by
      intro l i h h'
      rw [List.getElem_map]
      refine ⟨g6_error _, ?_⟩
      rintro ⟨m, e, hm, he⟩
      rw [he]
      exact g6_exact m hm e
    exact ⟨_, _, _, key, rfl, rfl, by simp, by simp, hgen _, hgen _⟩

/-- The hypotheses hold for a grid of two points. -/
example : ∃ s : OutState ℚ, s.stdout = false ∧ 2 ≤ [(1 : ℚ), 2].length :=
  ⟨⟨.one [], .one [], none, false, 0⟩, rfl, by decide⟩

/-! ### C64 -/

/-- **C64**: `do(update=True)` that does not raise calls `compute` if and only if the output file is missing, is the
standard output, or is not newer than the trajectory. -/
theorem C64_recompute_iff (result : Py (Grid K × Value K)) (now : ℤ) (s s' : OutState K) (computed : Bool)
    (h : doUpdate true result now s = .ok (s', computed)) :
    computed = true ↔ s.file = none ∨ s.stdout = true ∨ ∃ f, s.file = some f ∧ f.mtime ≤ s.trajTime := by
  have hn : needUpdate s = true ↔ s.file = none ∨ s.stdout = true ∨ ∃ f, s.file = some f ∧ f.mtime ≤ s.trajTime := by
    unfold needUpdate
    cases hf : s.file with
    | none => simp
    | some f => cases hs : s.stdout <;> simp
  rw [← hn]
  unfold doUpdate at h
  cases hu : needUpdate s with
  | true =>
    simp only [hu, Bool.not_true, Bool.and_false, Bool.false_eq_true, if_false, bind, Except.bind, pure, Except.pure] at h
    cases hr : result with
    | error e => rw [hr] at h; simp at h
    | ok r =>
      rw [hr] at h
      simp only at h
      split at h
      · simp at h
      · simp only [Except.ok.injEq, Prod.mk.injEq] at h; simp [← h.2]
  | false =>
    simp only [hu, Bool.not_false, Bool.and_true, if_true, bind, Except.bind, pure, Except.pure] at h
    split at h
    · simp at h
    · simp only [Except.ok.injEq, Prod.mk.injEq] at h; simp [← h.2]

/-- **C64**, what holds: if the file is newer than the trajectory and has two columns and at least two rows, grid and
values are those stored, whatever `compute` would give. -/
theorem C64_read_partial (result : Py (Grid K × Value K)) (now : ℤ) (s : OutState K) (hs : s.stdout = false)
    (f : OutFile K) (hf : s.file = some f) (ht : s.trajTime < f.mtime) (r : List (K × K)) (hr : f.rows = .two r)
    (hl : 2 ≤ r.length) :
    ∃ s', doUpdate true result now s = .ok (s', false) ∧ s'.grid = .one (r.map Prod.fst) ∧
      s'.value = .one (r.map Prod.snd) := by
  have hn : needUpdate s = false := by simp [needUpdate, hf, hs, ht]
  match r, hl with
  | p :: q :: r, _ =>
    refine ⟨{ s with grid := .one ((p :: q :: r).map Prod.fst), value := .one ((p :: q :: r).map Prod.snd) }, ?_, rfl, rfl⟩
    simp only [doUpdate, hn, Bool.not_false, Bool.and_true, if_true, readFile, hf, hr, bind, Except.bind, pure, Except.pure]

/-- **C64**, when `update` is false, or an update is needed: grid and values are those of `compute`. -/
theorem C64_computed (update : Bool) (s : OutState K) (h : update = false ∨ needUpdate s = true) (now : ℤ)
    (g : Grid K) (v : Value K) (r : Rows K) (hr : dumpRows g v = .ok r) :
    ∃ s', doUpdate update (.ok (g, v)) now s = .ok (s', true) ∧ s'.grid = g ∧ s'.value = v ∧
      (s.stdout = false → s'.file = some ⟨now, r.text⟩) := by
  have hc : (update && !needUpdate s) = false := by rcases h with h | h <;> simp [h]
  cases hs : s.stdout with
  | true =>
    refine ⟨{ s with grid := g, value := v }, ?_, rfl, rfl, by simp⟩
    simp [doUpdate, hc, writeFile, hr, bind, Except.bind, pure, Except.pure, hs]
  | false =>
    refine ⟨{ s with grid := g, value := v, file := some ⟨now, r.text⟩ }, ?_, rfl, rfl, fun _ => rfl⟩
    simp [doUpdate, hc, writeFile, hr, bind, Except.bind, pure, Except.pure, hs]

/-- **C64** is false for functions of two variables: if the file is up to date nothing is read, so that grid and
values are those set before (by the constructor: the values are an empty list). -/
theorem C64_counterexample_two_variables (result : Py (Grid K × Value K)) (now : ℤ) (s : OutState K)
    (hs : s.stdout = false) (f : OutFile K) (hf : s.file = some f) (ht : s.trajTime < f.mtime)
    (r : List (K × K × K)) (hr : f.rows = .three r) (h0 : r ≠ []) :
    doUpdate true result now s = .ok (s, false) := by
  have hn : needUpdate s = false := by simp [needUpdate, hf, hs, ht]
  obtain ⟨p, r, rfl⟩ := List.exists_cons_of_ne_nil h0
  simp only [doUpdate, hn, Bool.not_false, Bool.and_true, if_true, readFile, hf, hr, bind, Except.bind, pure, Except.pure]

/-- **C64** is false for grids of one point: grid and values become numbers. -/
theorem C64_counterexample_one_point (result : Py (Grid K × Value K)) (now : ℤ) (s : OutState K)
    (hs : s.stdout = false) (f : OutFile K) (hf : s.file = some f) (ht : s.trajTime < f.mtime) (x y : K)
    (hr : f.rows = .two [(x, y)]) :
    doUpdate true result now s = .ok ({ s with grid := .scalar x, value := .scalar y }, false) := by
  have hn : needUpdate s = false := by simp [needUpdate, hf, hs, ht]
  simp only [doUpdate, hn, Bool.not_false, Bool.and_true, if_true, readFile, hf, hr, bind, Except.bind, pure, Except.pure]

/-- The combined effect for a function of two variables: `do()` followed, on a new object, by `do(update=True)`, gives
no values, although the file contains them. -/
theorem C64_counterexample_lost (gx gy : List K) (v : List (List K)) (r : List (K × K × K)) (hr0 : r ≠ [])
    (hr : dumpRows (.two gx gy) (.two v) = .ok (.three r)) (now now' : ℤ) (t : ℤ) (ht : t < now) (g0 : Grid K)
    (result : Py (Grid K × Value K)) :
    ∃ s', doUpdate false (.ok (.two gx gy, .two v)) now ⟨g0, .one [], none, false, t⟩ = .ok (s', true) ∧
      doUpdate true result now' { s' with grid := g0, value := .one [] } =
        .ok ({ s' with grid := g0, value := .one [] }, false) := by
  obtain ⟨s', h1, h2, h3, h4⟩ := C64_computed false ⟨g0, .one [], none, false, t⟩ (Or.inl rfl) now _ _ _ hr
  have hst : s'.stdout = false ∧ s'.trajTime = t := by
    simp only [doUpdate, Bool.false_and, Bool.false_eq_true, if_false, writeFile, hr, bind, Except.bind, pure, Except.pure,
      Except.ok.injEq, Prod.mk.injEq] at h1
    rw [← h1.1]; exact ⟨rfl, rfl⟩
  refine ⟨s', h1, ?_⟩
  exact C64_counterexample_two_variables result now' { s' with grid := g0, value := .one [] } hst.1
    ⟨now, (Rows.three r).text⟩ (h4 rfl) (by rw [← hst.2] at ht; exact ht) (r.map fun p => (g6 p.1, g6 p.2.1, g6 p.2.2)) rfl (by simpa using hr0)

/-- `Partial.do(update=True)` that does not raise computes if and only if at least one of its objects needs it. -/
theorem C64_partial_iff (results : Py (List (Grid K × Value K))) (now : ℤ) (s s' : List (OutState K)) (computed : Bool)
    (h : doUpdatePartial true results now s = .ok (s', computed)) :
    computed = true ↔ ∃ o ∈ s, o.file = none ∨ o.stdout = true ∨ ∃ f, o.file = some f ∧ f.mtime ≤ o.trajTime := by
  have hn : ∀ o : OutState K, needUpdate o = true ↔
      o.file = none ∨ o.stdout = true ∨ ∃ f, o.file = some f ∧ f.mtime ≤ o.trajTime := by
    intro o
    unfold needUpdate
    cases hf : o.file with
    | none => simp
    | some f => cases hs : o.stdout <;> simp
  have hp : needUpdatePartial s = true ↔
      ∃ o ∈ s, o.file = none ∨ o.stdout = true ∨ ∃ f, o.file = some f ∧ f.mtime ≤ o.trajTime := by
    unfold needUpdatePartial
    rw [List.any_eq_true]
    simp only [hn]
  rw [← hp]
  unfold doUpdatePartial at h
  cases hu : needUpdatePartial s with
  | true =>
    simp only [hu, Bool.not_true, Bool.and_false, Bool.false_eq_true, if_false, bind, Except.bind, pure, Except.pure] at h
    cases hr : results with
    | error e => rw [hr] at h; simp at h
    | ok r =>
      rw [hr] at h
      simp only at h
      split at h
      · simp at h
      · simp only [Except.ok.injEq, Prod.mk.injEq] at h; simp [← h.2]
  | false =>
    simp only [hu, Bool.not_false, Bool.and_true, if_true, bind, Except.bind, pure, Except.pure] at h
    split at h
    · simp at h
    · simp only [Except.ok.injEq, Prod.mk.injEq] at h; simp [← h.2]

/-- A file of two rows newer than the trajectory. -/
example : doUpdate true (.error .valueError) 9 ⟨.one [], .one [], some ⟨5, .two [((0 : ℚ), 1), (1, 2)]⟩, false, 4⟩ =
    .ok (⟨.one [0, 1], .one [1, 2], some ⟨5, .two [(0, 1), (1, 2)]⟩, false, 4⟩, false) := rfl
example : doUpdate true (.error .valueError) 9 ⟨.two [1] [2], .one [], some ⟨5, .three [((0 : ℚ), 1, 2)]⟩, false, 4⟩ =
    .ok (⟨.two [1] [2], .one [], some ⟨5, .three [(0, 1, 2)]⟩, false, 4⟩, false) := rfl

/-! ### C65 -/

/-- **C65** is false: if the program is interrupted while writing, at any point and at a time later than that of the
trajectory, `do(update=True)` does not compute. -/
theorem C65_counterexample (s s' s'' : OutState K) (hs : s.stdout = false) (now now' : ℤ) (ht : s.trajTime < now)
    (n : ℕ) (h : interrupted now s n = .ok s') (result : Py (Grid K × Value K)) (computed : Bool)
    (hd : doUpdate true result now' s' = .ok (s'', computed)) : computed = false := by
  unfold interrupted at h
  cases hr : dumpRows s.grid s.value with
  | error e => rw [hr] at h; simp [bind, Except.bind] at h
  | ok r =>
    rw [hr] at h
    simp only [bind, Except.bind, pure, Except.pure, Except.ok.injEq] at h
    have := C64_recompute_iff result now' s' s'' computed hd
    rw [← Bool.not_eq_true, this]
    rw [← h]
    simp [hs, ht]

/-- **C65** is false: the values obtained are those of the rows that were written, a part of the grid. -/
theorem C65_counterexample_truncated (s : OutState K) (hs : s.stdout = false) (now now' : ℤ) (ht : s.trajTime < now)
    (g v : List K) (hg : s.grid = .one g) (hv : s.value = .one v) (hl : g.length = v.length) (n : ℕ) (hn : 2 ≤ n)
    (hn' : n < g.length) (result : Py (Grid K × Value K)) :
    ∃ s' s'', interrupted now s n = .ok s' ∧ doUpdate true result now' s' = .ok (s'', false) ∧
      s''.grid = .one ((g.take n).map g6) ∧ s''.value = .one ((v.take n).map g6) := by
  have hne : g ≠ [] := by rintro rfl; simp at hn'
  obtain ⟨r, h1, h2, h3⟩ := C63_one_variable g v hne hl
  have hr : r = g.zip v := by
    obtain ⟨a, g, rfl⟩ := List.exists_cons_of_ne_nil hne
    simp only [dumpRows] at h1
    rw [if_pos hl] at h1
    simpa using h1.symm
  refine ⟨{ s with file := some ⟨now, .two ((r.map fun p => (g6 p.1, g6 p.2)).take n)⟩ }, ?_⟩
  have hi : interrupted now s n =
      .ok { s with file := some ⟨now, .two ((r.map fun p => (g6 p.1, g6 p.2)).take n)⟩ } := by
    simp [interrupted, hg, hv, h1, bind, Except.bind, pure, Except.pure, Rows.text]
  obtain ⟨s'', a, b, c⟩ := C64_read_partial result now'
    { s with file := some ⟨now, .two ((r.map fun p => (g6 p.1, g6 p.2)).take n)⟩ } hs _ rfl ht _ rfl
    (by simp only [List.length_take, List.length_map]; omega)
  refine ⟨s'', hi, a, ?_, ?_⟩
  · rw [b, hr]
    congr 1
    rw [← List.map_take, List.map_map]
    simp only [List.map_take, Function.comp_def]
    congr 1
    have : ∀ x y : List K, x.length = y.length → (x.zip y).map (fun p => g6 p.1) = x.map g6 := by
      intro x y h
      have h2 := List.map_fst_zip (l₁ := x) (l₂ := y) h.le
      conv_rhs => rw [← h2, List.map_map]
      rfl
    exact this g v hl
  · rw [c, hr]
    congr 1
    rw [← List.map_take, List.map_map]
    simp only [List.map_take, Function.comp_def]
    congr 1
    have : ∀ x y : List K, x.length = y.length → (x.zip y).map (fun p => g6 p.2) = y.map g6 := by
      intro x y h
      have h2 := List.map_snd_zip (l₁ := x) (l₂ := y) h.ge
      conv_rhs => rw [← h2, List.map_map]
      rfl
    exact this g v hl

/-- **C65** is false: if no row was written, `do(update=True)` raises, now and whenever it is called again, instead of
computing. -/
theorem C65_counterexample_empty (s s' : OutState K) (hs : s.stdout = false) (now now' : ℤ) (ht : s.trajTime < now)
    (h : interrupted now s 0 = .ok s') (result : Py (Grid K × Value K)) :
    doUpdate true result now' s' = .error .valueError := by
  unfold interrupted at h
  cases hr : dumpRows s.grid s.value with
  | error e => rw [hr] at h; simp [bind, Except.bind] at h
  | ok r =>
    rw [hr] at h
    simp only [bind, Except.bind, pure, Except.pure, Except.ok.injEq] at h
    rw [← h]
    cases r <;> simp [doUpdate, needUpdate, hs, ht, readFile, Rows.text, bind, Except.bind]

/-- **C65**, what holds: if the interrupted write is not later than the trajectory (which is then still being
written), `do(update=True)` computes. -/
theorem C65_older_partial (s s' s'' : OutState K) (now now' : ℤ) (ht : now ≤ s.trajTime)
    (n : ℕ) (h : interrupted now s n = .ok s') (result : Py (Grid K × Value K)) (computed : Bool)
    (hd : doUpdate true result now' s' = .ok (s'', computed)) : computed = true := by
  unfold interrupted at h
  cases hr : dumpRows s.grid s.value with
  | error e => rw [hr] at h; simp [bind, Except.bind] at h
  | ok r =>
    rw [hr] at h
    simp only [bind, Except.bind, pure, Except.pure, Except.ok.injEq] at h
    have := C64_recompute_iff result now' s' s'' computed hd
    rw [this, ← h]
    right; right
    exact ⟨_, rfl, ht⟩

/-- A function on three points, interrupted after two rows. -/
example : (interrupted 5 ⟨.one [(1 : ℚ), 2, 3], .one [4, 5, 6], none, false, 4⟩ 2).map (fun s => needUpdate s) =
    .ok false := by decide +kernel

/-! ### C87 -/

/-- **C87** for functions of one variable with at least two grid points: `do()` followed later, on another object, by
`do(update=True)` does not compute and gives grid and values with six digits. -/
theorem C87_round_trip_partial (g v : List K) (hg : 2 ≤ g.length) (hl : g.length = v.length) (now now' t : ℤ)
    (ht : t < now) (g0 : Grid K) (v0 : Value K) (result : Py (Grid K × Value K)) :
    ∃ s' s'', doUpdate false (.ok (.one g, .one v)) now ⟨g0, v0, none, false, t⟩ = .ok (s', true) ∧
      doUpdate true result now' { s' with grid := g0, value := v0 } = .ok (s'', false) ∧
      s''.grid = .one (g.map g6) ∧ s''.value = .one (v.map g6) := by
  have hne : g ≠ [] := by rintro rfl; simp at hg
  have hd : dumpRows (.one g) (.one v) = .ok (.two (g.zip v)) := by
    obtain ⟨a, g, rfl⟩ := List.exists_cons_of_ne_nil hne
    simp only [dumpRows]; rw [if_pos hl]
  obtain ⟨s', h1, h2, h3, h4⟩ := C64_computed false ⟨g0, v0, none, false, t⟩ (Or.inl rfl) now _ _ _ hd
  have hst : s'.stdout = false ∧ s'.trajTime = t := by
    simp only [doUpdate, Bool.false_and, Bool.false_eq_true, if_false, writeFile, hd, bind, Except.bind, pure, Except.pure,
      Except.ok.injEq, Prod.mk.injEq] at h1
    rw [← h1.1]; exact ⟨rfl, rfl⟩
  obtain ⟨s'', a, b, c⟩ := C64_read_partial result now' { s' with grid := g0, value := v0 } hst.1
    ⟨now, (Rows.two (g.zip v)).text⟩ (h4 rfl) (by rw [← hst.2] at ht; exact ht) _ rfl (by
      simp only [List.length_map, List.length_zip]; omega)
  refine ⟨s', s'', h1, a, ?_, ?_⟩
  · rw [b, List.map_map]
    have h2 := List.map_fst_zip (l₁ := g) (l₂ := v) hl.le
    conv_rhs => rw [← h2, List.map_map]
    rfl
  · rw [c, List.map_map]
    have h2 := List.map_snd_zip (l₁ := g) (l₂ := v) hl.ge
    conv_rhs => rw [← h2, List.map_map]
    rfl

/-- **C87** is false when the output is written within the same clock tick as the trajectory, or if the trajectory is
touched: the function is computed again although nothing has changed. -/
theorem C87_counterexample_same_time (g : Grid K) (v : Value K) (r : Rows K) (hr : dumpRows g v = .ok r) (now now' : ℤ)
    (g0 : Grid K) (v0 : Value K) :
    ∃ s' s'', doUpdate false (.ok (g, v)) now ⟨g0, v0, none, false, now⟩ = .ok (s', true) ∧
      doUpdate true (.ok (g, v)) now' { s' with grid := g0, value := v0 } = .ok (s'', true) := by
  obtain ⟨s', h1, h2, h3, h4⟩ := C64_computed false ⟨g0, v0, none, false, now⟩ (Or.inl rfl) now _ _ _ hr
  have hst : s'.stdout = false ∧ s'.trajTime = now := by
    simp only [doUpdate, Bool.false_and, Bool.false_eq_true, if_false, writeFile, hr, bind, Except.bind, pure, Except.pure,
      Except.ok.injEq, Prod.mk.injEq] at h1
    rw [← h1.1]; exact ⟨rfl, rfl⟩
  obtain ⟨s'', a, _⟩ := C64_computed true { s' with grid := g0, value := v0 } (Or.inr (by
    simp [needUpdate, h4 rfl, hst.1, hst.2])) now' _ _ _ hr
  exact ⟨s', s'', h1, a⟩

end
end PP.Props
