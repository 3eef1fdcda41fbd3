import Verif.Model.Fourier
import Verif.Model.Sk
import Mathlib.Analysis.SpecialFunctions.Complex.Circle
import Mathlib.Tactic.Ring
import Mathlib.Tactic.Linarith

/-!
# Lemmas about the table of exponentials
-/

namespace PP

/-- A loop over `range(start, start+n)` preserves an invariant. -/
theorem foldlM_range_inv {S : Type} (f : S → ℕ → Py S) (P : ℕ → S → Prop) (start n : ℕ) (s0 : S)
    (h0 : P 0 s0)
    (hs : ∀ k < n, ∀ s, P k s → ∃ s', f s (start + k) = .ok s' ∧ P (k + 1) s') :
    ∃ s, (rangeList start (start + n) 1).foldlM f s0 = .ok s ∧ P n s := by
  have key : ∀ m ≤ n, ∃ s, ((List.range m).map fun k => start + k * 1).foldlM f s0 = .ok s ∧ P m s := by
    intro m
    induction m with
    | zero => intro _; exact ⟨s0, rfl, h0⟩
    | succ m ih =>
      intro hm
      obtain ⟨s, e, hP⟩ := ih (by omega)
      obtain ⟨s', e', hP'⟩ := hs m (by omega) s hP
      refine ⟨s', ?_, hP'⟩
      rw [List.range_succ, List.map_append, List.foldlM_append, e]
      simp only [List.map_cons, List.map_nil, List.foldlM_cons, List.foldlM_nil, Nat.mul_one]
      show (f s (start + m) >>= _) = _
      rw [e']; rfl
  have := key n le_rfl
  unfold rangeList
  simpa using this

theorem pyGet_ok {α : Type} {x : List α} {i : ℕ} (h : i < x.length) : pyGet x i = .ok x[i] := by
  simp [pyGet, h]

theorem pySetItem_ok {α : Type} {x : List α} {i : ℕ} (v : α) (h : i < x.length) :
    pySetItem x i v = .ok (x.set i v) := by
  simp [pySetItem, h]

theorem star_cexp (t : ℝ) : star (Complex.exp (Complex.I * t)) = Complex.exp (Complex.I * (-t)) := by
  rw [Complex.star_def, ← Complex.exp_conj]
  simp

/-- The row of exponentials: entry `nk + m` is `exp(i m t)`. -/
theorem expoRow_spec (garbage : ℕ → ℂ) (nk : ℕ) (hnk : 1 ≤ nk) (t : ℝ) :
    ∃ x, expoRow garbage nk (Complex.exp (Complex.I * t)) = .ok x ∧ x.length = 2 * nk + 1 ∧
      ∀ m : ℤ, -nk ≤ m → m ≤ nk → x[(nk + m).toNat]? = some (Complex.exp (Complex.I * (m * t))) := by
  obtain ⟨q, rfl⟩ : ∃ q, nk = q + 1 := ⟨nk - 1, by omega⟩
  set e : ℤ → ℂ := fun m => Complex.exp (Complex.I * (m * t)) with he
  have e_mul : ∀ a b : ℤ, e a * e b = e (a + b) := by
    intro a b; simp only [he]; rw [← Complex.exp_add]; congr 1; push_cast; ring
  have e_star : ∀ a : ℤ, star (e a) = e (-a) := by
    intro a
    simp only [he]
    have := star_cexp (a * t)
    push_cast at this ⊢
    rw [this]; congr 1; ring
  have e1 : Complex.exp (Complex.I * t) = e 1 := by simp [he]
  have e0 : (1 : ℂ) = e 0 := by simp [he]
  set N := q + 1 with hN
  -- state before the loops
  set x0 := (List.range (2 * N + 1)).map garbage
  have hx0 : x0.length = 2 * N + 1 := by simp [x0]
  -- invariant of the first loop
  let P : ℕ → List ℂ → Prop := fun k x => x.length = 2 * N + 1 ∧ x[N - 1]? = some (e (-1)) ∧
    ∀ i ≤ k + 1, N + i < 2 * N + 1 → x[N + i]? = some (e i)
  have step1 : ∃ x1, P 0 x1 ∧ expoRow garbage N (Complex.exp (Complex.I * t)) =
      (rangeList 2 N 1).foldlM (expoUp N) x1 >>= fun x => (rangeList 2 (N + 1) 1).foldlM (expoBoth N) x := by
    refine ⟨((x0.set N 1).set (N + 1) (e 1)).set (N - 1) (e (-1)), ⟨?_, ?_, ?_⟩, ?_⟩
    · simp [hx0]
    · rw [List.getElem?_set_self (by simp [hx0]; omega)]
    · intro i hi hl
      rcases Nat.lt_or_ge i 1 with h | h
      · obtain rfl : i = 0 := by omega
        rw [List.getElem?_set_ne (by omega), List.getElem?_set_ne (by omega),
          List.getElem?_set_self (by simp [hx0]; omega), e0]; rfl
      · obtain rfl : i = 1 := by omega
        rw [List.getElem?_set_ne (by omega), List.getElem?_set_self (by simp [hx0]; omega)]; rfl
    · unfold expoRow
      rw [pySetItem_ok _ (by simp; omega)]
      simp only [bind, Except.bind]
      rw [pySetItem_ok _ (by simp; omega)]
      simp only [Except.bind]
      rw [pyGet_ok (by simp; omega)]
      simp only [Except.bind]
      rw [pySetItem_ok _ (by simp; omega)]
      simp only [Except.bind, List.getElem_set_self, e1, e_star]
      rfl
  obtain ⟨x1, hP1, hrow⟩ := step1
  have loopUp : ∀ k x, P k x → N + (2 + k) < 2 * N + 1 → ∃ x', expoUp N x (2 + k) = .ok x' ∧ P (k + 1) x' ∧
      ∀ j, j < N → x'[j]? = x[j]? := by
    rintro k x ⟨hl, hm, hi⟩ hk
    have h1 := hi (k + 1) le_rfl (by omega)
    have h2 := hi 1 (by omega) (by omega)
    rw [List.getElem?_eq_some_iff] at h1 h2
    obtain ⟨g1, h1⟩ := h1
    obtain ⟨g2, h2⟩ := h2
    refine ⟨x.set (N + (2 + k)) (e (2 + k)), ?_, ⟨by simp [hl], ?_, ?_⟩, ?_⟩
    · unfold expoUp
      rw [pyGet_ok (by omega)]
      simp only [bind, Except.bind]
      rw [pyGet_ok g2]
      simp only [Except.bind]
      rw [pySetItem_ok _ (by omega), h2]
      have : x[N + (2 + k) - 1] = x[N + (k + 1)] := by congr 1; omega
      rw [this, h1, e_mul]
      have h3 : ((k + 1 : ℕ) : ℤ) + ((1 : ℕ) : ℤ) = 2 + (k : ℤ) := by push_cast; ring
      rw [h3]
    · rw [List.getElem?_set_ne (by omega)]; exact hm
    · intro i hik hil
      by_cases h : i = 2 + k
      · subst h
        rw [List.getElem?_set_self (by omega)]; simp
      · rw [List.getElem?_set_ne (by omega)]
        exact hi i (by omega) hil
    · intro j hj
      rw [List.getElem?_set_ne (by omega)]
  -- first loop
  have first : ∃ x2, (rangeList 2 N 1).foldlM (expoUp N) x1 = .ok x2 ∧ P 0 x2 := by
    rcases Nat.lt_or_ge N 2 with h | h
    · refine ⟨x1, ?_, hP1⟩
      have : rangeList 2 N 1 = [] := by unfold rangeList; simp; omega
      rw [this]; rfl
    · obtain ⟨s, hs, hP⟩ := foldlM_range_inv (expoUp N) P 2 (N - 2) x1 hP1
        (fun k hk s hs => by
          obtain ⟨x', a, b, _⟩ := loopUp k s hs (by omega)
          exact ⟨x', a, b⟩)
      refine ⟨s, ?_, ⟨hP.1, hP.2.1, fun i hi hl => hP.2.2 i (by omega) hl⟩⟩
      rw [← hs]
      congr 2
      omega
  obtain ⟨x2, hx2, hP2⟩ := first
  let Q : ℕ → List ℂ → Prop := fun k x => P k x ∧ ∀ i ≤ k + 1, i ≤ N → x[N - i]? = some (e (-i))
  have loop2 : ∃ x3, (rangeList 2 (2 + q) 1).foldlM (expoBoth N) x2 = .ok x3 ∧ Q q x3 := by
    refine foldlM_range_inv (expoBoth N) Q 2 q x2 ⟨hP2, ?_⟩ ?_
    · intro i hi _
      rcases Nat.lt_or_ge i 1 with h | h
      · obtain rfl : i = 0 := by omega
        simpa using hP2.2.2 0 (by omega) (by omega)
      · obtain rfl : i = 1 := by omega
        simpa using hP2.2.1
    · rintro k hk x ⟨hP, hQ⟩
      obtain ⟨x', hx', hP', hsame⟩ := loopUp k x hP (by omega)
      obtain ⟨hl, hm, hi⟩ := hP'
      have h1 := hi (2 + k) (by omega) (by omega)
      rw [List.getElem?_eq_some_iff] at h1
      obtain ⟨g1, h1⟩ := h1
      refine ⟨x'.set (N - (2 + k)) (e (-(2 + k))), ?_, ⟨⟨by simp [hl], ?_, ?_⟩, ?_⟩⟩
      · unfold expoBoth
        rw [hx']
        simp only [bind, Except.bind]
        rw [pyGet_ok g1]
        simp only [Except.bind]
        rw [pySetItem_ok _ (by omega), h1, e_star]
        push_cast; rfl
      · rw [List.getElem?_set_ne (by omega)]; exact hm
      · intro i h1 h2
        rw [List.getElem?_set_ne (by omega)]; exact hi i h1 h2
      · intro i h1 h2
        by_cases h : i = 2 + k
        · subst h
          rw [List.getElem?_set_self (by omega)]; simp
        · rw [List.getElem?_set_ne (by omega)]
          rcases Nat.eq_zero_or_pos i with h0 | h0
          · subst h0
            simpa using hi 0 (by omega) (by omega)
          · rw [hsame _ (by omega)]
            exact hQ i (by omega) h2
  obtain ⟨x3, hx3, ⟨⟨hl3, _, hup⟩, hdn⟩⟩ := loop2
  refine ⟨x3, ?_, hl3, ?_⟩
  · rw [hrow, hx2]
    show (rangeList 2 (N + 1) 1).foldlM (expoBoth N) x2 = _
    rw [← hx3]; congr 2; omega
  · intro m h1 h2
    rcases le_or_gt 0 m with h | h
    · obtain ⟨i, rfl⟩ := Int.eq_ofNat_of_zero_le h
      have := hup i (by omega) (by omega)
      rw [show ((N : ℤ) + (i : ℤ)).toNat = N + i by omega, this]
    · obtain ⟨i, hi⟩ := Int.eq_ofNat_of_zero_le (show 0 ≤ -m by omega)
      have := hdn i (by omega) (by omega)
      rw [show ((N : ℤ) + m).toNat = N - i by omega, this]
      simp only [he]
      rw [show m = -(i : ℤ) by omega]


theorem ccis_int_mul (m : ℤ) (t : ℝ) : ccis (m * t) = Complex.exp (Complex.I * (m * t)) := by
  unfold ccis; push_cast; rfl

theorem ccis_add (x y : ℝ) : ccis (x + y) = ccis x * ccis y := by
  unfold ccis; rw [← Complex.exp_add]; congr 1; push_cast; ring

theorem ccis_zero : ccis 0 = 1 := by simp [ccis]

theorem star_ccis (x : ℝ) : star (ccis x) = ccis (-x) := by
  unfold ccis; rw [star_cexp]; push_cast; rfl

theorem norm_ccis (x : ℝ) : ‖ccis x‖ = 1 := by
  unfold ccis; rw [mul_comm]; exact Complex.norm_exp_ofReal_mul_I x

theorem ccis_sum {ι : Type*} (s : Finset ι) (f : ι → ℝ) : ccis (∑ i ∈ s, f i) = ∏ i ∈ s, ccis (f i) := by
  classical
  induction s using Finset.induction_on with
  | empty => simp [ccis_zero]
  | insert a s ha ih => rw [Finset.sum_insert ha, Finset.prod_insert ha, ccis_add, ih]

/-- The exact row. -/
noncomputable def expoList (nk : ℕ) (t : ℝ) : List ℂ :=
  (List.range (2 * nk + 1)).map fun i : ℕ => ccis (((i : ℤ) - nk : ℤ) * t)

theorem expoRow_eq (garbage : ℕ → ℂ) (nk : ℕ) (hnk : 1 ≤ nk) (t : ℝ) :
    expoRow garbage nk (ccis t) = .ok (expoList nk t) := by
  obtain ⟨x, h1, h2, h3⟩ := expoRow_spec garbage nk hnk t
  unfold ccis
  rw [h1]
  congr 1
  apply List.ext_getElem?
  intro i
  rcases Nat.lt_or_ge i (2 * nk + 1) with hi | hi
  · have := h3 ((i : ℤ) - nk) (by omega) (by omega)
    rw [show ((nk : ℤ) + ((i : ℤ) - nk)).toNat = i by omega] at this
    rw [this]
    simp only [expoList, List.getElem?_map, List.getElem?_range hi, Option.map_some, ccis_int_mul]
  · rw [List.getElem?_eq_none (by omega), List.getElem?_eq_none (by simp [expoList]; omega)]

theorem mapM_ok_map {α β : Type} {f : α → Py β} {g : α → β} {l : List α} (h : ∀ a ∈ l, f a = .ok (g a)) :
    l.mapM f = .ok (l.map g) := by
  induction l with
  | nil => rfl
  | cons a l ih =>
    rw [List.mapM_cons, h a (by simp), ih fun b hb => h b (by simp [hb])]; rfl

variable {d : ℕ}

theorem expoSphere_eq (garbage : ℕ → ℂ) (k0 : Vec d ℝ) (nk : ℕ) (hnk : 1 ≤ nk) (pos : List (Vec d ℝ))
    (hpos : pos ≠ []) : expoSphere ccis garbage k0 nk pos =
      .ok (pos.map fun r => (List.finRange d).map fun j => expoList nk (k0 j * r j)) := by
  unfold expoSphere
  rw [if_neg hpos]
  exact mapM_ok_map fun r _ => mapM_ok_map fun j _ => expoRow_eq garbage nk hnk _

theorem expoFrames_eq (garbage : ℕ → ℂ) (k0 : Vec d ℝ) (nk : ℕ) (hnk : 1 ≤ nk) (pos : List (List (Vec d ℝ)))
    (hpos : pos ≠ []) : expoFrames ccis garbage k0 nk pos =
      .ok (pos.map fun f => f.map fun r => (List.finRange d).map fun j => expoList nk (k0 j * r j)) := by
  unfold expoFrames
  rw [if_neg hpos]
  exact mapM_ok_map fun f _ => mapM_ok_map fun r _ => mapM_ok_map fun j _ => expoRow_eq garbage nk hnk _

theorem expoList_get (nk : ℕ) (t : ℝ) (m : ℤ) (h1 : -nk ≤ m) (h2 : m ≤ nk) :
    npGet (expoList nk t) (nk + m) = .ok (ccis (m * t)) := by
  unfold npGet
  rw [if_pos (by omega)]
  have hl : ((nk : ℤ) + m).toNat < (expoList nk t).length := by simp [expoList]; omega
  rw [pyGet_ok hl]
  congr 1
  simp only [expoList, List.getElem_map, List.getElem_range]
  congr 3
  omega

end PP
