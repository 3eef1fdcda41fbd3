import Verif.Model.SkAgain
import Verif.Props.Sk

/-!
# C99: repeated calls to `compute()` of the structure factor
-/

set_option linter.unusedSectionVars false

namespace PP.Props
open PP

variable {d : ℕ}

theorem rangeList_double (n skip : ℕ) (h : 0 < skip) :
    rangeList 0 (n + n) skip = rangeList 0 n skip ++ ((List.range n).map (n + ·)).filter fun i => decide (i % skip = 0) := by
  rw [rangeList_eq_filter (n := n + n) h le_rfl, rangeList_eq_filter (n := n) h le_rfl, List.range_add, List.filter_append]
  congr 1
  · apply List.filter_congr
    intro i hi
    rw [List.mem_range] at hi
    have h1 : i < n + n := by omega
    simp [hi, h1]
  · apply List.filter_congr
    intro i hi
    rw [List.mem_map] at hi
    obtain ⟨k, hk, rfl⟩ := hi
    rw [List.mem_range] at hk
    have h1 : n + k < n + n := by omega
    simp [h1]

theorem originFrames_double {α : Type} (l : List α) (skip : ℕ) (h : 0 < skip) (hd : skip ∣ l.length) :
    originFrames (l ++ l) skip = originFrames l skip ++ originFrames l skip := by
  unfold originFrames
  rw [List.length_append, rangeList_double _ _ h, List.filterMap_append]
  congr 1
  · apply List.filterMap_congr
    intro i hi
    rw [mem_rangeList h] at hi
    rw [List.getElem?_append_left hi.2.1]
  · rw [rangeList_eq_filter (n := l.length) h le_rfl, List.filter_map, List.filterMap_map]
    have : (List.range l.length).filter ((fun i => decide (i % skip = 0)) ∘ fun x => l.length + x) =
        (List.range l.length).filter fun i => decide (0 ≤ i ∧ i < l.length ∧ (i - 0) % skip = 0) := by
      apply List.filter_congr
      intro i hi
      rw [List.mem_range] at hi
      simp only [Function.comp_apply, Nat.add_mod, Nat.mod_eq_zero_of_dvd hd, zero_add, Nat.mod_mod]
      simp [hi]
    first
      | rw [this]
      | (simp only [zero_le, true_and, Nat.sub_zero] at this ⊢; rw [this])
    apply List.filterMap_congr
    intro i _
    simp only [Function.comp_apply]
    rw [List.getElem?_append_right (by omega), Nat.add_sub_cancel_left]

theorem modesValue_double (weighted : Bool) (l : List (ℂ × ℂ)) : modesValue weighted (l ++ l) = modesValue weighted l := by
  unfold modesValue
  congr 1
  simp only [List.map_append, List.sum_append, List.length_append]
  by_cases hl : (l.length : ℂ) = 0
  · have : l = [] := by simpa using hl
    subst this; simp
  · push_cast
    cases weighted
    · simp only [Bool.false_eq_true, if_false, zero_div, sub_zero]
      field_simp
    · simp only [if_true, star_add]
      field_simp

/-- The frames used if there are no weights and the cell does not change. -/
theorem run_const (o : SkStore d) (hw : o.weighted = false) (ks0 : KState d ℝ) (cells : List (KState d ℝ)) :
    o.run false ks0 cells = skLegacy ⟨o.same, false, o.skip, o.nk, o.pos.map fun p => ⟨p.1, p.2, [], [], ks0⟩⟩ := by
  unfold SkStore.run skLegacy
  simp only [List.length_map, hw, List.map_map]
  have e : ∀ i : ℕ, o.frame false ks0 cells i =
      pyGet (o.pos.map fun p => (⟨p.1, p.2, [], [], ks0⟩ : SkFrame d)) i := by
    intro i
    unfold SkStore.frame skKState SkStore.weight pyGet
    rw [List.getElem?_map]
    simp only [hw, Bool.false_eq_true, false_and, if_false, bind, Except.bind]
    cases o.pos[i]? <;> rfl
  simp only [e]
  rfl

/-- **C99**, what holds: without weights and with a constant cell, a second call to `compute()` gives the same result, if
the stride divides the number of frames. -/
theorem C99_again_partial (o : SkStore d) (h0 : o.pos = []) (hw : o.weighted = false) (ks0 : KState d ℝ)
    (cells : List (KState d ℝ)) (P : List (List (Vec d ℝ) × List (Vec d ℝ))) (W : List (List ℝ × List ℝ))
    (hP : P ≠ []) (hskip : 0 < o.skip) (hdiv : o.skip ∣ P.length) (hdims : o.same = true ∨ d = 2 ∨ d = 3)
    (hsame : o.same = true → ∀ p ∈ P, p.2 = p.1) (hpos : ∀ p ∈ P, p.1 ≠ [] ∧ p.2 ≠ [])
    (hks : Allowed ks0) (hshells : ks0.kvectors.length = o.nk ∧ ∀ l ∈ ks0.kvectors, l ≠ []) :
    ∃ r, (o.setup P W).run false ks0 cells = .ok r ∧ ((o.setup P W).setup P W).run false ks0 cells = .ok r := by
  have e1 : (o.setup P W).pos = P := by simp [SkStore.setup, h0]
  have e2 : ((o.setup P W).setup P W).pos = P ++ P := by simp [SkStore.setup, h0]
  have hreg : ∀ Q : List (List (Vec d ℝ) × List (Vec d ℝ)), Q ≠ [] → (∀ q ∈ Q, q ∈ P) →
      SkRegular (⟨o.same, false, o.skip, o.nk, Q.map fun p => ⟨p.1, p.2, [], [], ks0⟩⟩ : SkObj d) := by
    intro Q hQ hQP
    refine ⟨by simpa using hQ, hskip, hdims, ?_, ?_, ?_, ?_, ?_⟩ <;> simp only [List.mem_map]
    · rintro hs f ⟨p, hp, rfl⟩
      exact ⟨hsame hs p (hQP p hp), rfl⟩
    · rintro f ⟨p, hp, rfl⟩
      exact (hpos p (hQP p hp)).1
    · rintro f ⟨p, hp, rfl⟩
      exact (hpos p (hQP p hp)).2
    · rintro f ⟨p, hp, rfl⟩
      exact hks
    · rintro f ⟨p, hp, rfl⟩
      exact hshells
  have A := run_const (o.setup P W) hw ks0 cells
  rw [e1] at A
  replace A := A.trans (skLegacy_eq _ (hreg P hP fun _ h => h))
  refine ⟨_, A, (run_const ((o.setup P W).setup P W) hw ks0 cells).trans ?_⟩
  · rw [e2]
    refine (skLegacy_eq _ (hreg (P ++ P) (by simp [hP]) (by simp))).trans ?_
    have hg : ∀ n, gridModes (⟨o.same, false, o.skip, o.nk, (P ++ P).map fun p => ⟨p.1, p.2, [], [], ks0⟩⟩ : SkObj d) n =
        gridModes ⟨o.same, false, o.skip, o.nk, P.map fun p => ⟨p.1, p.2, [], [], ks0⟩⟩ n ++
        gridModes ⟨o.same, false, o.skip, o.nk, P.map fun p => ⟨p.1, p.2, [], [], ks0⟩⟩ n := by
      intro n
      unfold gridModes
      simp only [List.map_append]
      rw [originFrames_double _ _ hskip (by simpa using hdiv), List.flatMap_append]
    have hn : ∀ c : List ℕ, c ≠ [] → (((c ++ c).sum : ℕ) : ℝ) / ((c ++ c).length : ℝ) = ((c.sum : ℕ) : ℝ) / (c.length : ℝ) := by
      intro c hc
      have : (c.length : ℝ) ≠ 0 := by simpa using hc
      rw [List.sum_append, List.length_append]
      push_cast
      field_simp
    have hN0 : skN0 (⟨o.same, false, o.skip, o.nk, (P ++ P).map fun p => ⟨p.1, p.2, [], [], ks0⟩⟩ : SkObj d) =
        skN0 ⟨o.same, false, o.skip, o.nk, P.map fun p => ⟨p.1, p.2, [], [], ks0⟩⟩ := by
      unfold skN0
      have := hn ((P.map fun p => (⟨p.1, p.2, [], [], ks0⟩ : SkFrame d)).map fun f => f.pos0.length) (by simpa using hP)
      simpa [List.map_append, List.length_append, List.length_map] using this
    have hN1 : skN1 (⟨o.same, false, o.skip, o.nk, (P ++ P).map fun p => ⟨p.1, p.2, [], [], ks0⟩⟩ : SkObj d) =
        skN1 ⟨o.same, false, o.skip, o.nk, P.map fun p => ⟨p.1, p.2, [], [], ks0⟩⟩ := by
      unfold skN1
      have := hn ((P.map fun p => (⟨p.1, p.2, [], [], ks0⟩ : SkFrame d)).map fun f => f.pos1.length) (by simpa using hP)
      simpa [List.map_append, List.length_append, List.length_map] using this
    simp only [hg, modesValue_double, hN0, hN1]
    rfl

/-- The body of the loop over the frames. -/
noncomputable def skBody (o : SkStore d) (variable_cell : Bool) (ks0 : KState d ℝ) (cells : List (KState d ℝ))
    (acc : List SkAcc) (i : ℕ) : Py (List SkAcc) := do
  let f ← o.frame variable_cell ks0 cells i
  skFrame ⟨o.same, o.weighted, o.skip, o.nk, []⟩ acc f

/-- **C99** is false with weights or with a cell that changes: if the first call succeeds, the second one raises
`IndexError`. -/
theorem C99_counterexample (o : SkStore d) (h0 : o.pos = []) (variable_cell : Bool)
    (hwv : o.weighted = true ∨ variable_cell = true) (ks0 : KState d ℝ)
    (cells : List (KState d ℝ)) (P : List (List (Vec d ℝ) × List (Vec d ℝ))) (W : List (List ℝ × List ℝ))
    (hW : o.weighted = true → W.length = P.length) (hcells : variable_cell = true → cells.length = P.length)
    (hskip : 0 < o.skip) (hle : o.skip ≤ P.length)
    (r : List ℝ × List ℝ) (hr : (o.setup P W).run variable_cell ks0 cells = .ok r) :
    ((o.setup P W).setup P W).run variable_cell ks0 cells = .error .indexError := by
  have e1 : (o.setup P W).pos = P := by simp [SkStore.setup, h0]
  have e2 : ((o.setup P W).setup P W).pos = P ++ P := by simp [SkStore.setup, h0]
  have hsame : ∀ i < P.length, ((o.setup P W).setup P W).frame variable_cell ks0 cells i =
      (o.setup P W).frame variable_cell ks0 cells i := by
    intro i hi
    unfold SkStore.frame SkStore.weight
    rw [e1, e2]
    have : pyGet (P ++ P) i = pyGet P i := by unfold pyGet; rw [List.getElem?_append_left hi]
    rw [this]
    rfl
  have herr : ∀ i, P.length ≤ i → i < P.length + P.length →
      ((o.setup P W).setup P W).frame variable_cell ks0 cells i = .error .indexError := by
    intro i hi hi2
    unfold SkStore.frame skKState
    by_cases hv : variable_cell = true
    · have : pyGet cells i = .error .indexError := by unfold pyGet; rw [List.getElem?_eq_none (by have := hcells hv; omega)]
      rw [if_pos ⟨hv, by omega⟩, this]; rfl
    · have hw : o.weighted = true := hwv.resolve_right hv
      rw [if_neg (by simp [hv]), e2]
      have h1 : pyGet (P ++ P) i = .ok ((P ++ P)[i]'(by rw [List.length_append]; exact hi2)) := by
        unfold pyGet; rw [List.getElem?_eq_getElem]
      have h2 : ((o.setup P W).setup P W).weight i = .error .indexError := by
        unfold SkStore.weight
        rw [if_pos (by exact hw)]
        show pyGet W i = _
        unfold pyGet; rw [List.getElem?_eq_none (by have := hW hw; omega)]
      rw [h1, h2]; rfl
  have hs0 : ¬ o.skip = 0 := by omega
  have p1 : pyRange 0 P.length o.skip = .ok (rangeList 0 P.length o.skip) := by unfold pyRange; rw [if_neg hs0]
  have p2 : pyRange 0 (P ++ P).length o.skip = .ok (rangeList 0 (P.length + P.length) o.skip) := by
    unfold pyRange; rw [if_neg hs0, List.length_append]
  unfold SkStore.run at hr ⊢
  rw [e1] at hr
  rw [e2]
  change (pyRange 0 P.length o.skip >>= fun is => is.foldlM (skBody (o.setup P W) variable_cell ks0 cells)
    (List.replicate o.nk ⟨0, 0, 0, 0⟩) >>= _) = _ at hr
  change (pyRange 0 (P ++ P).length o.skip >>= fun is =>
    is.foldlM (skBody ((o.setup P W).setup P W) variable_cell ks0 cells) (List.replicate o.nk ⟨0, 0, 0, 0⟩) >>= _) = _
  rw [p1] at hr
  rw [p2]
  change ((rangeList 0 P.length o.skip).foldlM (skBody (o.setup P W) variable_cell ks0 cells)
    (List.replicate o.nk ⟨0, 0, 0, 0⟩) >>= _) = _ at hr
  change ((rangeList 0 (P.length + P.length) o.skip).foldlM (skBody ((o.setup P W).setup P W) variable_cell ks0 cells)
    (List.replicate o.nk ⟨0, 0, 0, 0⟩) >>= _) = _
  obtain ⟨acc, hacc, -⟩ := bind_ok_iff.1 hr
  rw [rangeList_double _ _ hskip, List.foldlM_append]
  have hfold : (rangeList 0 P.length o.skip).foldlM (skBody ((o.setup P W).setup P W) variable_cell ks0 cells)
      (List.replicate o.nk ⟨0, 0, 0, 0⟩) = .ok acc := by
    refine Eq.trans ?_ hacc
    have : ∀ (l : List ℕ), (∀ i ∈ l, i < P.length) → ∀ a : List SkAcc,
        l.foldlM (skBody ((o.setup P W).setup P W) variable_cell ks0 cells) a =
        l.foldlM (skBody (o.setup P W) variable_cell ks0 cells) a := by
      intro l hl
      induction l with
      | nil => intro a; rfl
      | cons i l ih =>
        intro a
        have : skBody ((o.setup P W).setup P W) variable_cell ks0 cells a i =
            skBody (o.setup P W) variable_cell ks0 cells a i := by
          unfold skBody; rw [hsame i (hl i (by simp))]; rfl
        rw [List.foldlM_cons, List.foldlM_cons, this]
        congr 1
        funext a'
        exact ih (fun j hj => hl j (by simp [hj])) a'
    exact this _ (fun i hi => by rw [mem_rangeList hskip] at hi; exact hi.2.1) _
  have hne : ((List.range P.length).map (P.length + ·)).filter (fun i => decide (i % o.skip = 0)) ≠ [] := by
    -- the first multiple of the stride that is not less than the number of frames
    have hm : o.skip * ((P.length + (o.skip - 1)) / o.skip) < P.length + P.length ∧
        P.length ≤ o.skip * ((P.length + (o.skip - 1)) / o.skip) := by
      have h1 := Nat.div_add_mod (P.length + (o.skip - 1)) o.skip
      have h2 := Nat.mod_lt (P.length + (o.skip - 1)) hskip
      constructor <;> omega
    intro hc
    have : o.skip * ((P.length + (o.skip - 1)) / o.skip) ∈
        ((List.range P.length).map (P.length + ·)).filter (fun i => decide (i % o.skip = 0)) := by
      simp only [List.mem_filter, List.mem_map, List.mem_range, Nat.mul_mod_right, decide_true, and_true]
      exact ⟨_ - P.length, by omega, Nat.add_sub_cancel' hm.2⟩
    rw [hc] at this
    simp at this
  obtain ⟨i, l, hil⟩ := List.exists_cons_of_ne_nil hne
  have hi : P.length ≤ i ∧ i < P.length + P.length := by
    have : i ∈ ((List.range P.length).map (P.length + ·)).filter (fun i => decide (i % o.skip = 0)) := by
      rw [hil]; simp
    simp only [List.mem_filter, List.mem_map, List.mem_range] at this
    obtain ⟨⟨k, hk, rfl⟩, -⟩ := this
    omega
  have hb : skBody ((o.setup P W).setup P W) variable_cell ks0 cells acc i = .error .indexError := by
    unfold skBody; rw [herr i hi.1 hi.2]; rfl
  rw [hil, hfold]
  change ((List.foldlM (skBody ((o.setup P W).setup P W) variable_cell ks0 cells) acc (i :: l)) >>= _) = _
  rw [List.foldlM_cons, hb]
  rfl

/-- One wave-vector along the first axis, in a cubic cell of side `2π`. -/
noncomputable def exKs1 : KState 3 ℝ := { k0 := ![1, 1, 1], kgrid := [1], kvectors := [[![3, 2, 2]]], koffset := 2 }

theorem exKs1_allowed : Allowed exKs1 := by
  refine ⟨by norm_num [exKs1], ?_⟩
  intro l hl v hv c
  simp only [exKs1, List.mem_cons, List.not_mem_nil, or_false] at hl
  subst hl
  simp only [List.mem_cons, List.not_mem_nil, or_false] at hv
  subst hv; fin_cases c <;> simp [exKs1]

/-- An object with stride `skip` that has not been computed yet. -/
def exStore (skip : ℕ) (weighted : Bool) : SkStore 3 := ⟨true, weighted, skip, 1, [], []⟩

/-- Two particles at the same place. -/
def exA : List (Vec 3 ℝ) × List (Vec 3 ℝ) := ([![0, 0, 0], ![0, 0, 0]], [![0, 0, 0], ![0, 0, 0]])

/-- Two particles at a distance of half the wave-length. -/
noncomputable def exB : List (Vec 3 ℝ) × List (Vec 3 ℝ) := ([![0, 0, 0], ![Real.pi, 0, 0]], [![0, 0, 0], ![Real.pi, 0, 0]])

theorem exMode (w : ℕ → ℝ) (x : ℝ) : Spec.fieldMode (kvecOf exKs1 ![3, 2, 2]) w [![0, 0, 0], ![x, 0, 0]] =
    w 0 + w 1 * Complex.exp (Complex.I * x) := by
  have h : (3 - 2 : ℂ) = 1 := by norm_num
  simp [Spec.fieldMode, Spec.dot, kvecOf, exKs1, Fin.sum_univ_three, h]

theorem exRegular (skip : ℕ) (h : 0 < skip) (P : List (List (Vec 3 ℝ) × List (Vec 3 ℝ))) (hP : P ≠ [])
    (hm : ∀ p ∈ P, p = exA ∨ p = exB) :
    SkRegular (⟨true, false, skip, 1, P.map fun p => ⟨p.1, p.2, [], [], exKs1⟩⟩ : SkObj 3) := by
  refine ⟨by simpa using hP, h, Or.inl rfl, ?_, ?_, ?_, ?_, ?_⟩ <;> simp only [List.mem_map]
  · rintro - f ⟨p, hp, rfl⟩
    rcases hm p hp with rfl | rfl <;> exact ⟨rfl, rfl⟩
  · rintro f ⟨p, hp, rfl⟩
    rcases hm p hp with rfl | rfl <;> simp [exA, exB]
  · rintro f ⟨p, hp, rfl⟩
    rcases hm p hp with rfl | rfl <;> simp [exA, exB]
  · rintro f ⟨p, hp, rfl⟩
    exact exKs1_allowed
  · rintro f ⟨p, hp, rfl⟩
    simp [exKs1]

/-- The density modes of the two frames. -/
theorem exModes : skModes false (⟨exA.1, exA.2, [], [], exKs1⟩ : SkFrame 3) ![3, 2, 2] = (2, 2) ∧
    skModes false (⟨exB.1, exB.2, [], [], exKs1⟩ : SkFrame 3) ![3, 2, 2] = (0, 0) := by
  constructor
  · have h := exMode (realWeight false []) 0
    rw [realWeight_false] at h
    have e : (((1 : ℝ) : ℂ) + ((1 : ℝ) : ℂ) * Complex.exp (Complex.I * ((0 : ℝ) : ℂ))) = 2 := by norm_num
    unfold skModes exA
    rw [realWeight_false, h, e]
  · have h := exMode (realWeight false []) Real.pi
    rw [realWeight_false] at h
    have hp : Complex.exp (Complex.I * Real.pi) = -1 := by rw [mul_comm]; exact Complex.exp_pi_mul_I
    have e : (((1 : ℝ) : ℂ) + ((1 : ℝ) : ℂ) * Complex.exp (Complex.I * (Real.pi : ℂ))) = 0 := by rw [hp]; norm_num
    unfold skModes exB
    rw [realWeight_false, h, e]

theorem exRun (o : SkStore 3) (hs : o.same = true) (hw : o.weighted = false) (hk : o.nk = 1) (hskip : 0 < o.skip)
    (hP : o.pos ≠ []) (hm : ∀ p ∈ o.pos, p = exA ∨ p = exB) (cells : List (KState 3 ℝ)) :
    o.run false exKs1 cells = .ok
      ([modesValue false ((originFrames o.pos o.skip).map fun p =>
          skModes false (⟨p.1, p.2, [], [], exKs1⟩ : SkFrame 3) ![3, 2, 2]) / 2],
       [modesValue false ((originFrames o.pos o.skip).map fun p =>
          skModes false (⟨p.1, p.2, [], [], exKs1⟩ : SkFrame 3) ![3, 2, 2])]) := by
  have h1 := run_const o hw exKs1 cells
  rw [hs, hk] at h1
  refine h1.trans ((skLegacy_eq _ (exRegular o.skip hskip o.pos hP hm)).trans ?_)
  have hlen : ∀ g : List (Vec 3 ℝ) × List (Vec 3 ℝ) → List (Vec 3 ℝ), (∀ p ∈ o.pos, (g p).length = 2) →
      (((o.pos.map fun p => (g p).length).sum : ℕ) : ℝ) / o.pos.length = 2 := by
    intro g hg
    rw [List.map_congr_left hg, List.map_const', List.sum_replicate]
    have : (o.pos.length : ℝ) ≠ 0 := by simpa using hP
    simp only [smul_eq_mul]
    push_cast
    field_simp
  have hN0 : skN0 (⟨true, false, o.skip, 1, o.pos.map fun p => ⟨p.1, p.2, [], [], exKs1⟩⟩ : SkObj 3) = 2 := by
    unfold skN0
    simp only [List.map_map, List.length_map]
    exact hlen Prod.fst fun p hp => by rcases hm p hp with rfl | rfl <;> rfl
  have hN1 : skN1 (⟨true, false, o.skip, 1, o.pos.map fun p => ⟨p.1, p.2, [], [], exKs1⟩⟩ : SkObj 3) = 2 := by
    unfold skN1
    simp only [List.map_map, List.length_map]
    exact hlen Prod.snd fun p hp => by rcases hm p hp with rfl | rfl <;> rfl
  have hg : gridModes (⟨true, false, o.skip, 1, o.pos.map fun p => ⟨p.1, p.2, [], [], exKs1⟩⟩ : SkObj 3) 0 =
      (originFrames o.pos o.skip).map fun p => skModes false (⟨p.1, p.2, [], [], exKs1⟩ : SkFrame 3) ![3, 2, 2] := by
    unfold gridModes
    rw [skFrames_map hskip, List.flatMap_map]
    simp only [exKs1, List.getD_cons_zero, List.map_cons, List.map_nil]
    exact List.map_eq_flatMap.symm
  have h4 : √((2 : ℝ) * 2) = 2 := Real.sqrt_mul_self (by norm_num)
  simp only [hN0, hN1, h4, List.range_one, List.map_cons, List.map_nil, hg]

/-- **C99** is false if the stride does not divide the number of frames: the second call uses other frames. Three frames
and a stride of two. -/
theorem C99_counterexample_stride (cells : List (KState 3 ℝ)) :
    ((exStore 2 false).setup [exA, exB, exA] []).run false exKs1 cells = .ok ([2], [4]) ∧
    (((exStore 2 false).setup [exA, exB, exA] []).setup [exA, exB, exA] []).run false exKs1 cells =
      .ok ([4 / 3], [8 / 3]) := by
  constructor
  · refine (exRun _ rfl rfl rfl (by show 0 < 2; norm_num) (by simp [SkStore.setup]) (by simp [SkStore.setup, exStore]) cells).trans ?_
    have hr : originFrames ((exStore 2 false).setup [exA, exB, exA] []).pos 2 = [exA, exA] := rfl
    change Except.ok ([modesValue false ((originFrames ((exStore 2 false).setup [exA, exB, exA] []).pos 2).map _) / 2],
      [modesValue false ((originFrames ((exStore 2 false).setup [exA, exB, exA] []).pos 2).map _)]) = _
    rw [hr]
    simp only [List.map_cons, List.map_nil, exModes.1]
    norm_num [modesValue]
  · refine (exRun _ rfl rfl rfl (by show 0 < 2; norm_num) (by simp [SkStore.setup]) (by simp [SkStore.setup, exStore]) cells).trans ?_
    have hr : originFrames (((exStore 2 false).setup [exA, exB, exA] []).setup [exA, exB, exA] []).pos 2 =
      [exA, exA, exB] := rfl
    change Except.ok ([modesValue false ((originFrames (((exStore 2 false).setup [exA, exB, exA] []).setup
      [exA, exB, exA] []).pos 2).map _) / 2], [modesValue false ((originFrames (((exStore 2 false).setup
      [exA, exB, exA] []).setup [exA, exB, exA] []).pos 2).map _)]) = _
    rw [hr]
    simp only [List.map_cons, List.map_nil, exModes.1, exModes.2]
    norm_num [modesValue]

/-- Two frames and a stride of one. -/
example (cells : List (KState 3 ℝ)) : ∃ r, ((exStore 1 false).setup [exA, exB] []).run false exKs1 cells = .ok r ∧
    (((exStore 1 false).setup [exA, exB] []).setup [exA, exB] []).run false exKs1 cells = .ok r :=
  C99_again_partial (exStore 1 false) rfl rfl exKs1 cells [exA, exB] [] (by simp) (by show 0 < 1; norm_num)
    (by show 1 ∣ _; simp) (Or.inl rfl) (by simp [exA, exB]) (by simp [exA, exB]) exKs1_allowed
    (by simp [exKs1, exStore])

/-- A cell that changes: the first call succeeds, the second does not. -/
example : ∃ r, ((exStore 1 false).setup [exA] []).run true exKs1 [exKs1] = .ok r ∧
    (((exStore 1 false).setup [exA] []).setup [exA] []).run true exKs1 [exKs1] = .error .indexError := by
  have h : ((exStore 1 false).setup [exA] []).run true exKs1 [exKs1] =
      ((exStore 1 false).setup [exA] []).run false exKs1 [exKs1] := rfl
  have h1 := exRun ((exStore 1 false).setup [exA] []) rfl rfl rfl (by show 0 < 1; norm_num) (by simp [SkStore.setup])
    (by simp [SkStore.setup, exStore]) [exKs1]
  exact ⟨_, h.trans h1, C99_counterexample (exStore 1 false) rfl true (Or.inr rfl) exKs1 [exKs1] [exA] []
    (by simp [exStore]) (by simp) (by show 0 < 1; norm_num) (by show 1 ≤ 1; norm_num) _ (h.trans h1)⟩

end PP.Props
