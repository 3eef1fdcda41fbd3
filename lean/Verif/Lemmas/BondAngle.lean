import Verif.Model.BondAngle
import Verif.Spec.BondAngle
import Verif.Lemmas.Neighbors

/-!
# The histogram of bond angles
-/

set_option linter.unusedSectionVars false

namespace PP

variable {d : ℕ}

theorem norm_toLp (a : Fin d → ℝ) : ‖(WithLp.toLp 2 a : EuclideanSpace ℝ (Fin d))‖ = √(∑ c, a c ^ 2) := by
  rw [EuclideanSpace.norm_eq]
  congr 1
  apply Finset.sum_congr rfl
  intro c _
  rw [Real.norm_eq_abs, sq_abs]

theorem inner_toLp (a b : Fin d → ℝ) :
    inner ℝ (WithLp.toLp 2 a : EuclideanSpace ℝ (Fin d)) (WithLp.toLp 2 b) = ∑ c, a c * b c := by
  rw [PiLp.inner_apply]
  apply Finset.sum_congr rfl
  intro c _
  simp [mul_comm]

theorem sqrt_sum_eq_zero (a : Fin d → ℝ) : √(∑ c, a c ^ 2) = 0 ↔ a = 0 := by
  rw [← norm_toLp, norm_eq_zero]
  simp

/-- The clamping has no effect, and the kernel computes the angle between the two vectors. -/
theorem baAngle_eq (a b : Vec d ℝ) : baAngle a b = if a = 0 ∨ b = 0 then none else some (Spec.degrees a b) := by
  unfold baAngle
  have hz : √(∑ c, a c ^ 2) * √(∑ c, b c ^ 2) = 0 ↔ a = 0 ∨ b = 0 := by
    rw [mul_eq_zero, sqrt_sum_eq_zero, sqrt_sum_eq_zero]
  simp only [hz]
  split_ifs with h0 h1 h2 h3
  · rfl
  all_goals
    have hle : |(∑ c, a c * b c) / (√(∑ c, a c ^ 2) * √(∑ c, b c ^ 2))| ≤ 1 := by
      rw [← norm_toLp, ← norm_toLp, ← inner_toLp]
      exact abs_real_inner_div_norm_mul_norm_le_one _ _
    rw [abs_le] at hle
    unfold Spec.degrees InnerProductGeometry.angle
    rw [inner_toLp, norm_toLp, norm_toLp]
  · rw [max_eq_right hle.1, min_eq_right hle.2]
  · rw [max_eq_right hle.1]
  · rw [min_eq_right hle.2]

theorem degrees_nonneg (a b : Fin d → ℝ) : 0 ≤ Spec.degrees a b := by
  unfold Spec.degrees
  exact div_nonneg (mul_nonneg (InnerProductGeometry.angle_nonneg _ _) (by norm_num)) Real.pi_pos.le

theorem degrees_le (a b : Fin d → ℝ) : Spec.degrees a b ≤ 180 := by
  unfold Spec.degrees
  rw [div_le_iff₀ Real.pi_pos, mul_comm 180]
  exact mul_le_mul_of_nonneg_right (InnerProductGeometry.angle_le_pi _ _) (by norm_num)

theorem baIncr_all {w : ℝ} (hw : 0 < w) (m : ℕ) (f : ℕ → ℕ) (ds : List ℝ) (h : ∀ r ∈ ds, 0 ≤ r) :
    ds.foldlM (baIncr w) ((List.range m).map f) = .ok ((List.range m).map fun b : ℕ =>
      f b + ds.countP fun r => decide ((b : ℝ) * w ≤ r ∧ r < ((b : ℝ) + 1) * w)) := by
  induction ds generalizing f with
  | nil => simp [pure, Except.pure]
  | cons r ds ih =>
    have h0 := h r (by simp)
    have hstep : baIncr w ((List.range m).map f) r = .ok ((List.range m).map fun b : ℕ =>
        f b + if (b : ℝ) * w ≤ r ∧ r < ((b : ℝ) + 1) * w then 1 else 0) := by
      by_cases h1 : r < w * (m : ℝ)
      · have hfl : ⌊r / w⌋ + 1 ≤ (m : ℤ) := by
          have : r / w < m := by rw [div_lt_iff₀ hw, mul_comm]; exact h1
          have := Int.floor_lt.2 (show r / w < ((m : ℤ) : ℝ) by exact_mod_cast this)
          omega
        have := Props.fBinAll_ok hw m f [r] (by
          intro r' hr'
          rw [List.mem_singleton] at hr'
          rw [hr']
          exact ⟨h0, h1⟩)
        unfold fBinAll at this
        rw [List.foldlM_cons] at this
        unfold baIncr
        simp only [List.length_map, List.length_range, if_pos hfl]
        simp only [List.foldlM_nil, bind, Except.bind, pure, Except.pure] at this
        have e : fIncr ((List.range m).map f) (⌊r / w⌋ + 1) = .ok ((List.range m).map fun b : ℕ =>
            f b + [r].countP fun r => decide ((b : ℝ) * w ≤ r ∧ r < ((b : ℝ) + 1) * w)) := by
          rw [← this]
          cases fIncr ((List.range m).map f) (⌊r / w⌋ + 1) <;> rfl
        rw [e]
        congr 1
        apply List.map_congr_left
        intro b _
        rw [List.countP_singleton]
        simp
      · have hfl : ¬ ⌊r / w⌋ + 1 ≤ (m : ℤ) := by
          have : (m : ℝ) ≤ r / w := by rw [le_div_iff₀ hw, mul_comm]; exact not_lt.1 h1
          have := Int.le_floor.2 (show ((m : ℤ) : ℝ) ≤ r / w by exact_mod_cast this)
          omega
        unfold baIncr
        simp only [List.length_map, List.length_range, if_neg hfl]
        congr 1
        apply List.map_congr_left
        intro b hb
        rw [List.mem_range] at hb
        rw [if_neg, Nat.add_zero]
        rintro ⟨_, h3⟩
        have : ((b : ℝ) + 1) * w ≤ w * m := by
          rw [mul_comm]
          apply mul_le_mul_of_nonneg_left _ hw.le
          exact_mod_cast hb
        exact h1 (lt_of_lt_of_le h3 this)
    rw [List.foldlM_cons, hstep]
    show List.foldlM _ _ ds = _
    rw [ih _ (fun r' hr' => h r' (by simp [hr']))]
    congr 1
    apply List.map_congr_left
    intro b _
    rw [List.countP_cons]
    simp only [decide_eq_true_eq]
    omega

/-- Angles in the order of the loops. -/
noncomputable def loopAngles (D : ℕ → Vec d ℝ) (nb : List ℕ) : List ℝ :=
  nb.flatMap fun j => nb.filterMap fun k => if k = j then none else baAngle (D j) (D k)

theorem foldlM_filterMap {α β σ : Type} (g : α → Option β) (f : σ → β → Py σ) (l : List α) (s : σ) :
    l.foldlM (fun s a => match g a with | none => .ok s | some b => f s b) s = (l.filterMap g).foldlM f s := by
  induction l generalizing s with
  | nil => rfl
  | cons a l ih =>
    rw [List.foldlM_cons, List.filterMap_cons]
    cases h : g a with
    | none => simpa [bind, Except.bind] using ih s
    | some b =>
      simp only [List.foldlM_cons]
      congr 1
      funext s'
      exact ih s'

theorem foldlM_congr_mem {α σ : Type} {f g : σ → α → Py σ} {l : List α} (h : ∀ s, ∀ a ∈ l, f s a = g s a) (s : σ) :
    l.foldlM f s = l.foldlM g s := by
  induction l generalizing s with
  | nil => rfl
  | cons a l ih =>
    rw [List.foldlM_cons, List.foldlM_cons, h s a (by simp)]
    congr 1
    funext s'
    exact ih (fun s b hb => h s b (by simp [hb])) s'

theorem foldlM_flatMap_py {α β σ : Type} (g : α → List β) (f : σ → β → Py σ) (l : List α) (s : σ) :
    l.foldlM (fun s a => (g a).foldlM f s) s = (l.flatMap g).foldlM f s := by
  induction l generalizing s with
  | nil => rfl
  | cons a l ih =>
    rw [List.foldlM_cons, List.flatMap_cons, List.foldlM_append]
    congr 1
    funext s'
    exact ih s'

theorem baAngle_nonneg {a b : Vec d ℝ} {t : ℝ} (h : baAngle a b = some t) : 0 ≤ t := by
  rw [baAngle_eq] at h
  split_ifs at h
  cases h
  exact degrees_nonneg _ _

theorem bondAngle_ok (center : Vec d ℝ) (pos : List (Vec d ℝ)) (nb : List ℕ) (box : Vec d ℝ) {w : ℝ} (hw : 0 < w)
    (n : ℕ) (hnb : ∀ j ∈ nb, j < pos.length) :
    bondAngle center pos (nb.map fun j : ℕ => (j : ℤ)) box w n = .ok ((List.range n).map fun b : ℕ =>
      (loopAngles (fun j c => fpbc (box c) (center c - pos.getD j 0 c)) nb).countP fun r =>
        decide ((b : ℝ) * w ≤ r ∧ r < ((b : ℝ) + 1) * w)) := by
  have h0 : (List.replicate n 0 : List ℕ) = (List.range n).map fun _ => 0 := by simp
  have hget : ∀ j ∈ nb, fGet pos ((j : ℤ) + 1) = .ok (pos.getD j 0) := by
    intro j hj
    rw [fGet_nat (List.getElem?_eq_getElem (hnb j hj)), List.getD_eq_getElem _ _ (hnb j hj)]
  have hinner : ∀ j ∈ nb, ∀ hist : List ℕ,
      (nb.map fun j : ℕ => (j : ℤ)).foldlM (baInner center pos box w (j : ℤ)
        fun c => fpbc (box c) (center c - pos.getD j 0 c)) hist =
      (nb.filterMap fun k => if k = j then none else
        baAngle (fun c => fpbc (box c) (center c - pos.getD j 0 c))
          (fun c => fpbc (box c) (center c - pos.getD k 0 c))).foldlM (baIncr w) hist := by
    intro j hj hist
    rw [List.foldlM_map, ← foldlM_filterMap]
    apply foldlM_congr_mem
    intro s k hk
    unfold baInner
    by_cases hkj : k = j
    · simp [hkj]
    · have : ¬ ((k : ℤ) + 1 = (j : ℤ) + 1) := by omega
      rw [if_neg this, if_neg hkj, hget k hk]
      simp only [bind, Except.bind]
      cases baAngle (fun c => fpbc (box c) (center c - pos.getD j 0 c))
          (fun c => fpbc (box c) (center c - pos.getD k 0 c)) <;> rfl
  unfold bondAngle
  rw [List.foldlM_map, h0]
  have h1 : ∀ hist : List ℕ, ∀ j ∈ nb, (do
      let x ← fGet pos ((j : ℤ) + 1)
      (nb.map fun j : ℕ => (j : ℤ)).foldlM (baInner center pos box w (j : ℤ)
        fun c => fpbc (box c) (center c - x c)) hist) =
      (nb.filterMap fun k => if k = j then none else
        baAngle (fun c => fpbc (box c) (center c - pos.getD j 0 c))
          (fun c => fpbc (box c) (center c - pos.getD k 0 c))).foldlM (baIncr w) hist := by
    intro hist j hj
    rw [hget j hj]
    exact hinner j hj hist
  rw [foldlM_congr_mem h1, foldlM_flatMap_py, baIncr_all hw]
  · simp only [Nat.zero_add]
    rfl
  · intro r hr
    simp only [List.mem_flatMap, List.mem_filterMap] at hr
    obtain ⟨j, _, k, _, hk⟩ := hr
    split_ifs at hk
    exact baAngle_nonneg hk

/-- The neighbour buffer: all the neighbours in ascending order, or an access out of bounds if they are too many. -/
theorem neighborsOf_result {K : Type} [Field K] [LinearOrder K] {d : ℕ} (box center : Vec d K) (pos : List (Vec d K)) (ids : List ℕ)
    (rcut : List K) (size : ℕ) (rc : ℕ → K) (hids : ids.length = pos.length)
    (hrc : ∀ i ∈ ids, rcut[i]? = some (rc i)) :
    neighborsOf true box center pos (ids.map fun i : ℕ => (i : ℤ)) rcut size =
      if ((List.range pos.length).filter fun j =>
        decide (fDistSq box center (pos.getD j 0) < rc (ids.getD j 0) ^ 2)).length ≤ size
      then .ok (((List.range pos.length).filter fun j =>
        decide (fDistSq box center (pos.getD j 0) < rc (ids.getD j 0) ^ 2)).map fun j : ℕ => (j : ℤ))
      else .error .outOfBounds := by
  set t : ℕ → Bool := fun j => decide (fDistSq box center (pos.getD j 0) < rc (ids.getD j 0) ^ 2) with ht
  have hstep : ∀ neigh : List ℤ, ∀ j ∈ List.range pos.length, (do
      let id ← fGet (ids.map fun i : ℕ => (i : ℤ)) ((j : ℤ) + 1)
      let x ← fGet pos ((j : ℤ) + 1)
      let rc ← fGet rcut (id - fDelta true)
      if fDistSq box center x < rc ^ 2 then
        if neigh.length < size then return neigh ++ [(j : ℤ) + 1 + fDelta true] else .error .outOfBounds
      else return neigh : Py (List ℤ)) =
      if t j = true then (if neigh.length < size then .ok (neigh ++ [(j : ℤ)]) else .error .outOfBounds) else .ok neigh := by
    intro neigh j hj
    rw [List.mem_range] at hj
    have hj' : j < ids.length := by omega
    have h1 : (ids.map fun i : ℕ => (i : ℤ))[j]? = some ((ids[j] : ℕ) : ℤ) := by
      rw [List.getElem?_map, List.getElem?_eq_getElem hj']; rfl
    have h3 : ((ids[j] : ℕ) : ℤ) - fDelta true = ((ids[j] : ℕ) : ℤ) + 1 := by simp [fDelta]
    rw [fGet_nat h1, fGet_nat (List.getElem?_eq_getElem hj)]
    simp only [bind, Except.bind, pure, Except.pure]
    rw [h3, fGet_nat (hrc _ (List.getElem_mem hj'))]
    simp only [ht, decide_eq_true_eq, List.getD_eq_getElem _ _ hj, List.getD_eq_getElem _ _ hj']
    have h4 : (j : ℤ) + 1 + fDelta true = (j : ℤ) := by simp [fDelta]
    rw [h4]
  unfold neighborsOf
  rw [foldlM_congr_mem hstep]
  have key : ∀ (l : List ℕ) (done : List ℤ), done.length ≤ size →
      l.foldlM (fun neigh j => if t j = true then (if neigh.length < size then (.ok (neigh ++ [(j : ℤ)]) : Py (List ℤ))
        else .error .outOfBounds) else .ok neigh) done =
      if done.length + (l.filter t).length ≤ size then .ok (done ++ (l.filter t).map fun j : ℕ => (j : ℤ))
      else .error .outOfBounds := by
    intro l
    induction l with
    | nil =>
      intro done hd
      simp [hd, pure, Except.pure]
    | cons j l ih =>
      intro done hd
      rw [List.foldlM_cons, List.filter_cons]
      cases hj : t j with
      | false =>
        simp only [Bool.false_eq_true, if_false]
        exact ih done hd
      | true =>
        simp only [if_true]
        by_cases h1 : done.length < size
        · rw [if_pos h1]
          show l.foldlM _ _ = _
          rw [ih _ (by simp; omega)]
          simp only [List.length_append, List.length_cons, List.length_nil, List.map_cons, List.append_assoc,
            List.singleton_append]
          have : done.length + (0 + 1) + (l.filter t).length = done.length + ((l.filter t).length + 1) := by omega
          rw [this]
        · rw [if_neg h1, if_neg (by simp; omega)]
          rfl
  rw [key _ [] (by simp)]
  simp

end PP
