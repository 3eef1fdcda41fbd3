import Verif.Props.Overlap

/-!
# C31-C33: four-point susceptibility, repeated calls
-/

set_option linter.unusedSectionVars false

namespace PP

namespace Spec

/-- Population variance of a list of numbers. -/
def variance {K : Type*} [Field K] (l : List K) : K := mean (l.map fun a => (a - mean l) ^ 2)

/-- Origins used for the susceptibility at offset `off` and separation `i`: those at `off` plus a
multiple of `skip` for which also the frame `skip` after the end of the pair exists. -/
def chi4Origins (len skip : ℕ) (g : ℕ × ℕ) : List ℕ :=
  (List.range len).filter fun i0 => decide (g.1 ≤ i0 ∧ (i0 - g.1) % skip = 0 ∧ i0 + g.2 + skip < len)

/-- All origins at `off` plus a multiple of `skip` for which the end of the pair exists. -/
def allOrigins (len skip : ℕ) (g : ℕ × ℕ) : List ℕ :=
  (List.range len).filter fun i0 => decide (g.1 ≤ i0 ∧ (i0 - g.1) % skip = 0 ∧ i0 + g.2 < len)

/-- Number of particles displaced by less than `a` between frames `i0` and `i0 + i`, for every `i0` in
a list of origins. -/
def overlaps {K : Type} [Field K] [LinearOrder K] {n d : ℕ} (a : K) (pos : List (Frame n d K)) (i : ℕ)
    (origins : List ℕ) : List K :=
  origins.filterMap fun i0 => do
    let x ← pos[i0]?
    let y ← pos[i0 + i]?
    some ((Finset.univ.filter fun p => disp2 x y p < a ^ 2).card : K)

end Spec

section
variable {K : Type} [Field K] [LinearOrder K] [IsStrictOrderedRing K]

theorem sum_map_sub (l : List K) (m : K) :
    (l.map fun a => (a - m) ^ 2).sum = (l.map fun a => a ^ 2).sum - 2 * m * l.sum + l.length * m ^ 2 := by
  induction l with
  | nil => simp
  | cons b l ih =>
    simp only [List.map_cons, List.sum_cons, List.length_cons, ih]
    push_cast; ring

/-- `<a²> - <a>²` is the population variance. -/
theorem variance_eq (l : List K) :
    Spec.variance l = Spec.mean (l.map fun a => a ^ 2) - Spec.mean l ^ 2 := by
  unfold Spec.variance
  rcases Nat.eq_zero_or_pos l.length with h | h
  · rw [List.length_eq_zero_iff] at h; subst h; simp [Spec.mean]
  · have h' : (l.length : K) ≠ 0 := by exact_mod_cast h.ne'
    unfold Spec.mean
    rw [sum_map_sub]
    simp only [List.length_map]
    field_simp
    ring

theorem variance_nonneg (l : List K) : 0 ≤ Spec.variance l := by
  unfold Spec.variance
  apply mean_nonneg
  intro a ha
  obtain ⟨b, -, rfl⟩ := List.mem_map.1 ha
  positivity

/-- Popoviciu's inequality. -/
theorem variance_le (l : List K) {c : K} (h : ∀ a ∈ l, 0 ≤ a ∧ a ≤ c) : Spec.variance l ≤ c ^ 2 / 4 := by
  rcases Nat.eq_zero_or_pos l.length with h0 | h0
  · rw [List.length_eq_zero_iff] at h0; subst h0
    simp only [Spec.variance, Spec.mean, List.map_nil, List.sum_nil, List.length_nil, Nat.cast_zero,
      div_zero]
    positivity
  · rw [variance_eq]
    have h1 : Spec.mean (l.map fun a => a ^ 2) ≤ c * Spec.mean l := by
      unfold Spec.mean
      have e : (l.map fun a => c * a).sum = c * l.sum := by
        rw [List.sum_map_mul_left, List.map_id']
      rw [List.length_map, ← mul_div_assoc, ← e]
      refine div_le_div_of_nonneg_right ?_ (Nat.cast_nonneg _)
      apply List.sum_le_sum
      intro a ha
      obtain ⟨h1, h2⟩ := h a ha
      nlinarith
    nlinarith [sq_nonneg (c - 2 * Spec.mean l)]

theorem variance_const {l : List K} {c : K} (h : ∀ a ∈ l, a = c) : Spec.variance l = 0 := by
  rcases Nat.eq_zero_or_pos l.length with h0 | h0
  · rw [List.length_eq_zero_iff] at h0; subst h0; simp [Spec.variance, Spec.mean]
  · unfold Spec.variance
    apply mean_const (by simpa using h0)
    intro a ha
    obtain ⟨b, hb, rfl⟩ := List.mem_map.1 ha
    rw [mean_const h0 h, h b hb]; ring

variable [FloorRing K] {n d : ℕ}

theorem chi4Inner_fold (pos : List (Frame n d K)) (a : K) (i : ℕ) (r : List ℕ)
    (hr : ∀ i0 ∈ r, i0 + i < pos.length) (acc : K × K × ℕ) :
    r.foldlM (chi4Inner pos (a ^ 2) i) acc = (.ok (acc.1 + (Spec.overlaps a pos i r).sum,
      acc.2.1 + ((Spec.overlaps a pos i r).map fun w => w ^ 2).sum,
      acc.2.2 + (Spec.overlaps a pos i r).length) : Py (K × K × ℕ)) := by
  induction r generalizing acc with
  | nil => simp [Spec.overlaps, pure, Except.pure]
  | cons i0 r ih =>
    have hi := hr i0 (by simp)
    have e1 : pyGet pos i0 = .ok (pos[i0]'(by omega)) := by
      unfold pyGet; rw [List.getElem?_eq_getElem (by omega)]
    have e2 : pyGet pos (i0 + i) = .ok pos[i0 + i] := by
      unfold pyGet; rw [List.getElem?_eq_getElem hi]
    have hst : chi4Inner pos (a ^ 2) i acc i0 = (.ok
        (acc.1 + (selfOverlap (pos[i0]'(by omega)) pos[i0 + i] (a ^ 2) : K),
         acc.2.1 + (selfOverlap (pos[i0]'(by omega)) pos[i0 + i] (a ^ 2) : K) ^ 2,
         acc.2.2 + 1) : Py (K × K × ℕ)) := by
      unfold chi4Inner; rw [e1, e2]; rfl
    rw [List.foldlM_cons, hst]
    show r.foldlM _ _ = _
    rw [ih (fun j hj => hr j (by simp [hj]))]
    have ho : Spec.overlaps a pos i (i0 :: r)
        = (selfOverlap (pos[i0]'(by omega)) pos[i0 + i] (a ^ 2) : K) :: Spec.overlaps a pos i r := by
      unfold Spec.overlaps
      rw [List.filterMap_cons]
      rw [List.getElem?_eq_getElem (show i0 < pos.length by omega), List.getElem?_eq_getElem hi]
      simp [Props.selfOverlap_card]
    rw [ho]
    simp only [List.sum_cons, List.map_cons, List.length_cons]
    simp only [add_assoc, add_comm 1]

theorem chi4_range {len skip : ℕ} (hs : 0 < skip) (g : ℕ × ℕ) :
    rangeList g.1 (len - g.2 - skip) skip = Spec.chi4Origins len skip g := by
  rw [rangeList_eq_filter hs (show len - g.2 - skip ≤ len by omega)]
  unfold Spec.chi4Origins
  apply List.filter_congr
  intro i _
  rw [decide_eq_decide]
  constructor
  · rintro ⟨h1, h2, h3⟩; exact ⟨h1, h3, by omega⟩
  · rintro ⟨h1, h2, h3⟩; exact ⟨h1, by omega, h2⟩

theorem mem_chi4Origins {len skip i0 : ℕ} {g : ℕ × ℕ} (h : i0 ∈ Spec.chi4Origins len skip g) :
    i0 + g.2 + skip < len := by
  unfold Spec.chi4Origins at h
  simp only [List.mem_filter, decide_eq_true_eq] at h
  exact h.2.2.2

theorem mean_ite (l : List K) : (if l.length > 0 then l.sum / (l.length : K) else 0) = Spec.mean l := by
  unfold Spec.mean
  split_ifs with h
  · rfl
  · have : l.length = 0 := by omega
    rw [this]; simp

theorem chi4Outer_ok (tr : Traj K) {skip : ℕ} (a : K) (s : Chi4State n d K) (g : ℕ × ℕ)
    (hskip : 0 < skip) (hpos : 0 < s.pos.length) (hg : g.1 + g.2 < tr.steps.length) :
    chi4Outer tr skip (a ^ 2) s g = .ok { s with
      grid := s.grid ++ [((tr.steps[g.1 + g.2] - tr.steps[g.1] : ℤ) : K) * tr.timestep]
      value := s.value ++
        [Spec.variance (Spec.overlaps a s.pos g.2 (Spec.chi4Origins s.pos.length skip g)) / (n : K)]
      average := s.average ++
        [Spec.mean (Spec.overlaps a s.pos g.2 (Spec.chi4Origins s.pos.length skip g))]
      variance := s.variance ++ [Spec.mean
        ((Spec.overlaps a s.pos g.2 (Spec.chi4Origins s.pos.length skip g)).map fun w => w ^ 2)] } := by
  have e0 : pyRange g.1 (s.pos.length - g.2 - skip) skip
      = .ok (Spec.chi4Origins s.pos.length skip g) := by
    unfold pyRange; rw [if_neg hskip.ne', chi4_range hskip]
  have e1 := chi4Inner_fold s.pos a g.2 (Spec.chi4Origins s.pos.length skip g)
    (fun i0 h => by have := mem_chi4Origins h; omega) (0, 0, 0)
  have e2 : pyGet tr.steps (g.1 + g.2) = .ok tr.steps[g.1 + g.2] := by
    unfold pyGet; rw [List.getElem?_eq_getElem hg]
  have e3 : pyGet tr.steps g.1 = .ok tr.steps[g.1] := by
    unfold pyGet; rw [List.getElem?_eq_getElem (by omega)]
  have e4 : pyGet s.pos 0 = .ok s.pos[0] := by
    unfold pyGet; rw [List.getElem?_eq_getElem hpos]
  unfold chi4Outer
  rw [e0]
  simp only [bind, Except.bind] at e1 ⊢
  rw [e1, e2, e3, e4]
  simp only [zero_add]
  set L := Spec.overlaps a s.pos g.2 (Spec.chi4Origins s.pos.length skip g) with hL
  have m1 := mean_ite L
  have m2 := mean_ite (L.map fun w => w ^ 2)
  rw [List.length_map] at m2
  rw [m1, m2, variance_eq L]
  rfl

theorem chi4_foldlM (tr : Traj K) {skip : ℕ} (a : K) (dg : List (ℕ × ℕ)) (s : Chi4State n d K)
    (hskip : 0 < skip) (hpos : 0 < s.pos.length) (hg : ∀ g ∈ dg, g.1 + g.2 < tr.steps.length) :
    ∃ ts : List K, dg.foldlM (chi4Outer tr skip (a ^ 2)) s = .ok { s with
      grid := s.grid ++ ts
      value := s.value ++ dg.map fun g =>
        Spec.variance (Spec.overlaps a s.pos g.2 (Spec.chi4Origins s.pos.length skip g)) / (n : K)
      average := s.average ++ dg.map fun g =>
        Spec.mean (Spec.overlaps a s.pos g.2 (Spec.chi4Origins s.pos.length skip g))
      variance := s.variance ++ dg.map fun g => Spec.mean
        ((Spec.overlaps a s.pos g.2 (Spec.chi4Origins s.pos.length skip g)).map fun w => w ^ 2) } ∧
      List.Forall₂ (fun g t => ∃ ta tb, tr.steps[g.1 + g.2]? = some ta ∧ tr.steps[g.1]? = some tb ∧
        t = ((ta - tb : ℤ) : K) * tr.timestep) dg ts := by
  induction dg generalizing s with
  | nil => exact ⟨[], by simp [pure, Except.pure], .nil⟩
  | cons g dg ih =>
    have h1 := chi4Outer_ok tr a s g hskip hpos (hg g (by simp))
    obtain ⟨ts, h2, h3⟩ := ih { s with
      grid := s.grid ++ [((tr.steps[g.1 + g.2]'(hg g (by simp)) -
        tr.steps[g.1]'(by have := hg g (by simp); omega) : ℤ) : K) * tr.timestep]
      value := s.value ++
        [Spec.variance (Spec.overlaps a s.pos g.2 (Spec.chi4Origins s.pos.length skip g)) / (n : K)]
      average := s.average ++
        [Spec.mean (Spec.overlaps a s.pos g.2 (Spec.chi4Origins s.pos.length skip g))]
      variance := s.variance ++ [Spec.mean
        ((Spec.overlaps a s.pos g.2 (Spec.chi4Origins s.pos.length skip g)).map fun w => w ^ 2)] }
      hpos (fun g' h => hg g' (by simp [h]))
    refine ⟨(((tr.steps[g.1 + g.2]'(hg g (by simp)) -
        tr.steps[g.1]'(by have := hg g (by simp); omega) : ℤ) : K) * tr.timestep) :: ts, ?_, ?_⟩
    · rw [List.foldlM_cons, h1]
      show dg.foldlM _ _ = _
      rw [h2]
      simp
    · refine .cons ⟨_, _, List.getElem?_eq_getElem (hg g (by simp)), List.getElem?_eq_getElem _, rfl⟩ h3

theorem chi4ComputeFull_ok (tr : Traj K) (frames : List (Frame n d K)) {skip : ℕ} (a : K)
    (dg : List (ℕ × ℕ)) (s : Chi4State n d K) (hskip : 0 < skip) (hfr : 0 < frames.length)
    (hg : ∀ g ∈ dg, g.1 + g.2 < tr.steps.length) :
    ∃ ts : List K, chi4ComputeFull tr frames skip a dg s = .ok {
      pos := s.pos ++ frames
      grid := ts
      value := s.value ++ dg.map fun g => Spec.variance (Spec.overlaps a (s.pos ++ frames) g.2
        (Spec.chi4Origins (s.pos ++ frames).length skip g)) / (n : K)
      average := s.average ++ dg.map fun g => Spec.mean (Spec.overlaps a (s.pos ++ frames) g.2
        (Spec.chi4Origins (s.pos ++ frames).length skip g))
      variance := s.variance ++ dg.map fun g => Spec.mean ((Spec.overlaps a (s.pos ++ frames) g.2
        (Spec.chi4Origins (s.pos ++ frames).length skip g)).map fun w => w ^ 2) } ∧
      List.Forall₂ (fun g t => ∃ ta tb, tr.steps[g.1 + g.2]? = some ta ∧ tr.steps[g.1]? = some tb ∧
        t = ((ta - tb : ℤ) : K) * tr.timestep) dg ts := by
  have hl : 0 < (s.pos ++ frames).length := by rw [List.length_append]; omega
  have hp : pyGet (s.pos ++ frames) 0 = .ok (s.pos ++ frames)[0] := by
    unfold pyGet; rw [List.getElem?_eq_getElem hl]
  obtain ⟨ts, h1, h2⟩ := chi4_foldlM tr a dg (⟨s.pos ++ frames, [], s.value, s.average, s.variance⟩ :
    Chi4State n d K) hskip hl hg
  refine ⟨ts, ?_, h2⟩
  unfold chi4ComputeFull chi4Compute
  simp only [hp]
  exact h1

end

namespace Props
variable {K : Type} [Field K] [LinearOrder K] [IsStrictOrderedRing K] [FloorRing K] {n d : ℕ}

theorem overlaps_bound (a : K) (pos : List (Frame n d K)) (i : ℕ) (o : List ℕ) :
    ∀ w ∈ Spec.overlaps a pos i o, 0 ≤ w ∧ w ≤ (n : K) := by
  intro w hw
  unfold Spec.overlaps at hw
  rw [List.mem_filterMap] at hw
  obtain ⟨i0, -, h⟩ := hw
  cases h1 : pos[i0]? <;> cases h2 : pos[i0 + i]? <;> simp only [h1, h2] at h <;> try cases h
  rename_i x y
  have := Finset.card_filter_le (Finset.univ : Finset (Fin n)) fun p => Spec.disp2 x y p < a ^ 2
  rw [Finset.card_univ, Fintype.card_fin] at this
  exact ⟨Nat.cast_nonneg _, by exact_mod_cast this⟩

theorem overlaps_zero {a : K} (ha : a ≠ 0) (pos : List (Frame n d K)) (o : List ℕ) :
    ∀ w ∈ Spec.overlaps a pos 0 o, w = (n : K) := by
  intro w hw
  unfold Spec.overlaps at hw
  rw [List.mem_filterMap] at hw
  obtain ⟨i0, -, h⟩ := hw
  rw [add_zero] at h
  cases h1 : pos[i0]? <;> simp only [h1] at h <;> try cases h
  rename_i x
  have : (Finset.univ.filter fun p => Spec.disp2 x x p < a ^ 2) = Finset.univ := by
    rw [Finset.filter_eq_self]
    intro p _
    have : 0 < a ^ 2 := by positivity
    simpa [Spec.disp2] using this
  rw [this, Finset.card_univ, Fintype.card_fin]

/-- **C31.** A computation on a new object returns, for every entry of the discrete time grid, the
elapsed time and the population variance of the number of slow particles over the origins used,
divided by `N`; each value is between 0 and `N/4`, and 0 at zero separation for `a ≠ 0`. -/
theorem C31_chi4_variance (tr : Traj K) (frames : List (Frame n d K)) (skip : ℕ) (a : K)
    (grid : List K) (dg : List (ℕ × ℕ)) (hskip : 0 < skip) (hfr : 0 < frames.length)
    (hg : ∀ g ∈ dg, g.1 + g.2 < tr.steps.length) :
    ∃ s' : Chi4State n d K, chi4ComputeFull tr frames skip a dg (.init grid) = .ok s' ∧
      List.Forall₂ (fun g t => ∃ ta tb, tr.steps[g.1 + g.2]? = some ta ∧ tr.steps[g.1]? = some tb ∧
        t = ((ta - tb : ℤ) : K) * tr.timestep) dg s'.grid ∧
      List.Forall₂ (fun g v =>
        v = Spec.variance (Spec.overlaps a frames g.2 (Spec.chi4Origins frames.length skip g)) / (n : K) ∧
        0 ≤ v ∧ v ≤ (n : K) / 4 ∧ (a ≠ 0 → g.2 = 0 → v = 0)) dg s'.value ∧
      List.Forall₂ (fun g v =>
        v = Spec.mean (Spec.overlaps a frames g.2 (Spec.chi4Origins frames.length skip g)))
        dg s'.average := by
  obtain ⟨ts, h1, h2⟩ := chi4ComputeFull_ok tr frames a dg (.init grid) hskip hfr hg
  refine ⟨_, h1, h2, ?_, ?_⟩
  · simp only [Chi4State.init, List.nil_append]
    rw [List.forall₂_map_right_iff, List.forall₂_same]
    intro g _
    refine ⟨rfl, div_nonneg (variance_nonneg _) (Nat.cast_nonneg _), ?_, ?_⟩
    · have := variance_le _ (overlaps_bound a frames g.2 (Spec.chi4Origins frames.length skip g))
      rcases Nat.eq_zero_or_pos n with h | h
      · subst h; simp
      · have hn : (0 : K) < n := by exact_mod_cast h
        rw [div_le_iff₀ hn]
        calc _ ≤ _ := this
          _ = _ := by ring
    · intro ha h0
      rw [h0, variance_const (overlaps_zero ha frames _), zero_div]
  · simp only [Chi4State.init, List.nil_append]
    rw [List.forall₂_map_right_iff, List.forall₂_same]
    intro g _; rfl

/-- Two particles, one of them jumps between the second and third frame. -/
example :
    (chi4ComputeFull (K := ℚ) (n := 2) (d := 1) ⟨[0, 1, 2, 3], 1, 1, 3, [2, 2, 2, 2]⟩
      [![![0], ![0]], ![![0], ![0]], ![![0], ![5]], ![![0], ![5]]] 1 (3 / 10) [(0, 0), (0, 1)]
      (.init [])).map (fun s => (s.grid, s.value, s.average)) =
    .ok ([0, 1], [0, 1 / 8], [2, 3 / 2]) := by
  decide +kernel

/-! ## C32 -/

theorem allOrigins_range {len skip : ℕ} (hs : 0 < skip) (g : ℕ × ℕ) :
    rangeList g.1 (len - g.2) skip = Spec.allOrigins len skip g := by
  rw [rangeList_eq_filter hs (show len - g.2 ≤ len by omega)]
  unfold Spec.allOrigins
  apply List.filter_congr
  intro i _
  rw [decide_eq_decide]
  constructor
  · rintro ⟨h1, h2, h3⟩; exact ⟨h1, h3, by omega⟩
  · rintro ⟨h1, h2, h3⟩; exact ⟨h1, by omega, h2⟩

/-- **C32**, the claim is false for every trajectory: whenever there is at least one origin, the
susceptibility leaves out the last one, which the self overlap function does use. -/
theorem C32_counterexample_last_origin (len skip : ℕ) (g : ℕ × ℕ) (hskip : 0 < skip)
    (hg : g.1 + g.2 < len) :
    ∃ last, Spec.allOrigins len skip g = Spec.chi4Origins len skip g ++ [last] ∧
      (last, g.2) ∈ Spec.sampled len skip [g] := by
  have h1 := allOrigins_range (len := len) hskip g
  have h2 := chi4_range (len := len) hskip g
  obtain ⟨m, hm⟩ : ∃ m, (len - g.2 - skip - g.1 + (skip - 1)) / skip = m := ⟨_, rfl⟩
  have hm1 : (len - g.2 - g.1 + (skip - 1)) / skip = m + 1 := by
    by_cases h : skip ≤ len - g.2 - g.1
    · have e : len - g.2 - g.1 + (skip - 1) = (len - g.2 - skip - g.1 + (skip - 1)) + skip := by omega
      rw [e, Nat.add_div_right _ hskip, hm]
    · have e : len - g.2 - skip - g.1 + (skip - 1) = skip - 1 := by omega
      rw [e, Nat.div_eq_of_lt (by omega)] at hm
      subst hm
      rw [Nat.div_eq_iff hskip]
      omega
  unfold rangeList at h1 h2
  rw [hm1, List.range_succ, List.map_append] at h1
  rw [hm] at h2
  refine ⟨g.1 + m * skip, ?_, ?_⟩
  · rw [← h1, ← h2]; rfl
  · have : g.1 + m * skip ∈ Spec.allOrigins len skip g := by rw [← h1]; simp
    unfold Spec.sampled
    simp only [List.flatMap_cons, List.flatMap_nil, List.append_nil]
    exact List.mem_map.2 ⟨_, this, rfl⟩

/-- **C32**, effect on the result: a trajectory for which the reported susceptibility is 0 while the
variance over all the origins is not. -/
theorem C32_counterexample_value :
    ∃ (tr : Traj ℚ) (frames : List (Frame 1 1 ℚ)) (s : Chi4State 1 1 ℚ),
      frames.length = tr.steps.length ∧
      chi4ComputeFull tr frames 1 (3 / 10) [(0, 1)] (.init []) = .ok s ∧ s.value = [0] ∧
      Spec.variance (Spec.overlaps (3 / 10) frames 1 (Spec.allOrigins frames.length 1 (0, 1))) ≠ 0 := by
  obtain ⟨s, h, -, h2, -⟩ := C31_chi4_variance (K := ℚ) (n := 1) (d := 1) ⟨[0, 1, 2], 1, 1, 2, [1, 1, 1]⟩
    [![![0]], ![![0]], ![![5]]] 1 (3 / 10) [] [(0, 1)] (by decide) (by decide) (by decide)
  refine ⟨_, _, s, ?_, h, ?_, ?_⟩
  · rfl
  · rcases s with ⟨p, g, v, a, q⟩
    cases h2 with
    | cons h0 hr =>
      cases hr
      rw [h0.1]
      have : Spec.variance (Spec.overlaps (3 / 10 : ℚ) [![![0]], ![![0]], ![![5]]] (0, 1).2
        (Spec.chi4Origins [![![(0 : ℚ)]], ![![0]], ![![5]]].length 1 (0, 1))) / ((1 : ℕ) : ℚ) = 0 := by
        decide +kernel
      rw [this]
  · decide +kernel

/-- **C32**, what does hold: all the origins used are valid, and at most one valid origin is missing. Not
proved, because false: that none is missing. -/
theorem C32_origins_partial (len skip : ℕ) (g : ℕ × ℕ) (hskip : 0 < skip) :
    (Spec.chi4Origins len skip g).Sublist (Spec.allOrigins len skip g) ∧
    (Spec.allOrigins len skip g).length ≤ (Spec.chi4Origins len skip g).length + 1 := by
  by_cases hg : g.1 + g.2 < len
  · obtain ⟨last, h, -⟩ := C32_counterexample_last_origin len skip g hskip hg
    rw [h]
    exact ⟨List.sublist_append_left _ _, by simp⟩
  · have h1 : Spec.allOrigins len skip g = [] := by
      unfold Spec.allOrigins
      rw [List.filter_eq_nil_iff]
      intro a _
      simp only [decide_eq_true_eq, not_and]
      omega
    have h2 : Spec.chi4Origins len skip g = [] := by
      unfold Spec.chi4Origins
      rw [List.filter_eq_nil_iff]
      intro a _
      simp only [decide_eq_true_eq, not_and]
      omega
    rw [h1, h2]; simp

example : Spec.allOrigins 6 2 (0, 1) = [0, 2, 4] ∧ Spec.chi4Origins 6 2 (0, 1) = [0, 2] := by
  decide

/-! ## C33 -/

theorem computeN_frames {X V : Type} (read : List X) (body : List X → List K → Py (List K × List V))
    (o : CorrObj X V K) (k : ℕ) :
    (o.computeN read body k).frames = o.frames ++ (List.replicate k read).flatten := by
  induction k with
  | zero => simp [CorrObj.computeN]
  | succ k ih =>
    rw [CorrObj.computeN, List.replicate_succ', List.flatten_append]
    have : ∀ o : CorrObj X V K, (o.compute read body).1.frames = o.frames ++ read := by
      intro o
      unfold CorrObj.compute
      simp only
      split <;> rfl
    rw [this, ih]; simp

/-- **C33** is false: for every trajectory, every kernel that does not raise, every discrete time grid with
at least one entry inside the trajectory and every stride up to the number of frames, the second and
all later calls of `compute()` raise `IndexError`, although the first call succeeds. -/
theorem C33_counterexample_index_error {X V : Type} (ar : Arith V) (f : X → X → V) (tr : Traj K)
    (dg : List (ℕ × ℕ)) (skip : ℕ) (read : List X) (grid : List K) (value : List V)
    (hlen : read.length = tr.steps.length) (hskip : 0 < skip) (hskip' : skip ≤ read.length)
    (hdg : ∃ g ∈ dg, g.1 + g.2 < read.length) :
    let body := fun x (_ : List K) => timeCorr ar (fun a b => .ok (f a b)) tr dg skip x
    let o : CorrObj X V K := ⟨[], grid, value⟩
    (∃ r, (o.compute read body).2 = .ok r) ∧
    ∀ k, 1 ≤ k → ((o.computeN read body k).compute read body).2 = .error .indexError := by
  intro body o
  constructor
  · obtain ⟨r, hr⟩ := (C05_gcf_offset_errors ar f dg skip tr.steps read).2.2.2
      ⟨Or.inr hskip, fun p hp => by have := sampled_lt hp; omega⟩
    have : body read grid = .ok (r.1.map fun ti : ℤ => (ti : K) * tr.timestep, r.2) := by
      show timeCorr _ _ _ _ _ _ = _
      unfold timeCorr; rw [hr]; rfl
    refine ⟨(r.1.map fun ti : ℤ => (ti : K) * tr.timestep, r.2), ?_⟩
    unfold CorrObj.compute
    simp only [o, List.nil_append, this]
  · intro k hk
    have hfr : (o.computeN read body k).frames ++ read = (List.replicate (k + 1) read).flatten := by
      rw [computeN_frames, List.replicate_succ', List.flatten_append]
      simp [o]
    have hb : ∀ gr, body ((List.replicate (k + 1) read).flatten) gr = .error .indexError := by
      intro gr
      have hl : ((List.replicate (k + 1) read).flatten).length = (k + 1) * read.length := by
        simp
      have := (C05_gcf_offset_errors ar f dg skip tr.steps ((List.replicate (k + 1) read).flatten)).2.1.2
        ⟨hskip, by
          obtain ⟨g, hg, hgl⟩ := hdg
          set n := read.length with hn
          -- the first origin whose partner is beyond the first copy
          set m := (n - (g.1 + g.2) + (skip - 1)) / skip with hm
          have hm1 : n ≤ g.1 + m * skip + g.2 := by
            have := Nat.lt_div_mul_add (a := n - (g.1 + g.2) + (skip - 1)) hskip
            rw [← hm] at this; omega
          have hm2 : g.1 + m * skip + g.2 < n + skip := by
            have := Nat.div_mul_le_self (n - (g.1 + g.2) + (skip - 1)) skip
            rw [← hm] at this; omega
          refine ⟨(g.1 + m * skip, g.2), ?_, by simp only; omega⟩
          rw [mem_sampled, hl]
          have h2n : 2 * n ≤ (k + 1) * n := Nat.mul_le_mul_right n (by omega)
          exact ⟨g.1, hg, by simp, by simp, by simp only; omega⟩⟩
      show timeCorr _ _ _ _ _ _ = _
      unfold timeCorr; rw [this]; rfl
    unfold CorrObj.compute
    simp only [hfr, hb]

/-- The self overlap of a two-frame trajectory, computed twice. -/
example :
    let tr : Traj ℚ := ⟨[0, 1], 1, 1, 1, [1, 1]⟩
    let read : List (Frame 1 1 ℚ) := [![![0]], ![![1]]]
    let body := fun x (_ : List ℚ) => qstCompute tr [(0, 0), (0, 1)] 1 (3 / 10) x
    let o : CorrObj (Frame 1 1 ℚ) (Option ℚ) ℚ := ⟨[], [], []⟩
    (o.compute read body).2 = .ok ([0, 1], [some 1, some 0]) ∧
    ((o.compute read body).1.compute read body).2 = .error .indexError := by
  refine ⟨by decide +kernel, by decide +kernel⟩

/-- **C33** is false for the susceptibility too: after the second call the object has twice as many values
as grid points. -/
theorem C33_counterexample_chi4 (tr : Traj K) (frames : List (Frame n d K)) (skip : ℕ) (a : K)
    (grid : List K) (dg : List (ℕ × ℕ)) (hskip : 0 < skip) (hfr : 0 < frames.length)
    (hg : ∀ g ∈ dg, g.1 + g.2 < tr.steps.length) (hdg : dg ≠ []) :
    ∃ s1 s2 : Chi4State n d K, chi4ComputeFull tr frames skip a dg (.init grid) = .ok s1 ∧
      chi4ComputeFull tr frames skip a dg s1 = .ok s2 ∧ s2.grid = s1.grid ∧
      s1.value.length = s1.grid.length ∧ s2.value.length = 2 * s2.grid.length ∧
      s2.value ≠ s1.value := by
  obtain ⟨t1, h1, h2⟩ := chi4ComputeFull_ok tr frames a dg (.init grid) hskip hfr hg
  obtain ⟨t2, h3, h4⟩ := chi4ComputeFull_ok tr frames a dg ⟨frames, t1, dg.map fun g =>
    Spec.variance (Spec.overlaps a frames g.2 (Spec.chi4Origins frames.length skip g)) / (n : K),
    dg.map fun g => Spec.mean (Spec.overlaps a frames g.2 (Spec.chi4Origins frames.length skip g)),
    dg.map fun g => Spec.mean ((Spec.overlaps a frames g.2
      (Spec.chi4Origins frames.length skip g)).map fun w => w ^ 2)⟩ hskip hfr hg
  have ht : t2 = t1 := by
    refine List.right_unique_forall₂' ?_ h4 h2
    rintro g t t' ⟨ta, tb, e1, e2, rfl⟩ ⟨ta', tb', e1', e2', rfl⟩
    rw [e1] at e1'; rw [e2] at e2'
    cases e1'; cases e2'; rfl
  have hl1 := h2.length_eq
  have hpos : 0 < dg.length := List.length_pos_iff.2 hdg
  refine ⟨_, _, h1, h3, ht, ?_, ?_, ?_⟩
  · simp only [Chi4State.init, List.nil_append, List.length_map]; exact hl1
  · simp only [List.length_append, List.length_map, ht]; omega
  · intro h
    have := congrArg List.length h
    simp only [Chi4State.init, List.nil_append, List.length_append, List.length_map] at this
    omega

/-- **C33**, what does hold: a new object gives the same result every time, whatever grid and values it holds
initially. Missing, because false: the same for an object that has been used. -/
theorem C33_new_object_partial {X V : Type} (body : List X → List K → Py (List K × List V))
    (read : List X) (hbody : ∀ x g g', body x g = body x g') (o o' : CorrObj X V K)
    (h : o.frames = []) (h' : o'.frames = []) :
    (o.compute read body).2 = (o'.compute read body).2 := by
  unfold CorrObj.compute
  simp only [h, h', hbody _ o.grid o'.grid]
  split <;> rfl

end Props
end PP
