import Verif.Props.Fskt

/-!
# C124: the default time grid of the intermediate scattering functions
-/

namespace PP.Props

theorem pyRound_mono {K : Type} [Field K] [LinearOrder K] [IsStrictOrderedRing K] [FloorRing K] {x y : K} (h : x ≤ y) :
    pyRound x ≤ pyRound y := by
  have hf : ⌊x⌋ ≤ ⌊y⌋ := Int.floor_le_floor h
  rcases hf.lt_or_eq with hlt | heq
  · have h1 : pyRound x ≤ ⌊x⌋ + 1 := by
      unfold pyRound; simp only; split_ifs <;> omega
    have h2 : ⌊y⌋ ≤ pyRound y := by
      unfold pyRound; simp only; split_ifs <;> omega
    omega
  · unfold pyRound
    simp only
    rw [heq]
    split_ifs <;> first | omega | (exfalso; linarith)

/-- The element of a set nearest to a larger number is not smaller. -/
theorem nearest_mono {P : ℤ → Prop} {r1 r2 u v : ℤ} (hr : r1 ≤ r2) (hu : P u) (hv : P v)
    (h1 : ∀ w, P w → |u - r1| ≤ |w - r1| ∧ (|w - r1| = |u - r1| → u ≤ w))
    (h2 : ∀ w, P w → |v - r2| ≤ |w - r2| ∧ (|w - r2| = |v - r2| → v ≤ w)) : u ≤ v := by
  by_contra hlt
  have a := h1 v hv
  have b := (h2 u hu).1
  rcases abs_cases (u - r1) with ⟨e1, _⟩ | ⟨e1, _⟩ <;> rcases abs_cases (v - r1) with ⟨e2, _⟩ | ⟨e2, _⟩ <;>
    rcases abs_cases (u - r2) with ⟨e3, _⟩ | ⟨e3, _⟩ <;> rcases abs_cases (v - r2) with ⟨e4, _⟩ | ⟨e4, _⟩ <;>
    rw [e1, e2] at a <;> rw [e3, e4] at b <;> omega

section
variable {K : Type} [Field K] [LinearOrder K] [IsStrictOrderedRing K] [FloorRing K]

/-- The lags of a discrete grid start at zero and end at the available one nearest to `M`, to within one step. -/
def _root_.PP.Spec.Spans (steps : List ℤ) (os : List ℕ) (dt M : K) (dg : List (ℕ × ℕ)) : Prop :=
  (∃ p ∈ dg, Spec.lag steps p = 0) ∧
  ∃ g ∈ dg, (∀ p ∈ dg, 0 ≤ Spec.lag steps p ∧ Spec.lag steps p ≤ Spec.lag steps g) ∧
    ∀ w, Spec.IsScannedLag steps os w → |(Spec.lag steps g : K) - M / dt| ≤ |(w : K) - M / dt| + 1

theorem tgrid_span (steps : List ℤ) (hs : steps.Pairwise (· < ·)) (hne : steps ≠ []) (bs : ℕ) (hbs : 0 < bs) (dt : K)
    (hdt : 0 < dt) (l : List K) (M : K) (hzero : 0 ∈ l) (hlast : M ∈ l) (hrange : ∀ t ∈ l, t ≤ M) (offset : Bool) :
    ∃ dg, setupTGrid steps bs dt l offset = .ok dg ∧
      Spec.Spans steps (if offset then List.range bs else [0]) dt M dg := by
  set os := if offset then List.range bs else [0] with hos
  have h0 : 0 ∈ os := by rw [hos]; cases offset <;> simp [hbs]
  obtain ⟨dg, h1, h2, h3, h4⟩ := setupTGrid_spec steps bs dt l offset os hos.symm h0 hne hdt.ne'
  have hlen : 0 < steps.length := List.length_pos_iff.2 hne
  have h0scan : Spec.IsScannedLag steps os 0 :=
    ⟨(0, 0), ⟨h0, by simpa using hlen⟩, by simp [Spec.lag]⟩
  obtain ⟨d, hd, inv⟩ := offSamp_inv steps os
  have hmemk : ∀ v, v ∈ pySorted (dictKeys d) ↔ Spec.IsScannedLag steps os v := by
    intro v
    rw [mem_pySorted]
    constructor
    · intro h
      obtain ⟨e, he, rfl⟩ := List.mem_map.1 h
      exact ⟨e.2, (inv.sound e he).1, (inv.sound e he).2.symm⟩
    · rintro ⟨g, hg, rfl⟩; exact inv.complete g hg
  have key : ∀ t ∈ l, ∃ g ∈ dg, ∀ w, Spec.IsScannedLag steps os w →
      |Spec.lag steps g - pyRound (t / dt)| ≤ |w - pyRound (t / dt)| ∧
      (|w - pyRound (t / dt)| = |Spec.lag steps g - pyRound (t / dt)| → Spec.lag steps g ≤ w) := by
    intro t ht
    obtain ⟨v, -, hn⟩ := pyMinKey_nearest (pySorted (dictKeys d)) (pyRound (t / dt)) (pySorted_le _)
      (List.ne_nil_of_mem ((hmemk _).2 h0scan))
    have hw : ∀ w, Spec.IsScannedLag steps os w → |v - pyRound (t / dt)| ≤ |w - pyRound (t / dt)| ∧
        (|w - pyRound (t / dt)| = |v - pyRound (t / dt)| → v ≤ w) := fun w hw => hn.2 w ((hmemk w).2 hw)
    obtain ⟨g, hg, he⟩ := List.mem_map.1 ((h4 v).2 ⟨(hmemk v).1 hn.1, t, ht, hw⟩)
    exact ⟨g, hg, by rw [he]; exact hw⟩
  obtain ⟨g, hg, hgw⟩ := key _ hlast
  obtain ⟨z, hz, hzw⟩ := key 0 hzero
  have hscan : ∀ p ∈ dg, Spec.IsScannedLag steps os (Spec.lag steps p) :=
    fun p hp => ((h4 _).1 (List.mem_map_of_mem hp)).1
  refine ⟨dg, h1, ⟨z, hz, ?_⟩, g, hg, fun p hp => ⟨scanned_lag_nonneg hs (hscan p hp), ?_⟩, fun w hw => ?_⟩
  · have h := (hzw 0 h0scan).1
    have hr : pyRound ((0 : K) / dt) = 0 := by simp [pyRound]
    rw [hr] at h
    simpa using h
  · obtain ⟨-, t, ht, htw⟩ := (h4 _).1 (List.mem_map_of_mem hp)
    exact nearest_mono (P := Spec.IsScannedLag steps os)
      (pyRound_mono (div_le_div_of_nonneg_right (hrange t ht) hdt.le)) (hscan p hp) (hscan g hg) htw hgw
  · have h5 : |(Spec.lag steps g : K) - (pyRound (M / dt) : K)| ≤ |(w : K) - (pyRound (M / dt) : K)| := by
      exact_mod_cast (hgw w hw).1
    have h6 := pyRound_le (M / dt)
    have h7 := abs_sub_le (Spec.lag steps g : K) (pyRound (M / dt) : K) (M / dt)
    have h8 := abs_sub_le (w : K) (M / dt) (pyRound (M / dt) : K)
    rw [abs_sub_comm (M / dt)] at h8
    linarith

/-- If no time of the grid is positive, all the lags are zero. -/
theorem tgrid_zero (steps : List ℤ) (hs : steps.Pairwise (· < ·)) (hne : steps ≠ []) (bs : ℕ) (hbs : 0 < bs) (dt : K)
    (hdt : 0 < dt) (l : List K) (hzero : 0 ∈ l) (hle : ∀ t ∈ l, t ≤ 0) (offset : Bool) :
    ∃ dg, setupTGrid steps bs dt l offset = .ok dg ∧ dg ≠ [] ∧ ∀ p ∈ dg, Spec.lag steps p = 0 := by
  obtain ⟨dg, h1, ⟨z, hz, hz0⟩, g, hg, hgm, hgw⟩ := tgrid_span steps hs hne bs hbs dt hdt l 0 hzero hzero hle offset
  refine ⟨dg, h1, List.ne_nil_of_mem hz, ?_⟩
  have h0 : 0 ∈ (if offset then List.range bs else [0]) := by cases offset <;> simp [hbs]
  obtain ⟨dg', h1', -, -, h4⟩ := setupTGrid_spec steps bs dt l offset _ rfl h0 hne hdt.ne'
  rw [h1] at h1'
  cases h1'
  have hlen : 0 < steps.length := List.length_pos_iff.2 hne
  have h0scan : Spec.IsScannedLag steps (if offset then List.range bs else [0]) 0 :=
    ⟨(0, 0), ⟨h0, by simpa using hlen⟩, by simp [Spec.lag]⟩
  intro p hp
  obtain ⟨hsc, t, ht, hw⟩ := (h4 _).1 (List.mem_map_of_mem hp)
  have hp0 := scanned_lag_nonneg hs hsc
  have hr : pyRound (t / dt) ≤ 0 := by
    have := pyRound_mono (div_nonpos_of_nonpos_of_nonneg (hle t ht) hdt.le)
    have e : pyRound (0 : K) = 0 := by simp [pyRound]
    omega
  have := (hw 0 h0scan).1
  rw [abs_of_nonneg (by omega), abs_of_nonneg (by omega)] at this
  omega

end

/-- The logarithmic grid from zero to a number larger than one. -/
theorem logx_span (x : ℝ) (hx : 1 < x) (n : ℕ) (hn : 2 ≤ n) :
    ∃ l, logxGrid 0 x n = .ok l ∧ x - 1 ∈ l ∧ (0 : ℝ) ∈ l ∧ ∀ t ∈ l, t ≤ x - 1 := by
  obtain ⟨l, h1, h2, h3, h4, h5⟩ := C09_logx_grid_zero_partial 0 x n le_rfl hx (by omega)
  have h6 := h5 hn (by omega)
  have h7 := h3 (by omega)
  refine ⟨l, h1, ?_, ?_, ?_⟩
  · rw [← h6]; exact List.getElem_mem _
  · rw [← h7]; exact List.getElem_mem _
  · intro t ht
    obtain ⟨i, hi, rfl⟩ := List.mem_iff_getElem.1 ht
    have hp := List.pairwise_iff_getElem.1 h4
    rw [← h6]
    rcases Nat.lt_or_ge i (l.length - 1) with h0 | h0
    · exact (hp i _ hi (by omega) h0).le
    · have : i = l.length - 1 := by omega
      subst this
      exact le_rfl

/-- The logarithmic grid from zero to a number not larger than one. -/
theorem logx_zero (x : ℝ) (hx0 : 0 ≤ x) (hx1 : x ≤ 1) (n : ℕ) (hn : 0 < n) :
    ∃ l, logxGrid 0 x n = .ok l ∧ (0 : ℝ) ∈ l ∧ ∀ t ∈ l, t ≤ 0 := by
  unfold logxGrid
  rw [if_neg (by omega), if_neg (lt_irrefl _)]
  refine ⟨_, rfl, by simp, ?_⟩
  intro t ht
  simp only [List.singleton_append, List.mem_cons, List.mem_map] at ht
  rcases ht with rfl | ⟨i, -, rfl⟩
  · exact le_rfl
  · have h1 : x ^ ((1 : ℝ) / n) ≤ 1 := Real.rpow_le_one hx0 hx1 (by positivity)
    have h2 := pow_le_one₀ (n := i + 1) (Real.rpow_nonneg hx0 ((1 : ℝ) / n)) h1
    linarith

/-- **C124.** Without time grid given by the user, the lags run from zero to the available lag nearest to 3/4 of the
total time minus one, in the unit of time of the trajectory. What is missing: the grid should end at 3/4 of the total
time, and in general the number one has no place there, see `C124_counterexample`. -/
theorem C124_partial (tr : Traj ℝ) (hs : tr.steps.Pairwise (· < ·)) (hne : tr.steps ≠ []) (hbs : 0 < tr.blockSize)
    (hdt : 0 < tr.timestep) (hT : 4 / 3 < tr.totalTime) (n : ℕ) (hn : 2 ≤ n) (normalize offset : Bool) :
    ∃ dg, fktInit tr none n normalize offset = .ok dg ∧
      Spec.Spans tr.steps (if offset then List.range tr.blockSize else [0]) tr.timestep (3 / 4 * tr.totalTime - 1) dg := by
  obtain ⟨l, hl, hlast, hzero, hrange⟩ := logx_span (tr.totalTime * (3 / 4)) (by linarith) n hn
  obtain ⟨dg, h1, h2⟩ := tgrid_span tr.steps hs hne tr.blockSize hbs tr.timestep hdt l _ hzero hlast hrange offset
  refine ⟨dg, ?_, ?_⟩
  · unfold fktInit fktGrid
    simp only
    rw [hl]
    exact h1
  · rw [mul_comm (3 / 4 : ℝ)]
    exact h2

/-- The same trajectory with times in another unit. -/
def _root_.PP.Spec.inUnit (c : ℝ) (tr : Traj ℝ) : Traj ℝ :=
  { tr with timestep := c * tr.timestep, totalTime := c * tr.totalTime }

theorem unit_small (T : ℝ) (hT : 0 ≤ T) :
    ∃ c0 > 0, ∀ c, 0 < c → c ≤ c0 → 0 ≤ c * T * (3 / 4) ∧ c * T * (3 / 4) ≤ 1 := by
  refine ⟨1 / (T + 1), by positivity, fun c hc hc0 => ⟨by positivity, ?_⟩⟩
  have h1 : c * (T + 1) ≤ 1 := by
    rw [le_div_iff₀ (by positivity)] at hc0
    exact hc0
  nlinarith [mul_nonneg hc.le hT]

/-- **C124, false.** For every trajectory, if the unit of time is large enough, all the default lags are zero: the
correlation function is only computed at time zero, however long the trajectory and whatever the number of samples. -/
theorem C124_counterexample (tr : Traj ℝ) (hs : tr.steps.Pairwise (· < ·)) (hne : tr.steps ≠ []) (hbs : 0 < tr.blockSize)
    (hdt : 0 < tr.timestep) (hT : 0 ≤ tr.totalTime) :
    ∃ c0 > 0, ∀ c, 0 < c → c ≤ c0 → ∀ (n : ℕ) (normalize offset : Bool), 0 < n →
      ∃ dg, fktInit (Spec.inUnit c tr) none n normalize offset = .ok dg ∧ dg ≠ [] ∧
        ∀ p ∈ dg, Spec.lag tr.steps p = 0 := by
  obtain ⟨c0, hc0, hc⟩ := unit_small tr.totalTime hT
  refine ⟨c0, hc0, fun c hcp hcle n normalize offset hn => ?_⟩
  obtain ⟨h0, h1⟩ := hc c hcp hcle
  obtain ⟨l, hl, hzero, hle⟩ := logx_zero _ h0 h1 n hn
  obtain ⟨dg, h2, h3⟩ := tgrid_zero tr.steps hs hne tr.blockSize hbs (c * tr.timestep) (mul_pos hcp hdt) l hzero hle offset
  refine ⟨dg, ?_, h3⟩
  unfold fktInit fktGrid Spec.inUnit
  simp only
  rw [hl]
  exact h2

/-- Five frames, one every 3 units of time: the hypotheses of `C124_partial` and `C124_counterexample` hold. -/
example : ∃ tr : Traj ℝ, tr.steps.Pairwise (· < ·) ∧ tr.steps ≠ [] ∧ 0 < tr.blockSize ∧ 0 < tr.timestep ∧
    4 / 3 < tr.totalTime ∧ 0 ≤ tr.totalTime :=
  ⟨{ steps := [0, 100, 200, 300, 400], timestep := 3 / 100, blockSize := 1, totalTime := 12, npart := [2, 2, 2, 2, 2] },
    by decide, by simp, by norm_num, by norm_num, by norm_num, by norm_num⟩

end PP.Props
