import Verif.Props.Reversal
import Verif.Props.Msd
import Verif.Props.Grids

/-!
# C112: the default time grid of the mean square displacement
-/

set_option linter.unusedSectionVars false

namespace PP.Props
open PP

variable {K : Type} [Field K] [LinearOrder K] [IsStrictOrderedRing K] [FloorRing K] {n d : ℕ}

/-- **C112 is false** for the code: without a limit on the displacement the time grid ends at the largest time in the
trajectory, not at half of it. For any trajectory, the total time is among the times reported. -/
theorem C112_counterexample_half (tr : Traj K) (skip : ℕ) (rmax : K) (tsamples : ℤ) (offset : Bool)
    (x : List (Frame n d K)) (hn : 0 < n) (hskip : 0 < skip) (hb : 0 < tr.blockSize) (hdt : 0 < tr.timestep)
    (hx : x.length = tr.steps.length) (hs : tr.steps ≠ [])
    (hT : tr.totalTime = ((Spec.lag tr.steps (0, tr.steps.length - 1) : ℤ) : K) * tr.timestep)
    (hpos : 0 < tr.totalTime) (hr : rmax ≤ 0) (ht : 2 ≤ tsamples) :
    ∃ ts vs, msdCompute tr skip none rmax tsamples offset x = .ok (ts, vs) ∧
      ∃ t ∈ ts, t = tr.totalTime ∧ tr.totalTime / 2 < t := by
  have hlen : 0 < tr.steps.length := List.length_pos_of_ne_nil hs
  obtain ⟨l, hl, hl1, -, hl3, -⟩ := C06_linear_grid_count (0 : K) tr.totalTime tsamples
  have hll : l.length - 1 < l.length := by omega
  have hlT : tr.totalTime ∈ l := by
    rw [← hl3 ht hll]
    exact List.getElem_mem _
  obtain ⟨os, hos⟩ : ∃ os, (if offset then List.range tr.blockSize else [0]) = os := ⟨_, rfl⟩
  have h0 : 0 ∈ os := by
    rw [← hos]
    cases offset <;> simp [hb]
  obtain ⟨dg, hdg, hsc, -, hmem⟩ := setupTGrid_spec tr.steps tr.blockSize tr.timestep l offset os hos h0 hs hdt.ne'
  have hround : pyRound (tr.totalTime / tr.timestep) = Spec.lag tr.steps (0, tr.steps.length - 1) := by
    rw [hT, mul_div_assoc, div_self hdt.ne', mul_one]
    unfold pyRound
    simp
  have hsl : Spec.IsScannedLag tr.steps os (Spec.lag tr.steps (0, tr.steps.length - 1)) :=
    ⟨(0, tr.steps.length - 1), ⟨h0, by simp only; omega⟩, rfl⟩
  have hin : Spec.lag tr.steps (0, tr.steps.length - 1) ∈ dg.map (Spec.lag tr.steps) := by
    rw [hmem]
    refine ⟨hsl, tr.totalTime, hlT, fun w hw => ?_⟩
    rw [hround]
    simp only [sub_self, abs_zero, abs_nonneg, true_and]
    intro h
    rw [abs_eq_zero, sub_eq_zero] at h
    exact h.ge
  obtain ⟨g, hg, hgl⟩ := List.mem_map.1 hin
  have hg2 : g.1 + g.2 < x.length := by have := (hsc g hg).2; omega
  obtain ⟨lags, -, h2, h3⟩ := timeCorr_mean (f := msdKernel) (g := fun x y => sqDisp x y / (n : K)) (tr := tr) (dg := dg)
    (x := x) hskip hx.le (fun a _ b _ => msdKernel_some hn a b)
  have hc : msdCompute tr skip none rmax tsamples offset x = timeCorr (Arith.nan K) msdKernel tr dg skip x := by
    unfold msdCompute
    simp only [msdGrid]
    rw [if_neg (not_lt.2 hr), hl]
    show (setupTGrid tr.steps tr.blockSize tr.timestep l offset >>= fun dg =>
      timeCorr (Arith.nan K) msdKernel tr dg skip x) = _
    rw [hdg]
    rfl
  refine ⟨_, _, hc.trans h3, tr.totalTime, ?_, rfl, half_lt_self hpos⟩
  rw [List.mem_map]
  refine ⟨Spec.lag tr.steps (0, tr.steps.length - 1), (h2 _).2 ?_, hT.symm⟩
  have hm : g ∈ Spec.sampled x.length skip dg := by
    rw [mem_sampled]
    exact ⟨g.1, hg, le_rfl, by simp, hg2⟩
  have hts := term_isSome (t := tr.steps) (x := x) (p := g) (by omega) hg2
  refine ⟨_, List.mem_filterMap.2 ⟨g, hm, hts⟩, ?_⟩
  rw [← hgl]
  unfold Spec.lag
  simp only
  rw [List.getD_eq_getElem _ _ (by omega), List.getD_eq_getElem _ _ (by omega)]

/-- One particle moving with unit velocity, one frame per unit of time. -/
def unitMotion (K : Type) [Field K] (N : ℕ) : Traj K × List (Frame 1 1 K) :=
  (⟨uniformSteps N 0 1, 1, 1, ((N - 1 : ℕ) : K), List.replicate N 1⟩,
    (uniformSteps N 0 1).map fun s : ℤ => fun _ _ => (s : K))

example : unitMotion ℚ 3 = (⟨[0, 1, 2], 1, 1, 2, [1, 1, 1]⟩, [![![0]], ![![1]], ![![2]]]) := by
  refine Prod.ext ?_ (by decide +kernel)
  simp [unitMotion, uniformSteps, List.range_succ]

/-- **C112 is false** for the code, with a limit on the displacement: for a particle in uniform motion, whose
displacement reaches `rmax = m` at time `m`, within a trajectory of total time `m ^ 2`, no reported time exceeds 1 and no
reported value exceeds 1. -/
theorem C112_counterexample_rmax (m : ℕ) (hm : 2 ≤ m) (tsamples : ℤ) :
    ∃ ts vs, msdCompute (unitMotion K (m ^ 2 + 1)).1 1 none (m : K) tsamples true (unitMotion K (m ^ 2 + 1)).2
        = .ok (ts, vs) ∧
      ts.length = vs.length ∧ ∀ p ∈ ts.zip vs, p.1 ≤ 1 ∧ p.2 = some (p.1 ^ 2) ∧ p.1 ^ 2 < (m : K) ^ 2 := by
  set N := m ^ 2 + 1 with hN
  set tr : Traj K := (unitMotion K N).1 with htr
  set x : List (Frame 1 1 K) := (unitMotion K N).2 with hxdef
  have hlen : (uniformSteps N 0 1).length = N := by simp [uniformSteps]
  have hu : ∀ j, j < N → (uniformSteps N 0 1)[j]? = some ((j : ℕ) : ℤ) := by
    intro j hj
    rw [uniformSteps, List.getElem?_map, List.getElem?_range hj]
    simp
  have hx : x.length = N := by simp [hxdef, unitMotion, hlen]
  have hpx : ∀ j, j < N → pyGet x j = .ok fun _ _ => ((j : ℕ) : K) := by
    intro j hj
    have : x = (uniformSteps N 0 1).map fun s : ℤ => fun _ _ => (s : K) := rfl
    rw [this, pyGet_mapped]
    unfold pyGet
    rw [hu j hj]
    simp [Except.map]
  have hmK : (0 : K) < (m : K) := by exact_mod_cast (by omega : 0 < m)
  have hm1 : (1 : K) < (m : K) := by exact_mod_cast (by omega : 1 < m)
  have hT : tr.totalTime = (m : K) ^ 2 := by simp [htr, unitMotion, hN]
  have hgrid : msdGrid tr (m : K) tsamples x = linearGrid 0 1 (.int tsamples) := by
    unfold msdGrid
    rw [if_pos hmK, hx, hpx (N - 1) (by omega), hpx 0 (by omega)]
    have hk : msdKernel (fun _ _ => ((N - 1 : ℕ) : K) : Frame 1 1 K) (fun _ _ => ((0 : ℕ) : K))
        = .ok (some ((m : K) ^ 4)) := by
      simp [msdKernel, perParticle, sqDisp, hN]
      ring
    simp only [bind, Except.bind, hk]
    rw [if_neg (by positivity), hT]
    congr 1
    have : (m : K) ^ 2 / (m : K) ^ 4 * (m : K) ^ 2 = 1 := by field_simp
    rw [this, min_eq_right]
    nlinarith
  obtain ⟨l, hl, hl01⟩ : ∃ l, linearGrid (0 : K) 1 (.int tsamples) = .ok l ∧ ∀ t ∈ l, 0 ≤ t ∧ t ≤ 1 := by
    refine ⟨_, rfl, ?_⟩
    intro t ht
    obtain ⟨i, hi, rfl⟩ := List.mem_map.1 ht
    rw [List.mem_range] at hi
    by_cases h1 : tsamples > 1
    · rw [if_pos h1]
      have h2 : (0 : K) < (tsamples : K) - 1 := by
        have : (1 : K) < (tsamples : K) := by exact_mod_cast h1
        linarith
      have h3 : (i : K) ≤ (tsamples : K) - 1 := by
        have h4 : (i : ℤ) ≤ tsamples - 1 := by omega
        have : ((i : ℤ) : K) ≤ ((tsamples - 1 : ℤ) : K) := by exact_mod_cast h4
        push_cast at this
        exact this
      have h5 : (0 : K) ≤ (i : K) := Nat.cast_nonneg i
      simp only [sub_zero, zero_add]
      rw [mul_one_div]
      exact ⟨div_nonneg h5 h2.le, (div_le_one h2).2 h3⟩
    · rw [if_neg h1]
      simp
  have hs : tr.steps ≠ [] := by
    intro h
    have : tr.steps.length = N := hlen
    rw [h] at this
    simp [hN] at this
  obtain ⟨dg, hdg, -, -, hmem⟩ := C19_t_grid_partial tr.steps 1 (1 : K) l hs one_pos one_ne_zero
  have hbp : Spec.BlockPeriodic tr.steps 1 := by
    refine ⟨1, fun i hi => ?_⟩
    have h1 : i + 1 < N := by have : tr.steps.length = N := hlen; omega
    have h2 : tr.steps = uniformSteps N 0 1 := rfl
    rw [h2, List.getD_eq_getElem?_getD, List.getD_eq_getElem?_getD, hu _ h1, hu i (by omega)]
    simp
  obtain ⟨vals, hv, hvl⟩ := C21_setup_t_grid (Arith.nan K) msdKernel (fun x y : Frame 1 1 K => perParticle 1 (sqDisp x y))
    tr.steps x 1 1 (1 : K) l dg hs one_pos one_ne_zero one_pos (dvd_refl 1) (by rw [hx]; exact hlen.symm) hbp hdg
    (fun _ _ _ _ => rfl)
  have hc : msdCompute tr 1 none (m : K) tsamples true x
      = .ok ((dg.map (Spec.lag tr.steps)).map fun ti : ℤ => (ti : K) * 1, vals) := by
    unfold msdCompute
    simp only [hgrid, hl]
    show (setupTGrid tr.steps 1 (1 : K) l true >>= fun dg => timeCorr (Arith.nan K) msdKernel tr dg 1 x) = _
    rw [hdg]
    show timeCorr (Arith.nan K) msdKernel tr dg 1 x = _
    unfold timeCorr
    rw [hv]
    rfl
  refine ⟨_, _, hc, by simp [hvl], ?_⟩
  have hball := C24_ballistic tr 1 none (m : K) tsamples true (fun _ _ => 0 : Frame 1 1 K) (fun _ _ => 1) _ _ one_pos
    one_pos (by
      have : (tr.steps.map fun (s : ℤ) (p : Fin 1) (c : Fin 1) =>
          (0 : K) + 1 * ((s : K) * tr.timestep)) = x := by
        show (uniformSteps N 0 1).map _ = (uniformSteps N 0 1).map _
        refine List.map_congr_left fun s _ => ?_
        funext p c
        simp [htr, unitMotion]
      rw [this]
      exact hc)
  intro p hp
  have h1 := hball.2 p hp
  obtain ⟨δ, hδ, hpδ⟩ := List.mem_map.1 (List.of_mem_zip hp).1
  obtain ⟨hsl, t, ht, hnear⟩ := (hmem δ).1 hδ
  rw [div_one] at hnear
  obtain ⟨t0, t1⟩ := hl01 t ht
  have hrt := abs_le.1 (pyRound_le t)
  have hr0 : (-1 : ℤ) < pyRound t := by
    have : ((-1 : ℤ) : K) < (pyRound t : K) := by push_cast; linarith
    exact_mod_cast this
  have hr1 : pyRound t < 2 := by
    have : (pyRound t : K) < ((2 : ℤ) : K) := by push_cast; linarith
    exact_mod_cast this
  have hlag : ∀ j, j < N → Spec.lag tr.steps (0, j) = j := by
    intro j hj
    have h2 : tr.steps = uniformSteps N 0 1 := rfl
    unfold Spec.lag
    rw [h2, List.getD_eq_getElem?_getD, List.getD_eq_getElem?_getD, zero_add, hu j hj, hu 0 (by omega)]
    simp
  have hN4 : 5 ≤ N := by nlinarith
  have hsc : Spec.IsScannedLag tr.steps (List.range 1) (pyRound t) := by
    refine ⟨(0, (pyRound t).toNat), ⟨by simp, ?_⟩, ?_⟩
    · have : tr.steps.length = N := hlen
      simp only
      omega
    · rw [hlag _ (by omega)]
      omega
  have hδr := (hnear _ hsc).1
  rw [sub_self, abs_zero, abs_nonpos_iff, sub_eq_zero] at hδr
  have hp01 : p.1 = 0 ∨ p.1 = 1 := by
    rw [← hpδ, hδr, mul_one]
    have : pyRound t = 0 ∨ pyRound t = 1 := by omega
    rcases this with h | h <;> rw [h] <;> simp
  refine ⟨?_, ?_, ?_⟩
  · rcases hp01 with h | h <;> rw [h]
    exact zero_le_one
  · rw [h1]; simp
  · rcases hp01 with h | h <;> rw [h]
    · nlinarith
    · nlinarith

/-- **C112, what holds.** With a limit on the displacement the grid requested has `tsamples` equidistant times from zero
to the time at which a mean square displacement proportional to time, with the value of the code at the total time, would
reach `rmax ^ 2`, or to the total time. -/
theorem C112_linear_partial (tr : Traj K) (rmax D : K) (tsamples : ℤ) (x : List (Frame n d K)) (first last : Frame n d K)
    (hn : 0 < n) (hx : x.head? = some first) (hx' : x.getLast? = some last) (hr : 0 < rmax) (hD : 0 < D)
    (hT : 0 < tr.totalTime) (hlin : sqDisp last first / (n : K) = D * tr.totalTime) :
    msdGrid tr rmax tsamples x = linearGrid 0 (min tr.totalTime (rmax ^ 2 / D)) (.int tsamples) := by
  unfold msdGrid
  have h0 : pyGet x 0 = .ok first := by
    unfold pyGet
    rw [← List.head?_eq_getElem?, hx]
  have h1 : pyGet x (x.length - 1) = .ok last := by
    unfold pyGet
    rw [← List.getLast?_eq_getElem?, hx']
  rw [if_pos hr, h0, h1]
  simp only [bind, Except.bind, msdKernel_some hn last first, hlin]
  rw [if_neg (by positivity)]
  congr 2
  field_simp

example :
    let tr : Traj ℚ := ⟨[0, 1, 2], 1, 1, 2, [1, 1, 1]⟩
    let x : List (Frame 1 1 ℚ) := [![![0]], ![![1]], ![![2]]]
    tr.totalTime = ((Spec.lag tr.steps (0, tr.steps.length - 1) : ℤ) : ℚ) * tr.timestep ∧
    msdCompute tr 1 none (-1) 3 true x = .ok ([0, 1, 2], [some 0, some 1, some 4]) ∧
    sqDisp (![![2]] : Frame 1 1 ℚ) ![![0]] / (1 : ℕ) = 2 * tr.totalTime ∧
    msdGrid tr 1 3 x = .ok [0, 1 / 4, 1 / 2] := by
  refine ⟨by decide +kernel, by decide +kernel, by decide +kernel, by decide +kernel⟩

end PP.Props
