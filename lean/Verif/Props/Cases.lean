import Verif.Props.Align
import Verif.Props.BaLabels
import Verif.Props.BaUnits
import Verif.Props.Chi4
import Verif.Props.FilterEval
import Verif.Props.FourierSym
import Verif.Props.Inequalities
import Verif.Props.Kernels
import Verif.Props.KReport
import Verif.Props.Output
import Verif.Props.Runs
import Verif.Props.SkOrder

/-!
# Concrete cases

Cases meeting the hypotheses of theorems that have no example beside them.
-/

namespace PP.Props
open PP

/-! ### C33 -/

/-- A body that does not read the grid: the average of the frames. Two objects with different grids and values. -/
example : ((CorrObj.mk [] [5] [7] : CorrObj ℚ ℚ ℚ).compute [1, 2, 6] fun x _ => .ok ([0], [x.sum / 3])).2 =
    ((CorrObj.mk [] [] [] : CorrObj ℚ ℚ ℚ).compute [1, 2, 6] fun x _ => .ok ([0], [x.sum / 3])).2 :=
  C33_new_object_partial _ _ (fun _ _ _ => rfl) _ _ rfl rfl

/-! ### C40 -/

example : pairsHist (K := ℚ) (grKernel id ![10, 10]) [![0, 0], ![1, 0]] [![4, 4], ![9, 0], ![3, 0]] [0, 5, 30, 50] =
      .ok [3, 2, 1] ∧
    pairsHist (K := ℚ) (grKernel id ![10, 10]) [![4, 4], ![9, 0], ![3, 0]] [![0, 0], ![1, 0]] [0, 5, 30, 50] =
      .ok [3, 2, 1] := by decide +kernel

/-! ### C42, C45 -/

/-- Two subcells per side. -/
example : ∃ lc nb, (LinkedCells.new (1 : ℚ)).compute ![2, 2] [![-1 / 2, 0], ![1 / 2, 0]] none true (fun _ => true) true =
    .ok (lc, nb) ∧ 1 ≤ Spec.listed nb 0 1 + Spec.listed nb 1 0 := by
  obtain ⟨lc, nb, h, -, -, h'⟩ := C42_complete (1 : ℚ) ![2, 2] [![-1 / 2, 0], ![1 / 2, 0]] (fun _ => true) true
    (Or.inl rfl) one_pos (by decide +kernel) (by unfold Spec.Inside; decide +kernel) (by simp)
  exact ⟨lc, nb, h, h' 0 1 ![-1 / 2, 0] ![1 / 2, 0] (by decide) rfl rfl ⟨fun _ => 0, by simp, by decide +kernel⟩⟩

/-- Two groups: each particle of the first is listed with those of the second that are near, also across the border. -/
example : ((LinkedCells.new (1 : ℚ)).compute ![4, 4] [![0, 0], ![-2, 1]] (some [![1 / 2, 0], ![3 / 2, 1], ![0, -3 / 2]]) true
      (fun _ => true) true).toOption.map (·.2) = some [[0, 1], [1]] ∧
    (∀ x ∈ ([![0, 0], ![-2, 1], ![1 / 2, 0], ![3 / 2, 1], ![0, -3 / 2]] : List (Vec 2 ℚ)), Spec.Inside ![4, 4] x) := by
  refine ⟨by decide +kernel, ?_⟩
  unfold Spec.Inside
  decide +kernel

/-- An object used on other positions in the same cell. -/
example : ((LinkedCells.new (1 : ℚ)).compute ![4, 4] [![0, 0], ![-2, 1]] none true (fun _ => true) true >>= fun r =>
      r.1.compute ![4, 4] [![0, 0], ![1 / 2, 0], ![3 / 2, 1]] none true (fun _ => true) true).toOption.map (·.2) =
    ((LinkedCells.new (1 : ℚ)).compute ![4, 4] [![0, 0], ![1 / 2, 0], ![3 / 2, 1]] none true (fun _ => true)
      true).toOption.map (·.2) := by decide +kernel

/-! ### C54, C82, C83, C118 -/

/-- The object of `exFs` without normalisation: the values at the time lags 0, 1, 2 and 3 steps. -/
example : ∃ lags : List ℤ, (∀ δ ∈ [0, 1, 2, 3], δ ∈ lags) ∧ ∃ v, fsLegacy { exFs with normalize := false } =
    .ok (lags.map fun t : ℤ => (t : ℝ) * (1 / 2), v) ∧ v.length = 2 := by
  have hr : FsRegular { exFs with normalize := false } 2 := ⟨exFs_regular.frames_ne, exFs_regular.skip_pos,
    exFs_regular.steps, exFs_regular.npart, exFs_regular.npart_pos, exFs_regular.allowed, exFs_regular.kgrid,
    exFs_regular.shells_ne, exFs_regular.shells⟩
  obtain ⟨lags, -, h2, h3⟩ := C82_definition { exFs with normalize := false } hr rfl
  refine ⟨lags, fun δ hδ => (h2 δ).2 ?_, _, h3, by simp [kvectorsGet, exFs, exKs]⟩
  show Spec.Sampled [0, 1, 3] 1 [(0, 0), (0, 1), (0, 2)] 3 δ
  simp only [List.mem_cons, List.not_mem_nil, or_false] at hδ
  rcases hδ with rfl | rfl | rfl | rfl
  · exact ⟨(0, 0), by decide, by decide⟩
  · exact ⟨(0, 1), by decide, by decide⟩
  · exact ⟨(1, 1), by decide, by decide⟩
  · exact ⟨(0, 2), by decide, by decide⟩

/-- A memory limit of one megabyte in place of 64. -/
example : fsFast { exFs with lookupMb := 1 } = fsFast exFs :=
  C54_memory_limit exFs exFs_regular (by simp [exFs]) 1 one_ne_zero

example : ∃ lags : List ℤ, lags.Pairwise (· < ·) ∧ 0 ∈ lags ∧
    ∃ value nonorm, fkCompute exFk = .ok (lags.map fun t : ℤ => (t : ℝ) * (1 / 2), value, nonorm) ∧ nonorm.length = 2 := by
  obtain ⟨lags, h1, h2, v, n, h3, h4, -⟩ := C83_definition_partial exFk exFk_regular
  refine ⟨lags, h1, (h2 0).2 (sampled_zero (off := 0) (by simp [exFk]) (by simp [exFk])), v, n, h3, ?_⟩
  rw [h4]
  simp [kvectorsGet, exFk, exKs]

/-- The two particles of the first group exchanged in the second frame only. -/
example : fkCompute { exFk with
      pos0 := [[![0, 0, 0], ![1, 2, 3]], [![1, 2, 2], ![0, 1, 0]], [![1, 1, 1], ![1, 4, 2]]] } = fkCompute exFk :=
  C118_coherent_relabel exFk exFk_regular _ exFk.pos1
    (.cons (List.Perm.refl _) (.cons (List.Perm.swap _ _ _) (.cons (List.Perm.refl _) .nil)))
    (.cons (List.Perm.refl _) (.cons (List.Perm.refl _) (.cons (List.Perm.refl _) .nil))) (by simp [exFk])

example : fsFast { exFs with pos := exFs.pos.map fun f => f.map fun x c => x c + (![1 / 3, 2, -5] : Vec 3 ℝ) c } =
      fsFast exFs ∧
    fsLegacy { exFs with pos := exFs.pos.map fun f => f.map fun x c => -x c } = fsLegacy exFs :=
  ⟨(C118_origin exFs exFs_regular _).1.2 (by simp [exFs]), (C118_origin exFs exFs_regular 0).2.1⟩

/-! ### C74 -/

/-- The volume of a shell between 1 and 2 in three dimensions is right, in one dimension it is not. -/
example : shellVol (22 / 7 : ℚ) 3 1 2 = Spec.ballVolume (22 / 7) 3 2 - Spec.ballVolume (22 / 7) 3 1 ∧
    shellVol (22 / 7 : ℚ) 1 1 2 ≠ Spec.ballVolume (22 / 7) 1 2 - Spec.ballVolume (22 / 7) 1 1 :=
  ⟨(C74_shell_volume (by norm_num) (by norm_num) zero_le_one (by norm_num)).2 (Or.inr rfl), fun h => by
    have := (C74_shell_volume (by norm_num) (by norm_num) zero_le_one (by norm_num)).1 h
    exact absurd this (by decide)⟩

/-! ### C87 -/

/-- Values with more than six digits. -/
example : ∃ s' s'', doUpdate false (.ok (.one [(0 : ℚ), 1 / 3], .one [2, 1234567])) 5 ⟨.one [], .one [], none, false, 4⟩ =
      .ok (s', true) ∧
    doUpdate true (.error .valueError) 9 { s' with grid := .one [], value := .one [] } = .ok (s'', false) ∧
    s''.grid = .one [g6 0, g6 (1 / 3)] ∧ s''.value = .one [g6 2, g6 1234567] :=
  C87_round_trip_partial [(0 : ℚ), 1 / 3] [2, 1234567] (by decide) rfl 5 9 4 (by norm_num) _ _ _

/-! ### C98 -/

/-- Two frames, read twice by the same object: the weights are appended. -/
example : weightOnebody (P := ℕ) (Y := Unit) [fun s => { s with particle := s.particle.tail }] (fun s => s.particle.sum)
    [⟨[1, 2, 3], ()⟩, ⟨[4, 5, 6], ()⟩] (weightOnebody [fun s => { s with particle := s.particle.tail }]
      (fun s => s.particle.sum) [⟨[1, 2, 3], ()⟩, ⟨[4, 5, 6], ()⟩] []) = [5, 11, 5, 11] := rfl

/-! ### C125, C126 -/

/-- Five frames at different intervals, blocks of two. -/
noncomputable def exRunTraj : Traj ℝ := ⟨[0, 1, 3, 4, 9], 1 / 2, 2, 9 / 2, [2, 2, 2, 2, 2]⟩

noncomputable def exRunPos : List (Frame 2 1 ℝ) :=
  [![![0], ![5]], ![![1], ![5]], ![![1], ![6]], ![![2], ![6]], ![![9], ![0]]]

theorem exRun_ok : (∃ r, qstRunR (.object exRunTraj) (some [0, 1 / 2, 2]) 3 (.str ['1']) 1 exRunPos = .ok r) ∧
    ∃ r, qtRun (.object exRunTraj) (some [0, 1 / 2, 2]) 3 (.str ['1']) 1 exRunPos = .ok r := by
  have hdt : exRunTraj.timestep ≠ 0 := by norm_num [exRunTraj]
  obtain ⟨dg, h, -⟩ := setupTGrid_spec exRunTraj.steps exRunTraj.blockSize exRunTraj.timestep [0, 1 / 2, 2] false [0] rfl
    (by simp) (by simp [exRunTraj]) hdt
  obtain ⟨ts, qs, qc, msd, h1, h2, -⟩ := C164_overlap_msd exRunTraj 5 [0, 1 / 2, 2] 0 3 false dg 1 exRunPos one_ne_zero h
    (by norm_num) two_pos (by simp [exRunTraj, exRunPos])
  have hs : adjustSkip exRunTraj.steps.length exRunTraj.blockSize exRunTraj.npart (.str ['1']) = .ok 5 :=
    skip_one_str _ _ _ (by simp [exRunTraj]) (by simp [exRunTraj])
  have hoff : NOrigins.offset (.str ['1']) = false := by decide +kernel
  constructor
  · refine ⟨(ts, qs.map some), ?_⟩
    unfold qstRunR qstInit timeInit
    simp only [TrajArg.traj, hs, hoff, Option.elim, h, bind, Except.bind, pure, Except.pure]
    exact h1
  · refine ⟨(ts, qc.map some), ?_⟩
    unfold qtRun qtInit timeInit
    simp only [TrajArg.traj, hs, hoff, Option.elim, h, bind, Except.bind, pure, Except.pure]
    exact h2

example : ∃ r, qstRunR (.object exRunTraj) (some [0, 1 / 2, 2]) 3 (.str ['1']) 1 exRunPos = .ok r ∧
    Spec.FromFirst [0, 1, 3, 4, 9] (1 / 2) exRunPos (fun x y => (((List.finRange 2).filter fun j =>
      decide (∑ c, (x j c - y j c) ^ 2 < 1 ^ 2)).length : ℝ) / (2 : ℕ)) r := by
  obtain ⟨r, h⟩ := exRun_ok.1
  exact ⟨r, h, C125_self_overlap_partial (.object exRunTraj) _ 3 1 exRunPos two_pos rfl (by simp [exRunTraj, TrajArg.traj])
    (by simp [exRunTraj, TrajArg.traj]) (by norm_num [exRunTraj, TrajArg.traj]) two_pos h⟩

example : ∃ r, qtRun (.object exRunTraj) (some [0, 1 / 2, 2]) 3 (.str ['1']) 1 exRunPos = .ok r ∧
    Spec.FromFirst [0, 1, 3, 4, 9] (1 / 2) exRunPos (fun x y => (Spec.pairsBelow 1 x y : ℝ) / (2 : ℕ)) r := by
  obtain ⟨r, h⟩ := exRun_ok.2
  exact ⟨r, h, C125_collective_overlap_partial (.object exRunTraj) _ 3 1 exRunPos two_pos rfl
    (by simp [exRunTraj, TrajArg.traj]) (by simp [exRunTraj, TrajArg.traj]) (by norm_num [exRunTraj, TrajArg.traj]) two_pos h⟩

example : qtRun (.path exRunTraj) none 3 (.num 1) 1 exRunPos = qtRun (.object exRunTraj) none 3 (.num 1) 1 exRunPos :=
  (C126_overlap_partial exRunTraj none [] 3 (.num 1) 1 exRunPos).1

/-! ### C135, C136 -/

/-- Two frames of three particles, only the first is used. -/
example : ∃ r, skLegacy { exSk with skip := 2 } = .ok r ∧ skLegacy { exSk with frames := exSk.frames.take 1, skip := 1 } = .ok r := by
  have hr : SkRegular { exSk with skip := 2 } := ⟨exSk_regular.frames_ne, two_pos, exSk_regular.dims, exSk_regular.same,
    exSk_regular.pos0, exSk_regular.pos1, exSk_regular.allowed, exSk_regular.shells⟩
  refine C135_constant_partial { exSk with skip := 2 } hr (exSk.frames.take 1) ?_ (n0 := 3) (n1 := 3) ?_ ?_
  · intro i
    rcases i with _ | i
    · rfl
    · show _ = exSk.frames[(i + 1) * 2]?
      rw [List.getElem?_eq_none (by show 1 ≤ i + 1; omega), List.getElem?_eq_none (by show 2 ≤ (i + 1) * 2; omega)]
  · simp [exSk]
  · simp [exSk]

/-- The first particle moved by one cell side along the first axis, with weights. -/
example : ∃ r, skLegacy exSkWeighted = .ok r ∧ skLegacy (exSkWeighted.mapFrames fun f => { f with
      pos0 := f.pos0.mapIdx fun p x c => x c + (if p = 0 ∧ c = 0 then 1 else 0 : ℤ) * (2 * Real.pi)
      pos1 := f.pos1.mapIdx fun p x c => x c + (if p = 0 ∧ c = 0 then 1 else 0 : ℤ) * (2 * Real.pi) }) = .ok r := by
  refine C136_images_partial exSkWeighted exSkWeighted_regular (fun _ _ => 2 * Real.pi) (fun _ _ _ => by positivity) ?_
    (fun _ p c => if p = 0 ∧ c = 0 then 1 else 0) (fun _ p c => if p = 0 ∧ c = 0 then 1 else 0) (fun _ => rfl)
  intro f hf c
  simp only [exSkWeighted, List.mem_singleton] at hf
  subst hf
  have : 2 * Real.pi / (2 * Real.pi) = 1 := div_self (by positivity)
  rw [this]
  fin_cases c <;> simp [exKs]

/-! ### C138 -/

/-- Four particles stored by columns: those within 1 of the border of a 10 x 6 cell. -/
example : onSurfaceF (![![0, 9 / 2, 0, -4], ![0, 0, -5 / 2, 2]] : Fin 2 → Fin 4 → ℚ) ![10, 6] 1 =
    [false, true, true, false] := by decide +kernel

/-! ### C149 -/

/-- Two frames in one cell, three wave-numbers, at most two wave-vectors for each. -/
example : ∃ depth r rows, skComputeA ⟨depth, fun _ l n => l.take n, ⟨2, 1 / 10, -1, 10, 20⟩, true, false, 1⟩
      [⟨![5, 6, 7], [![0, 1, 2], ![1, 1, 1]], [![0, 1, 2], ![1, 1, 1]], [], []⟩,
       ⟨![5, 6, 7], [![0, 2, 2], ![1, 3, 1]], [![0, 2, 2], ![1, 3, 1]], [], []⟩]
      (KAttrs.new 3 (some [3, 2, 3])) = .ok r ∧ r.2.2.report Real.sqrt = .ok rows ∧ ∀ q ∈ rows, (q.2.2.2 : ℤ) ≤ 2 := by
  have hside : ∀ c, 0 < (![5, 6, 7] : Vec 3 ℝ) c := by intro c; fin_cases c <;> norm_num
  obtain ⟨depth, r, h, h1, -⟩ := C147_constructor_partial isSample_take (Or.inr rfl) (p := ⟨2, 1 / 10, -1, 10, 20⟩)
    (by norm_num) (by norm_num) (skip := 1) one_pos
    (fr := [⟨![5, 6, 7], [![0, 1, 2], ![1, 1, 1]], [![0, 1, 2], ![1, 1, 1]], [], []⟩,
       ⟨![5, 6, 7], [![0, 2, 2], ![1, 3, 1]], [![0, 2, 2], ![1, 3, 1]], [], []⟩])
    (f0 := ⟨![5, 6, 7], [![0, 1, 2], ![1, 1, 1]], [![0, 1, 2], ![1, 1, 1]], [], []⟩) rfl (by simp) hside (by simp)
    (g := [3, 2, 3]) (by intro x hx; simp at hx; rcases hx with rfl | rfl | rfl <;> norm_num) (by simp) false
  obtain ⟨g, v, a'⟩ := r
  obtain ⟨rows, e1, e2⟩ := C149_nk_partial _ isSample_take rfl (by simp) h
  exact ⟨depth, _, rows, h, e1, e2⟩

/-! ### C154, C155 -/

example : baCompute [[2]] 1 1 [0, 60, 120, 180] [moveBa (fun x i => x i + 3) trimer.side trimer] =
    baCompute [[2]] 1 1 [0, 60, 120, 180] [trimer] :=
  C154_translation (fun _ => 3) [[2]] 1 1 _ [trimer]

/-- Inversion of the axis. -/
example : baCompute [[2]] 1 1 [0, 60, 120, 180] [moveBa (axesVec 1 fun _ => true) (axesOf 1 trimer.side) trimer] =
    baCompute [[2]] 1 1 [0, 60, 120, 180] [trimer] :=
  C154_axes 1 (fun _ => true) [[2]] 1 1 _ [trimer] (by simp [trimer])

/-- Lengths in a unit three times smaller. -/
example : baCompute [[3 * 2]] 1 1 [0, 60, 120, 180] [moveBa (scaleVec 3) (scaleVec 3 trimer.side) trimer] =
    baCompute [[2]] 1 1 [0, 60, 120, 180] [trimer] :=
  C154_unit (by norm_num : (0 : ℝ) < 3) [[2]] 1 1 _ [trimer]

/-- The two neighbours exchanged. -/
noncomputable def trimerSwap : BaFrame 1 :=
  { side := fun _ => 10, pos0 := [fun _ => 0], ids0 := [0], pos1 := [fun _ => -1, fun _ => 1], ids1 := [0, 0] }

theorem trimerSwap_same : SameParticles trimer trimerSwap :=
  ⟨rfl, rfl, rfl, List.Perm.refl _, List.Perm.swap _ _ _⟩

example : baCompute [[2]] 1 1 [0, 60, 120, 180] [trimerSwap] = baCompute [[2]] 1 1 [0, 60, 120, 180] [trimer] :=
  C155_labels (rc := fun _ _ => 2) one_pos [0, 60, 120, 180] (by simp) [(trimer, trimerSwap)] (by
    intro p hp
    rw [List.mem_singleton] at hp
    subst hp
    exact ⟨trimer_valid, trimerSwap_same⟩)

/-- A frame with an angle followed by a frame with one neighbour only, and the other way around. -/
noncomputable def trimerHalf : BaFrame 1 := { trimer with pos1 := [fun _ => 1, fun _ => 4] }

theorem trimerHalf_valid : BaValid [[2]] (fun _ _ => 2) trimerHalf := by
  refine ⟨rfl, rfl, trimer_valid.side, ?_, trimer_valid.rows⟩
  intro x hx y hy c
  simp only [trimerHalf, trimer, List.mem_cons, List.not_mem_nil, or_false] at hx hy
  subst hx
  rcases hy with rfl | rfl <;> norm_num [trimerHalf, trimer]

example : baCompute [[2]] 1 1 [0, 60, 120, 180] [trimerHalf, trimer] =
    baCompute [[2]] 1 1 [0, 60, 120, 180] [trimer, trimerHalf] :=
  C155_order (rc := fun _ _ => 2) _ (by simp) (List.Perm.swap _ _ _) (by
    intro f hf
    simp only [List.mem_cons, List.not_mem_nil, or_false] at hf
    rcases hf with rfl | rfl
    · exact trimer_valid
    · exact trimerHalf_valid)

/-! ### C204 -/

/-- The attributes of three particles after the selection of those of species A. -/
example : List.Forall₂ (fun p q => ∀ k, k ≠ "__builtins__".toList → dictGet q k = dictGet p k) exParticles
    (filterEval exSem exParse "species == 'A'".toList exParticles).1 :=
  C204_attributes_partial exSem exParse _ exParticles

end PP.Props
