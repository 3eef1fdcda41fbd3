import Verif.Props.Overlap
import Verif.Lemmas.ArithHom
import Verif.Model.Analysis
import Verif.Model.Fkt
import Mathlib.Algebra.BigOperators.Field
import Mathlib.Data.Fin.VecNotation
import Mathlib.Logic.Equiv.Fin.Basic

/-!
# C106-C109: labels of the particles, first step, units and orientation
-/

set_option linter.unusedSectionVars false

namespace PP.Props
open PP

variable {K : Type} [Field K] [LinearOrder K] [IsStrictOrderedRing K] [FloorRing K] {n d : ℕ}

/-! ## C106 -/

/-- A frame with the particles in another order. -/
def relabel (σ : Equiv.Perm (Fin n)) (x : Frame n d K) : Frame n d K := fun p => x (σ p)

theorem sqDisp_relabel (σ : Equiv.Perm (Fin n)) (x y : Frame n d K) :
    sqDisp (relabel σ x) (relabel σ y) = sqDisp x y :=
  Equiv.sum_comp σ fun p => ∑ c, (x p c - y p c) ^ 2

theorem msdGrid_map (h : Frame n d K → Frame n d K) (hk : ∀ a b, msdKernel (h a) (h b) = msdKernel a b)
    (tr : Traj K) (rmax : K) (tsamples : ℤ) (pos : List (Frame n d K)) :
    msdGrid tr rmax tsamples (pos.map h) = msdGrid tr rmax tsamples pos := by
  unfold msdGrid
  have hg : ∀ i, pyGet (pos.map h) i = (pyGet pos i).map h := by
    intro i; unfold pyGet; rw [List.getElem?_map]; cases pos[i]? <;> rfl
  rw [List.length_map, hg, hg]
  cases h1 : pyGet pos (pos.length - 1) <;> cases h2 : pyGet pos 0 <;>
    simp only [Except.map, bind, Except.bind, hk]

theorem msdCompute_map (h : Frame n d K → Frame n d K) (hk : ∀ a b, msdKernel (h a) (h b) = msdKernel a b)
    (tr : Traj K) (skip : ℕ) (grid : Option (List K)) (rmax : K) (tsamples : ℤ) (offset : Bool)
    (pos : List (Frame n d K)) :
    msdCompute tr skip grid rmax tsamples offset (pos.map h) = msdCompute tr skip grid rmax tsamples offset pos := by
  unfold msdCompute
  rw [msdGrid_map h hk]
  simp only [timeCorr_map, hk]

theorem zipIdx_map_pair (h : Frame n d K → Frame n d K) (pos : List (Frame n d K)) :
    ((pos.map h).zipIdx.map fun e => (e.2, e.1))
      = (pos.zipIdx.map fun e => (e.2, e.1)).map fun e : ℕ × Frame n d K => (e.1, h e.2) := by
  rw [List.zipIdx_map, List.map_map, List.map_map]
  rfl

theorem alpha2Compute_map (h : Frame n d K → Frame n d K)
    (hk : ∀ a b : ℕ × Frame n d K, alpha2Kernel (a.1, h a.2) (b.1, h b.2) = alpha2Kernel a b)
    (tr : Traj K) (dg : List (ℕ × ℕ)) (skip : ℕ) (pos : List (Frame n d K)) :
    alpha2Compute tr dg skip (pos.map h) = alpha2Compute tr dg skip pos := by
  unfold alpha2Compute
  rw [zipIdx_map_pair, timeCorr_map]
  simp only [hk]

theorem selfOverlap_relabel (σ : Equiv.Perm (Fin n)) (x y : Frame n d K) (a : K) :
    selfOverlap (relabel σ x) (relabel σ y) a = selfOverlap x y a := by
  rw [selfOverlap_card, selfOverlap_card]
  refine Finset.card_bij (fun p _ => σ p) ?_ (fun _ _ _ _ h => σ.injective h) ?_
  · intro p hp
    rw [Finset.mem_filter] at hp ⊢
    exact ⟨Finset.mem_univ _, hp.2⟩
  · intro q hq
    rw [Finset.mem_filter] at hq
    refine ⟨σ.symm q, ?_, by simp⟩
    rw [Finset.mem_filter]
    exact ⟨Finset.mem_univ _, by simpa [relabel, Spec.disp2] using hq.2⟩

/-- The pairs counted by the collective overlap. -/
theorem collectiveOverlap_pairs (x y : Frame n d K) (a : K) :
    collectiveOverlap x y a
      = (Finset.univ.filter fun e : Fin n × Fin n => sqDist (x e.1) (y e.2) < a).card := by
  unfold collectiveOverlap
  have h : ((List.finRange n).flatMap fun i => (List.finRange n).map fun j => sqDist (x j) (y i))
      = ((List.finRange n).flatMap fun i => (List.finRange n).map fun j => (j, i)).map
        fun e : Fin n × Fin n => sqDist (x e.1) (y e.2) := by
    rw [List.map_flatMap]
    simp only [List.map_map]
    rfl
  rw [h, List.countP_map, List.countP_eq_length_filter, ← List.toFinset_card_of_nodup]
  · congr 1
    ext e
    simp
  · refine List.Nodup.filter _ ?_
    rw [List.nodup_flatMap]
    refine ⟨fun i _ => (List.nodup_finRange n).map fun a b h => (Prod.mk.inj h).1, ?_⟩
    refine (List.nodup_finRange n).imp ?_
    intro i j hij e h1 h2
    simp only [List.mem_map] at h1 h2
    obtain ⟨_, _, rfl⟩ := h1
    obtain ⟨_, _, h⟩ := h2
    exact hij (Prod.mk.inj h).2.symm

theorem collectiveOverlap_relabel (σ τ : Equiv.Perm (Fin n)) (x y : Frame n d K) (a : K) :
    collectiveOverlap (relabel σ x) (relabel τ y) a = collectiveOverlap x y a := by
  rw [collectiveOverlap_pairs, collectiveOverlap_pairs]
  refine Finset.card_bij (fun e _ => (σ e.1, τ e.2)) ?_ ?_ ?_
  · intro p hp
    rw [Finset.mem_filter] at hp ⊢
    exact ⟨Finset.mem_univ _, hp.2⟩
  · intro p _ q _ h
    have h := Prod.mk.inj h
    exact Prod.ext (σ.injective h.1) (τ.injective h.2)
  · intro q hq
    rw [Finset.mem_filter] at hq
    refine ⟨(σ.symm q.1, τ.symm q.2), ?_, by simp⟩
    rw [Finset.mem_filter]
    exact ⟨Finset.mem_univ _, by simpa [relabel] using hq.2⟩

theorem alpha2Kernel_relabel (σ : Equiv.Perm (Fin n)) (a b : ℕ × Frame n d K) :
    alpha2Kernel (a.1, relabel σ a.2) (b.1, relabel σ b.2) = alpha2Kernel a b := by
  unfold alpha2Kernel
  rw [sqDisp_relabel]
  have := Equiv.sum_comp σ fun p => (∑ c, (a.2 p c - b.2 p c) ^ 2) ^ 2
  simp only [relabel] at this ⊢
  rw [this]

/-- **C106.** The mean square displacement, the velocity autocorrelation, the non-Gaussian parameter, the self and
collective overlaps do not depend on the order of the particles in the trajectory (nor do the errors). -/
theorem C106_relabel (σ : Equiv.Perm (Fin n)) (tr : Traj K) (skip : ℕ) (grid : Option (List K)) (rmax : K)
    (tsamples : ℤ) (offset : Bool) (norigins : NOrigins) (dg : List (ℕ × ℕ)) (a : K) (x : List (Frame n d K)) :
    msdCompute tr skip grid rmax tsamples offset (x.map (relabel σ))
        = msdCompute tr skip grid rmax tsamples offset x ∧
    vacfRun tr grid tsamples norigins (x.map (relabel σ)) = vacfRun tr grid tsamples norigins x ∧
    alpha2Compute tr dg skip (x.map (relabel σ)) = alpha2Compute tr dg skip x ∧
    qstCompute tr dg skip a (x.map (relabel σ)) = qstCompute tr dg skip a x ∧
    qtCompute tr dg skip a (x.map (relabel σ)) = qtCompute tr dg skip a x := by
  refine ⟨?_, ?_, ?_, ?_, ?_⟩
  · refine msdCompute_map _ (fun x y => ?_) tr skip grid rmax tsamples offset x
    unfold msdKernel; rw [sqDisp_relabel]
  · unfold vacfRun vacfCompute
    simp only [timeCorr_map]
    have : ∀ x y : Frame n d K, vacfKernel (relabel σ x) (relabel σ y) = vacfKernel x y := by
      intro x y
      unfold vacfKernel
      congr 2
      exact Equiv.sum_comp σ fun p => ∑ c, x p c * y p c
    simp only [this]
  · exact alpha2Compute_map _ (alpha2Kernel_relabel σ) tr dg skip x
  · unfold qstCompute
    simp only [timeCorr_map, selfOverlap_relabel]
  · unfold qtCompute
    simp only [timeCorr_map, collectiveOverlap_relabel]

/-- Applying a different permutation to each frame. -/
def relabelEach (σ : ℕ → Equiv.Perm (Fin n)) (x : List (Frame n d K)) : List (Frame n d K) :=
  x.zipIdx.map fun e => relabel (σ e.2) e.1

/-- **C106**, collective overlap: the order of the particles may also change from frame to frame. -/
theorem C106_collective (σ : ℕ → Equiv.Perm (Fin n)) (tr : Traj K) (dg : List (ℕ × ℕ)) (skip : ℕ) (a : K)
    (x : List (Frame n d K)) : qtCompute tr dg skip a (relabelEach σ x) = qtCompute tr dg skip a x := by
  unfold relabelEach
  conv_rhs => rw [← List.zipIdx_map_fst 0 x]
  unfold qtCompute
  simp only [timeCorr_map, collectiveOverlap_relabel]

/-- **C106**, the other functions follow the particles by their position in the frame: for any two distinct
particles at rest, exchanging them in the second frame changes the mean square displacement. -/
theorem C106_each_frame_counts (u v : Fin d → K) (huv : u ≠ v) (dt : K) (hdt : dt ≠ 0) :
    let x : Frame 2 d K := ![u, v]
    let tr : Traj K := ⟨[0, 1], dt, 1, dt, [2, 2]⟩
    msdCompute tr 1 (some [dt]) (-1) 30 true [x, x] = .ok ([1 * dt], [some 0]) ∧
    ∃ w, msdCompute tr 1 (some [dt]) (-1) 30 true [x, relabel (Equiv.swap 0 1) x] = .ok ([1 * dt], [some w]) ∧
      w ≠ 0 := by
  intro x tr
  have hr : pyRound (dt / dt) = 1 := by
    rw [div_self hdt]
    simp [pyRound]
  have hd : pyDiv dt dt = .ok (dt / dt) := by unfold pyDiv; rw [if_neg hdt]
  have hs : setupTGrid tr.steps tr.blockSize tr.timestep [dt] true = .ok [(0, 1)] := by
    have h1 : offSamp tr.steps (if true = true then List.range tr.blockSize else [0]) = .ok [(0, (0, 0)), (1, (0, 1))] := by
      change offSamp [0, 1] (List.range 1) = _
      decide +kernel
    unfold setupTGrid
    rw [h1]
    simp only [List.mapM_cons, List.mapM_nil, bind, Except.bind, pure, Except.pure]
    rw [show tr.timestep = dt from rfl, hd]
    simp only [hr]
    rfl
  have hc : ∀ y : Frame 2 d K, msdCompute tr 1 (some [dt]) (-1) 30 true [x, y]
      = .ok ([1 * dt], [some ((0 + sqDisp y x / (2 : ℕ)) / (1 : ℕ))]) := by
    intro y
    unfold msdCompute
    simp only [bind, Except.bind, hs]
    have hx : ∀ a b : Frame 2 d K, msdKernel a b = .ok (some (sqDisp a b / ((2 : ℕ) : K))) := fun a b => rfl
    simp [timeCorr, gcfOffset, corrLoop, corrStep, pyRange, rangeList, pyGet, ddAdd, ddGet, hx, bind, Except.bind,
      pure, Except.pure, pySorted, dictKeys, Arith.nan, tr]
  refine ⟨?_, ?_⟩
  · rw [hc]
    simp [sqDisp]
  · refine ⟨_, hc _, ?_⟩
    have h2 : sqDisp (relabel (Equiv.swap 0 1) x) x = 2 * ∑ c, (u c - v c) ^ 2 := by
      simp only [sqDisp, relabel, Fin.sum_univ_two, Equiv.swap_apply_left, Equiv.swap_apply_right, x,
        Matrix.cons_val_zero, Matrix.cons_val_one, two_mul]
      rw [add_comm]
      congr 1
      exact Finset.sum_congr rfl fun c _ => by ring
    have hpos : 0 < ∑ c, (u c - v c) ^ 2 := by
      obtain ⟨c, hcne⟩ := Function.ne_iff.1 huv
      refine Finset.sum_pos' (fun c _ => sq_nonneg _) ⟨c, Finset.mem_univ _, ?_⟩
      exact sq_pos_of_ne_zero (sub_ne_zero.2 hcne)
    rw [h2]
    simp [hpos.ne']

/-- Hypotheses of the previous theorem: two particles on a line. -/
example : (![0] : Fin 1 → ℚ) ≠ ![3] ∧
    msdCompute (K := ℚ) (n := 3) (d := 1) ⟨[0, 1], 1, 1, 1, [3, 3]⟩ 1 (some [1]) (-1) 30 true
      ([![![0], ![1], ![5]], ![![1], ![3], ![5]]].map (relabel (finRotate 3))) = .ok ([1], [some (5 / 3)]) := by
  refine ⟨by decide +kernel, by decide +kernel⟩

/-! ## C107 -/

theorem pyGet_mapped {α β : Type} (h : α → β) (l : List α) (i : ℕ) : pyGet (l.map h) i = (pyGet l i).map h := by
  unfold pyGet; rw [List.getElem?_map]; cases l[i]? <;> rfl

theorem offSamp_shift (steps : List ℤ) (s : ℤ) (offsets : List ℕ) :
    offSamp (steps.map (· + s)) offsets = offSamp steps offsets := by
  have h : ∀ off, offSampInner (steps.map (· + s)) off = offSampInner steps off := by
    intro off
    funext D i
    unfold offSampInner
    rw [pyGet_mapped, pyGet_mapped]
    cases pyGet steps i <;> cases pyGet steps off <;>
      simp [Except.map, bind, Except.bind]
  unfold offSamp
  simp only [h, List.length_map]

theorem setupTGrid_shift (steps : List ℤ) (s : ℤ) (bs : ℕ) (dt : K) (g : List K) (offset : Bool) :
    setupTGrid (steps.map (· + s)) bs dt g offset = setupTGrid steps bs dt g offset := by
  unfold setupTGrid
  rw [offSamp_shift]

theorem gcfOffset_shift {X V : Type} (ar : Arith V) (f : X → X → Py V) (dg : List (ℕ × ℕ)) (skip : ℕ)
    (steps : List ℤ) (s : ℤ) (x : List X) :
    gcfOffset ar f dg skip (steps.map (· + s)) x = gcfOffset ar f dg skip steps x := by
  have h : ∀ i, corrStep ar f (steps.map (· + s)) x i = corrStep ar f steps x i := by
    intro i
    funext acc i0
    unfold corrStep
    rw [pyGet_mapped, pyGet_mapped]
    cases pyGet steps (i0 + i) <;> cases pyGet steps i0 <;>
      simp [Except.map, bind, Except.bind]
  unfold gcfOffset corrLoop
  simp only [h]

/-- The trajectory whose steps are counted from another origin. -/
def shiftSteps (s : ℤ) (tr : Traj K) : Traj K := { tr with steps := tr.steps.map (· + s) }

theorem timeCorr_shift {X V : Type} (ar : Arith V) (f : X → X → Py V) (tr : Traj K) (s : ℤ) (dg : List (ℕ × ℕ))
    (skip : ℕ) (x : List X) : timeCorr ar f (shiftSteps s tr) dg skip x = timeCorr ar f tr dg skip x := by
  unfold timeCorr shiftSteps
  simp only [gcfOffset_shift]

/-- **C107.** The time correlation functions depend on the steps through their differences only: a trajectory that
starts at a step other than zero, such as a restart, gives the same results (and errors). -/
theorem C107_first_step (s : ℤ) (tr : Traj K) (skip : ℕ) (grid : Option (List K)) (tgrid : List K) (rmax : K)
    (tsamples : ℤ) (offset : Bool) (norigins : NOrigins) (a vol : K) (mass : List K) (x : List (Frame n d K))
    (frames : List ((Fin d → Fin d → K) × List (Fin d → K))) :
    setupTGrid (shiftSteps s tr).steps tr.blockSize tr.timestep tgrid offset
        = setupTGrid tr.steps tr.blockSize tr.timestep tgrid offset ∧
    msdCompute (shiftSteps s tr) skip grid rmax tsamples offset x
        = msdCompute tr skip grid rmax tsamples offset x ∧
    vacfRun (shiftSteps s tr) grid tsamples norigins x = vacfRun tr grid tsamples norigins x ∧
    sacfRun (shiftSteps s tr) tgrid norigins vol mass frames = sacfRun tr tgrid norigins vol mass frames ∧
    qstRun (shiftSteps s tr) tgrid norigins a x = qstRun tr tgrid norigins a x ∧
    (∀ dg, alpha2Compute (shiftSteps s tr) dg skip x = alpha2Compute tr dg skip x) ∧
    (∀ dg, qtCompute (shiftSteps s tr) dg skip a x = qtCompute tr dg skip a x) ∧
    (∀ dg st, chi4ComputeFull (shiftSteps s tr) x skip a dg st = chi4ComputeFull tr x skip a dg st) ∧
    (∀ dg st, chi4OptComputeFull (shiftSteps s tr) x skip a dg st = chi4OptComputeFull tr x skip a dg st) := by
  refine ⟨setupTGrid_shift .., ?_, ?_, ?_, ?_, ?_, ?_, ?_, ?_⟩
  · unfold msdCompute msdGrid
    simp only [timeCorr_shift]
    simp only [shiftSteps, setupTGrid_shift]
  · unfold vacfRun vacfCompute vacfInit
    simp only [timeCorr_shift]
    simp only [shiftSteps, setupTGrid_shift, List.length_map, offSamp_shift]
  · unfold sacfRun sacfCompute
    simp only [timeCorr_shift]
    simp only [shiftSteps, setupTGrid_shift, List.length_map]
  · unfold qstRun qstCompute
    simp only [timeCorr_shift]
    simp only [shiftSteps, setupTGrid_shift, List.length_map]
  · intro dg; exact timeCorr_shift ..
  · intro dg; exact timeCorr_shift ..
  · intro dg st
    have : ∀ a2 : K, chi4Outer (n := n) (d := d) (shiftSteps s tr) skip a2 = chi4Outer tr skip a2 := by
      intro a2
      funext st g
      unfold chi4Outer
      simp only [shiftSteps, pyGet_mapped]
      cases pyGet tr.steps (g.1 + g.2) <;> cases pyGet tr.steps g.1 <;>
        simp [Except.map, bind, Except.bind]
    unfold chi4ComputeFull chi4Compute
    rw [this]
  · intro dg st
    have : ∀ a2 : K, chi4OptOuter (n := n) (d := d) (shiftSteps s tr) skip a2 = chi4OptOuter tr skip a2 := by
      intro a2
      funext st g
      unfold chi4OptOuter
      simp only [shiftSteps, pyGet_mapped]
      cases pyGet tr.steps (g.1 + g.2) <;> cases pyGet tr.steps g.1 <;>
        simp [Except.map, bind, Except.bind]
    unfold chi4OptComputeFull
    rw [this]

theorem fkLoops_shift (steps : List ℤ) (s : ℤ) (nframes skip m : ℕ) (tgrid : List (ℕ × ℕ))
    (kernel : ℕ → ℕ → KVec d → Py ℝ) (kvectors : List (List (KVec d))) (acc : List (Acc ℤ ℝ)) :
    fkLoops (steps.map (· + s)) nframes skip m tgrid kernel kvectors acc
      = fkLoops steps nframes skip m tgrid kernel kvectors acc := by
  have h : ∀ (i0 i : ℕ) (f : ℤ → ℤ → Py (List (Acc ℤ ℝ))), (∀ a b, f (a + s) (b + s) = f a b) →
      (do let ta ← pyGet (steps.map (· + s)) (i0 + i)
          let tb ← pyGet (steps.map (· + s)) i0
          f ta tb) = (do let ta ← pyGet steps (i0 + i); let tb ← pyGet steps i0; f ta tb) := by
    intro i0 i f hf
    rw [pyGet_mapped, pyGet_mapped]
    cases pyGet steps (i0 + i) <;> cases pyGet steps i0 <;>
      simp [Except.map, bind, Except.bind, hf]
  unfold fkLoops
  congr 1
  funext acc kl
  congr 1
  funext acc kvec
  congr 1
  funext acc g
  congr 1
  funext r
  congr 1
  funext acc i0
  exact h i0 g.2 (fun ta tb => do
    let v ← kernel i0 g.2 kvec
    fkAdd acc kl.2 (ta - tb) v m) fun a b => by simp

/-- **C107**, intermediate scattering functions. -/
theorem C107_first_step_fkt (s : ℤ) (tr : Traj ℝ) (tgrid : Option (List ℝ)) (tsamples : ℕ) (normalize offset : Bool)
    (o : FsObj d) (q : FkObj d) :
    fktInit (shiftSteps s tr) tgrid tsamples normalize offset = fktInit tr tgrid tsamples normalize offset ∧
    fsLegacy { o with steps := o.steps.map (· + s) } = fsLegacy o ∧
    fsFast { o with steps := o.steps.map (· + s) } = fsFast o ∧
    fkCompute { q with steps := q.steps.map (· + s) } = fkCompute q := by
  refine ⟨?_, ?_, ?_, ?_⟩
  · unfold fktInit
    simp only [shiftSteps, setupTGrid_shift]
  · unfold fsLegacy fsCompute
    simp only [fkLoops_shift]
  · unfold fsFast fsBlockFast fsCompute
    simp only [fkLoops_shift]
  · unfold fkCompute fkSecond
    simp only [fkLoops_shift]

/-- A trajectory that starts at step 1000. -/
example :
    let tr : Traj ℚ := ⟨[0, 1, 2], 1 / 2, 1, 1, [2, 2, 2]⟩
    shiftSteps 1000 tr = ⟨[1000, 1001, 1002], 1 / 2, 1, 1, [2, 2, 2]⟩ ∧
    msdCompute (K := ℚ) (n := 2) (d := 1) (shiftSteps 1000 tr) 1 (some [0, 1]) (-1) 30 true
      [![![0], ![1]], ![![1], ![1]], ![![3], ![0]]] = .ok ([0, 1], [some 0, some 5]) := by
  refine ⟨rfl, by decide +kernel⟩

/-! ## C108 -/

/-- The trajectory in another unit of time. -/
def scaleTime (c : K) (tr : Traj K) : Traj K := { tr with timestep := c * tr.timestep, totalTime := c * tr.totalTime }

theorem setupTGrid_scale (c : K) (hc : c ≠ 0) (steps : List ℤ) (bs : ℕ) (dt : K) (g : List K) (offset : Bool) :
    setupTGrid steps bs (c * dt) (g.map (c * ·)) offset = setupTGrid steps bs dt g offset := by
  have h : ∀ t : K, pyDiv (c * t) (c * dt) = pyDiv t dt := by
    intro t
    unfold pyDiv
    by_cases hd : dt = 0
    · simp [hd]
    · rw [if_neg (mul_ne_zero hc hd), if_neg hd, mul_div_mul_left _ _ hc]
  unfold setupTGrid
  rw [List.mapM_map]
  simp only [Function.comp_def, h]

theorem timeCorr_scaleTime {X V : Type} (c : K) (ar : Arith V) (f : X → X → Py V) (tr : Traj K) (dg : List (ℕ × ℕ))
    (skip : ℕ) (x : List X) :
    timeCorr ar f (scaleTime c tr) dg skip x
      = (timeCorr ar f tr dg skip x).map fun r => (r.1.map (c * ·), r.2) := by
  unfold timeCorr scaleTime
  simp only [bind, Except.bind]
  cases gcfOffset ar f dg skip tr.steps x with
  | error e => rfl
  | ok r =>
    simp only [Except.map, pure, Except.pure, List.map_map]
    congr 2
    refine List.map_congr_left fun t _ => ?_
    simp only [Function.comp_apply]
    ring

theorem linearGrid_scale (c b : K) (m : ℤ) :
    linearGrid 0 (c * b) (.int m) = (linearGrid 0 b (.int m)).map (List.map (c * ·)) := by
  simp only [linearGrid, Except.map, List.map_map]
  congr 1
  refine List.map_congr_left fun i _ => ?_
  simp only [Function.comp_apply, zero_add, sub_zero]
  split_ifs <;> ring

theorem msdGrid_scale (c : K) (hc : 0 < c) (tr : Traj K) (rmax : K) (tsamples : ℤ) (x : List (Frame n d K)) :
    msdGrid (scaleTime c tr) rmax tsamples x = (msdGrid tr rmax tsamples x).map (List.map (c * ·)) := by
  unfold msdGrid
  by_cases hr : rmax > 0
  · rw [if_pos hr, if_pos hr]
    cases pyGet x (x.length - 1) with
    | error e => rfl
    | ok l =>
      cases pyGet x 0 with
      | error e => rfl
      | ok f =>
        simp only [bind, Except.bind, msdKernel]
        have hm : ∀ a b : K, min (c * a) (c * b) = c * min a b := fun a b => (mul_min_of_nonneg a b hc.le).symm
        cases perParticle n (sqDisp l f) with
        | none =>
          simp only [scaleTime, hm, linearGrid_scale]
        | some m =>
          simp only [scaleTime]
          by_cases h0 : m = 0
          · simp only [h0, if_true, hm, linearGrid_scale]
          · simp only [h0, if_false]
            rw [show rmax ^ 2 / m * (c * tr.totalTime) = c * (rmax ^ 2 / m * tr.totalTime) by ring, hm, linearGrid_scale]
  · rw [if_neg hr, if_neg hr]
    exact linearGrid_scale ..

/-- **C108.** In another unit of time, in which the time step, the total time and the requested times are multiplied by
`c > 0`, the reported times are multiplied by `c` and the values are the same (and so are the errors). -/
theorem C108_unit_of_time (c : K) (hc : 0 < c) (tr : Traj K) (skip : ℕ) (grid : Option (List K)) (tgrid : List K)
    (rmax : K) (tsamples : ℤ) (offset : Bool) (norigins : NOrigins) (a : K) (x : List (Frame n d K)) :
    setupTGrid tr.steps tr.blockSize (c * tr.timestep) (tgrid.map (c * ·)) offset
        = setupTGrid tr.steps tr.blockSize tr.timestep tgrid offset ∧
    msdCompute (scaleTime c tr) skip (grid.map (List.map (c * ·))) rmax tsamples offset x
        = (msdCompute tr skip grid rmax tsamples offset x).map (fun r => (r.1.map (c * ·), r.2)) ∧
    vacfRun (scaleTime c tr) (some (tgrid.map (c * ·))) tsamples norigins x
        = (vacfRun tr (some tgrid) tsamples norigins x).map (fun r => (r.1.map (c * ·), r.2)) ∧
    qstRun (scaleTime c tr) (tgrid.map (c * ·)) norigins a x
        = (qstRun tr tgrid norigins a x).map (fun r => (r.1.map (c * ·), r.2)) ∧
    (∀ dg, alpha2Compute (scaleTime c tr) dg skip x
        = (alpha2Compute tr dg skip x).map fun r => (r.1.map (c * ·), r.2)) ∧
    (∀ dg, qtCompute (scaleTime c tr) dg skip a x
        = (qtCompute tr dg skip a x).map fun r => (r.1.map (c * ·), r.2)) := by
  have hs := setupTGrid_scale c hc.ne'
  refine ⟨hs .., ?_, ?_, ?_, ?_, ?_⟩
  · unfold msdCompute
    cases grid with
    | some g =>
      simp only [Option.map_some, timeCorr_scaleTime, bind, Except.bind]
      rw [show (scaleTime c tr).timestep = c * tr.timestep from rfl, hs]
      simp only [scaleTime]
      cases setupTGrid tr.steps tr.blockSize tr.timestep g offset <;> rfl
    | none =>
      simp only [Option.map_none, timeCorr_scaleTime, bind, Except.bind, msdGrid_scale c hc]
      cases msdGrid tr rmax tsamples x with
      | error e => rfl
      | ok g =>
        simp only [Except.map]
        rw [show (scaleTime c tr).timestep = c * tr.timestep from rfl, hs]
        simp only [scaleTime]
        cases setupTGrid tr.steps tr.blockSize tr.timestep g offset <;> rfl
  · unfold vacfRun vacfCompute vacfInit
    simp only [timeCorr_scaleTime, bind, Except.bind]
    rw [show (scaleTime c tr).timestep = c * tr.timestep from rfl, hs]
    simp only [scaleTime]
    cases adjustSkip tr.steps.length tr.blockSize tr.npart norigins with
    | error e => rfl
    | ok r => cases setupTGrid tr.steps tr.blockSize tr.timestep tgrid norigins.offset <;> rfl
  · unfold qstRun qstCompute
    simp only [timeCorr_scaleTime, bind, Except.bind]
    rw [show (scaleTime c tr).timestep = c * tr.timestep from rfl, hs]
    simp only [scaleTime]
    cases adjustSkip tr.steps.length tr.blockSize tr.npart norigins with
    | error e => rfl
    | ok r => cases setupTGrid tr.steps tr.blockSize tr.timestep tgrid norigins.offset <;> rfl
  · intro dg; exact timeCorr_scaleTime ..
  · intro dg; exact timeCorr_scaleTime ..

/-- Time step of 1/2, then of 500 in another unit. -/
example :
    let tr : Traj ℚ := ⟨[0, 1, 2], 1 / 2, 1, 1, [2, 2, 2]⟩
    let x : List (Frame 2 1 ℚ) := [![![0], ![1]], ![![1], ![1]], ![![3], ![0]]]
    msdCompute tr 1 (some [0, 1]) (-1) 30 true x = .ok ([0, 1], [some 0, some 5]) ∧
    msdCompute (scaleTime 1000 tr) 1 (some [0, 1000]) (-1) 30 true x = .ok ([0, 1000], [some 0, some 5]) := by
  refine ⟨by decide +kernel, by decide +kernel⟩

/-! ## C109 -/

/-- `h` multiplies all distances by `s`: a change of the unit of length, a rotation, a reflection, a translation... -/
def Similarity (s : K) (h : (Fin d → K) → Fin d → K) : Prop :=
  ∀ u v, ∑ c, (h u c - h v c) ^ 2 = s ^ 2 * ∑ c, (u c - v c) ^ 2

/-- All the particles of a frame moved by `h`. -/
def moved (h : (Fin d → K) → Fin d → K) (x : Frame n d K) : Frame n d K := fun p => h (x p)

theorem sqDisp_moved {s : K} {h : (Fin d → K) → Fin d → K} (hh : Similarity s h) (x y : Frame n d K) :
    sqDisp (moved h x) (moved h y) = s ^ 2 * sqDisp x y := by
  unfold sqDisp moved
  rw [Finset.mul_sum]
  exact Finset.sum_congr rfl fun p _ => hh _ _

theorem perParticle_mul (k v : K) : perParticle n (k * v) = (perParticle n v).map (k * ·) := by
  unfold perParticle
  split_ifs
  · rfl
  · simp [mul_div_assoc]

theorem msdKernel_moved {s : K} {h : (Fin d → K) → Fin d → K} (hh : Similarity s h) (x y : Frame n d K) :
    msdKernel (moved h x) (moved h y) = (msdKernel x y).map (Option.map (s ^ 2 * ·)) := by
  unfold msdKernel
  rw [sqDisp_moved hh, perParticle_mul]
  rfl

theorem msdGrid_moved {s : K} (hs : 0 < s) {h : (Fin d → K) → Fin d → K} (hh : Similarity s h) (tr : Traj K) (rmax : K)
    (tsamples : ℤ) (x : List (Frame n d K)) :
    msdGrid tr (s * rmax) tsamples (x.map (moved h)) = msdGrid tr rmax tsamples x := by
  unfold msdGrid
  by_cases hr : rmax > 0
  · rw [if_pos hr, if_pos (mul_pos hs hr), List.length_map, pyGet_mapped, pyGet_mapped]
    cases pyGet x (x.length - 1) with
    | error e => rfl
    | ok l =>
      cases pyGet x 0 with
      | error e => rfl
      | ok f =>
        simp only [Except.map, bind, Except.bind, msdKernel_moved hh]
        cases hm : msdKernel l f with
        | error e => rfl
        | ok m =>
          cases m with
          | none => rfl
          | some m =>
            simp only [Option.map_some, mul_eq_zero, pow_eq_zero_iff (two_ne_zero), hs.ne', false_or]
            rw [mul_pow, mul_div_mul_left _ _ (pow_ne_zero 2 hs.ne')]
  · rw [if_neg hr, if_neg]
    intro h
    exact hr ((mul_pos_iff_of_pos_left hs).1 h)

theorem disp2_moved {s : K} {h : (Fin d → K) → Fin d → K} (hh : Similarity s h) (hs : s ≠ 0) (u v : Fin d → K) (a : K) :
    sqDist (h u) (h v) < (s * a) ^ 2 ↔ sqDist u v < a ^ 2 := by
  unfold sqDist
  rw [hh, mul_pow]
  exact mul_lt_mul_iff_right₀ (by positivity)

theorem selfOverlap_moved {s : K} {h : (Fin d → K) → Fin d → K} (hh : Similarity s h) (hs : s ≠ 0) (x y : Frame n d K)
    (a : K) : selfOverlap (moved h x) (moved h y) ((s * a) ^ 2) = selfOverlap x y (a ^ 2) := by
  unfold selfOverlap
  rw [List.countP_map, List.countP_map]
  congr 1
  funext p
  simp only [Function.comp_apply, moved, disp2_moved hh hs]

theorem collectiveOverlap_moved {s : K} {h : (Fin d → K) → Fin d → K} (hh : Similarity s h) (hs : s ≠ 0)
    (x y : Frame n d K) (a : K) :
    collectiveOverlap (moved h x) (moved h y) ((s * a) ^ 2) = collectiveOverlap x y (a ^ 2) := by
  rw [collectiveOverlap_pairs, collectiveOverlap_pairs]
  congr 1
  ext e
  rw [Finset.mem_filter, Finset.mem_filter]
  simp only [moved, disp2_moved hh hs]

theorem alpha2Kernel_moved {s : K} {h : (Fin d → K) → Fin d → K} (hh : Similarity s h) (hs : s ≠ 0)
    (a b : ℕ × Frame n d K) : alpha2Kernel (a.1, moved h a.2) (b.1, moved h b.2) = alpha2Kernel a b := by
  unfold alpha2Kernel
  rw [sqDisp_moved hh, perParticle_mul]
  have h4 : (∑ p, (∑ c, (moved h a.2 p c - moved h b.2 p c) ^ 2) ^ 2)
      = s ^ 4 * ∑ p, (∑ c, (a.2 p c - b.2 p c) ^ 2) ^ 2 := by
    rw [Finset.mul_sum]
    refine Finset.sum_congr rfl fun p _ => ?_
    simp only [moved]
    rw [hh]
    ring
  simp only [h4, perParticle_mul]
  split_ifs with he
  · rfl
  · cases perParticle n (sqDisp a.2 b.2) with
    | none => rfl
    | some u =>
      cases perParticle n (∑ p, (∑ c, (a.2 p c - b.2 p c) ^ 2) ^ 2) with
      | none => rfl
      | some v =>
        simp only [Option.map_some, mul_eq_zero, pow_eq_zero_iff (two_ne_zero), hs, false_or]
        split_ifs with hu
        · rfl
        · congr 3
          field_simp

/-- **C109.** A map that multiplies all distances by `s > 0` (unit of length, orientation of the axes, position of the
origin), applied to all positions, multiplies the mean square displacement by `s²` at the same times, leaves the
non-Gaussian parameter unchanged and, if the cut-off is also multiplied by `s`, the overlaps. -/
theorem C109_similarity (s : K) (hs : 0 < s) (h : (Fin d → K) → Fin d → K) (hh : Similarity s h) (tr : Traj K)
    (skip : ℕ) (grid : Option (List K)) (rmax : K) (tsamples : ℤ) (offset : Bool) (dg : List (ℕ × ℕ)) (a : K)
    (x : List (Frame n d K)) :
    msdCompute tr skip grid (s * rmax) tsamples offset (x.map (moved h))
        = (msdCompute tr skip grid rmax tsamples offset x).map
          (fun r => (r.1, r.2.map (Option.map (s ^ 2 * ·)))) ∧
    alpha2Compute tr dg skip (x.map (moved h)) = alpha2Compute tr dg skip x ∧
    qstCompute tr dg skip (s * a) (x.map (moved h)) = qstCompute tr dg skip a x ∧
    qtCompute tr dg skip (s * a) (x.map (moved h)) = qtCompute tr dg skip a x := by
  refine ⟨?_, ?_, ?_, ?_⟩
  · unfold msdCompute
    rw [msdGrid_moved hs hh]
    simp only [timeCorr_map, msdKernel_moved hh, timeCorr_hom (arithHom_mul (s ^ 2))]
    simp only [bind, Except.bind]
    cases grid with
    | some g =>
      dsimp only
      cases setupTGrid tr.steps tr.blockSize tr.timestep g offset <;> rfl
    | none =>
      dsimp only
      cases msdGrid tr rmax tsamples x with
      | error e => rfl
      | ok g =>
        dsimp only
        cases setupTGrid tr.steps tr.blockSize tr.timestep g offset <;> rfl
  · exact alpha2Compute_map _ (alpha2Kernel_moved hh hs.ne') tr dg skip x
  · unfold qstCompute
    simp only [timeCorr_map, selfOverlap_moved hh hs.ne']
  · unfold qtCompute
    simp only [timeCorr_map, collectiveOverlap_moved hh hs.ne']

/-- **C109**, velocities: a map that multiplies all scalar products by `s²` multiplies the velocity autocorrelation
function by `s²`. -/
theorem C109_velocities (s : K) (h : (Fin d → K) → Fin d → K)
    (hh : ∀ u v, ∑ c, h u c * h v c = s ^ 2 * ∑ c, u c * v c) (tr : Traj K) (tgrid : Option (List K)) (tsamples : ℤ)
    (norigins : NOrigins) (v : List (Frame n d K)) :
    vacfRun tr tgrid tsamples norigins (v.map (moved h))
      = (vacfRun tr tgrid tsamples norigins v).map fun r => (r.1, r.2.map (Option.map (s ^ 2 * ·))) := by
  have hk : ∀ x y : Frame n d K,
      vacfKernel (moved h x) (moved h y) = (vacfKernel x y).map (Option.map (s ^ 2 * ·)) := by
    intro x y
    unfold vacfKernel moved
    simp only [hh]
    rw [← Finset.mul_sum, perParticle_mul]
    rfl
  unfold vacfRun vacfCompute
  simp only [timeCorr_map, hk, timeCorr_hom (arithHom_mul (s ^ 2))]
  cases vacfInit tr tgrid tsamples norigins norigins.offset <;> rfl

/-- Rotation by a right angle, doubling and translation in the plane. -/
example :
    let h : (Fin 2 → ℚ) → Fin 2 → ℚ := fun u => ![-2 * u 1 + 7, 2 * u 0 - 3]
    let tr : Traj ℚ := ⟨[0, 1, 2], 1, 1, 2, [2, 2, 2]⟩
    let x : List (Frame 2 2 ℚ) := [![![0, 0], ![1, 0]], ![![1, 1], ![1, 2]], ![![3, 1], ![0, 5]]]
    Similarity 2 h ∧
    msdCompute tr 1 (some [0, 1]) (-1) 30 true x = .ok ([0, 1], [some 0, some 5]) ∧
    msdCompute tr 1 (some [0, 1]) (-1) 30 true (x.map (moved h)) = .ok ([0, 1], [some 0, some 20]) ∧
    ∀ u v : Fin 2 → ℚ, ∑ c, (![-2 * u 1, 2 * u 0] : Fin 2 → ℚ) c * (![-2 * v 1, 2 * v 0] : Fin 2 → ℚ) c
      = 2 ^ 2 * ∑ c, u c * v c := by
  refine ⟨?_, by decide +kernel, by decide +kernel, ?_⟩
  · intro u v
    simp [Fin.sum_univ_two]
    ring
  · intro u v
    simp [Fin.sum_univ_two]
    ring

end PP.Props
