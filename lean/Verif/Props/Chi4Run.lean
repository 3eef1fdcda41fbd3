import Verif.Props.Runs
import Verif.Props.Chi4

/-!
# C31 for the dynamic susceptibility from the constructor on
-/

set_option linter.unusedSectionVars false

namespace PP.Props
open PP

variable {n d : ℕ}

/-- **C31** from the constructor on: with the stride `skip` that `norigins` gives, the values for the times requested are the
variances of the overlap over every `skip`-th origin, divided by the number of particles. -/
theorem C31_run (trj : TrajArg ℝ) (g : List ℝ) (tsamples : ℕ) (norigins : NOrigins) (a : ℝ) (pos : List (Frame n d ℝ))
    (hlen : pos.length = trj.traj.steps.length) (hne : trj.traj.steps ≠ []) (hdt : trj.traj.timestep ≠ 0)
    (hbs : 0 < trj.traj.blockSize) {skip : ℤ}
    (hskip : adjustSkip trj.traj.steps.length trj.traj.blockSize trj.traj.npart norigins = .ok skip) :
    ∃ s dg, chi4Run trj (some g) tsamples norigins a pos = .ok s ∧
      setupTGrid trj.traj.steps trj.traj.blockSize trj.traj.timestep g norigins.offset = .ok dg ∧
      List.Forall₂ (fun p t => t = ((Spec.lag trj.traj.steps p : ℤ) : ℝ) * trj.traj.timestep) dg s.grid ∧
      List.Forall₂ (fun p v =>
        v = Spec.variance (Spec.overlaps a pos p.2 (Spec.chi4Origins pos.length skip.toNat p)) / (n : ℝ)) dg s.value ∧
      List.Forall₂ (fun p v =>
        v = Spec.mean (Spec.overlaps a pos p.2 (Spec.chi4Origins pos.length skip.toNat p))) dg s.average := by
  have hl : 0 < trj.traj.steps.length := List.length_pos_iff.2 hne
  have hs1 := (C14_skip_bounds _ _ _ _ _ hl hbs hskip).1
  obtain ⟨dg, h1, h2, -, -⟩ := setupTGrid_spec trj.traj.steps trj.traj.blockSize trj.traj.timestep g norigins.offset _ rfl
    (by cases norigins.offset <;> simp [hbs]) hne hdt
  have hin : ∀ p ∈ dg, p.1 + p.2 < trj.traj.steps.length := fun p hp => by
    have := h2 p hp
    unfold Scanned at this
    omega
  obtain ⟨s, k1, k2, k3, k4⟩ := C31_chi4_variance trj.traj pos skip.toNat a g dg (by omega) (by omega) hin
  refine ⟨s, dg, ?_, h1, ?_, k3.imp fun p v h => h.1, k4⟩
  · unfold chi4Run chi4Init timeInit
    rw [hskip]
    simp only [bind, Except.bind, Option.elim, h1, pure, Except.pure]
    exact k1
  · refine k2.imp fun p t h => ?_
    obtain ⟨ta, tb, e1, e2, e3⟩ := h
    rw [e3]
    simp [Spec.lag, e1, e2]

/-- Ten frames of two particles, four origins requested: every second origin is used. -/
example : ∃ s dg, chi4Run (.object ⟨[0, 1, 2, 3, 4, 5, 6, 7, 8, 9], 1, 1, 9, [2]⟩) (some [1, 3]) 3 (.num 4) (3 / 2)
      ((List.range 10).map fun i => ![![(i : ℝ)], ![(i ^ 2 : ℝ)]]) = .ok s ∧
      setupTGrid [0, 1, 2, 3, 4, 5, 6, 7, 8, 9] 1 (1 : ℝ) [1, 3] false = .ok dg ∧
      List.Forall₂ (fun p v => v = Spec.mean (Spec.overlaps (3 / 2) ((List.range 10).map fun i => ![![(i : ℝ)], ![(i ^ 2 : ℝ)]])
        p.2 (Spec.chi4Origins 10 2 p))) dg s.average := by
  obtain ⟨s, dg, h1, h2, -, -, h5⟩ := C31_run (n := 2) (d := 1) (.object ⟨[0, 1, 2, 3, 4, 5, 6, 7, 8, 9], 1, 1, 9, [2]⟩) [1, 3] 3
    (.num 4) (3 / 2) ((List.range 10).map fun i => ![![(i : ℝ)], ![(i ^ 2 : ℝ)]]) (by simp [TrajArg.traj]) (by simp [TrajArg.traj])
    one_ne_zero Nat.one_pos (skip := 2) (by decide +kernel)
  refine ⟨s, dg, h1, h2, ?_⟩
  simpa using h5

end PP.Props
