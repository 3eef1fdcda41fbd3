import Verif.Model.S4kt
import Verif.Props.TGrid
import Verif.Props.Fkt

/-!
# C120: the four-point dynamic structure factor
-/

namespace PP.Props
open PP

variable {d : ℕ}

theorem foldlM_error {α β : Type} {f : β → α → Py β} (b : β) (l : List α) (hl : l ≠ []) (h : ∀ b, ∀ a ∈ l, ∀ r, f b a ≠ .ok r) :
    ∀ r, l.foldlM f b ≠ .ok r := by
  cases l with
  | nil => exact absurd rfl hl
  | cons a l =>
    intro r hr
    rw [List.foldlM_cons] at hr
    obtain ⟨c, hc, -⟩ := bind_ok_iff.1 hr
    exact h b a (by simp) c hc

/-- **C120, false.** On every trajectory, for every non-empty list of requested times, `compute()` of a new object raises
`AttributeError`. -/
theorem C120_counterexample (o : S4Obj d) (blockSize : ℕ) (tgrid : List ℝ) (hs : o.steps ≠ []) (hbs : 0 < blockSize)
    (hdt : o.timestep ≠ 0) (ht : tgrid ≠ []) (hsel : o.selection = false) :
    s4Run o blockSize tgrid true = .error .attributeError := by
  obtain ⟨dg, h, -⟩ := C19_t_grid_partial o.steps blockSize o.timestep tgrid hs hbs hdt
  obtain ⟨t, tl, rfl⟩ := List.exists_cons_of_ne_nil ht
  obtain ⟨g, hg, -⟩ := C19_closest_partial o.steps blockSize o.timestep _ dg hs hbs hdt h t (by simp)
  unfold s4Run
  rw [h]
  show s4Compute { o with tgrid := dg } = _
  unfold s4Compute
  cases dg with
  | nil => cases hg
  | cons g' dg =>
    show (List.foldlM _ _ (g' :: dg) >>= _) = _
    rw [List.foldlM_cons]
    have : s4Time { o with tgrid := g' :: dg } ([], []) g' = .error .attributeError := by
      unfold s4Time
      rw [if_pos hsel]
      rfl
    rw [this]
    rfl

/-- **C120, false.** If the user sets the missing attribute, whatever the wave-vectors and the times there is still an
exception. -/
theorem C120_counterexample_selection (o : S4Obj d) (hd : 0 < d) (ht : o.tgrid ≠ []) (hk : o.ks.kvectors ≠ []) :
    ∀ r, s4Compute o ≠ .ok r := by
  intro r hr
  unfold s4Compute at hr
  obtain ⟨x, hx, -⟩ := bind_ok_iff.1 hr
  refine foldlM_error _ o.tgrid ht ?_ _ hx
  intro b g _ r hr
  unfold s4Time at hr
  have hdim : List.finRange d ≠ [] := by
    intro e
    have := congrArg List.length e
    simp at this
    omega
  have key : ∀ W, s4Average W o.ks ≠ .ok () := by
    intro W
    unfold s4Average
    refine foldlM_error _ _ hk ?_ ()
    intro _ l _ r hr
    obtain ⟨u, -, hu⟩ := bind_ok_iff.1 hr
    refine foldlM_error _ _ hdim ?_ _ hu
    intro _ c _ r hr
    obtain ⟨u, -, hu⟩ := bind_ok_iff.1 hr
    cases hu
  by_cases hsel : o.selection = false
  · rw [if_pos hsel] at hr
    cases hr
  rw [if_neg hsel] at hr
  obtain ⟨W, -, hr⟩ := bind_ok_iff.1 hr
  obtain ⟨u, hu, -⟩ := bind_ok_iff.1 hr
  exact key W hu

/-- **C120, partial.** Without times there is nothing to compute: the wave-numbers are reported, and no values. -/
theorem C120_partial (o : S4Obj d) (ht : o.tgrid = []) : s4Compute o = .ok ([], o.ks.kgrid, []) := by
  unfold s4Compute
  rw [ht]
  rfl

/-! ### A concrete case -/

/-- The frames and wave-vectors of `exFs`. -/
noncomputable def exS4 (sel : Bool) : S4Obj 3 :=
  { selection := sel, ks := exFs.ks, tgrid := [(0, 0), (0, 1)], skip := 1, steps := exFs.steps, timestep := 1 / 100
    pos := exFs.pos, posUnf := exFs.pos, grid1 := some [1, 2] }

example : s4Run (exS4 false) 1 [0, 1 / 100] true = .error .attributeError ∧ ∀ r, s4Compute (exS4 true) ≠ .ok r :=
  ⟨C120_counterexample _ 1 _ (by simp [exS4, exFs]) one_pos (by simp [exS4]) (by simp) rfl,
    C120_counterexample_selection _ (by norm_num) (by simp [exS4]) (by simp [exS4, exFs, exKs])⟩

end PP.Props
