import Verif.Model.Progress
import Mathlib.Tactic.Linarith

/-!
# C197: progress bars
-/

namespace PP.Props
open PP

/-- **C197**: a loop over the fallback bar goes once through all objects, in order, whatever the other arguments of the bar,
also after updates; the bar is as long as the objects. -/
theorem C197_loop {α κ : Type} (l : List α) (kwargs : List κ) (us : List ℤ) :
    ∃ b, us.foldlM (fun b u => NoBar.update (some u) b) (NoBar.init (some l) kwargs) = .ok b ∧
      b.iter = .ok l ∧ b.len = .ok l.length := by
  refine ⟨⟨some l⟩, ?_, ?_, rfl⟩
  · induction us with
    | nil => rfl
    | cons u us ih => rw [List.foldlM_cons]; exact ih
  · have : ∀ (l acc : List α), l.foldl (fun acc a => acc ++ [a]) acc = acc ++ l := by
      intro l
      induction l with
      | nil => simp
      | cons a l ih => intro acc; rw [List.foldl_cons, ih]; simp
    simp only [NoBar.iter, this, List.nil_append]

/-- **C197**: the fallback bar lets exceptions through and changes nothing else. -/
theorem C197_with {α β : Type} (b : NoBar α) (body : NoBar α → Py β) : b.withBar body = body b := by
  unfold NoBar.withBar
  cases body b <;> rfl

/-- **C197**: after any number of updates an active bar is at the position of the last one; a bar that is not active never
moves. The keyword argument has precedence over the variable of the module. -/
theorem C197_position {α : Type} (moduleActive : Bool) (active : Option Bool) (items : List α) (us : List ℤ) (u : ℤ) :
    ∃ b, (us ++ [u]).foldlM (fun b u => Bar.update (some u) b) (Bar.init moduleActive active items) = .ok b ∧
      b.items = items ∧ b.n = (if active.getD moduleActive then u else 0) := by
  have key : ∀ (us : List ℤ) (b : Bar α), ∃ b', us.foldlM (fun b u => Bar.update (some u) b) b = .ok b' ∧
      b'.items = b.items ∧ b'.disable = b.disable ∧ (b.disable = true → b'.n = b.n) := by
    intro us
    induction us with
    | nil => exact fun b => ⟨b, rfl, rfl, rfl, fun _ => rfl⟩
    | cons u us ih =>
      intro b
      rw [List.foldlM_cons]
      cases hb : b.disable with
      | true =>
        obtain ⟨b', h1, h2, h3, h4⟩ := ih b
        refine ⟨b', ?_, h2, h3.trans hb, fun _ => h4 hb⟩
        have : Bar.update (some u) b = .ok b := by
          simp only [Bar.update, hb, Bool.not_true, Bool.false_eq_true, if_false]
        rw [this]
        exact h1
      | false =>
        obtain ⟨b', h1, h2, h3, -⟩ := ih { b with n := b.n + (u - b.n) }
        refine ⟨b', ?_, h2, h3.trans hb, by simp⟩
        have : Bar.update (some u) b = .ok { b with n := b.n + (u - b.n) } := by
          simp only [Bar.update, Bar.tqdmUpdate, hb, Bool.not_false, if_true, Bool.false_eq_true, if_false, Option.getD_some]
        rw [this]
        exact h1
  obtain ⟨b, h1, h2, h3, h4⟩ := key us (Bar.init moduleActive active items)
  have hd : (Bar.init moduleActive active items).disable = !active.getD moduleActive := by cases active <;> rfl
  rw [hd] at h3 h4
  cases ha : active.getD moduleActive with
  | true =>
    rw [ha] at h3
    refine ⟨{ b with n := u }, ?_, h2, rfl⟩
    have : Bar.update (some u) b = .ok { b with n := u } := by
      simp only [Bar.update, Bar.tqdmUpdate, h3, Bool.not_true, Bool.not_false, Bool.false_eq_true, if_false, if_true,
        Option.getD_some, add_sub_cancel]
    rw [List.foldlM_append, h1]
    simp only [bind, Except.bind, List.foldlM_cons, List.foldlM_nil, this, pure, Except.pure]
  | false =>
    rw [ha] at h3 h4
    refine ⟨b, ?_, h2, ?_⟩
    · have : Bar.update (some u) b = .ok b := by
        simp only [Bar.update, h3, Bool.not_false, Bool.not_true, Bool.false_eq_true, if_false]
      rw [List.foldlM_append, h1]
      simp only [bind, Except.bind, List.foldlM_cons, List.foldlM_nil, this, pure, Except.pure]
    · rw [h4 rfl]
      simp [Bar.init]

/-- **C197 is false** for updates without argument: they move an active bar to the position 1, but they raise `TypeError` with
the fallback bar. -/
theorem C197_counterexample_update {α : Type} (c : NoBar α) (moduleActive : Bool) (items : List α) :
    c.update none = .error .typeError ∧
    ∃ b, (Bar.init moduleActive (some true) items).update none = .ok b ∧ b.n = 1 := ⟨rfl, _, rfl, rfl⟩

/-- Three objects, two updates. -/
example : ((NoBar.init (some ['a', 'b', 'c']) [('t', 3)]).iter = .ok ['a', 'b', 'c']) ∧
    (([5, 7] : List ℤ).foldlM (fun b u => Bar.update (some u) b) (Bar.init false (some true) ['a'])).map (·.n) = .ok 7 ∧
    (([5, 7] : List ℤ).foldlM (fun b u => Bar.update (some u) b) (Bar.init false none ['a'])).map (·.n) = .ok 0 :=
  ⟨rfl, rfl, rfl⟩

end PP.Props
