import Verif.Model.Py

/-!
# Loops that may fail
-/

namespace PP

theorem foldlM_fails {α σ : Type} {f : σ → α → Py σ} {e : PyErr} (P : σ → Prop) (l : List α) (s : σ) (hs : P s)
    (h : ∀ s, P s → ∀ a ∈ l, f s a = .error e ∨ ∃ s', f s a = .ok s' ∧ P s')
    (hbad : ∃ a ∈ l, ∀ s, P s → f s a = .error e) : l.foldlM f s = .error e := by
  induction l generalizing s with
  | nil => obtain ⟨a, ha, -⟩ := hbad; cases ha
  | cons a l ih =>
    rw [List.foldlM_cons]
    rcases h s hs a (by simp) with h1 | ⟨s', h1, h2⟩
    · rw [h1]; rfl
    · rw [h1]
      apply ih s' h2 fun s hs b hb => h s hs b (by simp [hb])
      obtain ⟨b, hb, hb'⟩ := hbad
      rcases List.mem_cons.1 hb with rfl | hb
      · rw [hb' s hs] at h1; cases h1
      · exact ⟨b, hb, hb'⟩

theorem foldlM_either {α σ : Type} {f : σ → α → Py σ} {e : PyErr} (P : σ → Prop) (l : List α) (s : σ) (hs : P s)
    (h : ∀ s, P s → ∀ a ∈ l, f s a = .error e ∨ ∃ s', f s a = .ok s' ∧ P s') :
    l.foldlM f s = .error e ∨ ∃ s', l.foldlM f s = .ok s' ∧ P s' := by
  induction l generalizing s with
  | nil => exact Or.inr ⟨s, rfl, hs⟩
  | cons a l ih =>
    rw [List.foldlM_cons]
    rcases h s hs a (by simp) with h1 | ⟨s', h1, h2⟩
    · rw [h1]; exact Or.inl rfl
    · rw [h1]; exact ih s' h2 fun s hs b hb => h s hs b (by simp [hb])

end PP
