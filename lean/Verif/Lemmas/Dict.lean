import Verif.Model.Py
/-! Helper lemmas on dictionaries, ranges and sorting. -/
namespace PP

section dict
variable {κ V W : Type*} [DecidableEq κ]

theorem ddGet_ddAdd (z : V) (add : V → W → V) (d : List (κ × V)) (k k' : κ) (v : W) :
    ddGet z (ddAdd z add d k v) k' = if k' = k then add (ddGet z d k) v else ddGet z d k' := by
  induction d with
  | nil => simp only [ddAdd, ddGet]; split_ifs <;> simp_all
  | cons a r ih =>
    obtain ⟨a, b⟩ := a
    simp only [ddAdd]
    by_cases h : a = k
    · subst h; simp only [ddGet, if_true]
      by_cases h2 : a = k' <;> simp [h2]
      intro h3; exact absurd h3.symm h2
    · simp only [ddGet, if_neg h]
      rw [ih]
      by_cases h2 : a = k'
      · subst h2; simp [h]
      · simp [h2]

theorem mem_keys_ddAdd (z : V) (add : V → W → V) (d : List (κ × V)) (k k' : κ) (v : W) :
    k' ∈ dictKeys (ddAdd z add d k v) ↔ k' = k ∨ k' ∈ dictKeys d := by
  induction d with
  | nil => simp [ddAdd, dictKeys]
  | cons a r ih =>
    obtain ⟨a, b⟩ := a
    simp only [ddAdd]
    by_cases h : a = k
    · subst h; simp [dictKeys]
    · simp only [if_neg h]
      simp only [dictKeys, List.map_cons, List.mem_cons] at ih ⊢
      rw [ih]; tauto

theorem nodup_keys_ddAdd (z : V) (add : V → W → V) (d : List (κ × V)) (k : κ) (v : W)
    (h : (dictKeys d).Nodup) : (dictKeys (ddAdd z add d k v)).Nodup := by
  induction d with
  | nil => simp [ddAdd, dictKeys]
  | cons a r ih =>
    obtain ⟨a, b⟩ := a
    simp only [ddAdd]
    by_cases hk : a = k
    · subst hk; simpa [dictKeys] using h
    · simp only [if_neg hk]
      simp only [dictKeys, List.map_cons, List.nodup_cons] at h ih ⊢
      refine ⟨?_, ih h.2⟩
      have := mem_keys_ddAdd z add r k a v
      simp only [dictKeys] at this
      rw [this]; exact fun h' => h'.elim hk h.1

/-- Repeated `d[k] += v`. -/
theorem ddGet_foldl (z : V) (add : V → W → V) (l : List (κ × W)) (d : List (κ × V)) (k : κ) :
    ddGet z (l.foldl (fun d e => ddAdd z add d e.1 e.2) d) k
      = ((l.filter fun e => decide (e.1 = k)).map Prod.snd).foldl add (ddGet z d k) := by
  induction l generalizing d with
  | nil => rfl
  | cons e l ih =>
    simp only [List.foldl_cons]
    rw [ih, ddGet_ddAdd]
    by_cases h : e.1 = k
    · subst h; simp
    · have h' : ¬ k = e.1 := fun h2 => h h2.symm
      simp [h, h']

theorem mem_keys_foldl (z : V) (add : V → W → V) (l : List (κ × W)) (d : List (κ × V)) (k : κ) :
    k ∈ dictKeys (l.foldl (fun d e => ddAdd z add d e.1 e.2) d)
      ↔ k ∈ dictKeys d ∨ ∃ e ∈ l, e.1 = k := by
  induction l generalizing d with
  | nil => simp
  | cons e l ih =>
    simp only [List.foldl_cons]
    rw [ih, mem_keys_ddAdd]
    simp only [List.mem_cons, exists_eq_or_imp]
    constructor
    · rintro ((h | h) | h)
      · exact Or.inr (Or.inl h.symm)
      · exact Or.inl h
      · exact Or.inr (Or.inr h)
    · rintro (h | h | h)
      · exact Or.inl (Or.inr h)
      · exact Or.inl (Or.inl h.symm)
      · exact Or.inr h

theorem nodup_keys_foldl (z : V) (add : V → W → V) (l : List (κ × W)) (d : List (κ × V))
    (h : (dictKeys d).Nodup) :
    (dictKeys (l.foldl (fun d e => ddAdd z add d e.1 e.2) d)).Nodup := by
  induction l generalizing d with
  | nil => exact h
  | cons e l ih => exact ih _ (nodup_keys_ddAdd z add d e.1 e.2 h)

end dict

section sort
variable {κ : Type*} [LinearOrder κ]

theorem mem_pySorted {l : List κ} {a : κ} : a ∈ pySorted l ↔ a ∈ l := by
  unfold pySorted; exact List.mem_insertionSort _

theorem pySorted_le (l : List κ) : (pySorted l).Pairwise (· ≤ ·) := by
  unfold pySorted; exact List.pairwise_insertionSort _ _

theorem pySorted_lt {l : List κ} (h : l.Nodup) : (pySorted l).Pairwise (· < ·) := by
  have h1 := pySorted_le l
  have h2 : (pySorted l).Nodup := ((List.perm_insertionSort _ l).nodup_iff).2 h
  exact (h1.and h2).imp fun ⟨a, b⟩ => lt_of_le_of_ne a b

/-- A strictly increasing list is determined by its elements. -/
theorem sorted_unique {l l' : List κ} (h : l.Pairwise (· < ·)) (h' : l'.Pairwise (· < ·))
    (hm : ∀ a, a ∈ l ↔ a ∈ l') : l = l' := by
  have hp : l.Perm l' :=
    (List.perm_ext_iff_of_nodup (h.imp ne_of_lt) (h'.imp ne_of_lt)).2 hm
  exact hp.eq_of_pairwise' (h.imp le_of_lt) (h'.imp le_of_lt)

end sort

section range

theorem mem_rangeList {a b s x : ℕ} (hs : 0 < s) :
    x ∈ rangeList a b s ↔ a ≤ x ∧ x < b ∧ (x - a) % s = 0 := by
  unfold rangeList
  simp only [List.mem_map, List.mem_range]
  constructor
  · rintro ⟨k, hk, rfl⟩
    have h1 : k + 1 ≤ (b - a + (s - 1)) / s := hk
    rw [Nat.le_div_iff_mul_le hs] at h1
    have h2 : (k + 1) * s = k * s + s := by ring
    refine ⟨by omega, by omega, ?_⟩
    rw [Nat.add_sub_cancel_left]; exact Nat.mul_mod_left k s
  · rintro ⟨h1, h2, h3⟩
    have hd := Nat.div_add_mod (x - a) s
    rw [h3] at hd
    refine ⟨(x - a) / s, ?_, ?_⟩
    · show (x - a) / s + 1 ≤ _
      rw [Nat.le_div_iff_mul_le hs]
      have : ((x - a) / s + 1) * s = s * ((x - a) / s) + s := by ring
      omega
    · have : (x - a) / s * s = s * ((x - a) / s) := by ring
      omega

theorem rangeList_lt {a b s : ℕ} (hs : 0 < s) : (rangeList a b s).Pairwise (· < ·) := by
  unfold rangeList
  rw [List.pairwise_map]
  refine List.pairwise_lt_range.imp ?_
  intro i j h
  have : i * s < j * s := Nat.mul_lt_mul_of_pos_right h hs
  omega

/-- The elements of a python range, as a filter over indices. -/
theorem rangeList_eq_filter {a b s n : ℕ} (hs : 0 < s) (hn : b ≤ n) :
    rangeList a b s
      = (List.range n).filter fun i => decide (a ≤ i ∧ i < b ∧ (i - a) % s = 0) := by
  apply sorted_unique (rangeList_lt hs)
  · exact List.pairwise_lt_range.filter _
  · intro x
    rw [mem_rangeList hs]
    simp only [List.mem_filter, List.mem_range, decide_eq_true_eq]
    constructor
    · intro h; exact ⟨by omega, h⟩
    · intro h; exact h.2

end range
end PP
