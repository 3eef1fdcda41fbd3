import Verif.Spec.Pairs
import Verif.Model.Gr
import Verif.Lemmas.TimeCorr
import Mathlib.Algebra.BigOperators.Fin
import Mathlib.Algebra.Order.BigOperators.Group.List

/-! Lemmas on counting pairs and on histograms. -/

set_option linter.unusedSectionVars false

namespace PP

section pairs
variable {V W : Type*}
open Classical

theorem countP_eq_sum_fin (p : V → Prop) (l : List V) :
    l.countP (fun v => decide (p v)) = ∑ i : Fin l.length, if p l[i] then 1 else 0 := by
  induction l with
  | nil => simp
  | cons a l ih =>
    rw [List.countP_cons, ih]
    simp only [List.length_cons]
    rw [Fin.sum_univ_succ, add_comm]
    congr 1
    simp only [decide_eq_true_eq]
    rfl

theorem selfPairs_nil (P : V → V → Prop) : Spec.selfPairs P [] = 0 := by
  unfold Spec.selfPairs
  rw [Finset.card_eq_zero, Finset.filter_eq_empty_iff]
  rintro ⟨i, -⟩
  exact i.elim0

theorem selfPairs_cons (P : V → V → Prop) (a : V) (l : List V) :
    Spec.selfPairs P (a :: l) = l.countP (fun v => decide (P a v)) + Spec.selfPairs P l := by
  unfold Spec.selfPairs
  rw [countP_eq_sum_fin, Finset.card_filter, Finset.card_filter, Fintype.sum_prod_type,
    Fintype.sum_prod_type]
  simp only [List.length_cons]
  rw [Fin.sum_univ_succ]
  congr 1
  · rw [Fin.sum_univ_succ]
    simp
  · apply Finset.sum_congr rfl
    intro i _
    rw [Fin.sum_univ_succ]
    simp

theorem crossPairs_nil (P : V → W → Prop) (y : List W) : Spec.crossPairs P [] y = 0 := by
  unfold Spec.crossPairs
  rw [Finset.card_eq_zero, Finset.filter_eq_empty_iff]
  rintro ⟨i, -⟩
  exact i.elim0

theorem crossPairs_cons (P : V → W → Prop) (a : V) (x : List V) (y : List W) :
    Spec.crossPairs P (a :: x) y = y.countP (fun v => decide (P a v)) + Spec.crossPairs P x y := by
  unfold Spec.crossPairs
  rw [countP_eq_sum_fin, Finset.card_filter, Finset.card_filter, Fintype.sum_prod_type,
    Fintype.sum_prod_type]
  simp only [List.length_cons]
  rw [Fin.sum_univ_succ]
  congr 1

theorem crossPairs_swap (P : V → W → Prop) (x : List V) (y : List W) :
    Spec.crossPairs (fun w v => P v w) y x = Spec.crossPairs P x y := by
  unfold Spec.crossPairs
  refine Finset.card_bij (fun q _ => (q.2, q.1)) ?_ ?_ ?_
  · intro q hq; simpa using hq
  · rintro ⟨a, b⟩ _ ⟨c, e⟩ _ h; simp only [Prod.mk.injEq] at h ⊢; exact ⟨h.2, h.1⟩
  · rintro ⟨a, b⟩ h; exact ⟨(b, a), by simpa using h, rfl⟩

theorem crossPairs_eq_sum (P : V → W → Prop) (x : List V) (y : List W) :
    Spec.crossPairs P x y = (x.map fun a => y.countP fun v => decide (P a v)).sum := by
  induction x with
  | nil => rw [crossPairs_nil]; rfl
  | cons a x ih => rw [crossPairs_cons, ih]; rfl

theorem selfPairs_eq_sum (P : V → V → Prop) (x : List V) :
    Spec.selfPairs P x = ((List.range x.length).map fun i =>
      match x[i]? with
      | some a => (x.drop (i + 1)).countP fun v => decide (P a v)
      | none => 0).sum := by
  induction x with
  | nil => rw [selfPairs_nil]; rfl
  | cons a x ih =>
    rw [selfPairs_cons, ih, List.length_cons, List.range_succ_eq_map, List.map_cons, List.map_map,
      List.sum_cons]
    congr 1

theorem selfPairs_append (P : V → V → Prop) (x y : List V) :
    Spec.selfPairs P (x ++ y) = Spec.selfPairs P x + Spec.selfPairs P y + Spec.crossPairs P x y := by
  induction x with
  | nil => rw [selfPairs_nil, crossPairs_nil]; simp
  | cons a x ih =>
    rw [List.cons_append, selfPairs_cons, selfPairs_cons, crossPairs_cons, ih, List.countP_append]
    omega

theorem crossPairs_append (P : V → W → Prop) (x y : List V) (z : List W) :
    Spec.crossPairs P (x ++ y) z = Spec.crossPairs P x z + Spec.crossPairs P y z := by
  rw [crossPairs_eq_sum, crossPairs_eq_sum, crossPairs_eq_sum, List.map_append, List.sum_append]

theorem crossPairs_append_right (P : V → W → Prop) (x : List V) (y z : List W) :
    Spec.crossPairs P x (y ++ z) = Spec.crossPairs P x y + Spec.crossPairs P x z := by
  rw [← crossPairs_swap P x (y ++ z), crossPairs_append, crossPairs_swap P, crossPairs_swap P]

theorem crossPairs_perm (P : V → W → Prop) {x x' : List V} {y y' : List W} (h : x.Perm x')
    (h' : y.Perm y') : Spec.crossPairs P x y = Spec.crossPairs P x' y' := by
  rw [crossPairs_eq_sum, crossPairs_eq_sum, (h.map _).sum_eq]
  congr 1
  apply List.map_congr_left
  intro a _
  exact h'.countP_eq _

theorem selfPairs_perm {P : V → V → Prop} (hP : ∀ a b, P a b ↔ P b a) {x x' : List V} (h : x.Perm x') :
    Spec.selfPairs P x = Spec.selfPairs P x' := by
  induction h with
  | nil => rfl
  | cons a h ih => rw [selfPairs_cons, selfPairs_cons, ih, h.countP_eq]
  | swap a b l =>
    rw [selfPairs_cons, selfPairs_cons, selfPairs_cons, selfPairs_cons, List.countP_cons,
      List.countP_cons]
    have : decide (P b a) = decide (P a b) := by rw [decide_eq_decide]; exact hP b a
    rw [this]; omega
  | trans _ _ ih1 ih2 => rw [ih1, ih2]

theorem selfPairs_congr {P Q : V → V → Prop} {x : List V}
    (h : ∀ a ∈ x, ∀ b ∈ x, P a b ↔ Q a b) : Spec.selfPairs P x = Spec.selfPairs Q x := by
  unfold Spec.selfPairs
  congr 1
  apply Finset.filter_congr
  intro q _
  rw [h x[q.1] (List.getElem_mem _) x[q.2] (List.getElem_mem _)]

theorem crossPairs_congr {P Q : V → W → Prop} {x : List V} {y : List W}
    (h : ∀ a ∈ x, ∀ b ∈ y, P a b ↔ Q a b) : Spec.crossPairs P x y = Spec.crossPairs Q x y := by
  unfold Spec.crossPairs
  congr 1
  apply Finset.filter_congr
  intro q _
  rw [h x[q.1] (List.getElem_mem _) y[q.2] (List.getElem_mem _)]

theorem selfPairs_map {U : Type*} (g : U → V) (P : V → V → Prop) (x : List U) :
    Spec.selfPairs P (x.map g) = Spec.selfPairs (fun a b => P (g a) (g b)) x := by
  induction x with
  | nil => rw [List.map_nil, selfPairs_nil, selfPairs_nil]
  | cons a x ih =>
    rw [List.map_cons, selfPairs_cons, selfPairs_cons, ih, List.countP_map]; rfl

theorem crossPairs_map {U U' : Type*} (g : U → V) (g' : U' → W) (P : V → W → Prop) (x : List U)
    (y : List U') :
    Spec.crossPairs P (x.map g) (y.map g') = Spec.crossPairs (fun a b => P (g a) (g' b)) x y := by
  rw [crossPairs_eq_sum, crossPairs_eq_sum, List.map_map]
  congr 1
  apply List.map_congr_left
  intro a _
  simp only [Function.comp_apply, List.countP_map]
  rfl

/-- Pairs never exceed `n(n-1)/2`. -/
theorem selfPairs_le (P : V → V → Prop) (x : List V) :
    2 * Spec.selfPairs P x ≤ x.length * (x.length - 1) := by
  induction x with
  | nil => rw [selfPairs_nil]; simp
  | cons a x ih =>
    rw [selfPairs_cons]
    have := List.countP_le_length (p := fun v => decide (P a v)) (l := x)
    simp only [List.length_cons, Nat.add_sub_cancel]
    generalize x.length = m at *
    cases m with
    | zero => omega
    | succ m => simp only [Nat.add_sub_cancel] at ih; nlinarith

theorem selfPairs_true (x : List V) :
    2 * Spec.selfPairs (fun _ _ => True) x = x.length * (x.length - 1) := by
  induction x with
  | nil => rw [selfPairs_nil]; simp
  | cons a x ih =>
    rw [selfPairs_cons]
    simp only [List.length_cons, Nat.add_sub_cancel, decide_true, List.countP_true]
    generalize x.length = m at *
    cases m with
    | zero => omega
    | succ m => simp only [Nat.add_sub_cancel] at ih; nlinarith

theorem selfPairs_false {P : V → V → Prop} (h : ∀ a b, ¬P a b) (x : List V) :
    Spec.selfPairs P x = 0 := by
  induction x with
  | nil => exact selfPairs_nil P
  | cons a x ih => rw [selfPairs_cons, ih]; simp [h]

/-- A sum over disjoint bins. -/
theorem selfPairs_sum_bins (B : ℕ → V → V → Prop) (m : ℕ) (x : List V)
    (hd : ∀ j j' a b, B j a b → B j' a b → j = j') :
    ((List.range m).map fun j => Spec.selfPairs (B j) x).sum
      = Spec.selfPairs (fun a b => ∃ j < m, B j a b) x := by
  induction m with
  | zero =>
    simp only [List.range_zero, List.map_nil, List.sum_nil]
    symm
    apply selfPairs_false
    rintro a b ⟨j, hj, -⟩
    omega
  | succ m ih =>
    rw [List.range_succ, List.map_append, List.sum_append, ih]
    unfold Spec.selfPairs
    simp only [List.map_cons, List.map_nil, List.sum_cons, List.sum_nil, add_zero]
    rw [← Finset.card_union_of_disjoint]
    · congr 1
      ext q
      simp only [Finset.mem_union, Finset.mem_filter, Finset.mem_univ, true_and]
      constructor
      · rintro (⟨h, j, hj, hB⟩ | ⟨h, hB⟩)
        · exact ⟨h, j, by omega, hB⟩
        · exact ⟨h, m, by omega, hB⟩
      · rintro ⟨h, j, hj, hB⟩
        by_cases e : j = m
        · subst e; exact Or.inr ⟨h, hB⟩
        · exact Or.inl ⟨h, j, by omega, hB⟩
    · rw [Finset.disjoint_left]
      intro q hq hq'
      simp only [Finset.mem_filter, Finset.mem_univ, true_and] at hq hq'
      obtain ⟨-, j, hj, hB⟩ := hq
      have := hd j m _ _ hB hq'.2
      omega

end pairs

section hist
variable {K : Type} [Field K] [LinearOrder K] [FloorRing K]
open Classical

theorem inBin_iff (edges : List K) (j : ℕ) (v : K) : inBin edges j v = true ↔ Spec.InBin edges j v := by
  unfold inBin Spec.InBin
  cases h1 : edges[j]? <;> cases h2 : edges[j + 1]? <;> simp

theorem histogram_ok {edges : List K} (h : edges.Pairwise (· ≤ ·)) (vals : List K) :
    histogram edges vals
      = .ok ((List.range (edges.length - 1)).map fun j => vals.countP (inBin edges j)) := by
  unfold histogram; rw [if_pos h]

theorem zipWith_map_range (m : ℕ) (f g : ℕ → ℕ) :
    histAdd ((List.range m).map f) ((List.range m).map g) = (List.range m).map fun j => f j + g j := by
  unfold histAdd
  rw [List.zipWith_map_left, List.zipWith_map_right, List.zipWith_self]

/-- Successive batches of a histogram: the total is the histogram of all the values. -/
theorem hist_fold {α : Type} (edges : List K) (h : edges.Pairwise (· ≤ ·)) (l : List α)
    (body : α → Py (List K)) (vals : α → List K) (hb : ∀ a ∈ l, body a = .ok (vals a)) (v0 : List K) :
    l.foldlM (fun hist a => do
        let v ← body a
        let tmp ← histogram edges v
        return histAdd hist tmp)
      ((List.range (edges.length - 1)).map fun j => v0.countP (inBin edges j))
    = (.ok ((List.range (edges.length - 1)).map fun j =>
        (v0 ++ l.flatMap vals).countP (inBin edges j)) : Py (List ℕ)) := by
  induction l generalizing v0 with
  | nil => simp [pure, Except.pure]
  | cons a l ih =>
    rw [List.foldlM_cons]
    have h1 : (do
        let v ← body a
        let tmp ← histogram edges v
        return histAdd ((List.range (edges.length - 1)).map fun j => v0.countP (inBin edges j)) tmp)
        = (.ok ((List.range (edges.length - 1)).map fun j =>
          (v0 ++ vals a).countP (inBin edges j)) : Py (List ℕ)) := by
      rw [hb a (by simp)]
      simp only [bind, Except.bind, histogram_ok h, pure, Except.pure, zipWith_map_range,
        List.countP_append]
    rw [h1]
    show List.foldlM _ _ l = _
    rw [ih (fun b hb' => hb b (by simp [hb']))]
    simp [List.append_assoc]

end hist

/-- Consecutive batches cover the range. -/
theorem batches_cover {bl m : ℕ} (hbl : 0 < bl) :
    (rangeList 0 m bl).flatMap (fun ib => rangeList ib (min (ib + bl) m) 1) = List.range m := by
  apply sorted_unique
  · rw [List.pairwise_flatMap]
    refine ⟨fun a _ => rangeList_lt (by omega), ?_⟩
    have hmem : ∀ a ∈ rangeList 0 m bl, a % bl = 0 := by
      intro a ha; simpa using ((mem_rangeList hbl).1 ha).2.2
    refine List.Pairwise.imp_of_mem ?_ (rangeList_lt hbl)
    intro a b ha hb hab x hx y hy
    rw [mem_rangeList (by omega)] at hx hy
    have h1 := hmem a ha
    have h2 := hmem b hb
    have : a + bl ≤ b := by
      have e1 := Nat.div_add_mod a bl
      have e2 := Nat.div_add_mod b bl
      rw [h1] at e1; rw [h2] at e2
      have : a / bl < b / bl := by
        by_contra hc
        have := Nat.mul_le_mul_left bl (Nat.le_of_not_lt hc)
        omega
      have := Nat.mul_le_mul_left bl (Nat.succ_le_of_lt this)
      rw [Nat.mul_succ] at this
      omega
    omega
  · exact List.pairwise_lt_range
  · intro x
    simp only [List.mem_flatMap, List.mem_range]
    constructor
    · rintro ⟨ib, h1, h2⟩
      rw [mem_rangeList (by omega)] at h2
      omega
    · intro hx
      have h1 := Nat.mod_lt x hbl
      have h2 := Nat.mod_le x bl
      refine ⟨x - x % bl, ?_, ?_⟩
      · rw [mem_rangeList hbl]
        refine ⟨by omega, by omega, ?_⟩
        have e := Nat.div_add_mod x bl
        have : x - x % bl - 0 = bl * (x / bl) := by omega
        rw [this]; simp
      · rw [mem_rangeList (by omega)]
        exact ⟨by omega, by omega, Nat.mod_one _⟩

end PP
