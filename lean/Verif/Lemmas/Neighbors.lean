import Verif.Model.Neighbors
import Verif.Spec.Neighbors
import Verif.Props.GrHist

/-!
# The loops of the neighbour lists
-/

set_option linter.unusedSectionVars false

namespace PP

/-- State after some pairs: particle `p` has received the entries `P p`, rows have `w` columns. -/
structure NbInv (size w : ℕ) (P : ℕ → List ℤ) (s : NbState) : Prop where
  nnLen : s.1.length = size
  rows : s.2.length = size
  nn : ∀ p < size, s.1[p]? = some (P p).length
  row : ∀ p < size, ∃ rest, s.2[p]? = some (P p ++ rest) ∧ (P p ++ rest).length = w

theorem NbInv.le {size w : ℕ} {P : ℕ → List ℤ} {s : NbState} (h : NbInv size w P s) {p : ℕ} (hp : p < size) :
    (P p).length ≤ w := by
  obtain ⟨rest, _, h2⟩ := h.row p hp
  rw [← h2, List.length_append]; omega

/-- Entries received when a pair is stored. -/
def pushPair (P : ℕ → List ℤ) (i j : ℕ) (vi vj : ℤ) : ℕ → List ℤ :=
  fun p => if p = i then P p ++ [vi] else if p = j then P p ++ [vj] else P p

theorem fStore_ok {size w : ℕ} {m : List (List ℤ)} {i : ℕ} {A rest : List ℤ} (v : ℤ)
    (h : m[i]? = some (A ++ rest)) (hl : (A ++ rest).length = w) :
    (A.length < w ∧ ∃ rest', fStore m i A.length v = .ok (m.set i (A ++ [v] ++ rest')) ∧
        (A ++ [v] ++ rest').length = w) ∨
      (¬ A.length < w ∧ fStore m i A.length v = .error .outOfBounds) := by
  by_cases hw : A.length < w
  · left
    refine ⟨hw, ?_⟩
    cases rest with
    | nil => simp at hl; omega
    | cons r rest =>
      refine ⟨rest, ?_, ?_⟩
      · unfold fStore
        rw [h]
        simp only
        rw [if_pos (by rw [hl]; exact hw)]
        rw [List.set_append_right _ _ (le_refl _)]
        simp
      · simp at hl ⊢; omega
  · right
    refine ⟨hw, ?_⟩
    unfold fStore
    rw [h]
    simp only
    rw [if_neg (by rw [hl]; exact hw)]

theorem fPair_step {size w : ℕ} {P : ℕ → List ℤ} {s : NbState} (h : NbInv size w P s) {i j : ℕ} (hi : i < size)
    (hj : j < size) (hij : i ≠ j) (vi vj : ℤ) :
    ((P i).length < w ∧ (P j).length < w ∧ ∃ s', fPair s i j vi vj = .ok s' ∧ NbInv size w (pushPair P i j vi vj) s') ∨
      (¬ ((P i).length < w ∧ (P j).length < w) ∧ fPair s i j vi vj = .error .outOfBounds) := by
  have hni := h.nn i hi
  have hnj := h.nn j hj
  obtain ⟨ri, hri, hli⟩ := h.row i hi
  obtain ⟨rj, hrj, hlj⟩ := h.row j hj
  have e1 : ((s.1.modify i (· + 1)).modify j (· + 1)).getD i 0 - 1 = (P i).length := by
    rw [List.getD_eq_getElem?_getD, List.getElem?_modify, List.getElem?_modify, hni]
    simp [hij.symm]
  have e2 : ((s.1.modify i (· + 1)).modify j (· + 1)).getD j 0 - 1 = (P j).length := by
    rw [List.getD_eq_getElem?_getD, List.getElem?_modify, List.getElem?_modify, hnj]
    simp [hij]
  unfold fPair
  rw [if_pos ⟨by rw [h.nnLen]; exact hi, by rw [h.nnLen]; exact hj⟩]
  simp only [e1, e2, bind, Except.bind, pure, Except.pure]
  rcases fStore_ok (size := size) vi hri hli with ⟨hw1, ri', hs1, hl1⟩ | ⟨hw1, hs1⟩
  · rw [hs1]
    simp only
    have hrj' : (s.2.set i (P i ++ [vi] ++ ri'))[j]? = some (P j ++ rj) := by
      rw [List.getElem?_set_ne hij, hrj]
    rcases fStore_ok (size := size) vj hrj' hlj with ⟨hw2, rj', hs2, hl2⟩ | ⟨hw2, hs2⟩
    · left
      refine ⟨hw1, hw2, ((s.1.modify i (· + 1)).modify j (· + 1),
        (s.2.set i (P i ++ [vi] ++ ri')).set j (P j ++ [vj] ++ rj')), ?_, ?_⟩
      · rw [hs2]
      · refine ⟨by simp [h.nnLen], by simp [h.rows], ?_, ?_⟩
        · intro p hp
          rw [List.getElem?_modify, List.getElem?_modify, h.nn p hp]
          unfold pushPair
          by_cases h1 : p = i
          · subst h1; simp [Ne.symm hij]
          · by_cases h2 : p = j
            · subst h2; simp [h1, Ne.symm h1]
            · simp [h1, h2, Ne.symm h1, Ne.symm h2]
        · intro p hp
          unfold pushPair
          by_cases h1 : p = i
          · subst h1
            refine ⟨ri', ?_, by simpa using hl1⟩
            rw [List.getElem?_set_ne (Ne.symm hij), List.getElem?_set_self (by rw [h.rows]; exact hp)]
            simp
          · by_cases h2 : p = j
            · subst h2
              refine ⟨rj', ?_, by simpa [h1] using hl2⟩
              rw [List.getElem?_set_self (by simp [h.rows]; exact hp)]
              simp [h1]
            · obtain ⟨rest, h3, h4⟩ := h.row p hp
              refine ⟨rest, ?_, by simpa [h1, h2] using h4⟩
              rw [List.getElem?_set_ne (Ne.symm h2), List.getElem?_set_ne (Ne.symm h1), h3]
              simp [h1, h2]
    · right
      exact ⟨fun hh => hw2 hh.2, by rw [hs2]⟩
  · right
    exact ⟨fun hh => hw1 hh.1, by rw [hs1]⟩

/-- Partners of `p` among pairs, in the order of the pairs. -/
def partners (near : ℕ → ℕ → Bool) (p : ℕ) (l : List (ℕ × ℕ)) : List ℕ :=
  l.filterMap fun e => if near e.1 e.2 then (if p = e.1 then some e.2 else if p = e.2 then some e.1 else none) else none

theorem partners_append (near : ℕ → ℕ → Bool) (p : ℕ) (a b : List (ℕ × ℕ)) :
    partners near p (a ++ b) = partners near p a ++ partners near p b := by
  unfold partners; rw [List.filterMap_append]

/-- Entries of `p` after the pairs `l`. -/
def entries (near : ℕ → ℕ → Bool) (delta : ℤ) (l : List (ℕ × ℕ)) (p : ℕ) : List ℤ :=
  (partners near p l).map fun q : ℕ => (q : ℤ) + 1 + delta

theorem nbLoop_inv {near : ℕ → ℕ → Bool} {test : ℕ → ℕ → Py Bool} {delta : ℤ} {size w : ℕ} (l done : List (ℕ × ℕ))
    (s : NbState) (hs : NbInv size w (entries near delta done) s)
    (ht : ∀ e ∈ l, test e.1 e.2 = .ok (near e.1 e.2)) (hl : ∀ e ∈ l, near e.1 e.2 = true → e.1 < size ∧ e.2 < size ∧ e.1 ≠ e.2) :
    ((∀ p < size, (entries near delta (done ++ l) p).length ≤ w) ∧
      ∃ s', l.foldlM (fun s p => do
        let b ← test p.1 p.2
        if b then fPair s p.1 p.2 ((p.2 : ℤ) + 1 + delta) ((p.1 : ℤ) + 1 + delta) else return s) s = .ok s' ∧
        NbInv size w (entries near delta (done ++ l)) s') ∨
    ((∃ p < size, w < (entries near delta (done ++ l) p).length) ∧
      l.foldlM (fun s p => do
        let b ← test p.1 p.2
        if b then fPair s p.1 p.2 ((p.2 : ℤ) + 1 + delta) ((p.1 : ℤ) + 1 + delta) else return s) s =
          .error .outOfBounds) := by
  induction l generalizing done s with
  | nil =>
    left
    rw [List.append_nil]
    exact ⟨fun p hp => hs.le hp, s, rfl, hs⟩
  | cons e l ih =>
    have hle := hl e (by simp)
    have hte := ht e (by simp)
    have happ : done ++ e :: l = (done ++ [e]) ++ l := by simp
    rw [List.foldlM_cons, hte]
    cases hn : near e.1 e.2 with
    | false =>
      have hent : entries near delta (done ++ [e]) = entries near delta done := by
        funext p
        unfold entries
        rw [partners_append]
        simp [partners, hn]
      have := ih (done ++ [e]) s (by rw [hent]; exact hs) (fun x hx => ht x (by simp [hx]))
        (fun x hx => hl x (by simp [hx]))
      rw [happ]
      simpa [bind, Except.bind, pure, Except.pure] using this
    | true =>
      obtain ⟨he1, he2, he3⟩ := hle hn
      have hent : entries near delta (done ++ [e]) =
          pushPair (entries near delta done) e.1 e.2 ((e.2 : ℤ) + 1 + delta) ((e.1 : ℤ) + 1 + delta) := by
        funext p
        unfold entries pushPair
        rw [partners_append]
        by_cases h1 : p = e.1
        · simp [partners, hn, h1]
        · by_cases h2 : p = e.2
          · simp [partners, hn, h2, Ne.symm he3]
          · simp [partners, hn, h1, h2]
      rcases fPair_step hs he1 he2 he3 ((e.2 : ℤ) + 1 + delta) ((e.1 : ℤ) + 1 + delta) with
        ⟨h1, h2, s', h3, h4⟩ | ⟨h1, h3⟩
      · have := ih (done ++ [e]) s' (by rw [hent]; exact h4) (fun x hx => ht x (by simp [hx]))
          (fun x hx => hl x (by simp [hx]))
        rw [happ]
        simpa [bind, Except.bind, pure, Except.pure, h3] using this
      · right
        constructor
        · have hmono : ∀ p, (entries near delta (done ++ [e]) p).length ≤
              (entries near delta (done ++ e :: l) p).length := by
            intro p
            rw [happ]
            unfold entries
            rw [partners_append near p (done ++ [e]) l]
            simp
          rw [hent] at hmono
          rw [not_and_or] at h1
          rcases h1 with h1 | h1
          · refine ⟨e.1, he1, lt_of_lt_of_le ?_ (hmono e.1)⟩
            unfold pushPair
            simp; omega
          · refine ⟨e.2, he2, lt_of_lt_of_le ?_ (hmono e.2)⟩
            unfold pushPair
            simp [Ne.symm he3]; omega
        · simp [bind, Except.bind, pure, Except.pure, h3]

/-- The loops from the start: either all the lists fit in the columns and are complete, or there is an access out of
bounds. -/
theorem nbLoop_result {near : ℕ → ℕ → Bool} {test : ℕ → ℕ → Py Bool} {delta : ℤ} {size w : ℕ} (l : List (ℕ × ℕ))
    (neigh : List (List ℤ)) (hr : neigh.length = size) (hw : ∀ row ∈ neigh, row.length = w)
    (ht : ∀ e ∈ l, test e.1 e.2 = .ok (near e.1 e.2)) (hl : ∀ e ∈ l, near e.1 e.2 = true → e.1 < size ∧ e.2 < size ∧ e.1 ≠ e.2) :
    ((∀ p < size, (partners near p l).length ≤ w) ∧
      ∃ s, nbLoop test delta size neigh l = .ok s ∧ s.1.length = size ∧ ∀ p < size,
        s.listOf p = (partners near p l).map fun q : ℕ => (q : ℤ) + 1 + delta) ∨
    ((∃ p < size, w < (partners near p l).length) ∧ nbLoop test delta size neigh l = .error .outOfBounds) := by
  have h0 : NbInv size w (entries near delta []) (List.replicate size 0, neigh) := by
    refine ⟨by simp, hr, ?_, ?_⟩
    · intro p hp
      simp [entries, partners, hp]
    · intro p hp
      refine ⟨neigh[p], ?_, ?_⟩
      · simp [entries, partners, hr, hp]
      · simp only [entries, partners, List.filterMap_nil, List.map_nil, List.nil_append]
        exact hw _ (List.getElem_mem _)
  have hlen : ∀ p, (entries near delta l p).length = (partners near p l).length := fun p => by simp [entries]
  rcases nbLoop_inv (test := test) l [] _ h0 ht hl with ⟨h1, s, h2, h3⟩ | ⟨h1, h2⟩
  · left
    rw [List.nil_append] at h1 h3
    refine ⟨fun p hp => by rw [← hlen]; exact h1 p hp, s, h2, h3.nnLen, ?_⟩
    intro p hp
    obtain ⟨rest, h4, _⟩ := h3.row p hp
    unfold NbState.listOf
    rw [List.getD_eq_getElem?_getD, List.getD_eq_getElem?_getD, h4, h3.nn p hp]
    simp [entries]
  · right
    rw [List.nil_append] at h1
    obtain ⟨p, hp, hlt⟩ := h1
    exact ⟨⟨p, hp, by rw [← hlen]; exact hlt⟩, h2⟩

/-- The partners of `p` among all the pairs `i < j`, in ascending order. -/
theorem partners_pairsBelow (near : ℕ → ℕ → Bool) (n p : ℕ) (hp : p < n) :
    partners near p (pairsBelow n) =
      (List.range n).filter fun q => if q < p then near q p else if p < q then near p q else false := by
  have hrange : List.range n = List.range p ++ p :: List.range' (p + 1) (n - (p + 1)) := by
    have h1 : List.range n = List.range' 0 n := List.range_eq_range'
    have h2 : List.range p = List.range' 0 p := List.range_eq_range'
    rw [h1, h2, ← List.range'_succ]
    have h3 : n - (p + 1) + 1 = n - p := by omega
    rw [h3]
    have h4 := List.range'_append (s := 0) (m := p) (n := n - p) (step := 1)
    simp only [Nat.one_mul, Nat.zero_add] at h4
    rw [h4]
    congr 1
    omega
  have hpart : ∀ is : List ℕ, partners near p (is.flatMap fun i => (List.range' (i + 1) (n - (i + 1))).map fun j => (i, j)) =
      is.flatMap fun i => partners near p ((List.range' (i + 1) (n - (i + 1))).map fun j => (i, j)) := by
    intro is
    induction is with
    | nil => rfl
    | cons i is ih => rw [List.flatMap_cons, List.flatMap_cons, partners_append, ih]
  unfold pairsBelow
  rw [hpart]
  nth_rewrite 1 [hrange]
  rw [hrange, List.flatMap_append, List.flatMap_cons, List.filter_append, List.filter_cons]
  simp only [lt_irrefl, if_false, Bool.false_eq_true]
  congr 1
  · -- before p
    rw [← List.flatMap_singleton' (List.filter _ (List.range p)), ]
    have : ∀ is : List ℕ, (∀ i ∈ is, i < p) →
        (is.flatMap fun i => partners near p ((List.range' (i + 1) (n - (i + 1))).map fun j => (i, j))) =
          is.filter fun q => if q < p then near q p else if p < q then near p q else false := by
      intro is his
      induction is with
      | nil => rfl
      | cons i is ih =>
        rw [List.flatMap_cons, ih (fun x hx => his x (by simp [hx])), List.filter_cons]
        have hip := his i (by simp)
        have hone : partners near p ((List.range' (i + 1) (n - (i + 1))).map fun j => (i, j)) =
            if near i p then [i] else [] := by
          unfold partners
          rw [List.filterMap_map]
          have hsplit : List.range' (i + 1) (n - (i + 1)) =
              List.range' (i + 1) (p - (i + 1)) ++ p :: List.range' (p + 1) (n - (p + 1)) := by
            rw [← List.range'_succ]
            have h4 := List.range'_append (s := i + 1) (m := p - (i + 1)) (n := n - (p + 1) + 1) (step := 1)
            have h5 : i + 1 + 1 * (p - (i + 1)) = p := by omega
            rw [h5] at h4
            rw [h4]
            congr 1
            omega
          rw [hsplit, List.filterMap_append, List.filterMap_cons]
          have hA : List.filterMap ((fun e : ℕ × ℕ => if near e.1 e.2 then (if p = e.1 then some e.2 else if p = e.2 then some e.1 else none) else none) ∘ fun j => (i, j)) (List.range' (i + 1) (p - (i + 1))) = [] := by
            rw [List.filterMap_eq_nil_iff]
            intro j hj
            rw [List.mem_range'_1] at hj
            simp only [Function.comp_apply]
            rw [if_neg (by omega : ¬ p = i), if_neg (by omega : ¬ p = j)]
            simp
          have hB : List.filterMap ((fun e : ℕ × ℕ => if near e.1 e.2 then (if p = e.1 then some e.2 else if p = e.2 then some e.1 else none) else none) ∘ fun j => (i, j)) (List.range' (p + 1) (n - (p + 1))) = [] := by
            rw [List.filterMap_eq_nil_iff]
            intro j hj
            rw [List.mem_range'_1] at hj
            simp only [Function.comp_apply]
            rw [if_neg (by omega : ¬ p = i), if_neg (by omega : ¬ p = j)]
            simp
          rw [hA, hB]
          simp only [Function.comp_apply]
          rw [if_neg (by omega : ¬ p = i)]
          cases near i p <;> simp
        rw [hone, if_pos hip]
        cases near i p <;> simp
    rw [List.flatMap_singleton']
    exact this _ fun i hi => List.mem_range.1 hi
  · -- p itself, then after
    have hafter : (List.range' (p + 1) (n - (p + 1))).flatMap
        (fun i => partners near p ((List.range' (i + 1) (n - (i + 1))).map fun j => (i, j))) = [] := by
      rw [List.flatMap_eq_nil_iff]
      intro i hi
      rw [List.mem_range'_1] at hi
      unfold partners
      rw [List.filterMap_map, List.filterMap_eq_nil_iff]
      intro j hj
      rw [List.mem_range'_1] at hj
      simp only [Function.comp_apply]
      rw [if_neg (by omega : ¬ p = i), if_neg (by omega : ¬ p = j)]
      simp
    rw [hafter, List.append_nil]
    unfold partners
    rw [List.filterMap_map, ← List.filterMap_eq_filter]
    apply List.filterMap_congr
    intro j hj
    rw [List.mem_range'_1] at hj
    simp only [Function.comp_apply, Option.guard]
    have h1 : ¬ j < p := by omega
    have h2 : p < j := by omega
    simp [h1, h2]

theorem mem_pairsBelow {n : ℕ} {e : ℕ × ℕ} : e ∈ pairsBelow n ↔ e.1 < e.2 ∧ e.2 < n := by
  unfold pairsBelow
  simp only [List.mem_flatMap, List.mem_range, List.mem_map, List.mem_range'_1]
  constructor
  · rintro ⟨i, hi, j, hj, rfl⟩
    simp only; omega
  · rintro ⟨h1, h2⟩
    exact ⟨e.1, by omega, e.2, by omega, rfl⟩

section
variable {K : Type} [Field K] [LinearOrder K] [IsStrictOrderedRing K] {d : ℕ}

/-- The folded square distance is below the cut-off exactly when some image is. -/
theorem fDistSq_lt [FloorRing K] {L a b : Vec d K} (hL : ∀ c, 0 < L c) (hf : Spec.Folded L a b) (r : K) :
    fDistSq L a b < r ^ 2 ↔ Spec.Closer L r a b := by
  have he : fDistSq L a b = ∑ c, minImage L (fun c => a c - b c) c ^ 2 := by
    unfold fDistSq
    apply Finset.sum_congr rfl
    intro c _
    exact (Props.C35_fortran_fold L (fun c => a c - b c) c (hL c)).2 (hf c)
  obtain ⟨⟨m, hm⟩, _, hmin⟩ := Props.C35_minimum_image L (fun c => a c - b c) hL
  rw [he]
  constructor
  · intro h
    refine ⟨m, ?_⟩
    calc _ = ∑ c, minImage L (fun c => a c - b c) c ^ 2 := by
          apply Finset.sum_congr rfl
          intro c _
          rw [hm c]
      _ < _ := h
  · rintro ⟨k, hk⟩
    exact lt_of_le_of_lt (hmin k) hk

theorem fGet_nat {α : Type} {x : List α} {i : ℕ} {a : α} (h : x[i]? = some a) : fGet x ((i : ℤ) + 1) = .ok a := by
  unfold fGet
  rw [if_pos (by omega)]
  have : ((i : ℤ) + 1 - 1).toNat = i := by omega
  rw [this, h]

end

end PP
