import Verif.Props.Gr
import Verif.Props.LinkedCells
import Mathlib.Algebra.BigOperators.Fin
import Mathlib.Analysis.Real.Sqrt

/-!
# C44: radial distribution function with linked cells
-/

set_option linter.unusedSectionVars false

namespace PP.Props
open PP Classical

section
variable {V W : Type}

theorem countP_eq_sum_count (l : List ℕ) (m : ℕ) (p : ℕ → Prop) (hl : ∀ j ∈ l, j < m) :
    l.countP (fun j => decide (p j)) = ∑ j : Fin m, if p j then l.count (j : ℕ) else 0 := by
  induction l with
  | nil => simp
  | cons a l ih =>
    have ha := hl a (by simp)
    rw [List.countP_cons, ih fun j hj => hl j (by simp [hj])]
    have h1 : ∀ j : Fin m, (if p j then (a :: l).count (j : ℕ) else 0)
        = (if p j then l.count (j : ℕ) else 0) + if j = ⟨a, ha⟩ then (if p a then 1 else 0) else 0 := by
      intro j
      rw [List.count_cons]
      by_cases hj : j = ⟨a, ha⟩
      · subst hj; simp only [beq_self_eq_true, if_true]; split_ifs <;> simp
      · have : ¬(a = (j : ℕ)) := fun h => hj (Fin.ext h.symm)
        simp [hj, this]
    rw [Finset.sum_congr rfl fun j _ => h1 j, Finset.sum_add_distrib, Finset.sum_ite_eq' Finset.univ]
    simp

theorem crossPairs_eq_double (P : V → W → Prop) (x : List V) (y : List W) :
    Spec.crossPairs P x y = ∑ i : Fin x.length, ∑ j : Fin y.length, if P x[i] y[j] then 1 else 0 := by
  unfold Spec.crossPairs
  rw [Finset.card_filter, ← Finset.univ_product_univ, Finset.sum_product]

theorem selfPairs_eq_double (P : V → V → Prop) (x : List V) :
    Spec.selfPairs P x = ∑ i : Fin x.length, ∑ j : Fin x.length, if i < j ∧ P x[i] x[j] then 1 else 0 := by
  unfold Spec.selfPairs
  rw [Finset.card_filter, ← Finset.univ_product_univ, Finset.sum_product]

theorem list_range_sum (n : ℕ) (f : ℕ → ℕ) : ((List.range n).map f).sum = ∑ i : Fin n, f i := by
  induction n with
  | zero => simp
  | succ n ih => rw [List.range_succ, List.map_append, List.sum_append, ih, Fin.sum_univ_castSucc]; simp

theorem listed_sum (P : V → W → Prop) (x : List V) (y : List W) (nb : List (List ℕ))
    (hb : ∀ i, ∀ j ∈ nb.getD i [], j < y.length) :
    ((List.range x.length).map fun i => (nb.getD i []).countP fun j =>
      decide (∃ u v, x[i]? = some u ∧ y[j]? = some v ∧ P u v)).sum
    = ∑ i : Fin x.length, ∑ j : Fin y.length, if P x[i] y[j] then Spec.listed nb i j else 0 := by
  rw [list_range_sum]
  apply Finset.sum_congr rfl
  intro i _
  rw [countP_eq_sum_count _ y.length _ (hb i)]
  apply Finset.sum_congr rfl
  intro j _
  have : (∃ u v, x[(i : ℕ)]? = some u ∧ y[(j : ℕ)]? = some v ∧ P u v) ↔ P x[i] y[j] := by
    rw [List.getElem?_eq_getElem i.isLt, List.getElem?_eq_getElem j.isLt]
    simp
  simp only [this]
  rfl

theorem listed_cross (P : V → W → Prop) (x : List V) (y : List W) (nb : List (List ℕ))
    (hb : ∀ i, ∀ j ∈ nb.getD i [], j < y.length) (h1 : ∀ i j, Spec.listed nb i j ≤ 1)
    (h2 : ∀ i j u v, x[i]? = some u → y[j]? = some v → P u v → 1 ≤ Spec.listed nb i j) :
    ((List.range x.length).map fun i => (nb.getD i []).countP fun j =>
      decide (∃ u v, x[i]? = some u ∧ y[j]? = some v ∧ P u v)).sum = Spec.crossPairs P x y := by
  rw [listed_sum _ _ _ _ hb, crossPairs_eq_double]
  apply Finset.sum_congr rfl
  intro i _
  apply Finset.sum_congr rfl
  intro j _
  by_cases h : P x[i] y[j]
  · have h3 := h2 i j x[i] y[j] (List.getElem?_eq_getElem i.isLt) (List.getElem?_eq_getElem j.isLt) h
    have h4 := h1 i j
    simp only [h, if_true]; omega
  · simp only [h, if_false]

theorem listed_self (P : V → V → Prop) (hP : ∀ u v, P u v ↔ P v u) (x : List V) (nb : List (List ℕ))
    (hb : ∀ i, ∀ j ∈ nb.getD i [], j < x.length)
    (h1 : ∀ i j, Spec.listed nb i j + Spec.listed nb j i ≤ 1)
    (h2 : ∀ i j u v, i ≠ j → x[i]? = some u → x[j]? = some v → P u v →
      1 ≤ Spec.listed nb i j + Spec.listed nb j i) :
    ((List.range x.length).map fun i => (nb.getD i []).countP fun j =>
      decide (∃ u v, x[i]? = some u ∧ x[j]? = some v ∧ P u v)).sum = Spec.selfPairs P x := by
  rw [listed_sum _ _ _ _ hb, selfPairs_eq_double]
  set f : Fin x.length → Fin x.length → ℕ := fun i j => if P x[i] x[j] then Spec.listed nb i j else 0 with hf
  have hsplit : ∑ i, ∑ j, f i j = ∑ i, ∑ j, ((if i < j then f i j else 0) + if j < i then f i j else 0) := by
    apply Finset.sum_congr rfl
    intro i _
    apply Finset.sum_congr rfl
    intro j _
    rcases lt_trichotomy i j with h | h | h
    · simp [h, h.le]
    · subst h
      have := h1 i i
      simp only [hf, lt_irrefl, if_false]
      split_ifs <;> omega
    · simp [h, h.le]
  rw [hsplit]
  simp only [Finset.sum_add_distrib]
  rw [Finset.sum_comm (f := fun i j => if j < i then f i j else 0), ← Finset.sum_add_distrib]
  apply Finset.sum_congr rfl
  intro i _
  rw [← Finset.sum_add_distrib]
  apply Finset.sum_congr rfl
  intro j _
  by_cases hij : i < j
  · simp only [hij, if_true, true_and, hf, ← hP x[i] x[j]]
    by_cases h : P x[i] x[j]
    · have h3 := h2 i j x[i] x[j] (fun h => by have := Fin.ext h; subst this; exact lt_irrefl _ hij)
        (List.getElem?_eq_getElem i.isLt) (List.getElem?_eq_getElem j.isLt) h
      have h4 := h1 i j
      simp only [h, if_true]; omega
    · simp only [h, if_false]
  · simp [hij]

end

section
variable {K : Type} [Field K] [LinearOrder K] [IsStrictOrderedRing K] [FloorRing K] {d : ℕ}

theorem fPush_all (sq : K → K) (other : List (Vec d K)) (box a : Vec d K) (nb : List ℕ)
    (hb : ∀ j ∈ nb, j < other.length) (hl : nb.length ≤ other.length) :
    nb.foldlM (fun ds j => match other[j]? with
      | some pj => fPush other.length ds (fDist sq box pj a)
      | none => .error .outOfBounds) []
    = (.ok (nb.map fun j => fDist sq box (other.getD j a) a) : Py (List K)) := by
  have : ∀ (nb : List ℕ) (ds : List K), (∀ j ∈ nb, j < other.length) → ds.length + nb.length ≤ other.length →
      nb.foldlM (fun ds j => match other[j]? with
      | some pj => fPush other.length ds (fDist sq box pj a)
      | none => .error .outOfBounds) ds
      = (.ok (ds ++ nb.map fun j => fDist sq box (other.getD j a) a) : Py (List K)) := by
    intro nb
    induction nb with
    | nil => intro ds _ _; simp [pure, Except.pure]
    | cons j nb ih =>
      intro ds hb hl
      rw [List.length_cons] at hl
      have hj := hb j (by simp)
      rw [List.foldlM_cons]
      have h1 : (match other[j]? with
        | some pj => fPush other.length ds (fDist sq box pj a)
        | none => .error .outOfBounds) = (.ok (ds ++ [fDist sq box (other.getD j a) a]) : Py (List K)) := by
        rw [List.getElem?_eq_getElem hj, List.getD_eq_getElem _ _ hj]
        simp only
        have : fPush other.length ds (fDist sq box other[j] a) = .ok (ds ++ [fDist sq box other[j] a]) := by
          unfold fPush; rw [if_pos (by omega)]
        rw [this]
      rw [h1]
      show List.foldlM _ _ nb = _
      rw [ih _ (fun j hj => hb j (by simp [hj])) (by simp; omega)]
      simp
  simpa using this nb [] hb (by simpa using hl)

/-- The kernels using neighbours: no access out of bounds, and the histogram counts the listed pairs. -/
theorem grNeighborsC_ok (sq : K → K) (hsq : ∀ x, 0 ≤ sq x) (pos other : List (Vec d K)) (nb : List (List ℕ))
    (box : Vec d K) (w : K) (hw : 0 < w) (hist : List ℕ) (bins : List K) (hlen : nb.length = pos.length)
    (hb : ∀ i, ∀ j ∈ nb.getD i [], j < other.length) (hnd : ∀ i, (nb.getD i []).Nodup)
    (hd : ∀ u ∈ pos, ∀ v ∈ other, fDist sq box v u < w * (hist.length : K)) :
    grNeighborsC sq pos other nb box w hist bins = .ok
      ((List.range hist.length).map fun b : ℕ => ((List.range pos.length).map fun i =>
        (nb.getD i []).countP fun j => decide (∃ u v, pos[i]? = some u ∧ other[j]? = some v ∧
          ((b : K) * w ≤ fDist sq box v u ∧ fDist sq box v u < ((b : K) + 1) * w))).sum,
       fBins w bins.length) := by
  set vals : ℕ → List K := fun i =>
    match pos[i]? with
    | some a => (nb.getD i []).map fun j => fDist sq box (other.getD j a) a
    | none => [] with hvals
  have hsize : ∀ i, (nb.getD i []).length ≤ other.length := by
    intro i
    rw [← List.toFinset_card_of_nodup (hnd i), ← Finset.card_range other.length]
    exact Finset.card_le_card fun j hj => Finset.mem_range.2 (hb i j (List.mem_toFinset.1 hj))
  have hbody : ∀ i ∈ List.range pos.length,
      (do
        let pi ← pyGet pos i
        let l ← match nb[i]? with
          | some l => (.ok l : Py (List ℕ))
          | none => .error .outOfBounds
        l.foldlM (fun ds j =>
          match other[j]? with
          | some pj => fPush other.length ds (fDist sq box pj pi)
          | none => .error .outOfBounds) [])
      = (.ok (vals i) : Py (List K)) := by
    intro i hi
    rw [List.mem_range] at hi
    have h1 : pyGet pos i = .ok pos[i] := by unfold pyGet; rw [List.getElem?_eq_getElem hi]
    have h2 : nb[i]? = some (nb.getD i []) := by
      rw [List.getElem?_eq_getElem (by omega), List.getD_eq_getElem _ _ (by omega)]
    rw [h1, h2]
    simp only [bind, Except.bind]
    refine Eq.trans (fPush_all sq other box pos[i] _ (hb i) (hsize i)) ?_
    simp only [hvals, List.getElem?_eq_getElem hi]
  have hv : ∀ i ∈ List.range pos.length, ∀ r ∈ vals i, 0 ≤ r ∧ r < w * (hist.length : K) := by
    intro i _ r hr
    simp only [hvals] at hr
    cases h : pos[i]? with
    | none => simp [h] at hr
    | some a =>
      simp only [h, List.mem_map] at hr
      obtain ⟨j, hj, rfl⟩ := hr
      refine ⟨hsq _, hd a (List.mem_of_getElem? h) _ ?_⟩
      rw [List.getD_eq_getElem _ _ (hb i j hj)]
      exact List.getElem_mem _
  have hloop := fLoop_ok hw hist.length (List.range pos.length) (fun i => do
        let pi ← pyGet pos i
        let l ← match nb[i]? with
          | some l => (.ok l : Py (List ℕ))
          | none => .error .outOfBounds
        l.foldlM (fun ds j =>
          match other[j]? with
          | some pj => fPush other.length ds (fDist sq box pj pi)
          | none => .error .outOfBounds) []) vals hbody hv (fun _ => 0)
  have hcode : ∀ f g : List ℕ → ℕ → Py (List ℕ), f = g → ∀ h l,
      ((List.foldlM f h l).bind fun h => (.ok (h, fBins w bins.length) : Py (List ℕ × List K)))
        = (List.foldlM g h l).bind fun h => .ok (h, fBins w bins.length) := by
    rintro f g rfl h l; rfl
  rw [← zero_hist hist] at hloop
  refine Eq.trans (hcode _ (fun h i => do
        let ds ← (do
          let pi ← pyGet pos i
          let l ← match nb[i]? with
            | some l => (.ok l : Py (List ℕ))
            | none => .error .outOfBounds
          l.foldlM (fun ds j =>
            match other[j]? with
            | some pj => fPush other.length ds (fDist sq box pj pi)
            | none => .error .outOfBounds) [])
        fBinAll w h ds) ?_ _ _) ?_
  · funext h i
    simp only [bind, Except.bind]
    cases pyGet pos i with
    | error e => rfl
    | ok a => cases nb[i]? <;> rfl
  refine Eq.trans (congrArg (fun r => Except.bind r fun h => (.ok (h, fBins w bins.length) : Py (List ℕ × List K))) hloop) ?_
  simp only [bind, Except.bind, pure, Except.pure]
  congr 2
  apply List.map_congr_left
  intro b hb'
  rw [Nat.zero_add]
  congr 1
  apply List.map_congr_left
  intro i hi
  rw [List.mem_range] at hi
  simp only [hvals, List.getElem?_eq_getElem hi]
  rw [List.countP_map]
  apply List.countP_congr
  intro j hj
  have hj' := hb i j hj
  simp only [Function.comp_apply, decide_eq_true_eq, List.getD_eq_getElem _ _ hj', List.getElem?_eq_getElem hj']
  simp

/-- A distance of the Fortran kernels never exceeds half the diagonal of a cubic box of the largest side. -/
theorem fDist_bound (sq : K → K) (hsq : ∀ x, 0 ≤ sq x) (hsq2 : ∀ x, 0 ≤ x → sq x * sq x = x) (L u v : Vec d K)
    (hL : ∀ c, 0 < L c) {M : K} (hM : 0 ≤ M) (hLM : ∀ c, L c ≤ M) (hu : Spec.Inside L u)
    (hv : Spec.Inside L v) : fDist sq L v u ≤ M * sq (d : K) / 2 := by
  have hd0 : (0 : K) ≤ (d : K) := Nat.cast_nonneg d
  have hb : 0 ≤ M * sq (d : K) / 2 := div_nonneg (mul_nonneg hM (hsq _)) (by norm_num)
  have hs : ∑ c, fpbc (L c) (v c - u c) ^ 2 ≤ (d : K) * (M / 2) ^ 2 := by
    have : ∀ c ∈ (Finset.univ : Finset (Fin d)), fpbc (L c) (v c - u c) ^ 2 ≤ (M / 2) ^ 2 := by
      intro c _
      have h1 := fpbc_abs (r := v c - u c) (hL c) (by
        have := hu c; have := hv c; have := hL c
        rw [abs_le]; constructor <;> linarith)
      have h2 := hLM c
      rw [← sq_abs]
      exact pow_le_pow_left₀ (abs_nonneg _) (by linarith) 2
    calc _ ≤ ∑ _c : Fin d, (M / 2) ^ 2 := Finset.sum_le_sum this
      _ = _ := by simp
  have h0 : 0 ≤ ∑ c, fpbc (L c) (v c - u c) ^ 2 := Finset.sum_nonneg fun c _ => sq_nonneg _
  unfold fDist
  refine abs_le_of_sq_le_sq' ?_ hb |>.2
  rw [pow_two, hsq2 _ h0]
  have := hsq2 _ hd0
  calc _ ≤ (d : K) * (M / 2) ^ 2 := hs
    _ = (M / 2) ^ 2 * (sq (d : K) * sq (d : K)) := by rw [this]; ring
    _ = _ := by ring

/-- Two particles closer than the cut-off, by the distance of the Fortran kernels. -/
theorem near_of_fDist (sq : K → K) (hsq : ∀ x, 0 ≤ sq x) (hsq2 : ∀ x, 0 ≤ x → sq x * sq x = x) (L u v : Vec d K)
    (hL : ∀ c, 0 < L c) {r : K} (h : fDist sq L v u ≤ r) : Spec.Near (fun _ => true) L r u v := by
  have hk : ∀ c, ∃ k : ℤ, fpbc (L c) (v c - u c) = (v c - u c) + k * L c := fun c => fpbc_image (hL c)
  choose k hk using hk
  refine ⟨fun c => -k c, by simp, ?_⟩
  have h0 : 0 ≤ ∑ c, fpbc (L c) (v c - u c) ^ 2 := Finset.sum_nonneg fun c _ => sq_nonneg _
  have h1 : ∑ c, (u c - v c + ((-k c : ℤ) : K) * L c) ^ 2 = ∑ c, fpbc (L c) (v c - u c) ^ 2 := by
    apply Finset.sum_congr rfl
    intro c _
    rw [hk c]
    push_cast
    ring
  rw [h1, ← hsq2 _ h0, ← pow_two]
  exact pow_le_pow_left₀ (hsq _) h 2

/-- The neighbours that a new object would find for a frame. -/
noncomputable def cellsNb (o : GrObj d K) (L : Vec d K) (f : GrFrame d K) : List (List ℕ) :=
  match (LinkedCells.new o.rmax).compute L f.pos0 (if o.same then none else some f.pos1) true (fun _ => true) true with
  | .ok r => r.2
  | .error _ => []

/-- The histogram that follows. -/
noncomputable def cellsHist (sq : K → K) (o : GrObj d K) (w : K) (n : ℕ) (L : Vec d K) (f : GrFrame d K) : List ℕ :=
  (List.range n).map fun b : ℕ => ((List.range f.pos0.length).map fun i =>
        ((cellsNb o L f).getD i []).countP fun j => decide (∃ u v, f.pos0[i]? = some u ∧ f.pos1[j]? = some v ∧
          ((b : K) * w ≤ fDist sq L v u ∧ fDist sq L v u < ((b : K) + 1) * w))).sum

theorem nodup_of_listed {nb : List (List ℕ)} (h : ∀ i j, Spec.listed nb i j ≤ 1) (i : ℕ) : (nb.getD i []).Nodup :=
  List.nodup_iff_count_le_one.2 fun j => h i j

/-- What the linked cells of one frame provide. -/
theorem cellsNb_ok (o : GrObj d K) (L : Vec d K) (f : GrFrame d K) (hd : d = 2 ∨ d = 3) (hr : 0 < o.rmax)
    (hL : ∀ c, 3 * o.rmax ≤ L c) (h0 : ∀ x ∈ f.pos0, Spec.Inside L x) (h1 : ∀ x ∈ f.pos1, Spec.Inside L x)
    (hne : f.pos0 ≠ []) (hsame : o.same = true → f.pos0 = f.pos1) :
    (∃ lc, (LinkedCells.new o.rmax).compute L f.pos0 (if o.same then none else some f.pos1) true
        (fun _ => true) true = .ok (lc, cellsNb o L f)) ∧
      (cellsNb o L f).length = f.pos0.length ∧ (∀ i, ∀ j ∈ (cellsNb o L f).getD i [], j < f.pos1.length) ∧
      (∀ i j, Spec.listed (cellsNb o L f) i j ≤ 1) ∧
      (∀ B : K → Prop, ∀ sq : K → K, (∀ x, 0 ≤ sq x) → (∀ x, 0 ≤ x → sq x * sq x = x) → f.side = L →
        (∀ r, B r → r ≤ o.rmax) →
        ((List.range f.pos0.length).map fun i => ((cellsNb o L f).getD i []).countP fun j =>
          decide (∃ u v, f.pos0[i]? = some u ∧ f.pos1[j]? = some v ∧ B (fDist sq L v u))).sum
        = pairCount o (fDist sq) f B) := by
  have hL1 : ∀ c, o.rmax ≤ L c := fun c => by have := hL c; linarith
  have hL0 : ∀ c, 0 < L c := fun c => by have := hL c; linarith
  cases hs : o.same with
  | true =>
    have hs' := hsame hs
    obtain ⟨lc, nb, e, p1, p2, p3⟩ := C42_complete o.rmax L f.pos0 (fun _ => true) true hd hr hL1 h0 (fun _ => hne)
    obtain ⟨lc', nb', e', p4⟩ := C43_once o.rmax L f.pos0 (fun _ => true) true hd hr hL1 (fun c _ => hL c) h0 (fun _ => hne)
    rw [e] at e'
    cases e'
    have hnb : cellsNb o L f = nb := by unfold cellsNb; simp only [hs, if_true, e]
    rw [hnb]
    refine ⟨⟨lc, by simpa using e⟩, p1, by rw [← hs']; exact p2, fun i j => by have := p4 i j; omega, ?_⟩
    intro B sq hsq hsq2 hside hB
    unfold pairCount
    rw [hs, if_pos rfl, hside, ← hs']
    exact listed_self (fun u v => B (fDist sq L v u)) (fun u v => by rw [fDist_comm]) f.pos0 nb p2 p4
      fun i j u v hij hu hv hb => p3 i j u v hij hu hv (near_of_fDist sq hsq hsq2 L u v hL0 (hB _ hb))
  | false =>
    obtain ⟨lc, nb, e, p1, p2, p3⟩ := C42_two_groups o.rmax L f.pos0 f.pos1 true (fun _ => true) true hd hr hL1 h0 h1
      (fun _ => hne)
    obtain ⟨lc', nb', e', p4⟩ := C43_once_two_groups o.rmax L f.pos0 f.pos1 true (fun _ => true) true hd hr hL1
      (fun c _ => hL c) h0 h1 (fun _ => hne)
    rw [e] at e'
    cases e'
    have hnb : cellsNb o L f = nb := by unfold cellsNb; simp only [hs, Bool.false_eq_true, if_false, e]
    rw [hnb]
    refine ⟨⟨lc, by simpa using e⟩, p1, p2, p4, ?_⟩
    intro B sq hsq hsq2 hside hB
    unfold pairCount
    rw [hs, if_neg (by simp), hside]
    have := listed_cross (fun u v => B (fDist sq L v u)) f.pos0 f.pos1 nb p2 p4
      fun i j u v hu hv hb => p3 i j u v hu hv (near_of_fDist sq hsq hsq2 L u v hL0 (hB _ hb))
    rw [this]
    apply crossPairs_congr
    intro u _ v _
    rw [fDist_comm]

/-- The condition on the object of linked cells kept by the loop over frames. -/
def CellsInv (o : GrObj d K) (L : Vec d K) (c : Option (LinkedCells d K)) : Prop :=
  ∃ lc, c = some lc ∧ ∀ pos other, Option.isNone other = o.same →
    lc.compute L pos other true (fun _ => true) true
      = (LinkedCells.new o.rmax).compute L pos other true (fun _ => true) true

theorem fastFrame_cells (sq : K → K) (hsq : ∀ x, 0 ≤ sq x) (huge : K)
    (o : GrObj d K) {w : K} {n0 n1 : ℕ} {f0 : GrFrame d K} {n : ℕ} (h : GrSystem o w n0 n1 f0)
    (hd : d = 2 ∨ d = 3) (hr : 0 < o.rmax) (L : Vec d K)
    (hL : ∀ c, 3 * o.rmax ≤ L c) (st : GrFastState d K) (f : GrFrame d K)
    (hf : f ∈ o.frames) (hp : ∀ c, f.periodic c = true) (hside : f.side = L)
    (hin0 : ∀ x ∈ f.pos0, Spec.Inside L x) (hin1 : ∀ x ∈ f.pos1, Spec.Inside L x)
    (hfar : ∀ u ∈ f.pos0, ∀ v ∈ f.pos1, fDist sq L v u < w * (n : K))
    (hc : CellsInv o L st.cells) (h1 : st.hist.length = n) (h2 : st.bins.length = n) :
    ∃ c', CellsInv o L c' ∧ grFastFrame sq huge o w st f = .ok
      { cells := c', hist := cellsHist sq o w n L f,
        bins := fBins w n, n0 := st.n0 ++ [n0], n1 := st.n1 ++ [n1],
        grAll := st.grAll ++ [cellsHist sq o w n L f],
        flags := some (!o.same, false), system := f } := by
  have hd0 : 0 < d := by omega
  have e0 : f.pos0 ≠ [] := by
    intro hc; have := h.len0 f hf; rw [hc] at this; have := h.n0_pos; simp at *; omega
  have e1 : f.pos1 ≠ [] := by
    intro hc; have := h.len1 f hf; rw [hc] at this; have := h.n1_pos; simp at *; omega
  have hcond : (f.pos0.isEmpty || f.pos1.isEmpty) = false := by simp [e0, e1]
  have hnp : ¬ ∀ c, f.periodic c = false := fun hc => by
    have := hc ⟨0, hd0⟩; rw [hp] at this; cases this
  have hcrop : decide ((∀ c, f.periodic c = false) ∧ o.rmax > 0) = false := by simp [hnp]
  have hside' : (fun c => if f.periodic c = true then f.side c else huge) = L := by
    funext c; rw [if_pos (hp c), hside]
  have hper : f.periodic = fun _ => true := funext hp
  obtain ⟨⟨lc', hlc'⟩, p1, p2, p3, -⟩ := cellsNb_ok o L f hd hr hL hin0 hin1 e0 (fun hs => h.same hs f hf)
  obtain ⟨lc, hlc, hcomp⟩ := hc
  have hcells : grFastCells st.cells f f.pos0 (!o.same) = .ok (some lc', cellsNb o L f) := by
    rw [hlc]
    unfold grFastCells
    have hif : (if (!o.same) = true then some f.pos1 else none) = if o.same = true then none else some f.pos1 := by
      cases o.same <;> rfl
    simp only [hif, hper, hside]
    rw [hcomp _ _ (by cases o.same <;> rfl), hlc']
    rfl
  refine ⟨some lc', ⟨lc', rfl, ?_⟩, ?_⟩
  · intro pos other hother
    exact C45_reuse_partial o.rmax L f.pos0 pos (if o.same then none else some f.pos1) other true true
      (fun _ => true) true true lc' (cellsNb o L f) (by rw [hother]; cases o.same <;> rfl) hlc'
  have hk := grNeighborsC_ok sq hsq f.pos0 f.pos1 (cellsNb o L f) L w h.w_pos st.hist st.bins p1 p2
    (nodup_of_listed p3) (by rw [h1]; exact hfar)
  rw [h1, h2] at hk
  have hk' : grFastKernel sq w true (!o.same) (cellsNb o L f) L f.pos0 f.pos1 st.hist st.bins
      = .ok (cellsHist sq o w n L f, fBins w n) := by
    unfold grFastKernel
    cases hs : o.same with
    | true =>
      have := h.same hs f hf
      simp only [Bool.not_true, Bool.false_eq_true, if_false, if_true]
      rw [← this] at hk
      rw [hk]
      unfold cellsHist
      rw [← this]
    | false =>
      simp only [Bool.not_false, if_true]
      rw [hk]
      rfl
  unfold grFastFrame
  rw [hcond]
  simp only [hcrop, Bool.false_eq_true, if_false, Bool.false_or, hcells, hside']
  have hass : (¬ ((∀ c, f.periodic c = false) ∨ ∀ c, f.periodic c = true)) = False := by simp [hp]
  simp only [Except.bind, Option.isSome_some, hass, if_false, hk', h.len0 f hf]
  have : (if (!o.same) = true then f.pos1.length else n0) = n1 := by
    cases hs : o.same with
    | true => rw [← h.len1 f hf, ← h.len0 f hf, h.same hs f hf]; simp
    | false => rw [← h.len1 f hf]; simp
  rw [this]

theorem filter_map_eq {α β : Type} (l : List α) (F G : α → β) (p : β → Bool)
    (h : ∀ x ∈ l, p (F x) = p (G x) ∧ (p (F x) = true → F x = G x)) :
    (l.map F).filter p = (l.map G).filter p := by
  induction l with
  | nil => rfl
  | cons a l ih =>
    obtain ⟨h1, h2⟩ := h a (by simp)
    have ih' := ih fun x hx => h x (by simp [hx])
    rw [List.map_cons, List.map_cons, List.filter_cons, List.filter_cons, ih', ← h1]
    split_ifs with hp
    · rw [h2 hp]
    · rfl

/-- Linked cells are used only if the cut-off is at most a quarter of the sides of the cell. -/
theorem useLinkedCells_true (o : GrObj d K) (f0 : GrFrame d K) (hd : 0 < d) (h : useLinkedCells o f0 = .ok true) :
    0 < o.rmax ∧ ∀ c, 4 * o.rmax ≤ f0.side c := by
  unfold useLinkedCells at h
  by_cases hr : o.rmax > 0
  swap
  · rw [if_neg hr] at h; cases h
  rw [if_pos hr] at h
  refine ⟨hr, fun c => ?_⟩
  obtain ⟨m, hm, hle, -⟩ := pyMin_ofFn hd fun c => f0.side c / o.rmax
  rw [hm] at h
  simp only [bind, Except.bind, pure, Except.pure, Except.ok.injEq, decide_eq_true_eq] at h
  have h4 : (4 : K) ≤ m := by
    have h1 := h.1
    unfold pyInt at h1
    split_ifs at h1 with h0
    · have h5 : (4 : ℤ) ≤ ⌊m⌋ := by omega
      have := Int.le_floor.1 h5
      exact_mod_cast this
    · push Not at h0
      have : ⌈m⌉ ≤ 0 := Int.ceil_le.2 (by simpa using h0.le)
      omega
  have := le_trans h4 (hle c)
  rwa [le_div_iff₀ hr] at this

/-- **C44.** When linked cells are used on periodic frames with the same cell and with the particles inside it,
no write is out of bounds and all the points whose bins lie below `rmax` are those of the legacy calculation. -/
theorem C44_linked_cells (sq : K → K) (hsq : ∀ x, 0 ≤ sq x) (hsq2 : ∀ x, 0 ≤ x → sq x * sq x = x) {pi : K}
    (hpi : 0 < pi) (huge : K) (o : GrObj d K) {w : K} {n0 n1 : ℕ} {f0 : GrFrame d K}
    (h : GrRegular sq o w n0 n1 f0) (hd : d = 2 ∨ d = 3) (hper : ∀ f ∈ o.frames, ∀ c, f.periodic c = true)
    (hcell : ∀ f ∈ o.frames, f.side = f0.side)
    (hin : ∀ f ∈ o.frames, ∀ x, x ∈ f.pos0 ∨ x ∈ f.pos1 → Spec.Inside f0.side x)
    (hlc : useLinkedCells o f0 = .ok true) :
    ∃ fast legacy, grFast sq pi huge o = .ok fast ∧ grLegacy sq pi o = .ok legacy ∧
      fast.map Prod.fst <+: legacy.map Prod.fst ∧
      (fast.filter fun p => p.1 + w / 2 ≤ o.rmax) = legacy.filter fun p => p.1 + w / 2 ≤ o.rmax := by
  have hd0 : 0 < d := by omega
  obtain ⟨hr, hL⟩ := useLinkedCells_true o f0 hd0 hlc
  obtain ⟨n, hn, hg, hn2⟩ := grSetupGrid_default sq hsq o f0.side h.w_pos h.rgrid h.dr h.fit
  have hw := h.w_pos
  have hL3 : ∀ c, 3 * o.rmax ≤ f0.side c := fun c => by have := hL c; linarith
  have hL0 : ∀ c, 0 < f0.side c := fun c => by have := hL c; linarith
  have hfar : ∀ f ∈ o.frames, ∀ u ∈ f.pos0, ∀ v ∈ f.pos1, fDist sq f0.side v u < w * (n : K) := by
    intro f hf u hu v hv
    obtain ⟨cm, -, hcm⟩ := Finset.exists_max_image (Finset.univ : Finset (Fin d)) f0.side ⟨⟨0, hd0⟩, Finset.mem_univ _⟩
    have hb := fDist_bound sq hsq hsq2 f0.side u v hL0 (hL0 cm).le (fun c => hcm c (Finset.mem_univ _))
      (hin f hf u (Or.inl hu)) (hin f hf v (Or.inr hv))
    obtain ⟨c, hc⟩ := h.fit
    have h1 := mul_le_mul_of_nonneg_right (hcm c (Finset.mem_univ _)) (hsq (d : K))
    have h2 := hn2 cm
    rw [mul_comm w]
    linarith
  have hL' := grLegacy_closed sq hpi o h.system hn hg
  have hF := grFast_closed sq hpi huge o h.system hn hg true hlc (CellsInv o f0.side) ⟨_, rfl, fun _ _ _ => rfl⟩
    (cellsHist sq o w n f0.side) (by simp [cellsHist])
    (fun st f hf hc h1 h2 => fastFrame_cells sq hsq huge o h.system hd hr f0.side hL3 st f hf (hper f hf) (hcell f hf)
      (fun x hx => hin f hf x (Or.inl hx)) (fun x hx => hin f hf x (Or.inr hx)) (hfar f hf) hc h1 h2)
  set g := (originFrames o.frames o.skip).getLastD f0 with hgdef
  obtain ⟨m, hm1, -, -, hm⟩ := grCrop_ok (rmax := o.rmax) (side := g.side) hd0
  rw [hm, hm1 hr] at hL' hF
  have hrange : List.range n = List.range (n - 1) ++ [n - 1] := by
    conv_lhs => rw [show n = (n - 1) + 1 by omega, List.range_succ]
  refine ⟨_, _, hF, hL', ?_, ?_⟩
  · have hfst : ∀ (l : List ℕ) (F : ℕ → Option K),
        ((l.map fun j : ℕ => (((j : K) + 1 / 2) * w, F j)).filter fun p => p.1 ≤ o.rmax).map Prod.fst
          = (l.map fun j : ℕ => ((j : K) + 1 / 2) * w).filter fun x => x ≤ o.rmax := by
      intro l F
      induction l with
      | nil => rfl
      | cons a l ih =>
        simp only [List.map_cons, List.filter_cons]
        split_ifs
        · rw [List.map_cons, ih]
        · exact ih
    rw [hfst, hfst, hrange, List.map_append, List.filter_append]
    exact List.prefix_append _ _
  · rw [List.filter_filter, List.filter_filter, hrange, List.map_append, List.filter_append]
    have hlast : ∀ F : ℕ → Option K, (List.map (fun j : ℕ => (((j : K) + 1 / 2) * w, F j)) [n - 1]).filter
        (fun p => decide (p.1 + w / 2 ≤ o.rmax) && decide (p.1 ≤ o.rmax)) = [] := by
      intro F
      rw [List.map_singleton, List.filter_singleton, cond_eq_ite, if_neg]
      rw [Bool.and_eq_true, decide_eq_true_iff]
      rintro ⟨hx, -⟩
      have hnn : ((n - 1 : ℕ) : K) = (n : K) - 1 := by
        rw [Nat.cast_sub (by omega)]; simp
      simp only [hnn] at hx
      have h1 := hn2 ⟨0, hd0⟩
      have h2 := hL ⟨0, hd0⟩
      have hsd : 1 ≤ sq (d : K) := by
        by_contra hc
        push Not at hc
        have h3 := hsq2 (d : K) (Nat.cast_nonneg d)
        have h4 : sq (d : K) * sq (d : K) < 1 := by nlinarith [hsq (d : K)]
        rw [h3] at h4
        have : (1 : K) ≤ (d : K) := by exact_mod_cast hd0
        linarith
      have h5 : f0.side ⟨0, hd0⟩ * 1 ≤ f0.side ⟨0, hd0⟩ * sq (d : K) :=
        mul_le_mul_of_nonneg_left hsd (hL0 _).le
      have h6 : (2 : K) ≤ n := by exact_mod_cast hn
      nlinarith
    rw [hlast, List.append_nil]
    apply filter_map_eq
    intro j hj
    rw [List.mem_range] at hj
    refine ⟨rfl, fun hp => ?_⟩
    rw [Bool.and_eq_true, decide_eq_true_iff] at hp
    have hjr : ((j : K) + 1) * w ≤ o.rmax := by
      have := hp.1
      simp only at this
      linarith
    congr 2
    unfold grVal meanCount
    congr 3
    apply List.map_congr_left
    intro f hf
    have hf' := originFrames_mem hf
    congr 1
    have e0 : f.pos0 ≠ [] := by
      intro hc; have := h.len0 f hf'; rw [hc] at this; have := h.n0_pos; simp at *; omega
    obtain ⟨-, -, -, -, hcount⟩ := cellsNb_ok o f0.side f hd hr hL3 (fun x hx => hin f hf' x (Or.inl hx))
      (fun x hx => hin f hf' x (Or.inr hx)) e0 (fun hs => h.same hs f hf')
    have hcount' := hcount (fun r => (j : K) * w ≤ r ∧ r < ((j : K) + 1) * w) sq hsq hsq2 (hcell f hf')
      (fun r hr => by linarith [hr.2])
    dsimp only
    unfold cellsHist
    rw [List.getD_eq_getElem?_getD, List.getElem?_map, List.getElem?_range (by omega)]
    refine Eq.trans hcount' ?_
    apply pairCount_congr (fun hs => h.same hs f hf')
    intro u hu v hv
    have ha : ∀ x, Spec.Inside f0.side x → ∀ c, |x c| ≤ f.side c / 2 := fun x hx c => by
      rw [hcell f hf', abs_le]; exact ⟨(hx c).1, (hx c).2.le⟩
    rw [C35_backends_agree sq f.side u v (h.side_pos f hf') (ha u (hin f hf' u (Or.inl hu)))
      (ha v (hin f hf' v (Or.inr hv))), inBin_default (by omega)]
    constructor
    · rintro ⟨h1, h2⟩
      exact ⟨h1, Or.inl h2⟩
    · rintro ⟨h1, h2 | ⟨h2, -⟩⟩
      · exact ⟨h1, h2⟩
      · omega

/-- Two frames of three particles in a square cell of side 16, with a cut-off 4 and spacing 3/2. In the first
frame two particles are at distance 21/5, in the last bin kept. -/
def cellsExample (R : Type) [Field R] : GrObj 2 R :=
  { frames := [⟨![16, 16], fun _ => true, [![-41 / 10, 0], ![1 / 10, 0], ![-41 / 10, 1]],
        [![-41 / 10, 0], ![1 / 10, 0], ![-41 / 10, 1]]⟩,
      ⟨![16, 16], fun _ => true, [![-41 / 10, 0], ![79 / 10, 7], ![-79 / 10, 7]],
        [![-41 / 10, 0], ![79 / 10, 7], ![-79 / 10, 7]]⟩],
    skip := 1, same := true, rgrid := none, dr := .float (3 / 2), rmax := 4 }

/-- The hypotheses of `C44_linked_cells` hold for real numbers. -/
example : ∃ fast legacy, grFast Real.sqrt 3 1000000 (cellsExample ℝ) = .ok fast ∧
    grLegacy Real.sqrt 3 (cellsExample ℝ) = .ok legacy ∧ fast.map Prod.fst <+: legacy.map Prod.fst ∧
    (fast.filter fun p => p.1 + (3 / 2) / 2 ≤ (4 : ℝ)) = legacy.filter fun p => p.1 + (3 / 2) / 2 ≤ (4 : ℝ) := by
  have hs : (1 : ℝ) ≤ Real.sqrt ((2 : ℕ) : ℝ) := by
    rw [Real.one_le_sqrt]; norm_num
  refine C44_linked_cells Real.sqrt Real.sqrt_nonneg (fun x hx => Real.mul_self_sqrt hx) (by norm_num) _
    (cellsExample ℝ) (n0 := 3) (n1 := 3) (f0 := ⟨![16, 16], fun _ => true, [![-41 / 10, 0], ![1 / 10, 0], ![-41 / 10, 1]],
        [![-41 / 10, 0], ![1 / 10, 0], ![-41 / 10, 1]]⟩) ?_ (Or.inl rfl) ?_ ?_ ?_ ?_
  · refine ⟨rfl, by decide, by norm_num, rfl, rfl, ⟨0, ?_⟩, ?_, by norm_num, by norm_num, ?_, ?_, ?_⟩
    · show 3 / 2 * (3 / 2 : ℝ) ≤ 16 * Real.sqrt ((2 : ℕ) : ℝ)
      exact le_trans (by norm_num) (mul_le_mul_of_nonneg_left hs (by norm_num : (0 : ℝ) ≤ 16))
    · intro f hf c
      simp only [cellsExample, List.mem_cons, List.not_mem_nil, or_false] at hf
      rcases hf with rfl | rfl <;> fin_cases c <;> norm_num
    · intro f hf
      simp only [cellsExample, List.mem_cons, List.not_mem_nil, or_false] at hf
      rcases hf with rfl | rfl <;> rfl
    · intro f hf
      simp only [cellsExample, List.mem_cons, List.not_mem_nil, or_false] at hf
      rcases hf with rfl | rfl <;> rfl
    · intro _ f hf
      simp only [cellsExample, List.mem_cons, List.not_mem_nil, or_false] at hf
      rcases hf with rfl | rfl <;> rfl
  · intro f hf
    simp only [cellsExample, List.mem_cons, List.not_mem_nil, or_false] at hf
    rcases hf with rfl | rfl <;> simp
  · intro f hf
    simp only [cellsExample, List.mem_cons, List.not_mem_nil, or_false] at hf
    rcases hf with rfl | rfl <;> rfl
  · intro f hf x hx
    simp only [cellsExample, List.mem_cons, List.not_mem_nil, or_false] at hf
    rcases hf with rfl | rfl <;> simp only [List.mem_cons, List.not_mem_nil, or_false, or_self] at hx <;>
      rcases hx with rfl | rfl | rfl <;> intro c <;> fin_cases c <;> norm_num
  · have hm : pyMin (List.ofFn fun c => (![16, 16] : Vec 2 ℝ) c / 4) = .ok 4 := by
      norm_num [pyMin, List.ofFn_succ]
    unfold useLinkedCells
    rw [if_pos (by norm_num [cellsExample])]
    simp only [cellsExample] at hm ⊢
    rw [hm]
    have hp : pyInt (4 : ℝ) = 4 := by unfold pyInt; rw [if_pos (by norm_num)]; exact_mod_cast Int.floor_natCast 4
    simp only [bind, Except.bind, pure, Except.pure, hp, cellVolume]
    norm_num [Fin.prod_univ_two]

/-- **C75.** A point of the table whose bin extends beyond `rmax` does differ: the pair at distance 21/5 is in the
bin from 3 to 9/2, whose centre is below the cut-off, but is not counted with linked cells. -/
theorem C75_counterexample_last_point :
    ((grFast Rat.sqrt 3 1000000 (cellsExample ℚ)).toOption.map fun t => t.map fun p => p.1)
      = some [3 / 4, 9 / 4, 15 / 4] ∧
    (grFast Rat.sqrt 3 1000000 (cellsExample ℚ)).toOption.bind (fun t => t[2]?)
      ≠ (grLegacy Rat.sqrt 3 (cellsExample ℚ)).toOption.bind (fun t => t[2]?) := by
  decide +kernel

end
end PP.Props
