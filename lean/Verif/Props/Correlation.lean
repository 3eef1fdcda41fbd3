import Verif.Lemmas.Correlation
import Mathlib.Algebra.BigOperators.Group.List.Lemmas
import Mathlib.Tactic.FieldSimp
import Mathlib.Tactic.LinearCombination
import Mathlib.Tactic.NormNum

/-!
# C01-C05: time correlation loops (`acf`, `gcf`, `gcf_offset`)
-/

set_option linter.unusedSectionVars false

namespace PP.Props
open PP

variable {T X V : Type} [LinearOrder T] [Sub T]

/-! ## C01, C02 -/

/-- **C01 / C02.** `gcf_offset` returns a strictly increasing list of lags, which are exactly the
time differences of the sampled frame pairs, and as value at lag `d` the sum, in loop order, of
the kernel over exactly the sampled pairs with that time difference, divided by their number.
The number type and its operations are arbitrary. -/
theorem C01_gcf_offset_mean (ar : Arith V) (f : X → X → Py V) (g : X → X → V)
    (grid : List (ℕ × ℕ)) (skip : ℕ) (t : List T) (x : List X)
    (hskip : 0 < skip) (ht : x.length ≤ t.length)
    (hf : ∀ a ∈ x, ∀ b ∈ x, f a b = .ok (g a b)) :
    ∃ lags : List T,
      lags.Pairwise (· < ·) ∧
      (∀ d, d ∈ lags ↔ ∃ e ∈ Spec.terms t x (Spec.sampled x.length skip grid), e.1 = d) ∧
      gcfOffset ar f grid skip t x = .ok (lags, lags.map fun d =>
        let at_d := Spec.termsAt d (Spec.terms t x (Spec.sampled x.length skip grid))
        ar.div ((at_d.map fun p => g p.1 p.2).foldl ar.add ar.zero) at_d.length) := by
  have hl := loopPairs_gcfOffset (n := x.length) hskip grid
  have hloop := corrLoop_ok (ar := ar) (f := f) (g := g) (t := t) (x := x)
    (entries := grid.map fun g => (g.1, x.length - g.2, g.2)) hskip
    (by rw [hl]; exact fun p hp => sampled_lt hp)
    (by rw [hl]; exact fun p hp => lt_of_lt_of_le (sampled_lt hp) ht) hf
  rw [hl] at hloop
  refine ⟨pySorted (dictKeys (accOf ar g (Spec.terms t x (Spec.sampled x.length skip grid))).1),
    pySorted_lt (accOf_nodup ar g _), ?_, ?_⟩
  · intro d; rw [mem_pySorted, accOf_keys]
  · unfold gcfOffset
    rw [hloop]
    simp only [Except.bind, bind, pure, Except.pure, accOf_cf, accOf_cnt]

/-- A non-trivial instance of the hypotheses of `C01_gcf_offset_mean`: four frames, blocks of
two, stride two, squared displacement. -/
example : (0 : ℕ) < 2 ∧ ([3, 1, 4, 1] : List ℚ).length ≤ ([0, 1, 10, 11] : List ℤ).length ∧
    (∀ a ∈ ([3, 1, 4, 1] : List ℚ), ∀ b ∈ ([3, 1, 4, 1] : List ℚ),
      (fun a b : ℚ => (.ok ((a - b) ^ 2) : Py ℚ)) a b = .ok ((fun a b : ℚ => (a - b) ^ 2) a b)) ∧
    Spec.sampled 4 2 [(0, 0), (0, 1), (1, 1)] = [(0, 0), (2, 0), (0, 1), (2, 1), (1, 1)] := by
  refine ⟨by norm_num, by simp, by simp, by decide⟩

/-- **C02** (for every input on which `gcf_offset` returns, whatever the kernel does and however
short `t` is): the lags are strictly increasing and there is one value per lag. -/
theorem C02_gcf_offset_sorted (ar : Arith V) (f : X → X → Py V) (grid : List (ℕ × ℕ)) (skip : ℕ)
    (t : List T) (x : List X) (lags : List T) (vals : List V)
    (h : gcfOffset ar f grid skip t x = .ok (lags, vals)) :
    lags.Pairwise (· < ·) ∧ vals.length = lags.length := by
  unfold gcfOffset at h
  cases hc : corrLoop ar f skip t x (grid.map fun g => (g.1, x.length - g.2, g.2)) with
  | error e => rw [hc] at h; simp [bind, Except.bind] at h
  | ok acc =>
    rw [hc] at h
    simp only [bind, Except.bind, pure, Except.pure, Except.ok.injEq, Prod.mk.injEq] at h
    obtain ⟨rfl, rfl⟩ := h
    refine ⟨pySorted_lt ?_, by simp⟩
    -- the keys stay distinct through the loops
    have step : ∀ (l : List ℕ) (i : ℕ) (a b : Acc T V), (dictKeys a.1).Nodup →
        l.foldlM (corrStep ar f t x i) a = (.ok b : Py _) → (dictKeys b.1).Nodup := by
      intro l i
      induction l with
      | nil => intro a b ha hb; cases hb; exact ha
      | cons k l ih =>
        intro a b ha hb
        rw [List.foldlM_cons] at hb
        cases hk : corrStep ar f t x i a k with
        | error e => rw [hk] at hb; simp [bind, Except.bind] at hb
        | ok c =>
          rw [hk] at hb
          refine ih c b ?_ hb
          unfold corrStep at hk
          simp only [bind, Except.bind, pure, Except.pure] at hk
          split at hk <;> [cases hk; skip]
          split at hk <;> [cases hk; skip]
          split at hk <;> [cases hk; skip]
          split at hk <;> [cases hk; skip]
          split at hk <;> [cases hk; skip]
          cases hk
          exact nodup_keys_ddAdd _ _ _ _ _ ha
    have outer : ∀ (l : List (ℕ × ℕ × ℕ)) (a b : Acc T V), (dictKeys a.1).Nodup →
        l.foldlM (fun acc e => do
          let r ← pyRange e.1 e.2.1 skip
          r.foldlM (corrStep ar f t x e.2.2) acc) a = (.ok b : Py _) → (dictKeys b.1).Nodup := by
      intro l
      induction l with
      | nil => intro a b ha hb; cases hb; exact ha
      | cons k l ih =>
        intro a b ha hb
        rw [List.foldlM_cons] at hb
        cases hr : pyRange k.1 k.2.1 skip with
        | error e => rw [hr] at hb; simp [bind, Except.bind] at hb
        | ok r =>
          rw [hr] at hb
          simp only [bind, Except.bind] at hb
          cases hk : r.foldlM (corrStep ar f t x k.2.2) a with
          | error e => rw [hk] at hb; simp at hb
          | ok c =>
            rw [hk] at hb
            exact ih c b (step r _ a c ha hk) hb
    exact outer _ _ _ (by simp [dictKeys]) hc

example : gcfOffset (Arith.field ℚ) (fun a b => .ok ((a - b) ^ 2)) [(0, 0), (0, 1), (1, 1)] 2
    ([0, 1, 10, 11] : List ℤ) [3, 1, 4, 1] = .ok ([0, 1, 9], [0, 13 / 2, 9]) := by
  decide +kernel

/-- **C02**, the divisors: every lag that `gcf_offset` reports has at least one sampled pair, so
the division is never by zero. -/
theorem C02_counts_positive (grid : List (ℕ × ℕ)) (skip : ℕ) (t : List T) (x : List X) (d : T)
    (h : ∃ e ∈ Spec.terms t x (Spec.sampled x.length skip grid), e.1 = d) :
    1 ≤ (Spec.termsAt d (Spec.terms t x (Spec.sampled x.length skip grid))).length :=
  termsAt_length_pos h

example : ∃ e ∈ Spec.terms ([0, 1, 10, 11] : List ℤ) ([3, 1, 4, 1] : List ℚ)
    (Spec.sampled 4 2 [(0, 0), (0, 1), (1, 1)]), e.1 = 9 := ⟨(9, 4, 1), by decide +kernel, rfl⟩

/-! ## C03 -/

section acf
variable {K : Type} [Field K]

/-- **C02 for `acf`**: same structure as `gcf_offset`, with all origins a multiple of `skip`. The
values are averages of products of deviations from the sample mean. -/
theorem C02_acf_mean (grid : List ℕ) (skip : ℕ) (t : List T) (x : List K)
    (hskip : 0 < skip) (ht : x.length ≤ t.length) :
    ∃ (lags : List T) (cnt : List (T × ℕ)),
      lags.Pairwise (· < ·) ∧
      (∀ d, d ∈ lags ↔
        ∃ e ∈ Spec.terms t x (Spec.sampled x.length skip (grid.map fun i => (0, i))), e.1 = d) ∧
      (∀ d, ddGet 0 cnt d = (Spec.termsAt d
        (Spec.terms t x (Spec.sampled x.length skip (grid.map fun i => (0, i))))).length) ∧
      acf grid skip t x = .ok (lags, lags.map (fun d =>
        let at_d := Spec.termsAt d
          (Spec.terms t x (Spec.sampled x.length skip (grid.map fun i => (0, i))))
        ((at_d.map fun p => (p.1 - x.sum / (x.length : K)) * (p.2 - x.sum / (x.length : K))).sum)
          / (at_d.length : K)), cnt) := by
  have hl := loopPairs_gcfOffset (n := x.length) hskip (grid.map fun i => (0, i))
  rw [List.map_map] at hl
  have hl' : loopPairs skip (grid.map fun i => (0, x.length - i, i))
      = Spec.sampled x.length skip (grid.map fun i => (0, i)) := hl
  set g : K → K → K := fun a b => (a - x.sum / (x.length : K)) * (b - x.sum / (x.length : K)) with hg
  have hloop := corrLoop_ok (ar := Arith.field K) (f := fun a b => .ok (g a b)) (g := g) (t := t)
    (x := x) (entries := grid.map fun i => (0, x.length - i, i)) hskip
    (by rw [hl']; exact fun p hp => sampled_lt hp)
    (by rw [hl']; exact fun p hp => lt_of_lt_of_le (sampled_lt hp) ht) (fun _ _ _ _ => rfl)
  rw [hl'] at hloop
  set S := Spec.terms t x (Spec.sampled x.length skip (grid.map fun i => (0, i))) with hS
  refine ⟨_, (accOf (Arith.field K) g S).2, pySorted_lt (accOf_nodup (Arith.field K) g S), ?_, ?_, ?_⟩
  · intro d; rw [mem_pySorted, accOf_keys]
  · intro d; exact accOf_cnt _ _ _ _
  · have hacf : acf grid skip t x = (do
      let acc ← corrLoop (Arith.field K) (fun a b => .ok (g a b)) skip t x
        (grid.map fun i => (0, x.length - i, i))
      let dt := pySorted (dictKeys acc.1)
      return (dt, dt.map (fun ti => ddGet 0 acc.1 ti / ((ddGet 0 acc.2 ti : ℕ) : K)), acc.2)) := rfl
    rw [hacf, hloop]
    simp only [bind, Except.bind, pure, Except.pure]
    have : ∀ d, ddGet (0 : K) (accOf (Arith.field K) g S).1 d
        = ((Spec.termsAt d S).map fun p => g p.1 p.2).sum := by
      intro d
      have := accOf_cf (Arith.field K) g S d
      rw [show (Arith.field K).zero = (0 : K) from rfl] at this
      rw [this, List.sum_eq_foldl]; rfl
    simp only [this, accOf_cnt]
    rfl

theorem corrLoop_map {Y : Type} (ar : Arith V) (f : X → X → Py V) (h : Y → X) (skip : ℕ)
    (t : List T) (y : List Y) (e : List (ℕ × ℕ × ℕ)) :
    corrLoop ar f skip t (y.map h) e = corrLoop ar (fun a b => f (h a) (h b)) skip t y e := by
  have hg : ∀ i, pyGet (y.map h) i = (pyGet y i).map h := by
    intro i; unfold pyGet; rw [List.getElem?_map]; cases y[i]? <;> rfl
  have hs : ∀ i, corrStep ar f t (y.map h) i = corrStep ar (fun a b => f (h a) (h b)) t y i := by
    intro i; funext acc i0
    unfold corrStep
    rw [hg, hg]
    cases pyGet t (i0 + i) <;> cases pyGet t i0 <;> cases pyGet y (i0 + i) <;>
      cases pyGet y i0 <;> rfl
  unfold corrLoop
  simp only [hs]

/-- **C03**, invariance under a constant offset of the data. -/
theorem C03_acf_shift [CharZero K] (grid : List ℕ) (skip : ℕ) (t : List T) (x : List K) (c : K) :
    acf grid skip t (x.map (· + c)) = acf grid skip t x := by
  unfold acf
  simp only [corrLoop_map]
  rcases eq_or_ne x [] with rfl | hx
  · simp only [List.map_nil, List.length_nil]
    have : ∀ (f : K → K → Py K) e, (∀ k ∈ e, k.2.1 = 0) → corrLoop (T := T) (Arith.field K) f skip t [] e
        = corrLoop (Arith.field K) (fun a b => .ok ((a - [].sum / ((0 : ℕ) : K)) * (b - [].sum / ((0 : ℕ) : K)))) skip t [] e := by
      intro f e he
      unfold corrLoop
      generalize hacc : (([], []) : Acc T K) = acc
      clear hacc
      induction e generalizing acc with
      | nil => rfl
      | cons k e ih =>
        rw [List.foldlM_cons, List.foldlM_cons]
        have hk := he k (by simp)
        rw [hk]
        by_cases hs : skip = 0
        · simp [pyRange, hs, bind, Except.bind]
        · have h0 : rangeList k.1 0 skip = [] := by
            rw [rangeList_eq_filter (n := 0) (by omega) le_rfl]; rfl
          have h1 : pyRange k.1 0 skip = .ok [] := by
            unfold pyRange; rw [if_neg hs, h0]
          rw [h1]
          exact ih (fun k hk => he k (by simp [hk])) acc
    rw [this]
    intro k hk
    simp only [List.mem_map] at hk
    obtain ⟨i, -, rfl⟩ := hk
    simp
  · have hn : (x.length : K) ≠ 0 := by
      simpa using hx
    have hsum : (x.map (· + c)).sum = x.sum + x.length * c := by
      rw [List.sum_map_add]; simp
    have : (x.map (· + c)).sum / ((x.map (· + c)).length : K) = x.sum / (x.length : K) + c := by
      rw [hsum, List.length_map]; field_simp
    rw [this]
    have e : (fun a b : K => (Except.ok ((a + c - (x.sum / (x.length : K) + c)) * (b + c - (x.sum / (x.length : K) + c))) : Py K))
        = fun a b => .ok ((a - x.sum / (x.length : K)) * (b - x.sum / (x.length : K))) := by
      funext a b; congr 1; ring
    rw [e, List.length_map]

/-- **C03**, invariance under a change of sign of the data. -/
theorem C03_acf_neg (grid : List ℕ) (skip : ℕ) (t : List T) (x : List K) :
    acf grid skip t (x.map (-·)) = acf grid skip t x := by
  unfold acf
  simp only [corrLoop_map]
  have hsum : (x.map (-·)).sum = - x.sum := by
    induction x with
    | nil => simp
    | cons a x ih => simp only [List.map_cons, List.sum_cons, ih]; ring
  have : (x.map (-·)).sum / ((x.map (-·)).length : K) = - (x.sum / (x.length : K)) := by
    rw [hsum, List.length_map]; ring
  rw [this]
  have e : (fun a b : K => (Except.ok ((-a - -(x.sum / (x.length : K))) * (-b - -(x.sum / (x.length : K)))) : Py K))
        = fun a b => .ok ((a - x.sum / (x.length : K)) * (b - x.sum / (x.length : K))) := by
      funext a b; congr 1; ring
  rw [e, List.length_map]

/-- The symmetries of C03 have no hypotheses; `acf` on concrete data with two lags: -/
example : acf [0, 1] 1 ([0, 10, 20] : List ℤ) ([1, 2, 6] : List ℚ)
    = .ok ([0, 10], [14 / 3, -1 / 2], [(0, 3), (10, 2)]) := by decide +kernel

end acf

section acfVar
variable {K G : Type} [Field K] [LinearOrder G] [AddGroup G]

/-- **C03**, zero lag: with all origins, `acf` at separation 0 gives lag 0 and the population
variance of the data. -/
theorem C03_acf_variance (t : List G) (x : List K) (hx : x ≠ []) (ht : x.length ≤ t.length) :
    acf [0] 1 t x = .ok ([0],
      [(x.map fun a => (a - x.sum / (x.length : K)) ^ 2).sum / (x.length : K)],
      [(0, x.length)]) := by
  have hl : loopPairs 1 ([0].map fun i => (0, x.length - i, i))
      = (List.range x.length).map fun i => (i, 0) := by
    unfold loopPairs; simp [rangeList]
  set g : K → K → K := fun a b => (a - x.sum / (x.length : K)) * (b - x.sum / (x.length : K)) with hg
  have hloop := corrLoop_ok (ar := Arith.field K) (f := fun a b => .ok (g a b)) (g := g) (t := t)
    (x := x) (entries := [0].map fun i => (0, x.length - i, i)) one_pos
    (by rw [hl]; intro p hp; simp at hp; obtain ⟨a, ha, rfl⟩ := hp; simpa using ha)
    (by rw [hl]; intro p hp; simp at hp; obtain ⟨a, ha, rfl⟩ := hp; simp; omega) (fun _ _ _ _ => rfl)
  rw [hl] at hloop
  -- every term is (0, x_i, x_i)
  have hterms : Spec.terms t x ((List.range x.length).map fun i => (i, 0))
      = x.map fun a => ((0 : G), a, a) := by
    unfold Spec.terms
    rw [List.filterMap_map]
    have h1 : ∀ i ∈ List.range x.length, (Spec.term t x ∘ fun i => (i, 0)) i
        = (some ∘ fun i => ((0 : G), x.getD i 0, x.getD i 0)) i := by
      intro i hi
      have hi := List.mem_range.1 hi
      have := term_isSome (t := t) (x := x) (p := (i, 0)) (by simp; omega) (by simpa using hi)
      simp only [Function.comp]
      rw [this]
      simp [hi]
    rw [List.filterMap_congr h1, List.filterMap_eq_map]
    apply List.ext_getElem
    · simp
    · intro n h1 h2
      have : n < x.length := by simpa using h2
      simp [this]
  rw [hterms] at hloop
  have hacf : acf [0] 1 t x = (do
      let acc ← corrLoop (Arith.field K) (fun a b => .ok (g a b)) 1 t x ([0].map fun i => (0, x.length - i, i))
      let dt := pySorted (dictKeys acc.1)
      return (dt, dt.map (fun ti => ddGet 0 acc.1 ti / ((ddGet 0 acc.2 ti : ℕ) : K)), acc.2)) := rfl
  rw [hacf, hloop]
  -- single key 0
  have hcf : ∀ (l : List K) (v : K), (l.map fun a => ((0 : G), g a a)).foldl
      (fun d e => ddAdd (0 : K) (· + ·) d e.1 e.2) [(0, v)] = [(0, v + (l.map fun a => g a a).sum)] := by
    intro l
    induction l with
    | nil => intro v; simp
    | cons a l ih =>
      intro v
      simp only [List.map_cons, List.foldl_cons, ddAdd, if_true, List.sum_cons]
      rw [ih]; simp [add_assoc]
  have hcn : ∀ (l : List K) (v : ℕ), (l.map fun _ => ((0 : G), 1)).foldl
      (fun d e => ddAdd 0 (· + ·) d e.1 e.2) [(0, v)] = [(0, v + l.length)] := by
    intro l
    induction l with
    | nil => intro v; simp
    | cons a l ih =>
      intro v
      simp only [List.map_cons, List.foldl_cons, ddAdd, if_true, List.length_cons]
      rw [ih]; simp; omega
  obtain ⟨a, l, rfl⟩ := List.exists_cons_of_ne_nil hx
  have hacc : accOf (Arith.field K) g ((a :: l).map fun a => ((0 : G), a, a))
      = ([(0, ((a :: l).map fun a => g a a).sum)], [(0, (a :: l).length)]) := by
    have h1 := hcf l (0 + g a a)
    have h2 := hcn l (0 + 1)
    unfold accOf
    simp only [List.map_map, List.map_cons, List.foldl_cons, ddAdd, Function.comp_def, List.sum_cons,
      List.length_cons]
    simp only [Arith.field]
    rw [h1, h2]
    simp; omega
  rw [hacc]
  simp only [bind, Except.bind, pure, Except.pure, dictKeys, pySorted, ddGet, List.map_cons,
    List.map_nil, List.insertionSort, List.foldr, List.orderedInsert, if_true]
  have hsq : (fun a_1 : K => g a_1 a_1) = fun b => (b - (a :: l).sum / ((a :: l).length : K)) ^ 2 := by
    funext b; simp only [hg]; ring
  simp only [List.map_cons, hsq, List.sum_cons, hg] at *
  simp [sq]

example : ([1, 2, 6] : List ℚ) ≠ [] ∧ ([1, 2, 6] : List ℚ).length ≤ ([0, 10, 20] : List ℤ).length := by
  simp

end acfVar

/-! ## C04 -/

/-- **C04, partial.** What `gcf` does average over: the pairs with `i0` a multiple of `skip` and
`i0 + i + 1 < len(x)`, i.e. the origins allowed by the separation except those whose later frame is
the last frame. (Missing with respect to the claim: the pairs ending in the last frame.) -/
theorem C04_gcf_mean_partial (ar : Arith V) (f : X → X → Py V) (g : X → X → V)
    (grid : List ℕ) (skip : ℕ) (t : List T) (x : List X)
    (hskip : 0 < skip) (ht : x.length ≤ t.length)
    (hf : ∀ a ∈ x, ∀ b ∈ x, f a b = .ok (g a b)) :
    ∃ lags : List T,
      let S := Spec.terms t x ((Spec.sampled x.length skip (grid.map fun i => (0, i))).filter
        fun p => decide (p.1 + p.2 + 1 < x.length))
      lags.Pairwise (· < ·) ∧
      (∀ d, d ∈ lags ↔ ∃ e ∈ S, e.1 = d) ∧
      gcf ar f grid skip t x = .ok (lags,
        lags.map (fun d => ar.div (((Spec.termsAt d S).map fun p => g p.1 p.2).foldl ar.add ar.zero)
          (Spec.termsAt d S).length),
        lags.map fun d => (Spec.termsAt d S).length) := by
  have hl : loopPairs skip (grid.map fun i => (0, x.length - i - 1, i))
      = (Spec.sampled x.length skip (grid.map fun i => (0, i))).filter
        fun p => decide (p.1 + p.2 + 1 < x.length) := by
    unfold loopPairs Spec.sampled
    rw [List.flatMap_map, List.flatMap_map, List.filter_flatMap]
    apply List.flatMap_congr
    intro i _
    simp only
    rw [rangeList_eq_filter (n := x.length) hskip (by omega), List.filter_map, List.filter_filter]
    congr 1
    apply List.filter_congr
    intro j _
    simp only [Function.comp, Nat.zero_le, true_and, Nat.sub_zero, Bool.decide_and]
    by_cases h1 : j % skip = 0 <;> by_cases h2 : j < x.length - i - 1 <;>
      simp [h1, h2] <;> omega
  have hloop := corrLoop_ok (ar := ar) (f := f) (g := g) (t := t) (x := x)
    (entries := grid.map fun i => (0, x.length - i - 1, i)) hskip
    (by rw [hl]; exact fun p hp => sampled_lt (List.mem_filter.1 hp).1)
    (by rw [hl]; exact fun p hp => lt_of_lt_of_le (sampled_lt (List.mem_filter.1 hp).1) ht) hf
  rw [hl] at hloop
  refine ⟨pySorted (dictKeys (accOf ar g (Spec.terms t x ((Spec.sampled x.length skip
    (grid.map fun i => (0, i))).filter fun p => decide (p.1 + p.2 + 1 < x.length)))).1),
    pySorted_lt (accOf_nodup ar g _), ?_, ?_⟩
  · intro d; rw [mem_pySorted, accOf_keys]
  · unfold gcf
    rw [hloop]
    simp only [Except.bind, bind, pure, Except.pure, accOf_cf, accOf_cnt]

/-- **C04 is false** for the code: with two frames and separation 1, a pair of frames exists
but `gcf` returns empty lists. -/
theorem C04_counterexample :
    gcf (Arith.field ℚ) (fun a b => .ok ((a - b) ^ 2)) [1] 1 ([0, 1] : List ℤ) [0, 5]
      = .ok ([], [], []) ∧
    Spec.terms ([0, 1] : List ℤ) ([0, 5] : List ℚ) (Spec.sampled 2 1 [(0, 1)]) = [(1, 5, 0)] := by
  constructor <;> decide +kernel

example : gcf (Arith.field ℚ) (fun a b => .ok ((a - b) ^ 2)) [0, 1] 1 ([0, 1, 2] : List ℤ) [0, 5, 7]
      = .ok ([0, 1], [0, 25], [2, 1]) := by decide +kernel

/-! ## C05 -/

/-- **C05.** Exact error behaviour of `gcf_offset` with a kernel that does not raise. -/
theorem C05_gcf_offset_errors (ar : Arith V) (g : X → X → V) (grid : List (ℕ × ℕ)) (skip : ℕ)
    (t : List T) (x : List X) :
    (gcfOffset ar (fun a b => .ok (g a b)) grid skip t x = .error .valueError
      ↔ grid ≠ [] ∧ skip = 0) ∧
    (gcfOffset ar (fun a b => .ok (g a b)) grid skip t x = .error .indexError
      ↔ 0 < skip ∧ ∃ p ∈ Spec.sampled x.length skip grid, t.length ≤ p.1 + p.2) ∧
    ((∃ r, gcfOffset ar (fun a b => .ok (g a b)) grid skip t x = .ok r)
      ↔ (grid = [] ∨ 0 < skip) ∧ ∀ p ∈ Spec.sampled x.length skip grid, p.1 + p.2 < t.length) := by
  rcases Nat.eq_zero_or_pos skip with rfl | hs
  · rcases grid with _ | ⟨a, l⟩
    · have : gcfOffset ar (fun a b => .ok (g a b)) [] 0 t x = .ok ([], []) := rfl
      rw [this]; simp [Spec.sampled]
    · have : gcfOffset ar (fun a b => .ok (g a b)) (a :: l) 0 t x = .error .valueError := rfl
      rw [this]; simp
  · have hl := loopPairs_gcfOffset (n := x.length) hs grid
    by_cases hbad : ∃ p ∈ Spec.sampled x.length skip grid, t.length ≤ p.1 + p.2
    · have hloop : corrLoop ar (fun a b => .ok (g a b)) skip t x
          (grid.map fun g => (g.1, x.length - g.2, g.2)) = .error .indexError := by
        rw [corrLoop_eq hs, hl]
        apply foldlM_err
        · obtain ⟨p, hp, h⟩ := hbad
          exact ⟨p, hp, fun acc => corrStep_err (List.getElem?_eq_none h) acc⟩
        · intro p hp acc
          by_cases h : p.1 + p.2 < t.length
          · exact Or.inr ⟨_, corrStep_ok (term_isSome h (sampled_lt hp)) rfl acc⟩
          · exact Or.inl (corrStep_err (List.getElem?_eq_none (by omega)) acc)
      have : gcfOffset ar (fun a b => .ok (g a b)) grid skip t x = .error .indexError := by
        unfold gcfOffset; rw [hloop]; rfl
      rw [this]
      refine ⟨?_, ?_, ?_⟩
      · simp only [Except.error.injEq, reduceCtorEq, false_iff]; rintro ⟨-, h⟩; omega
      · simp only [true_iff]; exact ⟨hs, hbad⟩
      · simp only [reduceCtorEq, exists_false, false_iff]
        rintro ⟨-, h⟩
        obtain ⟨p, hp, h'⟩ := hbad
        have := h p hp; omega
    · push Not at hbad
      have hloop := corrLoop_ok (ar := ar) (f := fun a b => .ok (g a b)) (g := g) (t := t) (x := x)
        (entries := grid.map fun g => (g.1, x.length - g.2, g.2)) hs
        (by rw [hl]; exact fun p hp => sampled_lt hp)
        (by rw [hl]; exact hbad) (fun _ _ _ _ => rfl)
      have : ∃ r, gcfOffset ar (fun a b => .ok (g a b)) grid skip t x = .ok r := by
        unfold gcfOffset; rw [hloop]; exact ⟨_, rfl⟩
      obtain ⟨r, hr⟩ := this
      rw [hr]
      refine ⟨?_, ?_, ?_⟩
      · simp only [reduceCtorEq, false_iff]; rintro ⟨-, h⟩; omega
      · simp only [reduceCtorEq, false_iff]
        rintro ⟨-, p, hp, h⟩
        have := hbad p hp; omega
      · simp only [Except.ok.injEq, exists_eq', true_iff]; exact ⟨Or.inr hs, hbad⟩

/-- The three regions of C05 are all inhabited. -/
example : (([(0, 1)] : List (ℕ × ℕ)) ≠ [] ∧ 0 = 0) ∧
    (0 < 1 ∧ ∃ p ∈ Spec.sampled 3 1 [(0, 1)], ([0, 1] : List ℤ).length ≤ p.1 + p.2) ∧
    ((([(0, 1)] : List (ℕ × ℕ)) = [] ∨ 0 < 1) ∧
      ∀ p ∈ Spec.sampled 3 1 [(0, 1)], p.1 + p.2 < ([0, 1, 2] : List ℤ).length) := by
  refine ⟨by decide, ⟨by decide, (1, 1), by decide, by decide⟩, by decide, by decide⟩

end PP.Props
