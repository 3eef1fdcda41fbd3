import Verif.Model.GrBatch
import Verif.Lemmas.Expo
import Verif.Props.GrHist

/-!
# C188: the distances of one frame are histogrammed in blocks of bounded size
-/

namespace PP.Props
open PP

variable {K V : Type}

theorem newtonBatch_ok (f : List V → V → List K) (x : List V) (vals : ℕ → List K)
    (hv : ∀ i a, x[i]? = some a → vals i = f (x.drop (i + 1)) a) (bl ib : ℕ) :
    (do
      let parts ← (rangeList ib (min (ib + bl) (x.length - 1)) 1).mapM fun i => do
        let yi ← pyGet x i
        return f (x.drop (i + 1)) yi
      return parts.flatten) = (.ok ((rangeList ib (min (ib + bl) (x.length - 1)) 1).flatMap vals) : Py (List K)) := by
  have : (rangeList ib (min (ib + bl) (x.length - 1)) 1).mapM (fun i => (do
      let yi ← pyGet x i
      return f (x.drop (i + 1)) yi : Py (List K))) =
      .ok ((rangeList ib (min (ib + bl) (x.length - 1)) 1).map vals) := by
    refine mapM_ok_map fun i hi => ?_
    rw [mem_rangeList (by omega)] at hi
    have hi' : i < x.length := by omega
    have h1 : pyGet x i = .ok x[i] := by unfold pyGet; rw [List.getElem?_eq_getElem hi']
    rw [h1, hv i x[i] (List.getElem?_eq_getElem hi')]
    rfl
  rw [this]
  simp only [bind, Except.bind, pure, Except.pure, List.flatMap_def]

theorem newtonBatches_eq (f : List V → V → List K) (x : List V) (hx : x ≠ []) (vals : ℕ → List K)
    (hv : ∀ i a, x[i]? = some a → vals i = f (x.drop (i + 1)) a) :
    newtonBatches f x x = .ok ((rangeList 0 (x.length - 1) (max 1 (100000 / x.length))).map fun ib =>
      (rangeList ib (min (ib + max 1 (100000 / x.length)) (x.length - 1)) 1).flatMap vals) := by
  have hl : x.length ≠ 0 := by simpa using hx
  unfold newtonBatches batchSize
  rw [if_neg hl]
  have hr : pyRange 0 (x.length - 1) (max 1 (100000 / x.length)) =
      .ok (rangeList 0 (x.length - 1) (max 1 (100000 / x.length))) := by
    unfold pyRange; rw [if_neg (by omega)]
  have := mapM_ok_map (l := rangeList 0 (x.length - 1) (max 1 (100000 / x.length)))
    fun ib _ => newtonBatch_ok f x vals hv (max 1 (100000 / x.length)) ib
  simp only [bind, Except.bind] at this ⊢
  rw [hr]
  exact this

theorem rangeList_one_length (a b : ℕ) : (rangeList a b 1).length = b - a := by
  unfold rangeList
  simp

theorem sum_length_le {α : Type} (l : List ℕ) (v : ℕ → List α) (m : ℕ) (h : ∀ i ∈ l, (v i).length ≤ m) :
    (l.flatMap v).length ≤ l.length * m := by
  induction l with
  | nil => simp
  | cons i l ih =>
    have h1 := ih fun j hj => h j (by simp [hj])
    have h2 := h i (by simp)
    rw [List.flatMap_cons, List.length_append, List.length_cons, Nat.add_mul]
    omega

theorem sum_gauss (n : ℕ) : 2 * ((List.range (n - 1)).map fun i => n - (i + 1)).sum = n * (n - 1) := by
  induction n with
  | zero => rfl
  | succ n ih =>
    rcases n with _ | n
    · rfl
    · rw [Nat.add_sub_cancel, List.range_succ_eq_map, List.map_cons, List.map_map, List.sum_cons]
      have : (List.range n).map ((fun i => n + 1 + 1 - (i + 1)) ∘ Nat.succ) = (List.range n).map fun i => n + 1 - (i + 1) :=
        List.map_congr_left fun i _ => by simp only [Function.comp_apply, Nat.succ_eq_add_one]; omega
      rw [this, Nat.mul_add]
      rw [Nat.add_sub_cancel] at ih
      rw [ih]
      have : n + 1 + 1 - (0 + 1) = n + 1 := by omega
      rw [this]
      ring

open Classical in
/-- **C188**: the distances between the `n` particles of a group are passed to the histogram in blocks that hold together each
pair once. No block has more than 100000 distances, or `n - 1` if this is larger. There is only one block if the distances are
so few that one suffices. The result is the sum of the histograms of the blocks. -/
theorem C188_blocks [Field K] [LinearOrder K] [FloorRing K] (dist : V → V → K) (x : List V) (hx : x ≠ []) :
    ∃ bs, newtonBatches (fun xs y => xs.map fun u => dist u y) x x = .ok bs ∧
      (∀ b ∈ bs, b.length ≤ max 100000 (x.length - 1)) ∧
      2 * bs.flatten.length = x.length * (x.length - 1) ∧
      (x.length * (x.length - 1) ≤ 100000 → bs.length ≤ 1) ∧
      ∀ edges : List K, edges.Pairwise (· ≤ ·) → pairsNewtonHist (fun xs y => xs.map fun u => dist u y) x x edges =
        .ok ((List.range (edges.length - 1)).map fun j => (bs.map fun b => b.countP fun v => decide (Spec.InBin edges j v)).sum) := by
  set f : List V → V → List K := fun xs y => xs.map fun u => dist u y with hf
  set vals : ℕ → List K := fun i => match x[i]? with
    | some a => f (x.drop (i + 1)) a
    | none => [] with hvals
  have hv : ∀ i a, x[i]? = some a → vals i = f (x.drop (i + 1)) a := by
    intro i a h; simp only [hvals, h]
  have hl : x.length ≠ 0 := by simpa using hx
  have hlen : ∀ i < x.length, (vals i).length = x.length - (i + 1) := by
    intro i hi
    rw [hv i x[i] (List.getElem?_eq_getElem hi), hf]
    simp
  have heq := newtonBatches_eq f x hx vals hv
  set bl := max 1 (100000 / x.length) with hbl
  have hbl0 : 0 < bl := by omega
  have hcov : ((rangeList 0 (x.length - 1) bl).map fun ib =>
      (rangeList ib (min (ib + bl) (x.length - 1)) 1).flatMap vals).flatten = (List.range (x.length - 1)).flatMap vals := by
    rw [← batches_cover hbl0, List.flatMap_assoc, ← List.flatMap_def]
  refine ⟨_, heq, ?_, ?_, ?_, ?_⟩
  · intro b hb
    obtain ⟨ib, -, rfl⟩ := List.mem_map.1 hb
    refine (sum_length_le _ vals (x.length - 1) fun i hi => ?_).trans ?_
    · rw [mem_rangeList (by omega)] at hi
      rw [hlen i (by omega)]
      omega
    · rw [rangeList_one_length]
      refine (Nat.mul_le_mul_right _ (show _ ≤ bl by omega)).trans ?_
      rcases Nat.le_total 1 (100000 / x.length) with h | h
      · rw [hbl, max_eq_right h]
        refine le_max_of_le_left ((Nat.mul_le_mul_left _ (Nat.sub_le _ 1)).trans (Nat.div_mul_le_self _ _))
      · rw [hbl, max_eq_left h, one_mul]
        exact le_max_right _ _
  · rw [hcov, List.length_flatMap, ← sum_gauss]
    congr 2
    exact List.map_congr_left fun i hi => hlen i (by rw [List.mem_range] at hi; omega)
  · intro hn
    rw [List.length_map]
    have h1 : x.length - 1 ≤ bl := by
      refine le_max_of_le_right ?_
      rw [Nat.le_div_iff_mul_le (by omega), Nat.mul_comm]
      exact hn
    unfold rangeList
    rw [List.length_map, List.length_range, Nat.sub_zero]
    refine Nat.lt_succ_iff.1 (Nat.div_lt_of_lt_mul ?_)
    rw [Nat.mul_succ, Nat.mul_one]
    omega
  · intro edges he
    have hr : pyRange 0 (x.length - 1) bl = .ok (rangeList 0 (x.length - 1) bl) := by
      unfold pyRange; rw [if_neg (by omega)]
    have h := hist_fold edges he (rangeList 0 (x.length - 1) bl) _ _ (fun ib _ => newtonBatch_ok f x vals hv bl ib) []
    simp only [bind_assoc, pure_bind] at h
    unfold pairsNewtonHist batchSize pairsNewtonHistB
    rw [histogram_ok he, if_neg hl]
    simp only [bind, Except.bind] at h ⊢
    rw [hr]
    simp only
    rw [h]
    congr 1
    refine List.map_congr_left fun j _ => ?_
    rw [List.nil_append, List.countP_flatMap, List.map_map]
    congr 1
    refine List.map_congr_left fun ib _ => ?_
    simp only [Function.comp_apply]
    refine List.countP_congr fun v _ => ?_
    simp [inBin_iff]

/-- Four particles on a line: one block with the six distances, and the histogram of the distances. -/
example : newtonBatches (K := ℚ) (fun xs (y : ℚ) => xs.map fun u => |u - y|) [0, 1, 3, 4] [0, 1, 3, 4] = .ok [[1, 3, 4, 2, 3, 1]] ∧
    pairsNewtonHist (K := ℚ) (fun xs (y : ℚ) => xs.map fun u => |u - y|) [0, 1, 3, 4] [0, 1, 3, 4] [1 / 2, 3 / 2, 7 / 2] = .ok [2, 3] := by
  refine ⟨by decide +kernel, by decide +kernel⟩

/-- With 100001 particles each block has the distances of one particle, with 50000 particles those of two. -/
example : batchSize 100001 = .ok 1 ∧ batchSize 50000 = .ok 2 ∧ batchSize 0 = .error .zeroDivisionError := by
  refine ⟨by decide +kernel, by decide +kernel, rfl⟩

end PP.Props
