import Verif.Model.AcfScript
import Verif.Props.Acf

/-!
# C196: the script acf.py
-/

namespace PP.Props
open PP

/-- **C196 is false**: whatever the data, the script prints nothing and raises `NameError`, since `import
atooms.postprocessing` does not define the name `postprocessing`. -/
theorem C196_counterexample {K : Type} [Field K] (x : List K) : acfScript x = ([], .error .nameError) := by
  unfold acfScript acfMain
  rw [if_neg (by decide)]

/-- Terms of data at the times 0, 1, 2… -/
theorem steps_terms {K : Type} [Field K] (x : List K) (grid : List ℕ) :
    Spec.terms (List.range x.length) x (Spec.sampled x.length 1 (grid.map fun i => (0, i))) =
      grid.flatMap fun m => (List.range (x.length - m)).map fun i => (m, x.getD (i + m) 0, x.getD i 0) := by
  unfold Spec.terms Spec.sampled
  rw [List.filterMap_flatMap, List.flatMap_map]
  refine List.flatMap_congr fun m _ => ?_
  simp only
  rw [sampled_row, List.filterMap_map, ← List.filterMap_eq_map]
  refine List.filterMap_congr fun i hi => ?_
  rw [List.mem_range] at hi
  have hx : ∀ j, j < x.length → x[j]? = some (x.getD j 0) := by
    intro j hj
    rw [List.getD_eq_getElem?_getD, List.getElem?_eq_getElem hj]
    rfl
  simp only [Function.comp, Spec.term]
  rw [List.getElem?_range (by omega), List.getElem?_range (by omega), hx _ (by omega), hx i (by omega)]
  simp

theorem steps_termsAt {K : Type} [Field K] (B : ℕ → List (K × K)) (grid : List ℕ) (hnd : grid.Nodup) {m : ℕ}
    (hm : m ∈ grid) : Spec.termsAt m (grid.flatMap fun k => (B k).map fun p => (k, p)) = B m := by
  have h := termsAt_block (F := ℚ) one_ne_zero B grid hnd hm
  rw [← h]
  unfold Spec.termsAt
  simp only [one_mul, List.filter_flatMap, List.map_flatMap, List.filter_map, List.map_map, Function.comp_def, Nat.cast_inj]

/-- **C196, what holds** for the function `main` of the script: if the missing name were defined, it would print one line for
every tenth time, with the time and the average product of the deviations from the mean of the data that far apart. -/
theorem C196_main_partial {K : Type} [Field K] (globals : List Str) (h : "postprocessing".toList ∈ globals) (x : List K) :
    acfMain globals x =
      (((List.range x.length).filter fun m => decide (10 ∣ m)).map fun m => (m, lagMean x m), .ok ()) := by
  have hr : rangeList 0 x.length 10 = (List.range x.length).filter fun m => decide (10 ∣ m) := by
    rw [rangeList_eq_filter (by norm_num) le_rfl]
    refine List.filter_congr fun i hi => ?_
    have := List.mem_range.mp hi
    rw [decide_eq_decide]
    omega
  unfold acfMain
  dsimp only
  rw [if_pos h, hr]
  generalize hg : (List.range x.length).filter (fun m => decide (10 ∣ m)) = grid
  have hs : grid.Pairwise (· < ·) := hg ▸ List.pairwise_lt_range.filter _
  have hl : ∀ m ∈ grid, m < x.length := by
    intro m hm
    rw [← hg] at hm
    exact List.mem_range.mp (List.mem_filter.mp hm).1
  have hnd : grid.Nodup := hs.imp fun h => ne_of_lt h
  obtain ⟨lags, cnt, h1, h2, -, h4⟩ := C02_acf_mean grid 1 (List.range x.length) x one_pos (by simp)
  rw [steps_terms] at h2 h4
  have hat : ∀ m ∈ grid, Spec.termsAt m (grid.flatMap fun m => (List.range (x.length - m)).map fun i =>
      (m, x.getD (i + m) 0, x.getD i 0)) = (List.range (x.length - m)).map fun i =>
        (x.getD (i + m) 0, x.getD i 0) := by
    intro m hm
    have := steps_termsAt (fun m => (List.range (x.length - m)).map fun i => (x.getD (i + m) 0, x.getD i 0)) grid hnd hm
    simpa only [List.map_map, Function.comp_def] using this
  have hlag : lags = grid := by
    refine sorted_unique h1 hs fun d => ?_
    rw [h2]
    constructor
    · rintro ⟨e, he, rfl⟩
      obtain ⟨m, hm, he⟩ := List.mem_flatMap.1 he
      obtain ⟨i, -, rfl⟩ := List.mem_map.1 he
      exact hm
    · intro hm
      refine ⟨(d, x.getD (0 + d) 0, x.getD 0 0), List.mem_flatMap.2 ⟨d, hm, ?_⟩, rfl⟩
      exact List.mem_map.2 ⟨0, by rw [List.mem_range]; have := hl d hm; omega, rfl⟩
  rw [h4, hlag]
  simp only [Prod.mk.injEq, and_true]
  rw [show ∀ g : ℕ → K, grid.zip (grid.map g) = grid.map fun m => (m, g m) from fun g => by
    generalize grid = l
    induction l with
    | nil => rfl
    | cons a l ih => simp [ih]]
  refine List.map_congr_left fun m hm => ?_
  rw [hat m hm, List.map_map, List.length_map, List.length_range]
  rfl

/-- Without the missing name there would be one line for this data. -/
example : acfScript [(1 : ℚ), 2] = ([], .error .nameError) ∧
    acfMain ["postprocessing".toList] [(1 : ℚ), 2] = ([(0, 1 / 4)], .ok ()) := by
  refine ⟨C196_counterexample _, by decide +kernel⟩

end PP.Props
