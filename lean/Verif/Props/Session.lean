import Verif.Model.Session
import Verif.Lemmas.Dict
import Mathlib.Data.Rat.Defs
import Mathlib.Tactic.Ring
import Mathlib.Tactic.FieldSimp
import Mathlib.Tactic.Linarith
import Mathlib.Tactic.Positivity
import Mathlib.Algebra.Order.Field.Basic
import Mathlib.Data.List.Range

/-!
# C212: the template method `compute` and the clock; C213: the verbosity of the script
-/

namespace PP.Props
open PP

section
variable {K : Type} [Field K] [DecidableEq K] {O R F : Type}

/-- **C212 is false** for the code: if the clock shows no time spent, `compute` raises `ZeroDivisionError` when it reports,
although the object holds the results of the calculation; `do()` then writes nothing. -/
theorem C212_counterexample_clock (setup run : O → O × Py Unit) (result : O → R) (skip n : ℕ) (hs : skip ≠ 0)
    (o o1 o2 : O) (h1 : setup o = (o1, .ok ())) (h2 : run o1 = (o2, .ok ())) (clock : ℕ → K)
    (hc : clock 1 - clock 0 + (clock 3 - clock 2) = 0) (analyze : O → O × Py Unit) (write : O → F → F × Py Unit) (fs : F) :
    (∃ log, computeTemplate setup run result skip n clock o = (o2, log, .error .zeroDivisionError)) ∧
    doTemplate setup run result skip n clock analyze write o fs = (o2, fs, .error .zeroDivisionError) := by
  have h : computeTemplate setup run result skip n clock o = (o2, [.setup, .computing,
      .origins (rangeList 0 n skip).length n, .outputFile], .error .zeroDivisionError) := by
    simp only [computeTemplate, h1, h2, pyRange, if_neg hs, if_pos hc]
  exact ⟨⟨_, h⟩, by simp only [doTemplate, h]⟩

/-- **C212, what holds**: as soon as the clock shows some time spent, `compute` returns what the calculation stored, whatever
the clock, and `do()` writes it, also if the analysis cannot be done for lack of a module. -/
theorem C212_result_partial (setup run : O → O × Py Unit) (result : O → R) (skip n : ℕ) (hs : skip ≠ 0)
    (o o1 o2 : O) (h1 : setup o = (o1, .ok ())) (h2 : run o1 = (o2, .ok ())) (clock : ℕ → K)
    (hc : clock 1 - clock 0 + (clock 3 - clock 2) ≠ 0) :
    (∃ log, computeTemplate setup run result skip n clock o = (o2, log, .ok (result o2))) ∧
    ∀ (analyze : O → O × Py Unit) (write : O → F → F × Py Unit) (fs : F) (o3 : O) (e : Py Unit),
      analyze o2 = (o3, e) → (e = .ok () ∨ e = .error .importError) →
      doTemplate setup run result skip n clock analyze write o fs = (o3, write o3 fs) := by
  have h : ∃ log, computeTemplate setup run result skip n clock o = (o2, log, .ok (result o2)) := by
    refine ⟨(computeTemplate setup run result skip n clock o).2.1, ?_⟩
    simp only [computeTemplate, h1, h2, pyRange, if_neg hs, if_neg hc]
  refine ⟨h, ?_⟩
  obtain ⟨log, h⟩ := h
  intro analyze write fs o3 e ha he
  rcases he with rfl | rfl <;> simp only [doTemplate, h, ha]

/-- **C212**: an exception of the calculation is passed on and nothing is written. -/
theorem C212_exception (setup run : O → O × Py Unit) (result : O → R) (skip n : ℕ) (o o1 o2 : O) (e : PyErr)
    (hs : skip ≠ 0) (h : setup o = (o2, .error e) ∨ setup o = (o1, .ok ()) ∧ run o1 = (o2, .error e)) (clock : ℕ → K)
    (analyze : O → O × Py Unit) (write : O → F → F × Py Unit) (fs : F) :
    doTemplate setup run result skip n clock analyze write o fs = (o2, fs, .error e) := by
  rcases h with h | ⟨h1, h2⟩
  · simp only [doTemplate, computeTemplate, h]
  · simp only [doTemplate, computeTemplate, h1, h2, pyRange, if_neg hs]

end

/-- Number of multiples of `skip` below `n`. -/
theorem rangeList_count (n skip : ℕ) (hs : skip ≠ 0) :
    (rangeList 0 n skip).length = ((List.range n).filter fun i => decide (skip ∣ i)).length := by
  rw [rangeList_eq_filter (Nat.pos_of_ne_zero hs) le_rfl]
  congr 1
  apply List.filter_congr
  intro i hi
  have := List.mem_range.mp hi
  rw [decide_eq_decide]
  constructor
  · rintro ⟨-, -, h⟩
    exact Nat.dvd_of_mod_eq_zero (by simpa using h)
  · intro h
    exact ⟨Nat.zero_le _, this, by simpa using Nat.mod_eq_zero_of_dvd h⟩

section
variable {K : Type} [Field K] [LinearOrder K] [IsStrictOrderedRing K] {O R : Type}

/-- **C212**: what `compute` reports: the number of time origins is that of the frames of the trajectory whose index is a
multiple of the stride, and for a clock that does not go backwards the shares of time are percentages that add up to 100. -/
theorem C212_report (setup run : O → O × Py Unit) (result : O → R) (skip n : ℕ) (hs : skip ≠ 0)
    (o o1 o2 : O) (h1 : setup o = (o1, .ok ())) (h2 : run o1 = (o2, .ok ())) (clock : ℕ → K) (hm : Monotone clock)
    (hc : clock 0 < clock 1 ∨ clock 2 < clock 3) :
    ∃ seconds a b, (computeTemplate setup run result skip n clock o).2.1 =
        [.setup, .computing, .origins ((List.range n).filter fun i => decide (skip ∣ i)).length n, .outputFile,
          .done seconds a b, .blank] ∧
      0 < seconds ∧ seconds ≤ clock 3 - clock 0 ∧ a + b = 100 ∧ 0 ≤ a ∧ 0 ≤ b ∧ a * seconds = 100 * (clock 1 - clock 0) := by
  have m01 := hm (show 0 ≤ 1 by norm_num)
  have m12 := hm (show 1 ≤ 2 by norm_num)
  have m23 := hm (show 2 ≤ 3 by norm_num)
  have hp : 0 < clock 1 - clock 0 + (clock 3 - clock 2) := by rcases hc with hc | hc <;> linarith
  have e : computeTemplate setup run result skip n clock o = (o2, [.setup, .computing,
      .origins (rangeList 0 n skip).length n, .outputFile,
      .done (clock 1 - clock 0 + (clock 3 - clock 2))
        ((clock 1 - clock 0) / (clock 1 - clock 0 + (clock 3 - clock 2)) * 100)
        ((clock 3 - clock 2) / (clock 1 - clock 0 + (clock 3 - clock 2)) * 100), .blank], .ok (result o2)) := by
    simp only [computeTemplate, h1, h2, pyRange, if_neg hs, if_neg hp.ne']
  refine ⟨_, _, _, by rw [e, rangeList_count n skip hs], hp, by linarith, ?_, ?_, ?_, ?_⟩
  · rw [← add_mul, ← add_div, div_self hp.ne', one_mul]
  · exact mul_nonneg (div_nonneg (by linarith) hp.le) (by norm_num)
  · exact mul_nonneg (div_nonneg (by linarith) hp.le) (by norm_num)
  · field_simp

end

/-- A calculation that doubles the value, with stride 2 over 5 frames; the clock advances by 1, 0 and 3. -/
example :
    (computeTemplate (fun o : ℕ => (o + 1, .ok ())) (fun o => (2 * o, .ok ())) (fun o => o) 2 5
        (fun i => ([0, 1, 1, 4] : List ℚ).getD i 0) 3) =
      (8, [.setup, .computing, .origins 3 5, .outputFile, .done 4 25 75, .blank], .ok 8) ∧
    (doTemplate (fun o : ℕ => (o + 1, .ok ())) (fun o => (2 * o, .ok ())) (fun o => o) 2 5 (fun _ => (7 : ℚ))
        (fun o => (o, .ok ())) (fun o fs => (fs ++ [o], .ok ())) 3 [0]) = (8, [0], .error .zeroDivisionError) ∧
    (doTemplate (fun o : ℕ => (o + 1, .ok ())) (fun o => (2 * o, .ok ())) (fun o => o) 2 5 (fun i => (i : ℚ))
        (fun o => (o, .error .importError)) (fun o fs => (fs ++ [o], .ok ())) 3 [0]) = (8, [0, 8], .ok ()) := by
  decide +kernel

section
variable {K : Type} {α : Type}

/-- **C213, what holds**: with `--quiet`, and without `--verbose`, nothing is displayed: none of the messages of `compute`, and
no progress bar. -/
theorem C213_quiet_partial (active : Bool) (o : ScriptOpts) (hq : o.quiet = true) (hv : o.verbose = false)
    (log : List (LogMsg K)) (items : List α) :
    (ppScript active o).shown log = [] ∧ (Bar.init (ppScript active o).active none items).disable = true := by
  have h : ppScript active o = ⟨o.output.getD ppOutputPath, 40, 40, false⟩ := by simp [ppScript, hq, hv]
  rw [h]
  refine ⟨List.filter_eq_nil_iff.mpr ?_, rfl⟩
  intro m _
  simp [LogMsg.level]

/-- **C213**: without `--quiet` all the messages of `compute` are displayed. The bars are displayed too, except with `--debug`
alone, which leaves them as they are in the module: not displayed. -/
theorem C213_messages (o : ScriptOpts) (hq : o.quiet = false) (log : List (LogMsg K)) (items : List α) :
    (ppScript false o).shown log = log ∧
    ((Bar.init (ppScript false o).active none items).disable = true ↔ o.debug = true ∧ o.verbose = false) := by
  have hl : (ppScript false o).levelPP ≤ 20 := by
    unfold ppScript
    rw [hq]
    dsimp only
    split_ifs <;> simp_all
  refine ⟨List.filter_eq_self.mpr fun m _ => by simp [LogMsg.level, hl], ?_⟩
  unfold ppScript Bar.init
  rw [hq]
  cases o.verbose <;> cases o.debug <;> simp

/-- **C213 is false** for the code: with `--verbose`, the option `--quiet` has no effect, whatever the other options. -/
theorem C213_counterexample_verbose (active : Bool) (o : ScriptOpts) (hv : o.verbose = true) (log : List (LogMsg K))
    (items : List α) :
    (ppScript active o).shown log = log ∧ (Bar.init (ppScript active o).active none items).disable = false := by
  have h : ppScript active o = ⟨o.output.getD ppOutputPath, 40, 20, true⟩ := by simp [ppScript, hv]
  rw [h]
  exact ⟨List.filter_eq_self.mpr fun m _ => by simp [LogMsg.level], rfl⟩

/-- **C213**: the files of the functions are at the path given with `--output`, whatever the verbosity, and at the default path
without that option. -/
theorem C213_output (active : Bool) (o : ScriptOpts) (n : Named) :
    outputFileOf ((ppScript active o).outputPath none) n =
      match o.output with
      | some p => outputFile (p.flatMap (PathPiece.value n))
      | none => outputFile (n.filename ++ ".pp.".toList ++ n.symbol ++ ".".toList ++ n.tag) := by
  have h : (ppScript active o).outputPath none = o.output.getD ppOutputPath := by
    unfold ppScript ScriptState.outputPath
    dsimp only
    split_ifs <;> rfl
  rw [h]
  cases o.output with
  | some p => rfl
  | none =>
    simp [outputFileOf, ppOutputPath, PathPiece.value]

end

/-- The messages of one calculation with various options. -/
example :
    let log : List (LogMsg ℚ) := [.setup, .computing, .origins 3 5, .outputFile, .done 4 25 75, .blank]
    (ppScript false ⟨none, true, false, true⟩).shown log = [] ∧ (ppScript false ⟨none, false, false, true⟩).shown log = log ∧
    (ppScript false ⟨none, true, true, false⟩).shown log = log ∧ (ppScript false ⟨none, false, false, true⟩).active = false ∧
    (ppScript false ⟨none, false, false, false⟩).active = true := by
  refine ⟨rfl, rfl, rfl, rfl, rfl⟩

end PP.Props
