import Verif.Model.Helpers
import Verif.Lemmas.Dict
import Mathlib.Tactic.FieldSimp
import Mathlib.Tactic.Linarith
import Mathlib.Tactic.NormNum
import Mathlib.Data.List.TakeWhile

/-!
# C14-C17: the stride between time origins (`adjust_skip`)
-/

namespace PP.Props
open PP

/-- **C14**, the consistency check at line 180 is dead code: whenever the first part of the function
succeeds, the result is the raw value clamped to `[1, len]`; the error "wrong skip" is never
raised. -/
theorem C14_no_wrong_skip (len bs : ℕ) (npart : List ℕ) (n : NOrigins) (hbs : 0 < bs) :
    adjustSkip len bs npart n = (rawSkip len bs npart n).map fun s => min (len : ℤ) (max 1 s) := by
  unfold adjustSkip
  cases hr : rawSkip len bs npart n with
  | error e => rfl
  | ok s =>
    simp only [bind, Except.bind, Except.map, pure, Except.pure]
    rw [if_neg (by omega)]
    split_ifs with h
    · -- only the single-origin branch gives a value which is not a multiple of the block size
      have h1 : n.toInt = .ok 1 := by
        unfold rawSkip at hr
        cases n with
        | none =>
          simp only at hr
          split_ifs at hr with hb
          · subst hb; simp at h
          · cases hr; simp at h
        | num q =>
          simp only [NOrigins.toFloat, NOrigins.toInt, bind, Except.bind, pure, Except.pure] at hr ⊢
          split_ifs at hr <;> try (cases hr; simp at h; done)
          · cases hr; rename_i h1; rw [h1]
        | str t =>
          simp only [NOrigins.toFloat, NOrigins.toInt, bind, Except.bind, pure, Except.pure] at hr ⊢
          cases hq : pyFloatOfStr t with
          | error e => rw [hq] at hr; cases hr
          | ok q =>
            rw [hq] at hr
            simp only at hr
            split_ifs at hr <;> try (cases hr; simp at h; done)
            all_goals
              cases hi : pyIntOfStr t with
              | error e => rw [hi] at hr; cases hr
              | ok i =>
                rw [hi] at hr
                simp only at hr
                by_cases h1 : i = 1
                · rw [h1]
                · rw [if_neg h1] at hr
                  first
                    | (cases hr; done)
                    | (cases hr; simp at h)
      rw [h1]; simp
    · rfl


/-- **C14**, bounds: the stride is between 1 and the number of frames. -/
theorem C14_skip_bounds (len bs : ℕ) (npart : List ℕ) (n : NOrigins) (s : ℤ) (hlen : 0 < len)
    (hbs : 0 < bs) (h : adjustSkip len bs npart n = .ok s) : 1 ≤ s ∧ s ≤ len := by
  rw [C14_no_wrong_skip len bs npart n hbs] at h
  cases hr : rawSkip len bs npart n with
  | error e => rw [hr] at h; cases h
  | ok r =>
    rw [hr] at h
    simp only [Except.map, Except.ok.injEq] at h
    omega

theorem pyInt_one_iff {q : ℚ} (h0 : 0 ≤ q) (h1 : q ≤ 1) : pyInt q = 1 ↔ q = 1 := by
  unfold pyInt
  rw [if_pos h0]
  constructor
  · intro h
    have := Int.floor_le q
    rw [h] at this
    push_cast at this
    linarith
  · rintro rfl; simp

/-- **C14**, the stride for a numeric `norigins`, case by case. -/
theorem C14_skip_number (len bs : ℕ) (npart : List ℕ) (q : ℚ) (hbs : 0 < bs) :
    adjustSkip len bs npart (.num q) =
      if q < 0 then .ok (min (len : ℤ) (max 1 bs))
      else if q = 0 then .error .zeroDivisionError
      else if q < 1 then .ok (min (len : ℤ) (max 1 (⌊1 / q⌋ * bs)))
      else if q = 1 then .ok (min (len : ℤ) (max 1 len))
      else .ok (min (len : ℤ) (max 1 (⌊((len / bs : ℕ) : ℚ) / q⌋ * bs))) := by
  rw [C14_no_wrong_skip len bs npart _ hbs]
  unfold rawSkip
  simp only [NOrigins.toFloat, NOrigins.toInt, NOrigins.isStr1p0, bind, Except.bind, pure,
    Except.pure, Bool.false_eq_true, or_false]
  by_cases h0 : q < 0
  · simp [h0, Except.map]
  push Not at h0
  rw [if_neg (not_lt.2 h0), if_neg (not_lt.2 h0)]
  by_cases h1 : q > 1
  · have hq0 : q ≠ 0 := by intro h; rw [h] at h1; norm_num at h1
    have hq1 : q ≠ 1 := by intro h; rw [h] at h1; norm_num at h1
    rw [if_pos h1, if_neg (by omega), if_neg hq0, if_neg (by linarith), if_neg hq1]
    have : 0 ≤ ((len / bs : ℕ) : ℚ) / q := div_nonneg (Nat.cast_nonneg _) h0
    simp only [Except.map, pyInt, if_pos this]
  · push Not at h1
    rw [if_neg (not_lt.2 h1)]
    by_cases hq0 : q = 0
    · subst hq0; simp [pyInt, Except.map]
    · rw [if_neg hq0]
      by_cases hq1 : q = 1
      · rw [if_pos ((pyInt_one_iff h0 h1).2 hq1), if_neg (show ¬ q < 1 by rw [hq1]; norm_num),
          if_pos hq1, if_neg hq0]; rfl
      · rw [if_neg (fun h => hq1 ((pyInt_one_iff h0 h1).1 h)), if_pos (lt_of_le_of_ne h1 hq1),
          if_neg hq0]
        have : 0 ≤ 1 / q := div_nonneg zero_le_one h0
        simp only [Except.map, pyInt, if_pos this]

/-- **C14**, construction never fails for `norigins=None`, if the trajectory has at least one frame. -/
theorem C14_skip_none (len bs : ℕ) (npart : List ℕ) (hbs : 0 < bs) (hnp : npart ≠ []) :
    ∃ s, adjustSkip len bs npart .none = .ok s := by
  rw [C14_no_wrong_skip len bs npart _ hbs]
  obtain ⟨a, r, rfl⟩ := List.exists_cons_of_ne_nil hnp
  unfold rawSkip
  simp only
  split_ifs
  · exact ⟨_, rfl⟩
  · exact ⟨_, rfl⟩


/-- **C14**, exact error conditions for a number: only zero is refused. -/
theorem C14_skip_number_errors (len bs : ℕ) (npart : List ℕ) (q : ℚ) (hbs : 0 < bs) :
    (∃ s, adjustSkip len bs npart (.num q) = .ok s) ↔ q ≠ 0 := by
  rw [C14_skip_number len bs npart q hbs]
  by_cases h0 : q = 0
  · subst h0; simp
  · simp only [ne_eq, h0, not_false_eq_true, iff_true, if_false]
    split_ifs <;> exact ⟨_, rfl⟩

/-- **C14**, exact error conditions for a string: it must be a number, which is either negative,
larger than 1, the literal `1.0`, or an integer string different from zero. -/
theorem C14_skip_string_errors (len bs : ℕ) (npart : List ℕ) (t : List Char) (hbs : 0 < bs) :
    (∃ s, adjustSkip len bs npart (.str t) = .ok s) ↔
      ∃ q, pyFloatOfStr t = .ok q ∧
        (q < 0 ∨ 1 < q ∨ t = ['1', '.', '0'] ∨ (∃ i, pyIntOfStr t = .ok i) ∧ q ≠ 0 ∨
          (∃ i, pyIntOfStr t = .ok i ∧ i = 1)) := by
  rw [C14_no_wrong_skip len bs npart _ hbs]
  unfold rawSkip
  simp only [NOrigins.toFloat, NOrigins.toInt, NOrigins.isStr1p0, bind, Except.bind, pure,
    Except.pure, decide_eq_true_eq]
  cases hq : pyFloatOfStr t with
  | error e => simp [Except.map]
  | ok q =>
    simp only [Except.ok.injEq, exists_eq_left']
    by_cases h0 : q < 0 ∨ t = ['1', '.', '0']
    · rw [if_pos h0]
      constructor
      · intro _; rcases h0 with h | h
        · exact Or.inl h
        · exact Or.inr (Or.inr (Or.inl h))
      · intro _; exact ⟨_, rfl⟩
    · rw [if_neg h0]
      push Not at h0
      by_cases h1 : q > 1
      · rw [if_pos h1, if_neg (by omega)]
        exact ⟨fun _ => Or.inr (Or.inl h1), fun _ => ⟨_, rfl⟩⟩
      · rw [if_neg h1]
        cases hi : pyIntOfStr t with
        | error e =>
          simp only [Except.map, reduceCtorEq, exists_false, false_and, false_or, or_false, false_iff]
          push Not at h1
          rintro (h | h | h)
          · linarith [h0.1]
          · linarith
          · exact h0.2 h
        | ok i =>
          simp only
          by_cases h2 : i = 1
          · rw [if_pos h2]
            exact ⟨fun _ => Or.inr (Or.inr (Or.inr (Or.inr ⟨i, rfl, h2⟩))), fun _ => ⟨_, rfl⟩⟩
          · rw [if_neg h2]
            by_cases h3 : q = 0
            · rw [if_pos h3]
              simp only [Except.map, reduceCtorEq, exists_false, false_iff]
              rintro (h | h | h | h | ⟨j, hj, h⟩)
              · linarith [h0.1]
              · exact h1 h
              · exact h0.2 h
              · exact h.2 h3
              · cases hj; exact h2 h
            · rw [if_neg h3]
              exact ⟨fun _ => Or.inr (Or.inr (Or.inr (Or.inl ⟨⟨i, rfl⟩, h3⟩))), fun _ => ⟨_, rfl⟩⟩

example : adjustSkip 101 1 [1000] .none = .ok 2 ∧ adjustSkip 101 5 [1000] (.num (3 / 10)) = .ok 15 ∧
    adjustSkip 101 5 [1000] (.num 0) = .error .zeroDivisionError ∧
    adjustSkip 101 5 [1000] (.str "7".toList) = .ok 10 := by
  refine ⟨?_, ?_, ?_, ?_⟩ <;> decide +kernel

/-! ## C15 -/

/-- Number of time origins actually used at zero offset: the frames `0, s, 2s, ...` below `len`. -/
def _root_.PP.Spec.originCount (len s : ℕ) : ℕ :=
  ((List.range len).filter fun i => decide (i % s = 0)).length

theorem originCount_eq (len s : ℕ) (hs : 0 < s) : Spec.originCount len s = (len + (s - 1)) / s := by
  have h := rangeList_eq_filter (a := 0) (b := len) (s := s) (n := len) hs le_rfl
  have h1 : (rangeList 0 len s).length = (len + (s - 1)) / s := by simp [rangeList]
  rw [← h1, h]
  unfold Spec.originCount
  congr 1
  apply List.filter_congr
  intro i hi
  rw [List.mem_range] at hi
  simp [hi]

/-- **C15**, `norigins=-1` with block size 1: every frame is an origin. -/
theorem C15_all_origins (len : ℕ) (npart : List ℕ) (hlen : 0 < len) :
    adjustSkip len 1 npart (.num (-1)) = .ok 1 ∧ Spec.originCount len 1 = len := by
  constructor
  · rw [C14_skip_number len 1 npart _ one_pos, if_pos (by norm_num)]
    congr 1; simp; omega
  · rw [originCount_eq len 1 one_pos]; simp

/-- **C15**, `norigins=1`: a single origin, whatever the block size. -/
theorem C15_single_origin (len bs : ℕ) (npart : List ℕ) (hlen : 0 < len) (hbs : 0 < bs) :
    adjustSkip len bs npart (.num 1) = .ok len ∧ Spec.originCount len len = 1 := by
  constructor
  · rw [C14_skip_number len bs npart _ hbs]
    norm_num
  · rw [originCount_eq len len hlen]
    rw [Nat.div_eq_iff (by omega)]; omega

/-- **C15**, an integer number of origins between 2 and the number of frames: at least `n` and at
most `2n-1` origins are used. -/
theorem C15_n_origins (len n : ℕ) (npart : List ℕ) (hn : 2 ≤ n) (hle : n ≤ len) :
    ∃ s : ℕ, adjustSkip len 1 npart (.num n) = .ok (s : ℤ) ∧
      n ≤ Spec.originCount len s ∧ Spec.originCount len s ≤ 2 * n - 1 := by
  have hq : 0 < len / n := Nat.div_pos hle (by omega)
  refine ⟨len / n, ?_, ?_, ?_⟩
  · have hn' : (2 : ℚ) ≤ (n : ℚ) := by exact_mod_cast hn
    rw [C14_skip_number len 1 npart _ one_pos, if_neg (by linarith), if_neg (by linarith),
      if_neg (by linarith), if_neg (by linarith)]
    congr 1
    rw [Nat.div_one, Rat.floor_natCast_div_natCast]
    have h2 : len / n ≤ len := Nat.div_le_self _ _
    push_cast
    have h3 : ((len : ℤ) / (n : ℤ)) = ((len / n : ℕ) : ℤ) := by push_cast; rfl
    rw [h3]; omega
  · rw [originCount_eq len _ hq, Nat.le_div_iff_mul_le hq]
    have := Nat.div_mul_le_self len n
    rw [mul_comm]; omega
  · rw [originCount_eq len _ hq, ← Nat.lt_succ_iff, Nat.div_lt_iff_lt_mul hq]
    have h1 := Nat.div_add_mod len n
    have h2 := Nat.mod_lt len (show 0 < n by omega)
    have h3 : len % n ≤ (n - 1) * (len / n) := le_trans (by omega) (Nat.le_mul_of_pos_right _ hq)
    have h4 : (2 * n - 1).succ * (len / n) = n * (len / n) + (n - 1) * (len / n) + (len / n) := by
      have : (2 * n - 1).succ = n + (n - 1) + 1 := by omega
      rw [this]; ring
    rw [h4]; omega

/-- "use only n origins" is not exact: 4 origins requested out of 10 frames give 5, and the upper
bound `2n-1` is attained. -/
example : adjustSkip 10 1 [7] (.num 4) = .ok 2 ∧ Spec.originCount 10 2 = 5 ∧
    adjustSkip 7 1 [7] (.num 4) = .ok 1 ∧ Spec.originCount 7 1 = 2 * 4 - 1 := by
  refine ⟨by decide +kernel, by decide, by decide +kernel, by decide⟩

/-! ## C16 -/

/-- **C16, partial.** The stride is a multiple of the block size, or the whole trajectory length (a
single origin), provided the requested number of origins does not exceed the number of blocks.
Missing: `norigins` larger than the number of blocks. -/
theorem C16_block_multiple_partial (len bs : ℕ) (npart : List ℕ) (q : ℚ) (s : ℤ) (hbs : 0 < bs)
    (hlen : 0 < len) (hq : q ≤ 1 ∨ q ≤ ((len / bs : ℕ) : ℚ))
    (h : adjustSkip len bs npart (.num q) = .ok s) : (bs : ℤ) ∣ s ∨ s = len := by
  have hclamp : ∀ k : ℤ, 1 ≤ k → (bs : ℤ) ∣ min (len : ℤ) (max 1 (k * bs)) ∨
      min (len : ℤ) (max 1 (k * bs)) = len := by
    intro k hk
    have h1 : (1 : ℤ) ≤ k * bs := by
      have : (1 : ℤ) ≤ bs := by exact_mod_cast hbs
      nlinarith
    rw [max_eq_right h1]
    rcases le_total (len : ℤ) (k * bs) with h2 | h2
    · right; exact min_eq_left h2
    · left; rw [min_eq_right h2]; exact Dvd.intro_left k rfl
  rw [C14_skip_number len bs npart q hbs] at h
  split_ifs at h with h0 h1 h2 h3
  · cases h
    have := hclamp 1 le_rfl
    rwa [one_mul] at this
  · cases h
    apply hclamp
    have hq0 : 0 < q := lt_of_le_of_ne (not_lt.1 h0) (Ne.symm h1)
    rw [Int.le_floor]
    push_cast
    rw [le_div_iff₀ hq0]; linarith
  · cases h; right; omega
  · cases h
    apply hclamp
    have hq0 : 0 < q := lt_of_le_of_ne (not_lt.1 h0) (Ne.symm h1)
    have hq1 : 1 < q := lt_of_le_of_ne (not_lt.1 h2) (Ne.symm h3)
    rw [Int.le_floor]
    push_cast
    rw [le_div_iff₀ hq0]
    rcases hq with h | h
    · linarith
    · push_cast at h; linarith

/-- **C16** for the default heuristics. -/
theorem C16_block_multiple_none (len bs : ℕ) (npart : List ℕ) (s : ℤ) (hbs : 0 < bs) (hlen : 0 < len)
    (h : adjustSkip len bs npart .none = .ok s) : (bs : ℤ) ∣ s ∨ s = len := by
  by_cases h1 : bs = 1
  · subst h1; left; exact ⟨s, by simp⟩
  · rw [C14_no_wrong_skip len bs npart _ hbs] at h
    unfold rawSkip at h
    simp only [if_neg h1, Except.map, Except.ok.injEq] at h
    rcases le_total (len : ℤ) (max 1 bs) with h2 | h2
    · right; omega
    · left
      have : s = bs := by omega
      rw [this]

example : adjustSkip 100 5 [7] (.num 3) = .ok 30 ∧ ((3 : ℚ) ≤ 1 ∨ (3 : ℚ) ≤ ((100 / 5 : ℕ) : ℚ)) := by
  refine ⟨by decide +kernel, Or.inr (by norm_num)⟩

/-- **C16 is false** for the code: 10 frames in two blocks of 5 and 3 origins give a stride of 1. -/
theorem C16_counterexample :
    adjustSkip 10 5 [7] (.num 3) = .ok 1 ∧ ¬ ((5 : ℤ) ∣ 1) ∧ (1 : ℤ) ≠ 10 := by
  refine ⟨by decide +kernel, by decide, by decide⟩

/-- More generally, asking for more origins than there are blocks always gives a stride of 1. -/
theorem C16_counterexample_general (len bs : ℕ) (npart : List ℕ) (q : ℚ) (hbs : 0 < bs)
    (hlen : 0 < len) (h1 : 1 < q) (hq : ((len / bs : ℕ) : ℚ) < q) :
    adjustSkip len bs npart (.num q) = .ok 1 := by
  rw [C14_skip_number len bs npart q hbs, if_neg (by linarith), if_neg (by linarith),
    if_neg (by linarith), if_neg (by linarith)]
  have : ⌊((len / bs : ℕ) : ℚ) / q⌋ = 0 := by
    rw [Int.floor_eq_iff]
    refine ⟨?_, ?_⟩
    · push_cast; positivity
    · push_cast
      rw [div_lt_iff₀ (by linarith)]
      push_cast at hq; linarith
  rw [this]
  congr 1; omega

/-! ## C17 -/

theorem digits_no_dot {l : List Char} (h : l.all Char.isDigit = true) : ∀ c ∈ l, c ≠ '.' := by
  intro c hc h'
  subst h'
  have := List.all_eq_true.1 h _ hc
  revert this; decide

/-- An integer string is converted to the same number by `int` and `float`. -/
theorem float_of_int_str (t : List Char) (i : ℤ) (h : pyIntOfStr t = .ok i) :
    pyFloatOfStr t = .ok (i : ℚ) := by
  unfold pyIntOfStr at h
  unfold pyFloatOfStr
  simp only at h ⊢
  generalize (if t.head? = some '-' then t.drop 1 else t) = body at h ⊢
  by_cases hb : body ≠ [] ∧ body.all Char.isDigit = true
  · rw [if_pos hb] at h
    have hb2 := digits_no_dot hb.2
    have h1 : body.takeWhile (fun c => decide (c ≠ '.')) = body := by
      rw [List.takeWhile_eq_self_iff]; intro c hc; simpa using hb2 c hc
    have h2 : body.dropWhile (fun c => decide (c ≠ '.')) = [] := by
      rw [List.dropWhile_eq_nil_iff]; intro c hc; simpa using hb2 c hc
    rw [h1, h2, if_pos ⟨hb.2, by simp, Or.inl hb.1⟩]
    have h3 : digitsVal (List.drop 1 []) = 0 := by simp [digitsVal]
    rw [h3]
    cases h
    congr 1
    push_cast
    simp
  · rw [if_neg hb] at h; cases h

/-- **C17, partial.** A string of digits (with optional minus) selects the same stride as the number,
and so does any decimal string below 0 or above 1. Missing: decimal strings in `(0,1]`. -/
theorem C17_string_partial (len bs : ℕ) (npart : List ℕ) (t : List Char) (hbs : 0 < bs) :
    (∀ i, pyIntOfStr t = .ok i →
      adjustSkip len bs npart (.str t) = adjustSkip len bs npart (.num i)) ∧
    (∀ q, pyFloatOfStr t = .ok q → (q < 0 ∨ 1 < q) →
      adjustSkip len bs npart (.str t) = adjustSkip len bs npart (.num q)) := by
  constructor
  · intro i hi
    have hq := float_of_int_str t i hi
    rw [C14_no_wrong_skip len bs npart _ hbs, C14_no_wrong_skip len bs npart _ hbs]
    unfold rawSkip
    have hne : t ≠ ['1', '.', '0'] := by
      rintro rfl
      revert hi; unfold pyIntOfStr; simp
    have hpi : pyInt (i : ℚ) = i := by
      unfold pyInt; split_ifs <;> simp
    simp only [NOrigins.toFloat, NOrigins.toInt, NOrigins.isStr1p0, hq, hi, hne, decide_false, hpi]
  · intro q hq h
    rw [C14_no_wrong_skip len bs npart _ hbs, C14_no_wrong_skip len bs npart _ hbs]
    unfold rawSkip
    have hne : t ≠ ['1', '.', '0'] := by
      rintro rfl
      have : pyFloatOfStr ['1', '.', '0'] = .ok 1 := by decide +kernel
      rw [this] at hq
      cases hq
      rcases h with h | h <;> norm_num at h
    simp only [NOrigins.toFloat, NOrigins.toInt, NOrigins.isStr1p0, hq, hne, decide_false]
    simp only [bind, Except.bind, Bool.false_eq_true, or_false]
    rcases h with h | h
    · simp [h]
    · have h' : ¬ q < 0 := by linarith
      simp [h, h']

example : pyIntOfStr "12".toList = .ok 12 ∧ pyFloatOfStr "2.5".toList = .ok (5 / 2) := by
  constructor <;> decide +kernel

/-- **C17 is false** for the code: for every string of the form `0.` followed by digits, which python's
`float` accepts, the stride computation raises `ValueError` (`int('0.2')`), while the same number is
accepted. -/
theorem C17_counterexample (len bs : ℕ) (npart : List ℕ) (ds : List Char) (hbs : 0 < bs)
    (hds : ds.all Char.isDigit = true) :
    (∃ q, pyFloatOfStr ('0' :: '.' :: ds) = .ok q) ∧
    adjustSkip len bs npart (.str ('0' :: '.' :: ds)) = .error .valueError := by
  have hfl : pyFloatOfStr ('0' :: '.' :: ds) = .ok ((digitsVal ds : ℚ) / 10 ^ ds.length) := by
    unfold pyFloatOfStr
    simp [hds, digitsVal]
  have hint : pyIntOfStr ('0' :: '.' :: ds) = .error .valueError := by
    unfold pyIntOfStr; simp
  have hlt : digitsVal ds < 10 ^ ds.length := by
    have : ∀ (l : List Char) (a : ℕ), l.all Char.isDigit = true →
        l.foldl (fun a c => 10 * a + (c.toNat - '0'.toNat)) a + 1 ≤ (a + 1) * 10 ^ l.length := by
      intro l
      induction l with
      | nil => intro a _; simp
      | cons c l ih =>
        intro a h
        simp only [List.all_cons, Bool.and_eq_true] at h
        have hc : c.toNat - '0'.toNat ≤ 9 := by
          have := h.1
          simp only [Char.isDigit, Bool.and_eq_true, decide_eq_true_eq] at this
          have h9 := this.2
          have : c.toNat ≤ '9'.toNat := h9
          have e9 : '9'.toNat = 57 := by decide
          have e0 : '0'.toNat = 48 := by decide
          omega
        rw [List.foldl_cons, List.length_cons]
        refine le_trans (ih _ h.2) ?_
        rw [pow_succ]
        have : 10 * a + (c.toNat - '0'.toNat) + 1 ≤ (a + 1) * 10 := by omega
        calc (10 * a + (c.toNat - '0'.toNat) + 1) * 10 ^ l.length
            ≤ ((a + 1) * 10) * 10 ^ l.length := Nat.mul_le_mul_right _ this
          _ = (a + 1) * (10 ^ l.length * 10) := by ring
    have := this ds 0 hds
    simp only [zero_add, one_mul] at this
    unfold digitsVal; omega
  refine ⟨⟨_, hfl⟩, ?_⟩
  rw [C14_no_wrong_skip len bs npart _ hbs]
  unfold rawSkip
  have hq0 : ¬ ((digitsVal ds : ℚ) / 10 ^ ds.length < 0) := by
    push Not; positivity
  have hq1 : ¬ ((digitsVal ds : ℚ) / 10 ^ ds.length > 1) := by
    push Not
    rw [div_le_one (by positivity)]
    exact_mod_cast hlt.le
  simp only [NOrigins.toFloat, NOrigins.toInt, NOrigins.isStr1p0, hfl, hint, bind, Except.bind]
  rw [if_neg (by simpa using hq0), if_neg hq1]
  rfl

/-- The README example `--norigins 0.2`: the string fails, the float gives a stride of 5. -/
theorem C17_counterexample_readme :
    adjustSkip 100 1 [500] (.str "0.2".toList) = .error .valueError ∧
    adjustSkip 100 1 [500] (.num (1 / 5)) = .ok 5 := by
  constructor <;> decide +kernel

/-- The string `1.0` means all origins, the number `1.0` means a single origin. -/
theorem C17_counterexample_one :
    adjustSkip 100 1 [500] (.str "1.0".toList) = .ok 1 ∧
    adjustSkip 100 1 [500] (.num 1) = .ok 100 := by
  constructor <;> decide +kernel

end PP.Props
