import Verif.Model.Text
import Mathlib.Data.List.Infix
import Mathlib.Tactic.Linarith

/-!
# C66, C86: names of the output files
-/

set_option linter.unusedSectionVars false

namespace PP.Props
open PP

/-! ### Squeezing doubled characters -/

/-- Pairs of adjacent `p` are replaced by one `p`, from the left. -/
def squeeze (p : Char) : Str → Str
  | [] => []
  | [c] => [c]
  | c :: d :: s => if c = p ∧ d = p then p :: squeeze p s else c :: squeeze p (d :: s)

theorem pyReplaceAux_squeeze (p : Char) : ∀ (n : ℕ) (s : Str), s.length ≤ n →
    pyReplaceAux [p, p] [p] n s = squeeze p s := by
  intro n
  induction n using Nat.strong_induction_on with
  | _ n ih =>
    intro s hs
    match n, s, hs with
    | 0, [], _ => rfl
    | n + 1, [], _ => rfl
    | n + 1, [c], h =>
      simp only [pyReplaceAux, squeeze]
      rw [if_neg (by simp [List.isPrefixOf]), ih n (by omega) [] (by simp)]
      rfl
    | n + 1, c :: d :: s, h =>
      simp only [pyReplaceAux, squeeze]
      simp only [List.length_cons] at h
      by_cases hc : c = p ∧ d = p
      · rw [if_pos hc, if_pos (by simp [List.isPrefixOf, hc.1, hc.2])]
        simp only [List.length_cons, List.length_nil, List.drop_succ_cons, List.drop_zero]
        rw [ih n (by omega) s (by omega)]
        rfl
      · rw [if_neg hc, if_neg (by
          simp only [List.isPrefixOf, Bool.and_true, Bool.and_eq_true, beq_iff_eq]
          rintro ⟨h1, h2⟩
          exact hc ⟨h1.symm, h2.symm⟩)]
        rw [ih n (by omega) (d :: s) (by simp; omega)]

theorem pyReplace_double (p : Char) (s : Str) : pyReplace [p, p] [p] s = squeeze p s :=
  pyReplaceAux_squeeze p _ s le_rfl

theorem squeeze_sublist (p : Char) (s : Str) : (squeeze p s).Sublist s := by
  fun_induction squeeze p s with
  | case1 => simp
  | case2 => simp
  | case3 c d s h ih =>
    obtain ⟨rfl, rfl⟩ := h
    exact List.Sublist.cons _ (List.Sublist.cons_cons _ ih)
  | case4 c d s h ih => exact List.Sublist.cons_cons _ ih

theorem squeeze_head (p : Char) (s : Str) : (squeeze p s).head? = s.head? := by
  fun_induction squeeze p s <;> simp_all

/-- Two adjacent characters of the squeezed string are adjacent in the string, or three adjacent `p` were there. -/
theorem squeeze_pair (p q : Char) (s : Str) (h : [q, q] <:+: squeeze p s) :
    (q ≠ p ∧ [q, q] <:+: s) ∨ (q = p ∧ [p, p, p] <:+: s) := by
  fun_induction squeeze p s with
  | case1 => simp at h
  | case2 c => have := h.length_le; simp at this
  | case3 c d s hcd ih =>
    obtain ⟨rfl, rfl⟩ := hcd
    rcases List.infix_cons_iff.mp h with hp | hi
    · have hq : q = d := by have := List.prefix_cons_iff.mp hp; simp at this; exact this.1
      subst hq
      have h2 : squeeze q s ≠ [] ∧ (squeeze q s).head? = some q := by
        have := List.prefix_cons_iff.mp hp
        simp only [List.cons_ne_nil, List.cons.injEq, true_and, false_or, exists_eq_left'] at this
        obtain ⟨t, ht⟩ := this
        rw [← ht]; simp
      rw [squeeze_head] at h2
      right
      refine ⟨rfl, ?_⟩
      cases s with
      | nil => simp at h2
      | cons e s => simp only [List.head?_cons, Option.some.injEq] at h2; rw [h2.2]; exact ⟨[], s, rfl⟩
    · rcases ih hi with ⟨h1, h2⟩ | ⟨h1, h2⟩
      · exact Or.inl ⟨h1, h2.trans ⟨[d, d], [], by simp⟩⟩
      · exact Or.inr ⟨h1, h2.trans ⟨[d, d], [], by simp⟩⟩
  | case4 c d s hcd ih =>
    rcases List.infix_cons_iff.mp h with hp | hi
    · have h1 := List.prefix_cons_iff.mp hp
      simp only [List.cons_ne_nil, List.cons.injEq, false_or] at h1
      obtain ⟨t, ⟨rfl, rfl⟩, ht⟩ := h1
      obtain ⟨u, hu⟩ := ht
      have h2 : (squeeze p (d :: s)).head? = some q := by rw [← hu]; simp
      rw [squeeze_head] at h2
      simp only [List.head?_cons, Option.some.injEq] at h2
      subst h2
      left
      refine ⟨fun e => hcd ⟨e, e⟩, ⟨[], s, rfl⟩⟩
    · rcases ih hi with ⟨h1, h2⟩ | ⟨h1, h2⟩
      · exact Or.inl ⟨h1, h2.trans ⟨[c], [], by simp⟩⟩
      · exact Or.inr ⟨h1, h2.trans ⟨[c], [], by simp⟩⟩

theorem pyStrip_infix (p : Char) (s : Str) : pyStrip p s <:+: s := by
  unfold pyStrip
  refine List.IsInfix.trans (List.IsPrefix.isInfix ?_) (List.dropWhile_suffix (· == p) (l := s)).isInfix
  rw [← List.reverse_suffix, List.reverse_reverse]
  exact List.dropWhile_suffix _

/-- A stripped string neither starts nor ends with the character. -/
theorem pyStrip_ends (p : Char) (s : Str) : (pyStrip p s).head? ≠ some p ∧ (pyStrip p s).getLast? ≠ some p := by
  have hd : ∀ l : Str, (l.dropWhile (· == p)).head? ≠ some p := by
    intro l h
    have hne : l.dropWhile (· == p) ≠ [] := by intro e; rw [e] at h; simp at h
    have := List.head_dropWhile_not (p := (· == p)) (l := l) hne
    rw [List.head?_eq_some_head hne] at h
    simp only [Option.some.injEq] at h
    rw [h] at this
    simp at this
  refine ⟨?_, ?_⟩
  · unfold pyStrip
    intro h
    set m := s.dropWhile (· == p) with hm
    have hpre : (m.reverse.dropWhile (· == p)).reverse <+: m := by
      rw [← List.reverse_suffix, List.reverse_reverse]
      exact List.dropWhile_suffix _
    obtain ⟨t, ht⟩ := hpre
    apply hd s
    rw [← hm, ← ht]
    cases hx : (m.reverse.dropWhile (· == p)).reverse with
    | nil => rw [hx] at h; simp at h
    | cons a l => rw [hx] at h; simpa using h
  · unfold pyStrip
    rw [List.getLast?_reverse]
    exact hd _

/-! ### The file name -/

/-- The part of the name that comes after the directories, cleaned for one character. -/
def cleanPass (p : Char) (s : Str) : Str := pyStrip p (pyReplace [p, p] [p] s)

theorem cleanPass_sublist (p : Char) (s : Str) : (cleanPass p s).Sublist s := by
  unfold cleanPass
  rw [pyReplace_double]
  exact (pyStrip_infix p _).sublist.trans (squeeze_sublist p s)

/-- `dir` is empty or ends with a slash. -/
def IsDir (dir : Str) : Prop := dir = [] ∨ ∃ d, dir = d ++ ['/']

theorem cleanStep_eq (dir base : Str) (hd : IsDir dir) (hb : '/' ∉ base) (p : Char) :
    cleanStep (dir ++ base) p = dir ++ cleanPass p base := by
  rcases hd with rfl | ⟨d, rfl⟩
  · simp only [List.nil_append, cleanStep, pySplit, List.splitOn_eq_singleton hb, pyJoin]
    simp [cleanPass]
  · have hs : (d ++ ['/'] ++ base).splitOn '/' = d.splitOn '/' ++ [base] := by
      rw [List.append_assoc, List.singleton_append, List.splitOn_append_cons_self, List.splitOn_eq_singleton hb]
    have hlast : ∀ (l : List Str) (x : Str), l ≠ [] →
        List.intercalate ['/'] (l ++ [x]) = List.intercalate ['/'] l ++ ['/'] ++ x := by
      intro l x hl
      induction l with
      | nil => exact absurd rfl hl
      | cons a l ih =>
        cases l with
        | nil => simp [List.intercalate]
        | cons b l =>
          have h1 : List.intercalate ['/'] (a :: b :: l ++ [x])
              = a ++ ['/'] ++ List.intercalate ['/'] (b :: l ++ [x]) := by
            simp [List.intercalate_cons_cons]
          rw [h1, ih (by simp), List.intercalate_cons_cons]
          simp
    simp only [cleanStep, pySplit, hs, pyJoin, List.getLastD_concat, List.dropLast_concat]
    rw [hlast _ _ (List.splitOn_ne_nil _ _), List.intercalate_splitOn]
    rfl

theorem outputFile_eq (dir base : Str) (hd : IsDir dir) (hb : '/' ∉ base) :
    outputFile (dir ++ base) = dir ++ cleanPass '-' (cleanPass '_' (cleanPass '.' base)) ∧
    '/' ∉ cleanPass '-' (cleanPass '_' (cleanPass '.' base)) := by
  have h1 : '/' ∉ cleanPass '.' base := fun h => hb ((cleanPass_sublist _ _).subset h)
  have h2 : '/' ∉ cleanPass '_' (cleanPass '.' base) := fun h => h1 ((cleanPass_sublist _ _).subset h)
  have h3 : '/' ∉ cleanPass '-' (cleanPass '_' (cleanPass '.' base)) := fun h => h2 ((cleanPass_sublist _ _).subset h)
  refine ⟨?_, h3⟩
  simp only [outputFile, List.foldl_cons, List.foldl_nil]
  rw [cleanStep_eq dir base hd hb, cleanStep_eq dir _ hd h1, cleanStep_eq dir _ hd h2]

theorem cleanPass_pair (p q : Char) (s : Str) (h : [q, q] <:+: cleanPass p s) :
    (q ≠ p ∧ [q, q] <:+: s) ∨ (q = p ∧ [p, p, p] <:+: s) := by
  unfold cleanPass at h
  rw [pyReplace_double] at h
  exact squeeze_pair p q s (h.trans (pyStrip_infix _ _))

theorem cleanPass_triple (p q : Char) (hpq : q ≠ p) (s : Str) (h : [q, q, q] <:+: cleanPass p s) :
    [q, q, q] <:+: s := by
  unfold cleanPass at h
  rw [pyReplace_double] at h
  have h := h.trans (pyStrip_infix _ _)
  clear * - h hpq
  fun_induction squeeze p s with
  | case1 => exact h
  | case2 c => exact h
  | case3 c d s hcd ih =>
    obtain ⟨rfl, rfl⟩ := hcd
    rcases List.infix_cons_iff.mp h with hp | hi
    · have := List.prefix_cons_iff.mp hp
      simp at this
      exact absurd this.1 hpq
    · exact (ih hi).trans ⟨[d, d], [], by simp⟩
  | case4 c d s hcd ih =>
    rcases List.infix_cons_iff.mp h with hp | hi
    · have h1 := List.prefix_cons_iff.mp hp
      simp only [List.cons_ne_nil, List.cons.injEq, false_or] at h1
      obtain ⟨t, ⟨rfl, rfl⟩, ht⟩ := h1
      cases s with
      | nil =>
        have := ht.length_le
        simp [squeeze] at this
      | cons e s =>
        rw [squeeze.eq_3] at ht
        split_ifs at ht with h2
        · have := List.prefix_cons_iff.mp ht
          simp at this
          exact absurd this.1 hpq
        · have h3 := List.prefix_cons_iff.mp ht
          simp only [List.cons_ne_nil, List.cons.injEq, false_or] at h3
          obtain ⟨t, ⟨h4, rfl⟩, ht⟩ := h3
          have h5 : (squeeze p (e :: s)).head? = some q := by
            obtain ⟨u, hu⟩ := ht
            rw [← hu]; simp
          rw [squeeze_head] at h5
          simp at h5
          rw [← h4, h5]
          exact ⟨[], s, rfl⟩
    · exact (ih hi).trans ⟨[c], [], by simp⟩

/-- **C66**, what holds for every interpolated path: the directory part is kept, the name has no slash and is obtained
by removing some characters of the original one; it neither starts nor ends with a hyphen; and it has no doubled
punctuation mark, provided that no mark is repeated three times in the original one. -/
theorem C66_clean_partial (dir base : Str) (hd : IsDir dir) (hb : '/' ∉ base) :
    ∃ name, outputFile (dir ++ base) = dir ++ name ∧ '/' ∉ name ∧ name.Sublist base ∧
      name.head? ≠ some '-' ∧ name.getLast? ≠ some '-' ∧
      ∀ p ∈ ['.', '_', '-'], ¬ [p, p, p] <:+: base → ¬ [p, p] <:+: name := by
  obtain ⟨h1, h2⟩ := outputFile_eq dir base hd hb
  refine ⟨_, h1, h2, ?_, ?_, ?_, ?_⟩
  · exact ((cleanPass_sublist _ _).trans (cleanPass_sublist _ _)).trans (cleanPass_sublist _ _)
  · exact (pyStrip_ends '-' _).1
  · exact (pyStrip_ends '-' _).2
  · intro p hp hn h
    simp only [List.mem_cons, List.not_mem_nil, or_false] at hp
    rcases hp with rfl | rfl | rfl
    · rcases cleanPass_pair _ _ _ h with ⟨_, h⟩ | ⟨h, _⟩
      · rcases cleanPass_pair _ _ _ h with ⟨_, h⟩ | ⟨h, _⟩
        · rcases cleanPass_pair _ _ _ h with ⟨h, _⟩ | ⟨_, h⟩
          · exact h rfl
          · exact hn h
        · exact absurd h (by decide)
      · exact absurd h (by decide)
    · rcases cleanPass_pair _ _ _ h with ⟨_, h⟩ | ⟨h, _⟩
      · rcases cleanPass_pair _ _ _ h with ⟨h, _⟩ | ⟨_, h⟩
        · exact h rfl
        · exact hn (cleanPass_triple _ _ (by decide) _ h)
      · exact absurd h (by decide)
    · rcases cleanPass_pair _ _ _ h with ⟨h, _⟩ | ⟨_, h⟩
      · exact h rfl
      · exact hn (cleanPass_triple _ _ (by decide) _ (cleanPass_triple _ _ (by decide) _ h))

example : String.ofList (outputFile "data/run.1/../traj_.xyz.pp.gr.".toList) = "data/run.1/../traj_.xyz.pp.gr" ∧
    String.ofList (outputFile "a..b/x..y__z--w-".toList) = "a..b/x.y_z-w" := by decide +kernel

/-- **C66** is false: doubled marks may remain, and the name may start with or end with a mark. -/
theorem C66_counterexample :
    (∃ name : Str, outputFile "a...b".toList = name ∧ ['.', '.'] <:+: name) ∧
    (outputFile "-.a".toList).head? = some '.' ∧ (outputFile "a_-".toList).getLast? = some '_' := by
  refine ⟨⟨_, rfl, ?_⟩, ?_, ?_⟩
  · have : outputFile "a...b".toList = "a..b".toList := by decide +kernel
    rw [this]
    exact ⟨['a'], ['b'], by decide⟩
  · decide +kernel
  · decide +kernel

/-- The operation is not idempotent either. -/
theorem C66_counterexample_idempotent : outputFile (outputFile "a...b".toList) ≠ outputFile "a...b".toList := by
  decide +kernel

theorem squeeze_cons_ne (p : Char) (s : Str) (h : s.head? ≠ some p) : squeeze p (p :: s) = p :: squeeze p s := by
  cases s with
  | nil => rfl
  | cons c s =>
    rw [squeeze, if_neg]
    rintro ⟨_, h2⟩
    exact h (by simp [h2])

/-- **C66** is false: the trajectory `.name` and the trajectory `name` of the same directory have the same output
file, for every correlation function and tag. -/
theorem C66_counterexample_hidden (dir name symbol tag : Str) (hd : IsDir dir) (hn : '/' ∉ name)
    (h0 : name ≠ []) (h : name.head? ≠ some '.') (hs : '/' ∉ symbol) (ht : '/' ∉ tag) :
    outputFile (defaultPath (dir ++ '.' :: name) symbol tag) = outputFile (defaultPath (dir ++ name) symbol tag) := by
  have hb : '/' ∉ name ++ ".pp.".toList ++ symbol ++ ".".toList ++ tag := by
    have : '/' ∉ ".pp.".toList := by decide
    have h' : '/' ∉ ".".toList := by decide
    simp only [List.mem_append, not_or]
    exact ⟨⟨⟨⟨hn, this⟩, hs⟩, h'⟩, ht⟩
  have e1 : defaultPath (dir ++ name) symbol tag = dir ++ (name ++ ".pp.".toList ++ symbol ++ ".".toList ++ tag) := by
    simp [defaultPath]
  have e2 : defaultPath (dir ++ '.' :: name) symbol tag
      = dir ++ '.' :: (name ++ ".pp.".toList ++ symbol ++ ".".toList ++ tag) := by
    simp [defaultPath]
  rw [e1, e2, (outputFile_eq dir _ hd hb).1, (outputFile_eq dir _ hd (by
    rw [List.mem_cons]
    rintro (h | h)
    · exact absurd h (by decide)
    · exact hb h)).1]
  have hh : (name ++ ".pp.".toList ++ symbol ++ ".".toList ++ tag).head? ≠ some '.' := by
    obtain ⟨c, l, rfl⟩ := List.exists_cons_of_ne_nil h0
    simpa using h
  congr 3
  generalize name ++ ".pp.".toList ++ symbol ++ ".".toList ++ tag = b at hh
  unfold cleanPass
  rw [pyReplace_double, pyReplace_double, squeeze_cons_ne _ _ hh]
  unfold pyStrip
  simp

example : outputFile (defaultPath "d/.traj.xyz".toList "gr".toList []) = "d/traj.xyz.pp.gr".toList ∧
    outputFile (defaultPath "d/traj.xyz".toList "gr".toList []) = "d/traj.xyz.pp.gr".toList := by decide +kernel

/-- **C66** is false: a slash in the tag, as in the tag given by `Filter` to a condition with a ratio, changes the
directory of the output file. -/
theorem C66_counterexample_slash (dir name symbol cond ition : Str) (hd : IsDir dir) :
    ∃ file, outputFile (defaultPath (dir ++ name) symbol (cond ++ '/' :: ition)) =
      dir ++ (name ++ ".pp.".toList ++ symbol ++ ".".toList ++ cond) ++ '/' :: file := by
  -- the name is what comes after the last slash of the condition
  have hsplit : ∀ s : Str, ∃ d b, s = d ++ b ∧ IsDir d ∧ '/' ∉ b := by
    intro s
    induction s with
    | nil => exact ⟨[], [], rfl, Or.inl rfl, by simp⟩
    | cons c s ih =>
      obtain ⟨d, b, rfl, hd, hb⟩ := ih
      by_cases hc : c = '/'
      · subst hc
        refine ⟨'/' :: d, b, rfl, Or.inr ?_, hb⟩
        rcases hd with rfl | ⟨d', rfl⟩
        · exact ⟨[], rfl⟩
        · exact ⟨'/' :: d', rfl⟩
      · rcases hd with rfl | ⟨d', rfl⟩
        · exact ⟨[], c :: b, rfl, Or.inl rfl, by
            rw [List.mem_cons]
            rintro (h | h)
            · exact hc h.symm
            · exact hb h⟩
        · exact ⟨c :: (d' ++ ['/']), b, rfl, Or.inr ⟨c :: d', rfl⟩, hb⟩
  obtain ⟨d, b, rfl, hd', hb⟩ := hsplit ition
  have e : defaultPath (dir ++ name) symbol (cond ++ '/' :: (d ++ b)) =
      (dir ++ (name ++ ".pp.".toList ++ symbol ++ ".".toList ++ cond) ++ '/' :: d) ++ b := by
    simp [defaultPath]
  have hdir : IsDir (dir ++ (name ++ ".pp.".toList ++ symbol ++ ".".toList ++ cond) ++ '/' :: d) := by
    right
    rcases hd' with rfl | ⟨d', rfl⟩
    · exact ⟨_, rfl⟩
    · exact ⟨dir ++ (name ++ ".pp.".toList ++ symbol ++ ".".toList ++ cond) ++ '/' :: d', by simp⟩
  rw [e, (outputFile_eq _ b hdir hb).1]
  exact ⟨_, by rw [List.append_assoc, List.cons_append]⟩

example : outputFile (defaultPath "run/t.xyz".toList "gr".toList (filterTag "x/y > 1".toList)) =
    "run/t.xyz.pp.gr.x/y>1".toList := by decide +kernel

theorem pyStrip_eq_self (p : Char) (s : Str) (h1 : s.head? ≠ some p) (h2 : s.getLast? ≠ some p) : pyStrip p s = s := by
  have hd : ∀ l : Str, l.head? ≠ some p → l.dropWhile (· == p) = l := by
    intro l h
    cases l with
    | nil => rfl
    | cons a l =>
      rw [List.dropWhile_cons_of_neg]
      simp only [List.head?_cons, ne_eq, Option.some.injEq] at h
      simpa using h
  unfold pyStrip
  rw [hd s h1, hd _ (by rw [List.head?_reverse]; exact h2), List.reverse_reverse]

theorem squeeze_eq_self (p : Char) (s : Str) (h : ¬ [p, p] <:+: s) : squeeze p s = s := by
  fun_induction squeeze p s with
  | case1 => rfl
  | case2 => rfl
  | case3 c d s hcd ih =>
    obtain ⟨rfl, rfl⟩ := hcd
    exact absurd ⟨[], s, rfl⟩ h
  | case4 c d s hcd ih => rw [ih (fun h' => h (h'.trans ⟨[c], [], by simp⟩))]

theorem cleanPass_eq_self (p : Char) (s : Str) (h : ¬ [p, p] <:+: s) (h1 : s.head? ≠ some p)
    (h2 : s.getLast? ≠ some p) : cleanPass p s = s := by
  unfold cleanPass
  rw [pyReplace_double, squeeze_eq_self p s h, pyStrip_eq_self p s h1 h2]

/-- **C66**: names that are already clean are kept: if the interpolated name neither starts nor ends with a
punctuation mark and has no doubled ones, the output file is the interpolated path itself. -/
theorem C66_kept_partial (dir base : Str) (hd : IsDir dir) (hb : '/' ∉ base)
    (h : ∀ p ∈ ['.', '_', '-'], ¬ [p, p] <:+: base ∧ base.head? ≠ some p ∧ base.getLast? ≠ some p) :
    outputFile (dir ++ base) = dir ++ base := by
  rw [(outputFile_eq dir base hd hb).1]
  obtain ⟨a1, a2, a3⟩ := h '.' (by simp)
  obtain ⟨b1, b2, b3⟩ := h '_' (by simp)
  obtain ⟨c1, c2, c3⟩ := h '-' (by simp)
  rw [cleanPass_eq_self '.' base a1 a2 a3, cleanPass_eq_self '_' base b1 b2 b3, cleanPass_eq_self '-' base c1 c2 c3]

example : outputFile "d.x/t.xyz.pp.gr.A-B".toList = "d.x/t.xyz.pp.gr.A-B".toList := by decide +kernel

/-! ### C86 -/

/-- **C86** is false: two different conditions may have the same tag, hence the same output file. -/
theorem C86_counterexample :
    filterTag "x > 1 or y > 1".toList = filterTag "x > 1+y > 1".toList ∧
    filterTag "coord == 12".toList = filterTag "coord1 == 2".toList := by decide +kernel

/-- **C86**: as a consequence the output files are the same, for every trajectory and correlation function: the second
calculation overwrites the first or, with `update`, reads its results. -/
theorem C86_counterexample_file (trajectory symbol : Str) :
    outputFile (defaultPath trajectory symbol (filterTag "x > 1 or y > 1".toList)) =
    outputFile (defaultPath trajectory symbol (filterTag "x > 1+y > 1".toList)) := by
  rw [C86_counterexample.1]

end PP.Props
