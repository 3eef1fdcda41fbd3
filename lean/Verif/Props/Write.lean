import Verif.Model.Write
import Verif.Props.Names
import Mathlib.Data.List.TakeWhile

/-!
# C113–C115: text and names of the output files
-/

set_option linter.unusedSectionVars false

namespace PP.Spec

/-- What `numpy.loadtxt` reads: the lines, without what follows a `#`, that are not blank. -/
def dataLines (text : Str) : List Str :=
  ((text.splitOn '\n').map fun l => l.takeWhile fun c => decide (c ≠ '#')).filter
    fun l => l.any fun c => decide (c ≠ ' ')

end PP.Spec

namespace PP.Props
open PP

/-- A line of data: no newline, no comment character, not blank. -/
def IsRow (r : Str) : Prop := '\n' ∉ r ∧ '#' ∉ r ∧ ∃ c ∈ r, c ≠ ' '

/-- Comments as the user should write them: complete lines, each starting with `#`. -/
def IsComments (c : Str) : Prop := ∃ l : List Str, (∀ x ∈ l, '\n' ∉ x) ∧ c = l.flatMap fun x => '#' :: x ++ ['\n']

/-- The names, the file and the results are on one line. -/
def OneLine (o : Described) : Prop :=
  '\n' ∉ o.longName ∧ '\n' ∉ o.shortName ∧ '\n' ∉ o.tagDescription ∧ '\n' ∉ o.date ∧ '\n' ∉ o.version ∧
  (∀ p, o.parents = some p → '\n' ∉ p) ∧ ∀ e ∈ o.analysis, '\n' ∉ e.1 ∧ ∀ f, e.2 = some f → '\n' ∉ f

theorem dataLines_append (a b : Str) : Spec.dataLines (a ++ '\n' :: b) = Spec.dataLines a ++ Spec.dataLines b := by
  unfold Spec.dataLines
  rw [List.splitOn_append_cons_self, List.map_append, List.filter_append]

theorem dataLines_nil : Spec.dataLines [] = [] := by decide

theorem dataLines_comment (a : Str) (h : '\n' ∉ a) : Spec.dataLines ('#' :: a) = [] := by
  unfold Spec.dataLines
  rw [List.splitOn_eq_singleton (by simp [h])]
  simp

theorem dataLines_row (r : Str) (h : IsRow r) : Spec.dataLines r = [r] := by
  unfold Spec.dataLines
  rw [List.splitOn_eq_singleton h.1]
  have h1 : (r.takeWhile fun c => decide (c ≠ '#')) = r := by
    rw [List.takeWhile_eq_self_iff]
    intro c hc
    simp only [decide_eq_true_eq]
    rintro rfl
    exact h.2.1 hc
  obtain ⟨c, hc, hne⟩ := h.2.2
  simp only [List.map_cons, List.map_nil, h1]
  rw [List.filter_eq_self.2]
  intro l hl
  rw [List.mem_singleton] at hl
  subst hl
  rw [List.any_eq_true]
  exact ⟨c, hc, by simpa using hne⟩

theorem dataLines_rows (rows : List Str) (h : ∀ r ∈ rows, IsRow r) :
    Spec.dataLines (rows.flatMap fun r => r ++ ['\n']) = rows := by
  induction rows with
  | nil => exact dataLines_nil
  | cons r rows ih =>
    rw [List.flatMap_cons, List.append_assoc, List.singleton_append, dataLines_append,
      dataLines_row r (h r (by simp)), ih fun r hr => h r (by simp [hr])]
    rfl

theorem dataLines_meta (key value rest : Str) (hk : '\n' ∉ key) (hv : '\n' ∉ value) :
    Spec.dataLines (metaLine key value ++ rest) = Spec.dataLines rest := by
  have : metaLine key value ++ rest = ('#' :: (' ' :: (key ++ ": ".toList ++ value))) ++ '\n' :: rest := by
    simp [metaLine]
  rw [this, dataLines_append, dataLines_comment, List.nil_append]
  have h2 : '\n' ∉ ": ".toList := by decide
  simp only [List.mem_cons, List.mem_append, not_or]
  exact ⟨by decide, ⟨hk, h2⟩, hv⟩

theorem dataLines_comments (c rest : Str) (h : IsComments c) : Spec.dataLines (c ++ rest) = Spec.dataLines rest := by
  obtain ⟨l, hl, rfl⟩ := h
  induction l with
  | nil => rfl
  | cons x l ih =>
    have : ((x :: l).flatMap fun x => '#' :: x ++ ['\n']) ++ rest
        = ('#' :: x) ++ '\n' :: ((l.flatMap fun x => '#' :: x ++ ['\n']) ++ rest) := by simp
    rw [this, dataLines_append, dataLines_comment x (hl x (by simp)), ih fun y hy => hl y (by simp [hy])]
    rfl

theorem analysisText_comments (a : List (Str × Option Str))
    (h : ∀ e ∈ a, '\n' ∉ e.1 ∧ ∀ f, e.2 = some f → '\n' ∉ f) : IsComments (analysisText a) := by
  induction a with
  | nil => exact ⟨[], by simp, rfl⟩
  | cons e a ih =>
    obtain ⟨l, hl, he⟩ := ih fun e he => h e (by simp [he])
    obtain ⟨k, v⟩ := e
    have hh := h (k, v) (by simp)
    cases v with
    | none => exact ⟨l, hl, by rw [← he]; rfl⟩
    | some f =>
      refine ⟨(' ' :: (k ++ ": ".toList ++ f)) :: l, ?_, ?_⟩
      · intro x hx
        rcases List.mem_cons.1 hx with rfl | hx
        · have h2 : '\n' ∉ ": ".toList := by decide
          simp only [List.mem_cons, List.mem_append, not_or]
          exact ⟨by decide, ⟨hh.1, h2⟩, hh.2 f rfl⟩
        · exact hl x hx
      · rw [List.flatMap_cons, ← he]
        simp [analysisText]

theorem not_mem_intercalate (c : Char) (sep : Str) (l : List Str) (hs : c ∉ sep) (hl : ∀ x ∈ l, c ∉ x) :
    c ∉ List.intercalate sep l := by
  induction l with
  | nil => simp [List.intercalate]
  | cons a l ih =>
    cases l with
    | nil => simpa [List.intercalate] using hl a (by simp)
    | cons b l =>
      rw [List.intercalate_cons_cons]
      simp only [List.mem_append, not_or]
      exact ⟨⟨hl a (by simp), hs⟩, ih fun x hx => hl x (by simp [hx])⟩

theorem headerColumns_chars {s : Str} {cols : List Str} (h : headerColumns s = .ok cols) :
    ∀ x ∈ cols, ∀ c ∈ x, c ∈ s := by
  unfold headerColumns gridName at h
  have hsub : ∀ (c : Char) (s : Str), ∀ x ∈ pySplit c s, ∀ d ∈ x, d ∈ s := by
    intro c s x hx d hd
    have := List.intercalate_splitOn (xs := s) c
    unfold pySplit at hx
    rw [← this]
    generalize s.splitOn c = l at hx
    induction l with
    | nil => simp at hx
    | cons a l ih =>
      cases l with
      | nil =>
        rw [List.mem_singleton] at hx
        subst hx
        simpa [List.intercalate] using hd
      | cons b l =>
        rw [List.intercalate_cons_cons]
        rcases List.mem_cons.1 hx with rfl | hx
        · simp [hd]
        · simp only [List.mem_append]
          exact Or.inr (ih hx)
  cases hp : pyGet (pySplit '(' s) 1 with
  | error e => rw [hp] at h; cases h
  | ok p =>
    rw [hp] at h
    obtain rfl : pySplit ',' p.dropLast ++ [s] = cols := Except.ok.inj h
    have hps : p ∈ pySplit '(' s := by
      unfold pyGet at hp
      split at hp
      · rename_i q hq
        cases hp
        exact List.mem_of_getElem? hq
      · cases hp
    intro x hx c hc
    rcases List.mem_append.1 hx with hx | hx
    · exact hsub '(' s p hps c (List.mem_of_mem_dropLast (hsub ',' _ x hx c hc))
    · rw [List.mem_singleton] at hx
      subst hx
      exact hc

/-- The text below the header. -/
theorem dataLines_fileText {o : Described} (ho : OneLine o) {rows : List Str} {text : Str}
    (h : fileText o rows = .ok text) :
    Spec.dataLines text
      = Spec.dataLines (o.comments.getD [] ++ analysisText o.analysis ++ rows.flatMap fun r => r ++ ['\n']) := by
  unfold fileText at h
  cases hc : headerColumns o.shortName with
  | error e => rw [hc] at h; cases h
  | ok cols =>
    rw [hc] at h
    obtain rfl := (Except.ok.inj h).symm
    obtain ⟨h1, h2, h3, h4, h5, h6, h7⟩ := ho
    have ht : '\n' ∉ o.title := by
      unfold Described.title
      simp only [List.mem_append, not_or, List.mem_singleton]
      refine ⟨⟨⟨⟨⟨⟨h1, by decide⟩, h2⟩, by decide⟩, ?_⟩, by decide⟩, h3⟩
      split <;> decide
    have hcols : '\n' ∉ List.intercalate ", ".toList cols :=
      not_mem_intercalate _ _ _ (by decide) fun x hx hc' => h2 (headerColumns_chars hc x hx _ hc')
    simp only [dumpHeader, List.append_assoc]
    rw [dataLines_meta _ _ _ (by decide) ht, dataLines_meta _ _ _ (by decide) hcols,
      dataLines_meta _ _ _ (by decide) h4, dataLines_meta _ _ _ (by decide) (by decide),
      dataLines_meta _ _ _ (by decide) h5]
    cases hp : o.parents with
    | none => rfl
    | some p =>
      simp only
      rw [dataLines_meta _ _ _ (by decide) (h6 p hp)]

/-- **C113, what holds.** The data that can be read from a file are exactly the rows written, in the same order, if the
comments set by the user are complete lines starting with `#`, and the names and results are on one line. -/
theorem C113_rows_partial (o : Described) (ho : OneLine o) (hc : ∀ c, o.comments = some c → IsComments c)
    (rows : List Str) (hr : ∀ r ∈ rows, IsRow r) (text : Str) (h : fileText o rows = .ok text) :
    Spec.dataLines text = rows := by
  rw [dataLines_fileText ho h, List.append_assoc]
  have h1 : IsComments (o.comments.getD []) := by
    cases hh : o.comments with
    | none => exact ⟨[], by simp, rfl⟩
    | some c => exact hc c hh
  rw [dataLines_comments _ _ h1, dataLines_comments _ _ (analysisText_comments _ ho.2.2.2.2.2.2),
    dataLines_rows rows hr]

/-- **C113 is false** for the code: comments that do not end with a newline hide the first row of data, if there are no
results of the analysis. -/
theorem C113_counterexample_newline (o : Described) (ho : OneLine o) (c : Str) (hc : o.comments = some ('#' :: c))
    (hn : '\n' ∉ c) (ha : o.analysis = []) (r : Str) (rows : List Str) (hr : ∀ x ∈ r :: rows, IsRow x) (text : Str)
    (h : fileText o (r :: rows) = .ok text) : Spec.dataLines text = rows := by
  rw [dataLines_fileText ho h, hc, ha]
  have : (some ('#' :: c)).getD [] ++ analysisText [] ++ (r :: rows).flatMap (fun r => r ++ ['\n'])
      = ('#' :: (c ++ r)) ++ '\n' :: rows.flatMap fun r => r ++ ['\n'] := by simp [analysisText]
  rw [this, dataLines_append, dataLines_comment, dataLines_rows rows fun x hx => hr x (by simp [hx])]
  · rfl
  · simp only [List.mem_append, not_or]
    exact ⟨hn, (hr r (by simp)).1⟩

/-- **C113 is false** for the code: comments without `#` are read as data. -/
theorem C113_counterexample_hash (o : Described) (ho : OneLine o) (c : Str) (hc : o.comments = some (c ++ ['\n']))
    (hn : IsRow c) (rows : List Str) (hr : ∀ x ∈ rows, IsRow x) (text : Str)
    (h : fileText o rows = .ok text) : Spec.dataLines text = c :: rows := by
  rw [dataLines_fileText ho h, hc]
  simp only [Option.getD_some, List.append_assoc, List.singleton_append]
  rw [List.cons_append, dataLines_append, dataLines_row c hn, dataLines_comments _ _ (analysisText_comments _ ho.2.2.2.2.2.2),
    dataLines_rows rows hr]
  rfl

/-- The mean square displacement of a system with one result of the analysis. -/
def msdDescribed (comments : Option Str) : Described :=
  ⟨"mean square displacement".toList, "dr^2(t)".toList, "the whole system".toList, comments,
    [("tau".toList, some "1.5".toList), ("D".toList, none)], "2026-01-01 00:00:00".toList, "1".toList,
    some "t.xyz".toList⟩

example : OneLine (msdDescribed none) ∧
    (fileText (msdDescribed none) ["0 0".toList, "1 0.5".toList]).map String.ofList = .ok
      ("# title: mean square displacement dr^2(t) of the whole system\n# columns: t, dr^2(t)\n" ++
      "# date: 2026-01-01 00:00:00\n# command: atooms-pp\n# version: 1\n# parents: t.xyz\n# tau: 1.5\n0 0\n1 0.5\n") ∧
    (∀ r ∈ ["0 0".toList, "1 0.5".toList], IsRow r) ∧ IsComments "# note\n".toList := by
  refine ⟨?_, by decide +kernel, ?_, ⟨[" note".toList], by decide +kernel, by decide +kernel⟩⟩
  · refine ⟨by decide +kernel, by decide +kernel, by decide +kernel, by decide +kernel, by decide +kernel, ?_, ?_⟩
    · intro p hp
      have hp' : "t.xyz".toList = p := Option.some.inj hp
      rw [← hp']
      decide +kernel
    · intro e he
      have he' : e ∈ [("tau".toList, some "1.5".toList), ("D".toList, none)] := he
      rw [List.mem_cons, List.mem_singleton] at he'
      rcases he' with rfl | rfl
      · refine ⟨by decide +kernel, fun f hf => ?_⟩
        have hf' : "1.5".toList = f := Option.some.inj hf
        rw [← hf']
        decide +kernel
      · exact ⟨by decide +kernel, fun f hf => by cases hf⟩
  · intro r hr
    simp only [List.mem_cons, List.not_mem_nil, or_false] at hr
    rcases hr with rfl | rfl
    · exact ⟨by decide +kernel, by decide +kernel, '0', by decide +kernel, by decide⟩
    · exact ⟨by decide +kernel, by decide +kernel, '1', by decide +kernel, by decide⟩

/-! ### C114 -/

/-- **C114.** For a short name of the form `name(v1,...,vn)` the names of the variables are those between parentheses,
and the header names one column for each of them and one for the function. -/
theorem C114_columns (name : Str) (vars : List Str) (hn : '(' ∉ name) (hv : vars ≠ [])
    (hc : ∀ v ∈ vars, ',' ∉ v ∧ '(' ∉ v) :
    gridName (name ++ ['('] ++ List.intercalate [','] vars ++ [')']) = .ok vars ∧
    headerColumns (name ++ ['('] ++ List.intercalate [','] vars ++ [')'])
      = .ok (vars ++ [name ++ ['('] ++ List.intercalate [','] vars ++ [')']]) := by
  have h0 : '(' ∉ List.intercalate [','] vars ++ [')'] := by
    simp only [List.mem_append, not_or]
    exact ⟨not_mem_intercalate _ _ _ (by decide) fun x hx => (hc x hx).2, by decide⟩
  have h1 : pySplit '(' (name ++ ['('] ++ List.intercalate [','] vars ++ [')'])
      = [name, List.intercalate [','] vars ++ [')']] := by
    unfold pySplit
    rw [List.append_assoc, List.append_assoc, List.singleton_append, List.splitOn_append_cons_self,
      List.splitOn_eq_singleton hn, List.splitOn_eq_singleton h0]
    rfl
  have h2 : pySplit ',' (List.intercalate [','] vars) = vars := by
    unfold pySplit
    exact List.splitOn_intercalate ',' (fun v hv => (hc v hv).1) hv
  have h3 : gridName (name ++ ['('] ++ List.intercalate [','] vars ++ [')']) = .ok vars := by
    unfold gridName
    rw [h1]
    show Except.ok (pySplit ',' (List.intercalate [','] vars ++ [')']).dropLast) = _
    rw [List.dropLast_concat, h2]
  refine ⟨h3, ?_⟩
  unfold headerColumns
  rw [h3]
  rfl

/-- **C114**, the other names: without an opening parenthesis, as in the base class and in `Susceptibility`, `write` raises
`IndexError` whatever the data. -/
theorem C114_no_parenthesis (o : Described) (h : '(' ∉ o.shortName) (rows : List Str) :
    fileText o rows = .error .indexError := by
  unfold fileText headerColumns gridName pySplit
  rw [List.splitOn_eq_singleton h]
  rfl

example :
    "F_s(k,t)".toList = "F_s".toList ++ ['('] ++ List.intercalate [','] [['k'], ['t']] ++ [')'] ∧
    headerColumns "F_s(k,t)".toList = .ok ["k".toList, "t".toList, "F_s(k,t)".toList] := by
  refine ⟨by decide +kernel, by decide +kernel⟩

end PP.Props
