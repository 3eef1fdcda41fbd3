import Verif.Model.Help
import Mathlib.Data.List.Infix
import Mathlib.Tactic.Linarith

/-!
# C195: help messages of the command line
-/

namespace PP.Spec
open PP

/-- The text without its blanks. -/
def ink (s : Str) : Str := s.filter fun c => c ∉ [' ', '\t', '\n', '\r', '\x0b', '\x0c']

/-- Text that starts like the item of a list: with a blank, a digit, a dash or a dot. -/
def ItemLike (s : Str) : Prop :=
  ∃ c t, s = c :: t ∧ (c ∈ [' ', '\t', '\n', '\r', '\x0b', '\x0c'] ∨ c.isDigit = true ∨ c = '-' ∨ c = '.')

end PP.Spec

namespace PP.Props
open PP

/-- The operator `in` for strings. -/
theorem pyIn_iff (p s : Str) : pyIn p s = true ↔ p <:+: s := by
  induction s with
  | nil => simp [pyIn]
  | cons a s ih =>
    rw [pyIn, Bool.or_eq_true, ih, List.isPrefixOf_iff_prefix, List.infix_cons_iff]

/-- **C195**: the default value is in the help text of an argument if and only if it is there already, or it is an option or
an optional argument and its default is not suppressed. -/
theorem C195_default (a : HelpAction) : "%(default)".toList <:+: getHelpString a ↔
    "%(default)".toList <:+: a.help ∨
      a.suppressed = false ∧ (a.isOption = true ∨ a.nargs = .optional ∨ a.nargs = .zeroOrMore) := by
  have hin : "%(default)".toList <:+: a.help ++ " [default: %(default)s]".toList := by
    refine List.IsInfix.trans ?_ (List.suffix_append _ _).isInfix
    exact ⟨" [default: ".toList, "s]".toList, by decide⟩
  unfold getHelpString
  generalize "%(default)".toList = p at hin ⊢
  generalize " [default: %(default)s]".toList = q at hin ⊢
  by_cases h : p <:+: a.help
  · have := (pyIn_iff _ _).2 h
    simp [this, h]
  · have h' : pyIn p a.help = false := by
      rw [← Bool.not_eq_true, pyIn_iff]; exact h
    cases hs : a.suppressed with
    | true => simp [h', h]
    | false =>
      simp only [h', Bool.not_false, if_true]
      by_cases ho : (a.isOption || decide (a.nargs ∈ [Nargs.optional, Nargs.zeroOrMore])) = true
      · rw [if_pos ho]
        refine ⟨fun _ => Or.inr ⟨trivial, by simpa using ho⟩, fun _ => hin⟩
      · rw [if_neg ho]
        refine ⟨Or.inl, fun r => ?_⟩
        rcases r with r | ⟨-, r⟩
        · exact r
        · exact absurd (by simpa using r) ho

/-- **C195**: the text of the help message is kept. -/
theorem C195_help_text (a : HelpAction) : a.help <+: getHelpString a := by
  unfold getHelpString
  split_ifs <;> simp

theorem ink_addWhitespace (i n : ℕ) (x : Str) : Spec.ink (addWhitespace i n x) = Spec.ink x := by
  unfold addWhitespace Spec.ink
  split_ifs
  · rfl
  · rw [List.filter_append, List.filter_replicate_of_neg (by decide), List.nil_append]

theorem mapIdx_flatMap_ink (n : ℕ) (l : List Str) :
    (l.mapIdx fun i x => addWhitespace i n x).flatMap Spec.ink = l.flatMap Spec.ink := by
  rw [List.flatMap_def, List.flatMap_def]
  congr 1
  refine List.ext_getElem (by simp) fun i h1 h2 => ?_
  simp [ink_addWhitespace]

/-- **C195**: no text is lost: if the wrapping of lines changes blanks only, the lines of the help message have the same
text as the original rows, in the same order. -/
theorem C195_text (wrap : Str → ℕ → List Str) (rows : List Str) (width : ℕ)
    (hw : ∀ l, (wrap l width).flatMap Spec.ink = Spec.ink l) :
    (splitLines wrap rows width).flatMap Spec.ink = rows.flatMap Spec.ink := by
  unfold splitLines
  rw [List.flatMap_assoc]
  congr 1
  funext line
  split_ifs with h
  · have h1 : Spec.ink [' '] = [] := by decide
    have h2 : Spec.ink line = [] := by
      unfold Spec.ink
      rw [List.filter_eq_nil_iff]
      intro c hc
      have := List.all_eq_true.1 h c hc
      unfold isBlank at this
      simp only [decide_eq_true_eq] at this ⊢
      exact fun q => q this
    rw [List.flatMap_cons, h1, h2]; rfl
  · rw [mapIdx_flatMap_ink, hw]

theorem markEnd_zero {line : Str} (h : ¬ Spec.ItemLike line) : markEnd line = 0 := by
  cases line with
  | nil => rfl
  | cons c t =>
    have h1 : isBlank c = false := by
      rw [← Bool.not_eq_true]
      exact fun q => h ⟨c, t, rfl, Or.inl (by simpa [isBlank] using q)⟩
    have h2 : isMark c = false := by
      rw [← Bool.not_eq_true]
      intro q
      unfold isMark at q
      rw [Bool.or_eq_true, beq_iff_eq] at q
      exact h ⟨c, t, rfl, q.elim (fun q => .inr (.inl q)) fun q => .inr (.inr (.inl q))⟩
    have h3 : c ≠ '.' := fun q => h ⟨c, t, rfl, .inr (.inr (.inr q))⟩
    unfold markEnd
    simp only [List.dropWhile_cons, h1, h2, Bool.false_eq_true, if_false]
    split
    · rename_i q; cases q; exact absurd rfl h3
    · simp [List.dropWhile_cons, h1]

/-- **C195, partial**: the lines of the help message fit in the width if no row starts like the item of a list. -/
theorem C195_width_partial (wrap : Str → ℕ → List Str) (rows : List Str) (width : ℕ) (hpos : 0 < width)
    (hw : ∀ l, ∀ x ∈ wrap l width, x.length ≤ width) (hrows : ∀ l ∈ rows, ¬ Spec.ItemLike l) :
    ∀ x ∈ splitLines wrap rows width, x.length ≤ width := by
  intro x hx
  unfold splitLines at hx
  obtain ⟨line, hl, hx⟩ := List.mem_flatMap.1 hx
  split_ifs at hx with h
  · rw [List.mem_singleton] at hx
    subst hx
    exact hpos
  · obtain ⟨i, hi, rfl⟩ := List.mem_mapIdx.1 hx
    rw [markEnd_zero (hrows line hl)]
    have := hw line _ (List.getElem_mem hi)
    unfold addWhitespace
    split_ifs <;> simpa using this

/-- **C195 is false** for the items of lists: their continuation lines are wrapped to the full width before the blanks are
added, so that each of them exceeds the width as soon as its length and the blanks together do. -/
theorem C195_counterexample_items (wrap : Str → ℕ → List Str) (rows : List Str) (width : ℕ) (line : Str) (hl : line ∈ rows)
    (hb : ∃ c ∈ line, c ∉ [' ', '\t', '\n', '\r', '\x0b', '\x0c']) (i : ℕ) (hi : i + 1 < (wrap line width).length)
    (hlong : width < markEnd line + (wrap line width)[i + 1].length) :
    ∃ x ∈ splitLines wrap rows width, width < x.length := by
  refine ⟨List.replicate (markEnd line) ' ' ++ (wrap line width)[i + 1], ?_, by simpa using hlong⟩
  unfold splitLines
  refine List.mem_flatMap.2 ⟨line, hl, ?_⟩
  rw [if_neg]
  · refine List.mem_mapIdx.2 ⟨i + 1, hi, ?_⟩
    simp [addWhitespace]
  · intro q
    obtain ⟨c, hc, hb⟩ := hb
    have := List.all_eq_true.1 q c hc
    unfold isBlank at this
    exact hb (by simpa using this)

/-- An item of a list wrapped at eight characters: the second line has nine. -/
example : splitLines (fun _ _ => ["- number".toList, "of bins".toList]) ["- number of bins".toList] 8 =
    ["- number".toList, "  of bins".toList] := by decide
example : splitLines (fun _ _ => ["number".toList, "of bins".toList]) ["number of bins".toList, " ".toList] 8 =
    ["number".toList, "of bins".toList, " ".toList] := by decide
/-- Breaking each row after five characters meets the hypothesis of `C195_text`. -/
example (rows : List Str) :
    (splitLines (fun l _ => [l.take 5, l.drop 5]) rows 5).flatMap Spec.ink = rows.flatMap Spec.ink :=
  C195_text _ _ _ fun l => by
    simp only [List.flatMap_cons, List.flatMap_nil, List.append_nil, Spec.ink]
    rw [← List.filter_append, List.take_append_drop]
example : getHelpString ⟨"output path".toList, false, true, .unset⟩ = "output path [default: %(default)s]".toList := by decide

end PP.Props
