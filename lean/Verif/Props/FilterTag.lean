import Verif.Model.Text
import Verif.Props.Names
import Mathlib.Data.List.Infix

/-!
# C86: conditions for which the tags of the filters are distinct
-/

namespace PP.Props
open PP

theorem pyReplaceAux_none (old new : Str) : ∀ (n : ℕ) (s : Str), s.length ≤ n → old ≠ [] → ¬ old <:+: s →
    pyReplaceAux old new n s = s := by
  intro n
  induction n with
  | zero => intro s _ _ _; rfl
  | succ n ih =>
    intro s hs ho hi
    match s with
    | [] => rfl
    | c :: s =>
      have hp : ¬ old.isPrefixOf (c :: s) := fun h => hi (List.isPrefixOf_iff_prefix.1 h).isInfix
      simp only [pyReplaceAux]
      rw [if_neg hp, ih s (by simpa using hs) ho fun h => hi (h.trans (List.suffix_cons c s).isInfix)]

theorem pyReplaceAux_remove (c : Char) : ∀ (n : ℕ) (s : Str), s.length ≤ n →
    pyReplaceAux [c] [] n s = s.filter fun x => decide (x ≠ c) := by
  intro n
  induction n with
  | zero => intro s hs; rw [List.length_eq_zero_iff.1 (Nat.le_zero.1 hs)]; rfl
  | succ n ih =>
    intro s hs
    match s with
    | [] => rfl
    | x :: s =>
      simp only [pyReplaceAux]
      have hs' : s.length ≤ n := by simpa using hs
      by_cases hx : x = c
      · subst hx
        rw [if_pos (by simp [List.isPrefixOf])]
        simp only [List.length_singleton, List.drop_succ_cons, List.drop_zero, List.nil_append]
        rw [ih s hs', List.filter_cons_of_neg (by simp)]
      · rw [if_neg (by simpa [List.isPrefixOf] using fun h : c = x => hx h.symm), ih s hs',
          List.filter_cons_of_pos (by simpa using hx)]

theorem pyReplaceAux_mid (c : Char) (old new b : Str) (hb : ¬ (c :: old) <:+: b) : ∀ (a : Str) (n : ℕ),
    (a ++ (c :: old) ++ b).length ≤ n → c ∉ a → pyReplaceAux (c :: old) new n (a ++ (c :: old) ++ b) = a ++ new ++ b := by
  intro a
  induction a with
  | nil =>
    intro n hn _
    match n with
    | 0 => simp at hn
    | n + 1 =>
      simp only [List.nil_append, List.cons_append, pyReplaceAux]
      rw [if_pos (List.isPrefixOf_iff_prefix.2 ⟨b, by simp⟩)]
      have : (c :: (old ++ b)).drop (c :: old).length = b := by
        rw [← List.cons_append]; exact List.drop_left
      rw [this, pyReplaceAux_none _ _ n b (by simp at hn; omega) (by simp) hb]
  | cons x a ih =>
    intro n hn hc
    match n with
    | 0 => simp at hn
    | n + 1 =>
      simp only [List.mem_cons, not_or] at hc
      simp only [List.cons_append, pyReplaceAux]
      rw [if_neg (by simp [List.isPrefixOf, hc.1])]
      have := ih n (by simp at hn ⊢; omega) hc.2
      simp only [List.append_assoc, List.cons_append] at this ⊢
      rw [this]

/-- A pattern cannot lie across a character that it does not contain. -/
theorem infix_split (p a b : Str) (c : Char) (hc : c ∉ p) (h : p <:+: a ++ c :: b) : p <:+: a ∨ p <:+: b := by
  obtain ⟨s, t, e⟩ := h
  rw [List.append_eq_append_iff] at e
  rcases e with ⟨u, h1, h2⟩ | ⟨u, h1, h2⟩
  · exact Or.inl ⟨s, u, h1.symm⟩
  · -- the separator is in `p` or in `t`, after `s ++ p` has passed `a`
    rw [List.append_eq_append_iff] at h1
    match u, h2 with
    | [], h2 =>
      left
      refine ⟨s, [], ?_⟩
      rcases h1 with ⟨v, h3, h4⟩ | ⟨v, h3, h4⟩
      · simp only [List.append_nil] at h4 ⊢; rw [h3, h4]
      · simp only [List.append_nil] at h4 ⊢
        have h5 := congrArg List.length h4
        simp only [List.length_append, List.length_nil] at h5
        have hp : p = [] := List.length_eq_zero_iff.1 (by omega)
        have hv : v = [] := List.length_eq_zero_iff.1 (by omega)
        simp [h3, hp, hv]
    | x :: u, h2 =>
      simp only [List.cons_append, List.cons.injEq] at h2
      obtain ⟨rfl, h2⟩ := h2
      rcases h1 with ⟨v, h3, h4⟩ | ⟨v, h3, h4⟩
      · exact absurd (by rw [h4]; simp) hc
      · right
        match v, h4 with
        | [], h4 =>
          rw [List.nil_append] at h4
          exact absurd (by rw [← h4]; simp) hc
        | y :: v, h4 =>
          simp only [List.cons_append, List.cons.injEq] at h4
          exact ⟨v, t, by rw [h2, h4.2]⟩

theorem infix_split' (p a b : Str) (c : Char) (hc : c ∉ p) (ha : ¬ p <:+: a) (hb : ¬ p <:+: b) : ¬ p <:+: a ++ c :: b :=
  fun h => (infix_split p a b c hc h).elim ha hb

theorem not_infix_of_mem (p s : Str) (c : Char) (hc : c ∈ p) (hs : c ∉ s) : ¬ p <:+: s :=
  fun h => hs (h.subset hc)

/-- Names of fields and values that go unchanged into the tags: no spaces, quotes, commas, signs of comparison, and
neither `and` nor `or` inside. -/
def Plain (s : Str) : Prop :=
  (∀ c ∈ s, c ≠ ' ' ∧ c ≠ '"' ∧ c ≠ '\'' ∧ c ≠ '=' ∧ c ≠ '!' ∧ c ≠ ',') ∧ ¬ "and".toList <:+: s ∧ ¬ "or".toList <:+: s

instance (s : Str) : Decidable (Plain s) := by unfold Plain; infer_instance

theorem filter_ne_self (s : Str) (c : Char) (h : ∀ x ∈ s, x ≠ c) : (s.filter fun x => decide (x ≠ c)) = s := by
  rw [List.filter_eq_self]; simpa using h

/-- The conditions `field op "value"`, with `op` one of `==` and `!=`. -/
theorem filterTag_op (f v : Str) (hf : Plain f) (hv : Plain v) (x : Char) (hx : x = '=' ∨ x = '!') :
    filterTag (f ++ [' ', x, '=', ' ', '"'] ++ v ++ ['"']) = f ++ (if x = '=' then [] else ".not".toList) ++ v := by
  have c1 : ∀ s : Str, pyReplace " ".toList [] s = s.filter fun x => decide (x ≠ ' ') :=
    fun s => pyReplaceAux_remove ' ' _ s le_rfl
  have c2 : ∀ s : Str, pyReplace "\"".toList [] s = s.filter fun x => decide (x ≠ '"') :=
    fun s => pyReplaceAux_remove '"' _ s le_rfl
  have c3 : ∀ s : Str, pyReplace "'".toList [] s = s.filter fun x => decide (x ≠ '\'') :=
    fun s => pyReplaceAux_remove '\'' _ s le_rfl
  have hxs : x ≠ ' ' ∧ x ≠ '"' ∧ x ≠ '\'' := by rcases hx with rfl | rfl <;> decide
  have e1 : pyReplace " ".toList [] (f ++ [' ', x, '=', ' ', '"'] ++ v ++ ['"']) = f ++ x :: '=' :: '"' :: (v ++ ['"']) := by
    rw [c1]
    simp only [List.filter_append]
    rw [filter_ne_self f ' ' fun y hy => (hf.1 y hy).1, filter_ne_self v ' ' fun y hy => (hv.1 y hy).1]
    simp [hxs.1]
  have hsep : ∀ p : Str, p ≠ [] → x ∉ p → '=' ∉ p → '"' ∉ p → ¬ p <:+: f → ¬ p <:+: v →
      ¬ p <:+: f ++ x :: '=' :: '"' :: (v ++ ['"']) := by
    intro p h0 h1 h2 h3 h4 h5
    have hn : ¬ p <:+: [] := fun h => h0 (List.infix_nil.1 h)
    refine infix_split' p _ _ x h1 h4 ?_
    refine infix_split' p [] _ '=' h2 hn ?_
    refine infix_split' p [] _ '"' h3 hn ?_
    exact infix_split' p v [] '"' h3 h5 hn
  have hx' : ∀ p : Str, '=' ∉ p → '!' ∉ p → x ∉ p := by rcases hx with rfl | rfl <;> simp_all
  have e2 : pyReplace "and".toList "_".toList (f ++ x :: '=' :: '"' :: (v ++ ['"'])) =
      f ++ x :: '=' :: '"' :: (v ++ ['"']) :=
    pyReplaceAux_none _ _ _ _ le_rfl (by decide)
      (hsep _ (by decide) (hx' _ (by decide) (by decide)) (by decide) (by decide) hf.2.1 hv.2.1)
  have e3 : pyReplace "or".toList "+".toList (f ++ x :: '=' :: '"' :: (v ++ ['"'])) =
      f ++ x :: '=' :: '"' :: (v ++ ['"']) :=
    pyReplaceAux_none _ _ _ _ le_rfl (by decide)
      (hsep _ (by decide) (hx' _ (by decide) (by decide)) (by decide) (by decide) hf.2.2 hv.2.2)
  have e4 : pyReplace "\"".toList [] (f ++ x :: '=' :: '"' :: (v ++ ['"'])) = f ++ x :: '=' :: v := by
    rw [c2]
    simp only [List.filter_append, List.filter_cons]
    rw [filter_ne_self f '"' fun y hy => (hf.1 y hy).2.1, filter_ne_self v '"' fun y hy => (hv.1 y hy).2.1]
    simp [hxs.2.1]
  have e5 : pyReplace "'".toList [] (f ++ x :: '=' :: v) = f ++ x :: '=' :: v := by
    rw [c3, filter_ne_self]
    intro y hy
    simp only [List.mem_append, List.mem_cons] at hy
    rcases hy with hy | rfl | rfl | hy
    · exact (hf.1 y hy).2.2.1
    · exact hxs.2.2
    · decide
    · exact (hv.1 y hy).2.2.1
  have hfe : '=' ∉ f := fun h => (hf.1 _ h).2.2.2.1 rfl
  have hve : '=' ∉ v := fun h => (hv.1 _ h).2.2.2.1 rfl
  have hfn : '!' ∉ f := fun h => (hf.1 _ h).2.2.2.2.1 rfl
  have hvn : '!' ∉ v := fun h => (hv.1 _ h).2.2.2.2.1 rfl
  have hfc : ',' ∉ f := fun h => (hf.1 _ h).2.2.2.2.2 rfl
  have hvc : ',' ∉ v := fun h => (hv.1 _ h).2.2.2.2.2 rfl
  have hc : ∀ s : Str, ',' ∉ s → pyReplace ",".toList "-".toList s = s := fun s hs =>
    pyReplaceAux_none _ _ _ _ le_rfl (by decide) (not_infix_of_mem _ _ ',' (by decide) hs)
  unfold filterTag
  simp only [e1, e2, e3, e4, e5]
  rcases hx with rfl | rfl
  · have e6 : pyReplace "==".toList [] (f ++ '=' :: '=' :: v) = f ++ v := by
      have := pyReplaceAux_mid '=' ['='] [] v (not_infix_of_mem _ _ '=' (by simp) hve) f _ le_rfl hfe
      simpa [pyReplace] using this
    have e7 : pyReplace "!=".toList ".not".toList (f ++ v) = f ++ v :=
      pyReplaceAux_none _ _ _ _ le_rfl (by decide) (not_infix_of_mem _ _ '!' (by decide) (by simp [hfn, hvn]))
    rw [e6, e7, hc _ (by simp [hfc, hvc])]
    simp
  · have e6 : pyReplace "==".toList [] (f ++ '!' :: '=' :: v) = f ++ '!' :: '=' :: v := by
      refine pyReplaceAux_none _ _ _ _ le_rfl (by decide) ?_
      refine infix_split' _ _ _ '!' (by decide) (not_infix_of_mem _ _ '=' (by decide) hfe) ?_
      rintro ⟨s, t, e⟩
      have := congrArg (List.count '=') e
      rw [List.count_append, List.count_append, List.count_cons, List.count_eq_zero.2 hve] at this
      simp at this
      omega
    have e7 : pyReplace "!=".toList ".not".toList (f ++ '!' :: '=' :: v) = f ++ ".not".toList ++ v := by
      have := pyReplaceAux_mid '!' ['='] ".not".toList v (not_infix_of_mem _ _ '!' (by simp) hvn) f _ le_rfl hfn
      simpa [pyReplace] using this
    rw [e6, e7, hc _ (by simp [hfc, hvc])]
    simp

/-- **C86**, what holds: the tag of `field == "value"` is the field followed by the value. -/
theorem C86_equal_partial (f v : Str) (hf : Plain f) (hv : Plain v) :
    filterTag (f ++ " == \"".toList ++ v ++ "\"".toList) = f ++ v := by
  have := filterTag_op f v hf hv '=' (Or.inl rfl)
  rw [if_pos rfl, List.append_nil] at this
  exact this

/-- **C86**, what holds: the tag of `field != "value"` has `.not` in between. -/
theorem C86_not_equal_partial (f v : Str) (hf : Plain f) (hv : Plain v) :
    filterTag (f ++ " != \"".toList ++ v ++ "\"".toList) = f ++ ".not".toList ++ v := by
  have := filterTag_op f v hf hv '!' (Or.inr rfl)
  rw [if_neg (by decide)] at this
  exact this

/-- **C86**, what holds: conditions on the same field that require it to be equal to, or different from, different
values have different tags, and so do a condition and its negation. -/
theorem C86_distinct_partial (f v w : Str) (hf : Plain f) (hv : Plain v) (hw : Plain w) (hne : v ≠ w) :
    filterTag (f ++ " == \"".toList ++ v ++ "\"".toList) ≠ filterTag (f ++ " == \"".toList ++ w ++ "\"".toList) ∧
    filterTag (f ++ " != \"".toList ++ v ++ "\"".toList) ≠ filterTag (f ++ " != \"".toList ++ w ++ "\"".toList) ∧
    filterTag (f ++ " == \"".toList ++ v ++ "\"".toList) ≠ filterTag (f ++ " != \"".toList ++ v ++ "\"".toList) := by
  rw [C86_equal_partial f v hf hv, C86_equal_partial f w hf hw, C86_not_equal_partial f v hf hv,
    C86_not_equal_partial f w hf hw]
  refine ⟨fun h => hne (List.append_cancel_left h), fun h => hne (List.append_cancel_left h), fun h => ?_⟩
  have := congrArg List.length h
  simp only [List.length_append] at this
  have h4 : ".not".toList.length = 4 := by decide
  omega

example : Plain "species".toList ∧ Plain "A".toList ∧ Plain "B".toList ∧
    filterTag "species == \"A\"".toList = "speciesA".toList ∧
    filterTag "species != \"A\"".toList = "species.notA".toList := by decide +kernel

end PP.Props
