import Verif.Props.Files
import Verif.Model.Object

/-!
# C179: files of the weighted functions
-/

namespace PP.Props
open PP

theorem squeeze_double (p : Char) (X Y : Str) (hX : ¬ [p, p] <:+: X) (hX' : X.getLast? ≠ some p) (hY : ¬ [p, p] <:+: Y) :
    squeeze p (X ++ p :: p :: Y) = X ++ p :: Y := by
  induction X with
  | nil => rw [List.nil_append, squeeze, if_pos ⟨rfl, rfl⟩, squeeze_eq_self p Y hY, List.nil_append]
  | cons x X ih =>
    cases X with
    | nil =>
      have hx : x ≠ p := fun h => hX' (by rw [h]; rfl)
      have := ih (by intro h; have := h.length_le; simp at this) (by simp)
      rw [List.nil_append] at this
      rw [List.cons_append, List.nil_append, squeeze, if_neg (fun h => hx h.1), this]
      rfl
    | cons y X =>
      have h1 : ¬ (x = p ∧ y = p) := by
        rintro ⟨rfl, rfl⟩
        exact hX ⟨[], X, rfl⟩
      have := ih (fun h => hX (h.trans (List.suffix_cons x _).isInfix)) (by rwa [List.getLast?_cons_cons] at hX')
      rw [List.cons_append, List.cons_append, squeeze, if_neg h1]
      rw [List.cons_append] at this
      rw [this]
      rfl

theorem pass_double (p : Char) (X Y : Str) (h0 : X ≠ []) (hX : ¬ [p, p] <:+: X) (hX' : X.getLast? ≠ some p)
    (hX0 : X.head? ≠ some p) (hY : ¬ [p, p] <:+: Y) (hY0 : Y ≠ []) (hY' : Y.getLast? ≠ some p) :
    cleanPass p (X ++ p :: p :: Y) = X ++ p :: Y := by
  unfold cleanPass
  rw [pyReplace_double, squeeze_double p X Y hX hX' hY]
  refine pyStrip_eq_self p _ ?_ ?_
  · rwa [List.head?_append_of_ne_nil _ h0]
  · rwa [List.getLast?_append_of_ne_nil _ (by simp), List.getLast?_cons_of_ne_nil hY0]

theorem pass_trailing (p : Char) (Z : Str) (h0 : Z ≠ []) (hZ : ¬ [p, p] <:+: Z) (hZ' : Z.getLast? ≠ some p)
    (hZ0 : Z.head? ≠ some p) : cleanPass p (Z ++ [p]) = Z := by
  unfold cleanPass
  rw [pyReplace_double, squeeze_eq_self p _ ?_]
  · have h := pyStrip_eq_self p Z hZ0 hZ'
    unfold pyStrip at h ⊢
    obtain ⟨z, Z, rfl⟩ := List.exists_cons_of_ne_nil h0
    have hz : (z == p) = false := by simpa using hZ0
    rw [List.cons_append, List.dropWhile_cons_of_neg (by simp [hz])]
    rw [List.dropWhile_cons_of_neg (by simp [hz])] at h
    rw [← List.cons_append, List.reverse_append, List.reverse_singleton, List.singleton_append,
      List.dropWhile_cons_of_pos (by simp)]
    exact h
  · intro h
    rcases pair_infix_append h with h | h | h | h
    · exact hZ h
    · exact hZ' h
    · simp at h
    · have := h.length_le; simp at this

/-- The name of the file of a function with tag `tag ++ '.' ++ field ++ '_'` or `tag ++ '.' ++ field ++ '_' ++ more`. -/
theorem weighted_file {dir name symbol tag field : Str} (hd : IsDir dir) (hn : CleanName name) (hs : CleanName symbol)
    (ht : tag = [] ∨ CleanName tag) (hf : CleanName field) (more : Str) (hm : more = [] ∨ CleanName more) :
    outputFile (defaultPath (dir ++ name) symbol (tag ++ ".".toList ++ field ++ "_".toList ++ more)) =
      dir ++ (name ++ ".pp.".toList ++ symbol ++ (if tag = [] then [] else '.' :: tag) ++ '.' :: field ++
        (if more = [] then [] else '_' :: more)) := by
  have hns : CleanName (name ++ ".pp.".toList ++ symbol) := by
    have h := clean_join (clean_join hn clean_pp '.' (by decide)) hs '.' (by decide)
    have e : name ++ '.' :: "pp".toList ++ '.' :: symbol = name ++ ".pp.".toList ++ symbol := by simp
    rwa [e] at h
  -- the name without the trailing underscore
  obtain ⟨F, hF, eF⟩ : ∃ F, CleanName F ∧ F = field ++ (if more = [] then [] else '_' :: more) := by
    refine ⟨_, ?_, rfl⟩
    rcases hm with rfl | hm
    · simpa using hf
    · rw [if_neg hm.1]
      exact clean_join hf hm '_' (by decide)
  obtain ⟨B, hB, eB⟩ : ∃ B, CleanName B ∧
      B = name ++ ".pp.".toList ++ symbol ++ (if tag = [] then [] else '.' :: tag) ++ '.' :: F := by
    refine ⟨_, ?_, rfl⟩
    refine clean_join ?_ hF '.' (by decide)
    rcases ht with rfl | ht
    · simpa using hns
    · rw [if_neg ht.1]
      exact clean_join hns ht '.' (by decide)
  have hgoal : dir ++ (name ++ ".pp.".toList ++ symbol ++ (if tag = [] then [] else '.' :: tag) ++ '.' :: field ++
        (if more = [] then [] else '_' :: more)) = dir ++ B := by
    rw [eB, eF]
    simp
  rw [hgoal]
  -- what is to be cleaned, after the dots
  have hT : cleanPass '.' (name ++ ".pp.".toList ++ symbol ++ ".".toList ++ (tag ++ ".".toList ++ field ++ "_".toList ++ more))
      = B ++ (if more = [] then ['_'] else []) := by
    have hFm : field ++ "_".toList ++ more = F ++ (if more = [] then ['_'] else []) := by
      rw [eF]
      by_cases h : more = []
      · simp [h]
      · simp [h]
    have hF0 := hF.2.2 '.' (by simp)
    have hF1 : ¬ ['.', '.'] <:+: F ++ (if more = [] then ['_'] else []) := by
      split
      · intro h
        rcases pair_infix_append h with h | h | h | h
        · exact hF0.1 h
        · exact hF0.2.2 h
        · simp at h
        · have := h.length_le; simp at this
      · simpa using hF0.1
    have hF2 : (F ++ (if more = [] then ['_'] else [])).getLast? ≠ some '.' := by
      split
      · simp
      · simpa using hF0.2.2
    rcases ht with rfl | ht
    · have h := hns.2.2 '.' (by simp)
      have := pass_double '.' (name ++ ".pp.".toList ++ symbol) (F ++ (if more = [] then ['_'] else [])) hns.1 h.1 h.2.2
        h.2.1 hF1 (by simp [hF.1]) hF2
      rw [← hFm] at this
      have e : name ++ ".pp.".toList ++ symbol ++ ".".toList ++ ([] ++ ".".toList ++ field ++ "_".toList ++ more) =
          name ++ ".pp.".toList ++ symbol ++ '.' :: '.' :: (field ++ "_".toList ++ more) := by simp
      rw [e, this, eB, hFm]
      simp
    · have e : name ++ ".pp.".toList ++ symbol ++ ".".toList ++ (tag ++ ".".toList ++ field ++ "_".toList ++ more) =
          B ++ (if more = [] then ['_'] else []) := by
        have : tag ++ ".".toList ++ field ++ "_".toList ++ more = tag ++ ".".toList ++ (field ++ "_".toList ++ more) := by
          simp
        rw [this, hFm, eB, if_neg ht.1]
        simp
      rw [e]
      have hB0 := hB.2.2 '.' (by simp)
      split
      · refine cleanPass_eq_self _ _ ?_ ?_ (by simp)
        · intro h
          rcases pair_infix_append h with h | h | h | h
          · exact hB0.1 h
          · exact hB0.2.2 h
          · simp at h
          · have := h.length_le; simp at this
        · rw [List.head?_append_of_ne_nil _ hB.1]
          exact hB0.2.1
      · rw [List.append_nil]
        exact cleanPass_eq_self _ _ hB0.1 hB0.2.1 hB0.2.2
  have hsl : '/' ∉ name ++ ".pp.".toList ++ symbol ++ ".".toList ++ (tag ++ ".".toList ++ field ++ "_".toList ++ more) := by
    have h1 : '/' ∉ ".pp.".toList := by decide
    have h2 : '/' ∉ ".".toList := by decide
    have h3 : '/' ∉ "_".toList := by decide
    have h4 : '/' ∉ tag := by
      rcases ht with rfl | ht
      · simp
      · exact ht.2.1
    have h5 : '/' ∉ more := by
      rcases hm with rfl | hm
      · simp
      · exact hm.2.1
    simp only [List.mem_append, not_or]
    exact ⟨⟨⟨⟨hn.2.1, h1⟩, hs.2.1⟩, h2⟩, ⟨⟨⟨h4, h2⟩, hf.2.1⟩, h3⟩, h5⟩
  have e : defaultPath (dir ++ name) symbol (tag ++ ".".toList ++ field ++ "_".toList ++ more) =
      dir ++ (name ++ ".pp.".toList ++ symbol ++ ".".toList ++ (tag ++ ".".toList ++ field ++ "_".toList ++ more)) := by
    unfold defaultPath
    simp
  rw [e, (outputFile_eq dir _ hd hsl).1, hT]
  congr 1
  have hu := hB.2.2 '_' (by simp)
  have hm' := hB.2.2 '-' (by simp)
  have : cleanPass '_' (B ++ (if more = [] then ['_'] else [])) = B := by
    split
    · exact pass_trailing '_' B hB.1 hu.1 hu.2.2 hu.2.1
    · rw [List.append_nil]
      exact cleanPass_eq_self _ _ hu.1 hu.2.1 hu.2.2
  rw [this]
  exact cleanPass_eq_self _ _ hm'.1 hm'.2.1 hm'.2.2

variable {F W : Type}

/-- The tag after weights have been accepted. -/
theorem weight_tag (o : CorrAttr F W) (trajectory : Option (List ℕ)) (field : Str) (fluct : Bool)
    (h : (addWeight o trajectory (some field) fluct).2 = .ok ()) :
    (addWeight o trajectory (some field) fluct).1.tag =
      o.tag ++ ".".toList ++ field ++ "_".toList ++ (if fluct then "fluctuations".toList else []) := by
  unfold addWeight at h ⊢
  rw [if_neg (by simp)] at h ⊢
  simp only at h ⊢
  cases trajectory with
  | none =>
    simp only [weightSource, ne_eq, not_true_eq_false, if_false, weightTags]
    rfl
  | some steps =>
    simp only [weightSource] at h ⊢
    by_cases h' : steps = o.trajectory.steps
    · subst h'
      simp only [ne_eq, not_true_eq_false, if_false, weightTags]
    · simp only [ne_eq, Option.some.injEq, h', not_false_eq_true, if_true] at h
      cases h

/-- The file of a function whose tag is empty or clean. -/
theorem plain_file {dir name symbol tag : Str} (hd : IsDir dir) (hn : CleanName name) (hs : CleanName symbol)
    (ht : tag = [] ∨ CleanName tag) :
    outputFile (defaultPath (dir ++ name) symbol tag) =
      dir ++ (name ++ ".pp.".toList ++ symbol ++ (if tag = [] then [] else '.' :: tag)) := by
  rcases ht with rfl | ht
  · have hns : CleanName (name ++ ".pp.".toList ++ symbol) := by
      have h := clean_join (clean_join hn clean_pp '.' (by decide)) hs '.' (by decide)
      have e : name ++ '.' :: "pp".toList ++ '.' :: symbol = name ++ ".pp.".toList ++ symbol := by simp
      rwa [e] at h
    have e : defaultPath (dir ++ name) symbol [] = dir ++ (name ++ ".pp.".toList ++ symbol ++ ['.']) := by
      unfold defaultPath
      simp
    have hd' := hns.2.2 '.' (by simp)
    have hu := hns.2.2 '_' (by simp)
    have hm := hns.2.2 '-' (by simp)
    have hsl : '/' ∉ name ++ ".pp.".toList ++ symbol ++ ['.'] := by
      rw [List.mem_append, not_or]
      exact ⟨hns.2.1, by decide⟩
    rw [e, (outputFile_eq dir _ hd hsl).1, pass_trailing '.' _ hns.1 hd'.1 hd'.2.2 hd'.2.1,
      cleanPass_eq_self '_' _ hu.1 hu.2.1 hu.2.2, cleanPass_eq_self '-' _ hm.1 hm.2.1 hm.2.2]
    simp
  · have h := outputFile_clean hd (clean_base hn hs ht)
    have e : defaultPath (dir ++ name) symbol tag = dir ++ (name ++ ".pp.".toList ++ symbol ++ ".".toList ++ tag) := by
      unfold defaultPath
      simp
    rw [e, h, if_neg ht.1]
    simp

/-- The name of the property in the name of the file. -/
def weightWord (field : Str) (fluct : Bool) : Str := if fluct then field ++ "_fluctuations".toList else field

/-- **C179, what holds**: the name of the file of a weighted function is that of the function without weights, followed
by the name of the property and, in case, by `fluctuations`. -/
theorem C179_file_partial {dir name symbol : Str} (hd : IsDir dir) (hn : CleanName name) (hs : CleanName symbol)
    (o : CorrAttr F W) (ht : o.tag = [] ∨ CleanName o.tag) (trajectory : Option (List ℕ)) {field : Str}
    (hf : CleanName field) (fluct : Bool) (h : (addWeight o trajectory (some field) fluct).2 = .ok ()) :
    outputFile (defaultPath (dir ++ name) symbol (addWeight o trajectory (some field) fluct).1.tag) =
      outputFile (defaultPath (dir ++ name) symbol o.tag) ++ ".".toList ++ weightWord field fluct := by
  rw [weight_tag o trajectory field fluct h, plain_file hd hn hs ht]
  cases fluct with
  | false =>
    rw [if_neg (by simp), weighted_file hd hn hs ht hf [] (Or.inl rfl), if_pos rfl]
    simp [weightWord]
  | true =>
    rw [if_pos rfl, weighted_file hd hn hs ht hf _ (Or.inr (by decide +kernel)),
      if_neg (show ¬ "fluctuations".toList = [] by decide)]
    simp [weightWord]

/-- **C179, what holds**: functions weighted by different properties, whether or not fluctuations are used for both,
are written to different files, and not to the one of the function without weights. -/
theorem C179_distinct_partial {dir name symbol : Str} (hd : IsDir dir) (hn : CleanName name) (hs : CleanName symbol)
    (o : CorrAttr F W) (ht : o.tag = [] ∨ CleanName o.tag) (trajectory trajectory' : Option (List ℕ)) {field field' : Str}
    (hf : CleanName field) (hf' : CleanName field') (fluct : Bool)
    (h : (addWeight o trajectory (some field) fluct).2 = .ok ())
    (h' : (addWeight o trajectory' (some field') fluct).2 = .ok ()) (hne : field ≠ field') :
    outputFile (defaultPath (dir ++ name) symbol (addWeight o trajectory (some field) fluct).1.tag) ≠
      outputFile (defaultPath (dir ++ name) symbol (addWeight o trajectory' (some field') fluct).1.tag) ∧
    outputFile (defaultPath (dir ++ name) symbol (addWeight o trajectory (some field) fluct).1.tag) ≠
      outputFile (defaultPath (dir ++ name) symbol o.tag) := by
  rw [C179_file_partial hd hn hs o ht trajectory hf fluct h, C179_file_partial hd hn hs o ht trajectory' hf' fluct h']
  constructor
  · intro e
    have e := List.append_cancel_left e
    cases fluct with
    | false => exact hne e
    | true => exact hne (List.append_cancel_right e)
  · intro e
    have := congrArg List.length e
    simp at this

/-- **C179, what holds**: weights and their fluctuations are written to different files. -/
theorem C179_fluctuations_partial {dir name symbol : Str} (hd : IsDir dir) (hn : CleanName name) (hs : CleanName symbol)
    (o : CorrAttr F W) (ht : o.tag = [] ∨ CleanName o.tag) (trajectory trajectory' : Option (List ℕ)) {field : Str}
    (hf : CleanName field) (h : (addWeight o trajectory (some field) false).2 = .ok ())
    (h' : (addWeight o trajectory' (some field) true).2 = .ok ()) :
    outputFile (defaultPath (dir ++ name) symbol (addWeight o trajectory (some field) false).1.tag) ≠
      outputFile (defaultPath (dir ++ name) symbol (addWeight o trajectory' (some field) true).1.tag) := by
  rw [C179_file_partial hd hn hs o ht trajectory hf false h, C179_file_partial hd hn hs o ht trajectory' hf true h']
  intro e
  have e := List.append_cancel_left e
  have := congrArg List.length e
  simp [weightWord] at this

/-- **C179** is false: the file does not depend on the trajectory from which the weights are taken. -/
theorem C179_counterexample_trajectory (o : CorrAttr F W) (trajectory trajectory' : Option (List ℕ)) (field : Str)
    (fluct : Bool) (h : (addWeight o trajectory (some field) fluct).2 = .ok ())
    (h' : (addWeight o trajectory' (some field) fluct).2 = .ok ()) (path symbol : Str) :
    outputFile (defaultPath path symbol (addWeight o trajectory (some field) fluct).1.tag) =
      outputFile (defaultPath path symbol (addWeight o trajectory' (some field) fluct).1.tag) := by
  rw [weight_tag o trajectory field fluct h, weight_tag o trajectory' field fluct h']

/-- **C179** is false: the fluctuations of a property and the property whose name ends with `_fluctuations`. -/
theorem C179_counterexample_name {dir name symbol : Str} (hd : IsDir dir) (hn : CleanName name) (hs : CleanName symbol)
    (o : CorrAttr F W) (ht : o.tag = [] ∨ CleanName o.tag) (trajectory trajectory' : Option (List ℕ)) {field : Str}
    (hf : CleanName field) (h : (addWeight o trajectory (some field) true).2 = .ok ())
    (h' : (addWeight o trajectory' (some (field ++ "_fluctuations".toList)) false).2 = .ok ()) :
    outputFile (defaultPath (dir ++ name) symbol (addWeight o trajectory (some field) true).1.tag) =
      outputFile (defaultPath (dir ++ name) symbol
        (addWeight o trajectory' (some (field ++ "_fluctuations".toList)) false).1.tag) := by
  have hf' : CleanName (field ++ "_fluctuations".toList) := by
    have := clean_join hf (show CleanName "fluctuations".toList by decide +kernel) '_' (by decide)
    have e : field ++ '_' :: "fluctuations".toList = field ++ "_fluctuations".toList := by simp
    rwa [e] at this
  rw [C179_file_partial hd hn hs o ht trajectory hf true h, C179_file_partial hd hn hs o ht trajectory' hf' false h']
  rfl

/-- An object of the trajectory `t.xyz` with three frames, and weights from it or from another trajectory. -/
example : let o := CorrAttr.init Unit Unit 2 ⟨[0, 10, 20], []⟩
    CleanName "t.xyz".toList ∧ CleanName "sk".toList ∧ CleanName "radius".toList ∧ CleanName "c_rho".toList ∧
    (addWeight o none (some "radius".toList) true).2 = .ok () ∧
    (addWeight o (some [0, 10, 20]) (some "radius".toList) true).2 = .ok () ∧
    (addWeight o (some [0, 10]) (some "radius".toList) true).2 = .error .valueError ∧
    outputFile (defaultPath "t.xyz".toList "sk".toList (addWeight o none (some "radius".toList) true).1.tag)
      = "t.xyz.pp.sk.radius_fluctuations".toList ∧
    outputFile (defaultPath "t.xyz".toList "sk".toList (addWeight o none (some "c_rho".toList) false).1.tag)
      = "t.xyz.pp.sk.c_rho".toList := by
  refine ⟨?_, ?_, ?_, ?_, ?_, ?_, ?_, ?_, ?_⟩ <;> decide +kernel

end PP.Props
