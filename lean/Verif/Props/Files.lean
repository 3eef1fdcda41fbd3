import Verif.Model.Write
import Verif.Props.FilterTag

/-!
# C115, C116: which files are written
-/

set_option linter.unusedSectionVars false

namespace PP.Props
open PP

/-- A name that is not empty, has no slash, neither starts nor ends with a punctuation mark and has no doubled ones. -/
def CleanName (s : Str) : Prop :=
  s ≠ [] ∧ '/' ∉ s ∧ ∀ p ∈ ['.', '_', '-'], ¬ [p, p] <:+: s ∧ s.head? ≠ some p ∧ s.getLast? ≠ some p

instance (s : Str) : Decidable (CleanName s) := by unfold CleanName; infer_instance

theorem pair_infix_cons {q x : Char} {s : Str} (h : [q, q] <:+: x :: s) : (x = q ∧ s.head? = some q) ∨ [q, q] <:+: s := by
  rcases List.infix_cons_iff.1 h with h | h
  · obtain ⟨t, ht⟩ := h
    simp only [List.cons_append, List.nil_append, List.cons.injEq] at ht
    exact Or.inl ⟨ht.1.symm, by rw [← ht.2]; rfl⟩
  · exact Or.inr h

theorem pair_infix_append {q p : Char} {a b : Str} (h : [q, q] <:+: a ++ p :: b) :
    [q, q] <:+: a ∨ a.getLast? = some q ∨ b.head? = some q ∨ [q, q] <:+: b := by
  induction a with
  | nil =>
    rcases pair_infix_cons h with h | h
    · exact Or.inr (Or.inr (Or.inl h.2))
    · exact Or.inr (Or.inr (Or.inr h))
  | cons x a ih =>
    rcases pair_infix_cons h with ⟨rfl, h⟩ | h
    · cases a with
      | nil => exact Or.inr (Or.inl rfl)
      | cons y a =>
        obtain rfl : y = x := Option.some.inj h
        exact Or.inl ⟨[], a, rfl⟩
    · rcases ih h with h | h | h
      · exact Or.inl (h.trans (List.suffix_cons x a).isInfix)
      · refine Or.inr (Or.inl ?_)
        rw [List.getLast?_cons, h]
        rfl
      · exact Or.inr (Or.inr h)

theorem clean_join {a b : Str} (ha : CleanName a) (hb : CleanName b) (c : Char) (hc : c ≠ '/') : CleanName (a ++ c :: b) := by
  obtain ⟨a0, a1, a2⟩ := ha
  obtain ⟨b0, b1, b2⟩ := hb
  refine ⟨by simp, by simp [a1, b1, Ne.symm hc], fun p hp => ?_⟩
  obtain ⟨a3, a4, a5⟩ := a2 p hp
  obtain ⟨b3, b4, b5⟩ := b2 p hp
  refine ⟨fun h => ?_, ?_, ?_⟩
  · rcases pair_infix_append h with h | h | h | h
    · exact a3 h
    · exact a5 h
    · exact b4 h
    · exact b3 h
  · rw [List.head?_append_of_ne_nil _ a0]
    exact a4
  · rw [List.getLast?_append_of_ne_nil _ (by simp), List.getLast?_cons_of_ne_nil b0]
    exact b5

theorem clean_pp : CleanName "pp".toList := by decide +kernel

theorem clean_base {name symbol tag : Str} (hn : CleanName name) (hs : CleanName symbol) (ht : CleanName tag) :
    CleanName (name ++ ".pp.".toList ++ symbol ++ ".".toList ++ tag) := by
  have h := clean_join (clean_join (clean_join hn clean_pp '.' (by decide)) hs '.' (by decide)) ht '.' (by decide)
  have e : name ++ '.' :: "pp".toList ++ '.' :: symbol ++ '.' :: tag
      = name ++ ".pp.".toList ++ symbol ++ ".".toList ++ tag := by simp
  rwa [e] at h

theorem outputFile_clean {dir base : Str} (hd : IsDir dir) (h : CleanName base) : outputFile (dir ++ base) = dir ++ base :=
  C66_kept_partial dir base hd h.2.1 h.2.2

theorem outputFileOf_default (o : Named) : outputFileOf ppOutputPath o = outputFile (defaultPath o.filename o.symbol o.tag) := by
  unfold outputFileOf ppOutputPath defaultPath
  simp [PathPiece.value]

/-- With clean names the default path is the name of the file. -/
theorem default_kept (o : Named) {dir name : Str} (hd : IsDir dir) (hf : o.filename = dir ++ name) (hn : CleanName name)
    (hs : CleanName o.symbol) (ht : CleanName o.tag) :
    outputFileOf ppOutputPath o = o.filename ++ ".pp.".toList ++ o.symbol ++ ".".toList ++ o.tag := by
  rw [outputFileOf_default, defaultPath, hf]
  simp only [List.append_assoc]
  have := outputFile_clean hd (clean_base hn hs ht)
  simpa only [List.append_assoc] using this

/-! ### C115 -/

/-- **C115 is false** for the code: the path set on a dynamic susceptibility is ignored for two of the three files that
it writes, whatever the path: they go next to the trajectory. -/
theorem C115_counterexample_path (o : Chi4Files) (h1 : o.pathAverage = ppOutputPath) (h2 : o.pathVariance = ppOutputPath)
    (path : List PathPiece) :
    (o.setPath path).files.drop 1 = [outputFile (defaultPath o.filename "qsu".toList o.tag),
      outputFile (defaultPath o.filename "q2su".toList o.tag)] := by
  simp only [Chi4Files.files, Chi4Files.setPath, List.drop_succ_cons, List.drop_zero, h1, h2, outputFileOf_default]

/-- The same for a new object: before a path is set the three files are next to the trajectory; setting one moves the
first file only. -/
theorem C115_counterexample_new (filename : Str) (path : List PathPiece) :
    (Chi4Files.init filename).files = [outputFile (defaultPath filename "chi4qs".toList []),
      outputFile (defaultPath filename "qsu".toList []), outputFile (defaultPath filename "q2su".toList [])] ∧
    ((Chi4Files.init filename).setPath path).files.drop 1 = (Chi4Files.init filename).files.drop 1 := by
  refine ⟨?_, ?_⟩
  · simp only [Chi4Files.files, Chi4Files.init, outputFileOf_default]
  · rw [C115_counterexample_path _ rfl rfl]
    simp only [Chi4Files.files, Chi4Files.init, outputFileOf_default, List.drop_succ_cons, List.drop_zero]

/-- **C115**, what holds: the first file is at the path set, and with the default path and clean names the three files
are different. -/
theorem C115_files_partial (o : Chi4Files) :
    (∀ path, (o.setPath path).files.head? = some (outputFileOf path ⟨"chi4qs".toList, "chi_4(t)".toList,
      "dynamic susceptibility of self overlap".toList, o.tag, o.tagDescription, o.filename⟩)) ∧
    ∀ dir name, IsDir dir → CleanName name → CleanName o.tag → o.filename = dir ++ name → o.path = ppOutputPath →
      o.pathAverage = ppOutputPath → o.pathVariance = ppOutputPath → o.files.Nodup ∧
      ∀ f ∈ o.files, ∃ s, f = o.filename ++ ".pp.".toList ++ s ++ ".".toList ++ o.tag := by
  refine ⟨fun path => rfl, fun dir name hd hn ht hf h1 h2 h3 => ?_⟩
  have e : o.files = [o.filename ++ ".pp.".toList ++ "chi4qs".toList ++ ".".toList ++ o.tag,
      o.filename ++ ".pp.".toList ++ "qsu".toList ++ ".".toList ++ o.tag,
      o.filename ++ ".pp.".toList ++ "q2su".toList ++ ".".toList ++ o.tag] := by
    unfold Chi4Files.files
    have s1 : CleanName "chi4qs".toList := by decide +kernel
    have s2 : CleanName "qsu".toList := by decide +kernel
    have s3 : CleanName "q2su".toList := by decide +kernel
    rw [h1, h2, h3, default_kept _ hd hf hn s1 ht, default_kept _ hd hf hn s2 ht, default_kept _ hd hf hn s3 ht]
  rw [e]
  refine ⟨?_, ?_⟩
  · simp only [List.nodup_cons, List.mem_cons, List.not_mem_nil, or_false, not_or, List.append_left_inj,
      List.append_right_inj, not_false_eq_true, List.nodup_nil, and_true]
    decide +kernel
  · intro f hf'
    simp only [List.mem_cons, List.not_mem_nil, or_false] at hf'
    rcases hf' with rfl | rfl | rfl <;> exact ⟨_, rfl⟩

/-- The path `out/chi4` is set: the other two files are next to the trajectory. -/
example : (((Chi4Files.init "run/t.xyz".toList).setPath [.lit "out/chi4".toList]).files).map String.ofList
    = ["out/chi4", "run/t.xyz.pp.qsu", "run/t.xyz.pp.q2su"] := by decide +kernel

example : CleanName "t.xyz".toList ∧ CleanName "A".toList ∧ IsDir "run/".toList ∧
    (({ Chi4Files.init "run/t.xyz".toList with tag := "A".toList }).files).map String.ofList
      = ["run/t.xyz.pp.chi4qs.A", "run/t.xyz.pp.qsu.A", "run/t.xyz.pp.q2su.A"] := by
  refine ⟨by decide +kernel, by decide +kernel, Or.inr ⟨"run".toList, by decide +kernel⟩, by decide +kernel⟩

/-! ### C116 -/

/-- **C116, what holds** for functions of one species: with the default path each partial function has its own file,
`<trajectory>.pp.<symbol>.<species>`, if the names are clean. -/
theorem C116_one_body_partial (o : Named) (species : List Str) (dir name : Str) (hd : IsDir dir)
    (hf : o.filename = dir ++ name) (hn : CleanName name) (hs : CleanName o.symbol) (hc : ∀ a ∈ species, CleanName a)
    (hu : species.Nodup) :
    (partialNamed1 o species).map (outputFileOf ppOutputPath)
      = species.map (fun a => o.filename ++ ".pp.".toList ++ o.symbol ++ ".".toList ++ a) ∧
    ((partialNamed1 o species).map (outputFileOf ppOutputPath)).Nodup := by
  have h1 : (partialNamed1 o species).map (outputFileOf ppOutputPath)
      = species.map (fun a => o.filename ++ ".pp.".toList ++ o.symbol ++ ".".toList ++ a) := by
    unfold partialNamed1
    rw [List.map_map]
    refine List.map_congr_left fun a ha => ?_
    rw [Function.comp_apply,
      default_kept { o with tag := a, tagDescription := "species ".toList ++ a } hd hf hn hs (hc a ha)]
  refine ⟨h1, ?_⟩
  rw [h1]
  generalize o.filename ++ ".pp.".toList ++ o.symbol ++ ".".toList = P
  refine hu.map ?_
  intro a b hab
  exact List.append_cancel_left hab

theorem pair_inj {a b a' b' : Str} (ha : '-' ∉ a) (ha' : '-' ∉ a') (h : a ++ ['-'] ++ b = a' ++ ['-'] ++ b') :
    a = a' ∧ b = b' := by
  induction a generalizing a' with
  | nil =>
    cases a' with
    | nil => simpa using h
    | cons x a' =>
      simp only [List.nil_append, List.cons_append, List.cons.injEq] at h
      exact absurd (by simp [← h.1]) ha'
  | cons x a ih =>
    cases a' with
    | nil =>
      simp only [List.nil_append, List.cons_append, List.cons.injEq] at h
      exact absurd (by simp [h.1]) ha
    | cons y a' =>
      simp only [List.cons_append, List.cons.injEq] at h
      obtain ⟨rfl, h⟩ := h
      obtain ⟨rfl, rfl⟩ := ih (fun hh => ha (by simp [hh])) (fun hh => ha' (by simp [hh])) h
      exact ⟨rfl, rfl⟩

/-- **C116, what holds** for functions of two species: as above, if moreover no species has a hyphen in its name. -/
theorem C116_two_body_partial (o : Named) (species : List Str) (dir name : Str) (hd : IsDir dir)
    (hf : o.filename = dir ++ name) (hn : CleanName name) (hs : CleanName o.symbol)
    (hc : ∀ a ∈ species, CleanName a ∧ '-' ∉ a) (hu : species.Nodup) :
    (partialNamed2 o species).map (outputFileOf ppOutputPath)
      = species.flatMap (fun a => species.map fun b =>
          o.filename ++ ".pp.".toList ++ o.symbol ++ ".".toList ++ (a ++ ['-'] ++ b)) ∧
    ((partialNamed2 o species).map (outputFileOf ppOutputPath)).Nodup := by
  have h1 : (partialNamed2 o species).map (outputFileOf ppOutputPath)
      = species.flatMap (fun a => species.map fun b =>
          o.filename ++ ".pp.".toList ++ o.symbol ++ ".".toList ++ (a ++ ['-'] ++ b)) := by
    unfold partialNamed2
    rw [List.map_flatMap]
    refine List.flatMap_congr fun a ha => ?_
    rw [List.map_map]
    refine List.map_congr_left fun b hb => ?_
    have ht : CleanName (a ++ ['-'] ++ b) := by
      have := clean_join (hc a ha).1 (hc b hb).1 '-' (by decide)
      simpa using this
    rw [Function.comp_apply, default_kept { o with
      tag := a ++ ['-'] ++ b, tagDescription := "species pair ".toList ++ a ++ ['-'] ++ b } hd hf hn hs ht]
  refine ⟨h1, ?_⟩
  rw [h1]
  generalize o.filename ++ ".pp.".toList ++ o.symbol ++ ".".toList = P
  rw [List.nodup_flatMap]
  refine ⟨fun a ha => hu.map fun b b' hb => ?_, hu.imp_of_mem fun {a b} ha hb hab => ?_⟩
  · exact List.append_cancel_left (List.append_cancel_left hb)
  · rw [Function.onFun, List.disjoint_left]
    intro x hx hx'
    obtain ⟨c, -, rfl⟩ := List.mem_map.1 hx
    obtain ⟨d, -, hd'⟩ := List.mem_map.1 hx'
    exact hab (pair_inj (hc a ha).2 (hc b hb).2 (List.append_cancel_left hd').symm).1

/-- **C116 is false** for the code: with a path that contains neither the tag nor its description, all the partial
functions have the same file, and the last one remains. -/
theorem C116_counterexample_template (o : Named) (path : List PathPiece) (h1 : .tag ∉ path) (h2 : .tagDescription ∉ path)
    (species : List Str) :
    (∀ p ∈ partialNamed1 o species, outputFileOf path p = outputFileOf path o) ∧
    ∀ p ∈ partialNamed2 o species, outputFileOf path p = outputFileOf path o := by
  have key : ∀ t d, outputFileOf path { o with tag := t, tagDescription := d } = outputFileOf path o := by
    intro t d
    unfold outputFileOf
    congr 1
    refine List.flatMap_congr fun q hq => ?_
    cases q <;> first | rfl | exact absurd hq h1 | exact absurd hq h2
  refine ⟨fun p hp => ?_, fun p hp => ?_⟩
  · obtain ⟨a, -, rfl⟩ := List.mem_map.1 hp
    exact key _ _
  · obtain ⟨a, -, hp⟩ := List.mem_flatMap.1 hp
    obtain ⟨b, -, rfl⟩ := List.mem_map.1 hp
    exact key _ _

/-- **C116 is false** for the code: the pairs `a-b`, `c` and `a`, `b-c` of one system have the same names, hence the same
file whatever the path. -/
theorem C116_counterexample_pair (o : Named) (path : List PathPiece) (a b c : Str) :
    ∃ f, (partialNamed2 o [a ++ ['-'] ++ b, c, a, b ++ ['-'] ++ c]).map (·.tag) = [
        (a ++ ['-'] ++ b) ++ ['-'] ++ (a ++ ['-'] ++ b), (a ++ ['-'] ++ b) ++ ['-'] ++ c,
        (a ++ ['-'] ++ b) ++ ['-'] ++ a, (a ++ ['-'] ++ b) ++ ['-'] ++ (b ++ ['-'] ++ c),
        c ++ ['-'] ++ (a ++ ['-'] ++ b), c ++ ['-'] ++ c, c ++ ['-'] ++ a, c ++ ['-'] ++ (b ++ ['-'] ++ c),
        a ++ ['-'] ++ (a ++ ['-'] ++ b), a ++ ['-'] ++ c, a ++ ['-'] ++ a, a ++ ['-'] ++ (b ++ ['-'] ++ c),
        (b ++ ['-'] ++ c) ++ ['-'] ++ (a ++ ['-'] ++ b), (b ++ ['-'] ++ c) ++ ['-'] ++ c,
        (b ++ ['-'] ++ c) ++ ['-'] ++ a, (b ++ ['-'] ++ c) ++ ['-'] ++ (b ++ ['-'] ++ c)] ∧
      ((partialNamed2 o [a ++ ['-'] ++ b, c, a, b ++ ['-'] ++ c]).map (outputFileOf path))[1]? = some f ∧
      ((partialNamed2 o [a ++ ['-'] ++ b, c, a, b ++ ['-'] ++ c]).map (outputFileOf path))[11]? = some f := by
  refine ⟨_, rfl, rfl, ?_⟩
  simp [partialNamed2]

theorem pyStrip_last (p : Char) (s : Str) (h0 : s ≠ []) (h1 : s.head? ≠ some p) (h2 : s.getLast? ≠ some p) :
    pyStrip p (s ++ [p]) = s := by
  have h3 : (s ++ [p]).dropWhile (· == p) = s ++ [p] := by
    cases s with
    | nil => exact absurd rfl h0
    | cons a s =>
      rw [List.cons_append, List.dropWhile_cons_of_neg]
      intro h
      exact h1 (by simp at h; simp [h])
  have h4 : pyStrip p s = s := pyStrip_eq_self p s h1 h2
  have h5 : s.dropWhile (· == p) = s := by
    cases s with
    | nil => rfl
    | cons a s =>
      rw [List.dropWhile_cons_of_neg]
      intro h
      exact h1 (by simp at h; simp [h])
  unfold pyStrip at h4 ⊢
  rw [h5] at h4
  rw [h3, List.reverse_append, List.reverse_singleton, List.singleton_append, List.dropWhile_cons_of_pos (by simp), h4]

/-- **C116 is false** for the code: a species such as `Cl-` has the same file as `Cl`: the marks at the end of the name
are removed. -/
theorem C116_counterexample_ion (o : Named) (a : Str) (dir name : Str) (hd : IsDir dir) (hf : o.filename = dir ++ name)
    (hn : CleanName name) (hs : CleanName o.symbol) (ha : CleanName a) :
    ∃ f, (partialNamed1 o [a, a ++ ['-']]).map (outputFileOf ppOutputPath) = [f, f] := by
  refine ⟨o.filename ++ ".pp.".toList ++ o.symbol ++ ".".toList ++ a, ?_⟩
  have h1 := default_kept { o with tag := a, tagDescription := "species ".toList ++ a } hd hf hn hs ha
  have h2 : outputFileOf ppOutputPath { o with tag := a ++ ['-'], tagDescription := "species ".toList ++ (a ++ ['-']) }
      = o.filename ++ ".pp.".toList ++ o.symbol ++ ".".toList ++ a := by
    rw [outputFileOf_default, defaultPath, hf]
    have hb := clean_base hn hs ha
    generalize hB : name ++ ".pp.".toList ++ o.symbol ++ ".".toList ++ a = base at hb
    have e1 : dir ++ name ++ ".pp.".toList ++ o.symbol ++ ".".toList ++ (a ++ ['-']) = dir ++ (base ++ ['-']) := by
      rw [← hB]; simp
    have e2 : dir ++ name ++ ".pp.".toList ++ o.symbol ++ ".".toList ++ a = dir ++ base := by
      rw [← hB]; simp
    have hsl : '/' ∉ base ++ ['-'] := by simp [hb.2.1]
    simp only [e1, e2]
    rw [(outputFile_eq dir _ hd hsl).1]
    obtain ⟨b0, b1, b2⟩ := hb
    have hpair : ∀ p ∈ ['.', '_', '-'], ¬ [p, p] <:+: base ++ ['-'] := by
      intro p hp h
      obtain ⟨c1, c2, c3⟩ := b2 p hp
      rcases pair_infix_append h with h | h | h | h
      · exact c1 h
      · exact c3 h
      · simp at h
      · have := h.length_le
        simp at this
    have hkeep : ∀ p ∈ ['.', '_', '-'], p ≠ '-' → cleanPass p (base ++ ['-']) = base ++ ['-'] := by
      intro p hp hne
      refine cleanPass_eq_self p _ (hpair p hp) ?_ ?_
      · rw [List.head?_append_of_ne_nil _ b0]
        exact (b2 p hp).2.1
      · simp [Ne.symm hne]
    rw [hkeep '.' (by simp) (by decide), hkeep '_' (by simp) (by decide)]
    unfold cleanPass
    rw [pyReplace_double, squeeze_eq_self _ _ (hpair '-' (by simp)),
      pyStrip_last '-' base b0 (b2 '-' (by simp)).2.1 (b2 '-' (by simp)).2.2]
  simp only [partialNamed1, List.map_cons, List.map_nil]
  rw [h1, h2]

/-- The radial distribution function of a trajectory. -/
def grNamed : Named :=
  ⟨"gr".toList, "g(r)".toList, "radial distribution function".toList, [], "the whole system".toList, "run/t.xyz".toList⟩

example : CleanName grNamed.symbol ∧ grNamed.filename = "run/".toList ++ "t.xyz".toList ∧
    (∀ a ∈ ["Si".toList, "O".toList], CleanName a ∧ '-' ∉ a) ∧ ["Si".toList, "O".toList].Nodup ∧
    ((partialNamed2 grNamed ["Si".toList, "O".toList]).map (outputFileOf ppOutputPath)).map String.ofList
      = ["run/t.xyz.pp.gr.Si-Si", "run/t.xyz.pp.gr.Si-O", "run/t.xyz.pp.gr.O-Si", "run/t.xyz.pp.gr.O-O"] ∧
    ((partialNamed2 grNamed ["Si".toList, "O".toList]).map
      (outputFileOf [.lit "out/".toList, .symbol])).map String.ofList = ["out/gr", "out/gr", "out/gr", "out/gr"] ∧
    ((partialNamed1 grNamed ["Cl".toList, "Cl-".toList]).map (outputFileOf ppOutputPath)).map String.ofList
      = ["run/t.xyz.pp.gr.Cl", "run/t.xyz.pp.gr.Cl"] := by
  decide +kernel

end PP.Props
