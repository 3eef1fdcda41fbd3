import Verif.Props.Files
import Verif.Props.Write

/-!
# C130, C131: metadata of the output files, blanks in their names
-/

set_option linter.unusedSectionVars false

namespace PP.Spec

/-- One line of metadata, `# key: value`. -/
def metaOf (line : Str) : Option (Str × Str) :=
  match line with
  | '#' :: ' ' :: r => some (r.takeWhile (· ≠ ':'), (r.dropWhile (· ≠ ':')).drop 2)
  | _ => none

/-- The metadata of a file, in order. -/
def metadata (text : Str) : List (Str × Str) := (text.splitOn '\n').filterMap metaOf

end PP.Spec

namespace PP.Props
open PP

theorem metadata_append (a b : Str) : Spec.metadata (a ++ '\n' :: b) = Spec.metadata a ++ Spec.metadata b := by
  unfold Spec.metadata
  rw [List.splitOn_append_cons_self, List.filterMap_append]

theorem metaOf_line (key value : Str) (hk : ':' ∉ key) :
    Spec.metaOf ("# ".toList ++ key ++ ": ".toList ++ value) = some (key, value) := by
  have h : "# ".toList ++ key ++ ": ".toList ++ value = '#' :: ' ' :: (key ++ ':' :: ' ' :: value) := by simp
  rw [h]
  have hp : ∀ x ∈ key, decide (x ≠ ':') = true := by
    intro x hx
    simp only [decide_eq_true_eq]
    rintro rfl
    exact hk hx
  simp only [Spec.metaOf]
  rw [List.takeWhile_append_of_pos hp, List.dropWhile_append_of_pos hp]
  simp

theorem metadata_line (key value rest : Str) (hk : '\n' ∉ key) (hv : '\n' ∉ value) (hc : ':' ∉ key) :
    Spec.metadata (metaLine key value ++ rest) = (key, value) :: Spec.metadata rest := by
  have : metaLine key value ++ rest = ("# ".toList ++ key ++ ": ".toList ++ value) ++ '\n' :: rest := by
    simp [metaLine]
  rw [this, metadata_append]
  have h2 : '\n' ∉ "# ".toList ++ key ++ ": ".toList ++ value := by
    have h3 : '\n' ∉ "# ".toList := by decide
    have h4 : '\n' ∉ ": ".toList := by decide
    simp only [List.mem_append, not_or]
    exact ⟨⟨⟨h3, hk⟩, h4⟩, hv⟩
  have h5 : Spec.metadata ("# ".toList ++ key ++ ": ".toList ++ value) = [(key, value)] := by
    unfold Spec.metadata
    rw [List.splitOn_eq_singleton h2, List.filterMap_cons, metaOf_line key value hc]
    rfl
  rw [h5]
  rfl

theorem metadata_analysis (a : List (Str × Option Str)) (rest : Str)
    (h : ∀ e ∈ a, '\n' ∉ e.1 ∧ ':' ∉ e.1 ∧ ∀ f, e.2 = some f → '\n' ∉ f) :
    Spec.metadata (analysisText a ++ rest) = (a.filterMap fun e => e.2.map fun f => (e.1, f)) ++ Spec.metadata rest := by
  induction a with
  | nil => rfl
  | cons e a ih =>
    obtain ⟨k, v⟩ := e
    have hh := h (k, v) (by simp)
    have ih := ih fun e he => h e (by simp [he])
    cases v with
    | none =>
      rw [List.filterMap_cons]
      simpa [analysisText] using ih
    | some f =>
      have : analysisText ((k, some f) :: a) ++ rest = metaLine k f ++ (analysisText a ++ rest) := by
        simp [analysisText, metaLine]
      rw [this, metadata_line k f _ hh.1 (hh.2.2 f rfl) hh.2.1, ih]
      rfl

theorem metadata_rows (rows : List Str) (h : ∀ r ∈ rows, IsRow r) :
    Spec.metadata (rows.flatMap fun r => r ++ ['\n']) = [] := by
  induction rows with
  | nil => decide
  | cons r rows ih =>
    rw [List.flatMap_cons, List.append_assoc, List.singleton_append, metadata_append, ih fun r hr => h r (by simp [hr]),
      List.append_nil]
    have hr := h r (by simp)
    unfold Spec.metadata
    rw [List.splitOn_eq_singleton hr.1]
    have : Spec.metaOf r = none := by
      match r, hr with
      | [], _ => rfl
      | c :: r, hr =>
        have : c ≠ '#' := by rintro rfl; exact hr.2.1 (by simp)
        unfold Spec.metaOf
        split
        · rename_i heq
          simp only [List.cons.injEq] at heq
          exact absurd heq.1 this
        · rfl
    rw [List.filterMap_cons, this]
    rfl

/-- **C130.** What is read back from a file without user comments: the title, which names the function and what it is of,
the columns, the date, the program and its version, the file of the trajectory if there is one, and the results of the
analysis that are not `None`, in this order and nothing else. -/
theorem C130_metadata (o : Described) (ho : OneLine o) (hk : ∀ e ∈ o.analysis, ':' ∉ e.1) (hc : o.comments = none)
    (name : Str) (vars : List Str) (hn : '(' ∉ name) (hv : vars ≠ []) (hvc : ∀ v ∈ vars, ',' ∉ v ∧ '(' ∉ v)
    (hs : o.shortName = name ++ ['('] ++ List.intercalate [','] vars ++ [')'])
    (rows : List Str) (hr : ∀ r ∈ rows, IsRow r) :
    ∃ text, fileText o rows = .ok text ∧
      Spec.metadata text =
        [("title".toList, o.longName ++ [' '] ++ o.shortName ++
            (if o.tagDescription = [] then "  ".toList else " of ".toList ++ o.tagDescription)),
          ("columns".toList, List.intercalate ", ".toList (vars ++ [o.shortName])),
          ("date".toList, o.date), ("command".toList, "atooms-pp".toList), ("version".toList, o.version)] ++
        (o.parents.map fun p => ("parents".toList, p)).toList ++
        o.analysis.filterMap fun e => e.2.map fun f => (e.1, f) := by
  have hcol := (C114_columns name vars hn hv hvc).2
  rw [← hs] at hcol
  obtain ⟨h1, h2, h3, h4, h5, h6, h7⟩ := ho
  have htitle : o.title = o.longName ++ [' '] ++ o.shortName ++
      (if o.tagDescription = [] then "  ".toList else " of ".toList ++ o.tagDescription) := by
    unfold Described.title
    cases o.tagDescription with
    | nil => simp
    | cons c r => simp
  have ht : '\n' ∉ o.title := by
    unfold Described.title
    simp only [List.mem_append, not_or, List.mem_singleton]
    refine ⟨⟨⟨⟨⟨⟨h1, by decide⟩, h2⟩, by decide⟩, ?_⟩, by decide⟩, h3⟩
    split <;> decide
  have hcols : '\n' ∉ List.intercalate ", ".toList (vars ++ [o.shortName]) :=
    not_mem_intercalate _ _ _ (by decide) fun x hx hc' => h2 (headerColumns_chars hcol x hx _ hc')
  refine ⟨_, by unfold fileText; rw [hcol]; rfl, ?_⟩
  rw [hc]
  simp only [dumpHeader, List.append_assoc, Option.getD_none, List.nil_append]
  rw [metadata_line _ _ _ (by decide) ht (by decide), metadata_line _ _ _ (by decide) hcols (by decide),
    metadata_line _ _ _ (by decide) h4 (by decide), metadata_line _ _ _ (by decide) (by decide) (by decide),
    metadata_line _ _ _ (by decide) h5 (by decide), htitle]
  have hrest : Spec.metadata (analysisText o.analysis ++ rows.flatMap fun r => r ++ ['\n']) =
      o.analysis.filterMap fun e => e.2.map fun f => (e.1, f) := by
    rw [metadata_analysis _ _ fun e he => ⟨(h7 e he).1, hk e he, (h7 e he).2⟩, metadata_rows rows hr, List.append_nil]
  cases hp : o.parents with
  | none =>
    simp only [List.nil_append, hrest, Option.map_none, Option.toList_none, List.cons_append, List.append_assoc]
  | some p =>
    rw [metadata_line _ _ _ (by decide) (h6 p hp) (by decide), hrest]
    simp only [Option.map_some, Option.toList_some, List.cons_append, List.nil_append, List.append_assoc]

example : ∃ text, fileText (msdDescribed none) ["0 0".toList, "1 0.5".toList] = .ok text ∧
    (Spec.metadata text).map (fun e => (String.ofList e.1, String.ofList e.2)) =
      [("title", "mean square displacement dr^2(t) of the whole system"), ("columns", "t, dr^2(t)"),
        ("date", "2026-01-01 00:00:00"), ("command", "atooms-pp"), ("version", "1"), ("parents", "t.xyz"),
        ("tau", "1.5")] :=
  ⟨_, rfl, by decide +kernel⟩

/-! ### C131 -/

theorem pyReplaceAux_chars (old new : Str) (n : ℕ) (s : Str) (c : Char) (h : c ∈ pyReplaceAux old new n s) :
    c ∈ new ∨ c ∈ s := by
  induction n generalizing s with
  | zero => exact Or.inr h
  | succ n ih =>
    cases s with
    | nil => cases h
    | cons a s =>
      rw [pyReplaceAux] at h
      split at h
      · rcases List.mem_append.1 h with h | h
        · exact Or.inl h
        · rcases ih _ h with h | h
          · exact Or.inl h
          · exact Or.inr (List.mem_of_mem_drop h)
      · rcases List.mem_cons.1 h with rfl | h
        · exact Or.inr (by simp)
        · rcases ih _ h with h | h
          · exact Or.inl h
          · exact Or.inr (by simp [h])

theorem mem_of_split {c x : Char} {s p : Str} (hp : p ∈ pySplit c s) (hx : x ∈ p) : x ∈ s := by
  have := List.intercalate_splitOn (xs := s) c
  unfold pySplit at hp
  rw [← this]
  generalize s.splitOn c = l at hp
  induction l with
  | nil => simp at hp
  | cons a l ih =>
    cases l with
    | nil =>
      rw [List.mem_singleton] at hp
      subst hp
      simpa [List.intercalate] using hx
    | cons b l =>
      rw [List.intercalate_cons_cons]
      rcases List.mem_cons.1 hp with rfl | hp
      · simp [hx]
      · simp only [List.mem_append]
        exact Or.inr (ih hp)

theorem cleanStep_chars (s : Str) (p c : Char) (hp : c ≠ p) (hs : c ≠ '/') (h : c ∉ s) : c ∉ cleanStep s p := by
  unfold cleanStep pyJoin
  simp only
  refine not_mem_intercalate _ _ _ (by simpa using hs) ?_
  intro x hx hc
  rcases List.mem_append.1 hx with hx | hx
  · exact h (mem_of_split (List.mem_of_mem_dropLast hx) hc)
  · rw [List.mem_singleton] at hx
    subst hx
    unfold pyStrip at hc
    have h1 := List.mem_reverse.1 hc
    have h2 := List.mem_reverse.1 ((List.dropWhile_sublist _).subset h1)
    have h3 := (List.dropWhile_sublist _).subset h2
    rcases pyReplaceAux_chars _ _ _ _ _ h3 with h4 | h4
    · exact hp (by simpa using h4)
    · cases hl : pySplit '/' s with
      | nil => rw [hl] at h4; cases h4
      | cons a l =>
        rw [hl, List.getLastD_cons] at h4
        refine h (mem_of_split (p := (a :: l).getLast (by simp)) (c := '/') (by rw [hl]; exact List.getLast_mem _) ?_)
        rwa [List.getLast_eq_getLastD]

theorem underscored_blank (s : Str) : ' ' ∉ underscored s := by
  unfold underscored
  intro h
  obtain ⟨c, -, hc⟩ := List.mem_map.1 h
  split at hc
  · exact absurd hc (by decide)
  · rename_i h'; exact h' hc

/-- **C131.** The name of an output file has no blanks, whatever the long name and the description of the tag, if the
rest of the path, the file of the trajectory, the symbol, the short name and the tag have none. -/
theorem C131_no_blanks (path : List PathPiece) (o : Named) (hl : ∀ s, .lit s ∈ path → ' ' ∉ s)
    (h1 : .symbol ∈ path → ' ' ∉ o.symbol) (h2 : .shortName ∈ path → ' ' ∉ o.shortName) (h3 : .tag ∈ path → ' ' ∉ o.tag)
    (h4 : .filename ∈ path → ' ' ∉ o.filename) : ' ' ∉ outputFileOf path o := by
  unfold outputFileOf outputFile
  have h0 : ' ' ∉ path.flatMap (PathPiece.value o) := by
    intro h
    obtain ⟨q, hq, hc⟩ := List.mem_flatMap.1 h
    cases q with
    | lit s => exact hl s hq hc
    | symbol => exact h1 hq hc
    | shortName => exact h2 hq hc
    | longName => exact underscored_blank _ hc
    | tag => exact h3 hq hc
    | tagDescription => exact underscored_blank _ hc
    | filename => exact h4 hq hc
  simp only [List.foldl_cons, List.foldl_nil]
  exact cleanStep_chars _ _ _ (by decide) (by decide) (cleanStep_chars _ _ _ (by decide) (by decide)
    (cleanStep_chars _ _ _ (by decide) (by decide) h0))

/-- A path with the long name and the description. -/
example : (String.ofList <| outputFileOf [.lit "out/".toList, .longName, .lit "-".toList, .tagDescription]
    ⟨"msd".toList, "dr^2(t)".toList, "mean square displacement".toList, [], "the whole system".toList,
      "my file.xyz".toList⟩) = "out/mean_square_displacement-the_whole_system" := by decide +kernel

end PP.Props
