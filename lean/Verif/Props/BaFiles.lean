import Verif.Model.BaFiles
import Verif.Props.Files
import Verif.Props.Relax

/-!
# C176: a calculation writes only its own files
-/

set_option linter.unusedSectionVars false

namespace PP.Props
open PP

theorem writeText_other (file : Option Str) (text : Py Str) (fs : List (Str × Str)) (g : Str) (hg : some g ≠ file) :
    dictGet (writeText file text fs).1 g = dictGet fs g := by
  unfold writeText
  cases text with
  | error e => rfl
  | ok t =>
    cases file with
    | none => rfl
    | some f =>
      simp only
      split
      · rfl
      · rw [dictGet_dictSet, if_neg (fun h => hg (by rw [h]))]

/-- **C176, what holds**: `do()` of a function that writes with the method of the base class leaves all the files as they
were, except its own, also if an exception is raised. -/
theorem C176_own_file_partial {R A : Type} (file : Option Str) (trajTime : ℤ) (mtime : Str → Option ℤ) (compute : Py R)
    (analyze : R → Py A) (text : R → Option A → Py Str) (update : Bool) (fs : List (Str × Str)) (g : Str)
    (hg : some g ≠ file) :
    dictGet (doFiles file trajTime mtime compute analyze (fun r a => writeText file (text r a)) update fs).1 g
      = dictGet fs g := by
  unfold doFiles
  split
  · rfl
  · rfl
  · split
    · rfl
    · split
      · exact writeText_other _ _ _ _ hg
      · exact writeText_other _ _ _ _ hg
      · rfl

section
variable {K : Type} [Field K] [LinearOrder K] [FloorRing K] {R : Type}

/-- **C176, what holds** for the bond-angle distribution: if the cut-offs are given, all the files except its own are
left as they were. -/
theorem C176_bond_angles_partial (file : Option Str) (trajTime : ℤ) (mtime : Str → Option ℤ) (filename : Option Str)
    (species : List Str) (gr : K → Py (List (List K × List K))) (grText : Named → List K × List K → Py Str)
    (c : List (Option K)) (hist : List (Option K) → Py R) (text : R → Py Str) (update : Bool)
    (fs : List (Str × Str)) (g : Str) (hg : some g ≠ file) :
    dictGet (baDoFiles file trajTime mtime filename species gr grText (some c) hist text update fs).1 g
      = dictGet fs g := by
  unfold baDoFiles
  split
  · rfl
  · rfl
  · simp only
    split
    · rfl
    · exact writeText_other _ _ _ _ hg

/-- Entries of a list made of blocks of equal length. -/
theorem flatMap_getElem? {α β : Type} (l : List α) (f : α → List β) (n : ℕ) (h : ∀ a ∈ l, (f a).length = n) {i j : ℕ}
    (hj : j < n) : (l.flatMap f)[i * n + j]? = (l[i]?).bind fun a => (f a)[j]? := by
  induction l generalizing i with
  | nil => simp
  | cons a l ih =>
    rw [List.flatMap_cons]
    cases i with
    | zero =>
      rw [Nat.zero_mul, Nat.zero_add, List.getElem?_append_left (by rw [h a (by simp)]; exact hj)]
      rfl
    | succ i =>
      have e : (i + 1) * n + j - n = i * n + j := by rw [Nat.succ_mul]; omega
      have e' : n ≤ (i + 1) * n + j := by rw [Nat.succ_mul]; omega
      rw [List.getElem?_append_right (by rw [h a (by simp)]; exact e'), h a (by simp), e,
        ih (fun a ha => h a (by simp [ha]))]
      rfl

theorem writeAll_ok {S : Type} (path : List PathPiece) (text : Named → S → Py Str) (l : List (Named × S))
    (fs : List (Str × Str)) (ht : ∀ e ∈ l, ∃ s, text e.1 e.2 = .ok s)
    (hu : (l.map fun e => outputFileOf path e.1).Nodup) (hd : ∀ e ∈ l, outputFileOf path e.1 ≠ "/dev/stdout".toList) :
    ∃ fs', writeAll (some path) text l fs = (fs', .ok ()) ∧
      (∀ e ∈ l, dictGet fs' (outputFileOf path e.1) = text e.1 e.2) ∧
      ∀ g, g ∉ l.map (fun e => outputFileOf path e.1) → dictGet fs' g = dictGet fs g := by
  induction l generalizing fs with
  | nil => exact ⟨fs, rfl, by simp, by simp⟩
  | cons e l ih =>
    obtain ⟨o, r⟩ := e
    obtain ⟨s, hs⟩ := ht (o, r) (by simp)
    rw [List.map_cons, List.nodup_cons] at hu
    obtain ⟨fs', h1, h2, h3⟩ := ih (dictSet fs (outputFileOf path o) s) (fun e he => ht e (by simp [he])) hu.2
      (fun e he => hd e (by simp [he]))
    refine ⟨fs', ?_, ?_, ?_⟩
    · rw [writeAll]
      simp only [outputFileOpt, Option.map_some, writeText, hs, if_neg (hd (o, r) (by simp))]
      exact h1
    · intro e he
      rcases List.mem_cons.1 he with rfl | he
      · rw [h3 _ hu.1, dictGet_dictSet, if_pos rfl]
        exact hs.symm
      · exact h2 e he
    · intro g hg
      rw [List.map_cons, List.mem_cons, not_or] at hg
      rw [h3 g hg.2, dictGet_dictSet, if_neg hg.1]

theorem map_zip_fst {α β γ : Type} (f : α → γ) (l : List α) (l' : List β) (h : l.length ≤ l'.length) :
    (l.zip l').map (fun e => f e.1) = l.map f := by
  conv_rhs => rw [← List.map_fst_zip h]
  rw [List.map_map]
  rfl

/-- The files of the partial functions of two species, after they have been written. -/
theorem pair_written {S : Type} (o : Named) (dir name : Str) (hd : IsDir dir) (hf : o.filename = dir ++ name)
    (hn : CleanName name) (hs : CleanName o.symbol) (species : List Str) (hc : ∀ a ∈ species, CleanName a ∧ '-' ∉ a)
    (hu : species.Nodup) (rs : List S) (hl : rs.length = species.length * species.length) (text : S → Str)
    (fs : List (Str × Str)) (i j : ℕ) (a b : Str) (r : S) (ha : species[i]? = some a) (hb : species[j]? = some b)
    (hr : rs[i * species.length + j]? = some r) :
    ∃ fs', writeAll (some ppOutputPath) (fun _ r => .ok (text r)) ((partialNamed2 o species).zip rs) fs = (fs', .ok ()) ∧
      dictGet fs' (dir ++ name ++ ".pp.".toList ++ o.symbol ++ ".".toList ++ (a ++ ['-'] ++ b)) = .ok (text r) := by
  obtain ⟨e1, e2⟩ := C116_two_body_partial o species dir name hd hf hn hs hc hu
  have hj : j < species.length := (List.getElem?_eq_some_iff.1 hb).1
  have hlen : (partialNamed2 o species).length = species.length * species.length := by
    simp [partialNamed2, List.length_flatMap]
  have hw := writeAll_ok ppOutputPath (fun _ r => .ok (text r)) ((partialNamed2 o species).zip rs) fs
    (fun e _ => ⟨_, rfl⟩)
  generalize outputFileOf ppOutputPath = F at e1 e2 hw
  have hfst : ((partialNamed2 o species).zip rs).map (fun e => F e.1) =
      (partialNamed2 o species).map F := by
    exact map_zip_fst _ _ _ (by omega)
  obtain ⟨p, hp⟩ : ∃ p, (partialNamed2 o species)[i * species.length + j]? = some p := by
    unfold partialNamed2
    rw [flatMap_getElem? _ _ species.length (fun x _ => by simp) hj, ha]
    exact ⟨_, by rw [Option.bind_some, List.getElem?_map, hb]; rfl⟩
  have hmem : (p, r) ∈ (partialNamed2 o species).zip rs := by
    refine List.mem_of_getElem? (i := i * species.length + j) ?_
    rw [List.getElem?_zip_eq_some]
    exact ⟨hp, hr⟩
  have hname : F p = dir ++ name ++ ".pp.".toList ++ o.symbol ++ ".".toList ++ (a ++ ['-'] ++ b) := by
    have h1 := congrArg (fun l => l[i * species.length + j]?) e1
    simp only [List.getElem?_map, hp, Option.map_some] at h1
    rw [flatMap_getElem? _ _ species.length (fun x _ => by simp) hj, ha, Option.bind_some, List.getElem?_map, hb,
      Option.map_some, Option.some.injEq] at h1
    rw [h1, hf]
  have hdot : ∀ e ∈ (partialNamed2 o species).zip rs, F e.1 ≠ "/dev/stdout".toList := by
    intro e he h
    have h1 : F e.1 ∈ (partialNamed2 o species).map F := by
      rw [← hfst]
      exact List.mem_map_of_mem he
    rw [h, e1] at h1
    obtain ⟨x, -, h1⟩ := List.mem_flatMap.1 h1
    obtain ⟨y, -, h1⟩ := List.mem_map.1 h1
    have : '.' ∈ "/dev/stdout".toList := by rw [← h1]; simp
    exact absurd this (by decide +kernel)
  obtain ⟨fs', w1, w2, -⟩ := hw (by rw [hfst]; exact e2) hdot
  refine ⟨fs', w1, ?_⟩
  rw [← hname]
  exact w2 _ hmem

/-- **C176** is false: without cut-offs, the bond-angle distribution replaces the files of the partial radial
distribution functions of the same trajectory, whatever they contained, by those computed with spacing `0.1`. It does so
whatever the output path of the bond-angle distribution, and also if the calculation then fails. -/
theorem C176_counterexample_gr (file : Option Str) (trajTime : ℤ) (mtime : Str → Option ℤ) (dir name : Str)
    (hd : IsDir dir) (hn : CleanName name) (species : List Str) (hc : ∀ a ∈ species, CleanName a ∧ '-' ∉ a)
    (hu : species.Nodup) (gr : K → Py (List (List K × List K))) (rs : List (List K × List K)) (hgr : gr (1 / 10) = .ok rs)
    (hl : rs.length = species.length * species.length) (grText : List K × List K → Str)
    (hist : List (Option K) → Py R) (text : R → Py Str) (fs : List (Str × Str)) (i j : ℕ) (a b : Str) (r : List K × List K)
    (ha : species[i]? = some a) (hb : species[j]? = some b) (hr : rs[i * species.length + j]? = some r)
    (hfile : file ≠ some (dir ++ name ++ ".pp.".toList ++ "gr".toList ++ ".".toList ++ (a ++ ['-'] ++ b))) :
    dictGet (baDoFiles file trajTime mtime (some (dir ++ name)) species gr (fun _ r => .ok (grText r)) none hist text false
      fs).1 (dir ++ name ++ ".pp.".toList ++ "gr".toList ++ ".".toList ++ (a ++ ['-'] ++ b)) = .ok (grText r) := by
  obtain ⟨fs', w1, w2⟩ := pair_written (grPartialNamed (dir ++ name)) dir name hd rfl hn
    (show CleanName "gr".toList by decide +kernel) species hc hu rs hl grText fs i j a b r ha hb hr
  have w2 : dictGet fs' (dir ++ name ++ ".pp.".toList ++ "gr".toList ++ ".".toList ++ (a ++ ['-'] ++ b)) = .ok (grText r) := w2
  generalize dir ++ name ++ ".pp.".toList ++ "gr".toList ++ ".".toList ++ (a ++ ['-'] ++ b) = F at hfile w2 ⊢
  have hx : defaultRcutFiles (some (dir ++ name)) species gr (fun _ r => .ok (grText r)) fs =
      (fs', rs.mapM fun r => baDefaultRcut r.1 r.2) := by
    unfold defaultRcutFiles
    simp only [hgr, initOutputPath, Option.getD_none, Option.getD_some]
    rw [w1]
  unfold baDoFiles
  simp only [Bool.false_eq_true, if_false, hx]
  cases rs.mapM fun r => baDefaultRcut r.1 r.2 with
  | error e => exact w2
  | ok c =>
    simp only
    cases hist c with
    | error e => exact w2
    | ok r => exact (writeText_other _ _ _ _ (Ne.symm hfile)).trans w2

/-- A non-trivial case: two species, and a file of the radial distribution function of `A` and `B` computed before. The
bond-angle distribution is written elsewhere. -/
example : baDoFiles (K := ℚ) (some "out".toList) 0 (fun _ => none) (some "t".toList) ["A".toList, "B".toList]
    (fun dr => .ok [([1, 2, 3, 4], [1, 3, 1, 2]), ([1, 2, 3, 4], [1, 3, 1, 2]), ([1, 2, 3, 4], [1, 3, 1, 2]), ([dr], [1])])
    (fun _ r => .ok (if r.1 = [1 / 10] then "coarse".toList else "g".toList)) none (fun _ => .ok ())
    (fun _ => .ok "ba".toList) false [("t.pp.gr.B-B".toList, "fine".toList)]
    = ([("t.pp.gr.B-B".toList, "coarse".toList), ("t.pp.gr.A-A".toList, "g".toList),
        ("t.pp.gr.A-B".toList, "g".toList), ("t.pp.gr.B-A".toList, "g".toList)], .error .indexError) := by
  decide +kernel

/-- With cut-offs given, only the file of the distribution changes. -/
example : baDoFiles (K := ℚ) (some "out".toList) 0 (fun _ => none) (some "t".toList) ["A".toList]
    (fun dr => .ok [([dr], [1])]) (fun _ _ => .ok "g".toList) (some [some (3 / 2)]) (fun c => .ok c.length)
    (fun n => .ok (List.replicate n 'x')) false [("t.pp.gr.A-A".toList, "fine".toList), ("out".toList, "old".toList)]
    = ([("t.pp.gr.A-A".toList, "fine".toList), ("out".toList, "x".toList)], .ok ()) := by
  decide +kernel

/-- Other functions: the file of another function of the same trajectory stays as it was. -/
example : doFiles (some "t.pp.msd".toList) 5 (fun _ => some 3) (.ok 2) (fun r => (.ok (r + 1) : Py ℕ))
    (fun r a => writeText (some "t.pp.msd".toList) (.ok (List.replicate (r + a.getD 0) 'x'))) true
    [("t.pp.vacf".toList, "v".toList), ("t.pp.msd".toList, "old".toList)]
    = ([("t.pp.vacf".toList, "v".toList), ("t.pp.msd".toList, "xxxxx".toList)], .ok ()) := by
  decide +kernel

end

end PP.Props
