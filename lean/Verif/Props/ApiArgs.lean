import Verif.Model.ApiArgs
import Verif.Props.Partials
import Verif.Props.TGrid
import Verif.Props.Memory

/-!
# C165-C168: the arguments of the functions of the api
-/

set_option linter.unusedSectionVars false

namespace PP.Props
open PP

/-! ### C165 -/

section
variable {κ V : Type} [DecidableEq κ]

theorem dictGet_not_mem {D : List (κ × V)} {k : κ} (h : k ∉ dictKeys D) : dictGet D k = .error .keyError := by
  induction D with
  | nil => rfl
  | cons e D ih =>
    obtain ⟨k', v'⟩ := e
    simp only [dictKeys, List.map_cons, List.mem_cons, not_or] at h
    unfold dictGet
    rw [if_neg (Ne.symm h.1)]
    exact ih h.2

/-- Setting the keys that are missing. -/
theorem setdefault_get (D A : List (κ × V)) (k : κ) :
    dictGet (D.foldl (fun a kv => if kv.1 ∈ dictKeys a then a else dictSet a kv.1 kv.2) A) k =
      if k ∈ dictKeys A then dictGet A k else dictGet D k := by
  induction D generalizing A with
  | nil =>
    by_cases h : k ∈ dictKeys A
    · rw [if_pos h]; rfl
    · rw [if_neg h]; exact dictGet_not_mem h
  | cons e D ih =>
    obtain ⟨k', v'⟩ := e
    rw [List.foldl_cons, ih]
    have hget : dictGet ((k', v') :: D) k = if k' = k then .ok v' else dictGet D k := rfl
    rw [hget]
    by_cases hk' : k' ∈ dictKeys A
    · simp only [if_pos hk']
      by_cases h : k ∈ dictKeys A
      · rw [if_pos h, if_pos h]
      · rw [if_neg h, if_neg h, if_neg]
        rintro rfl
        exact h hk'
    · simp only [if_neg hk']
      have hmem : k ∈ dictKeys (dictSet A k' v') ↔ k = k' ∨ k ∈ dictKeys A := by
        rw [dictSet_append _ _ _ hk', dictKeys, List.map_append, List.mem_append]
        simp only [List.map_cons, List.map_nil, List.mem_singleton, dictKeys]
        tauto
      rw [dictGet_dictSet]
      by_cases he : k = k'
      · subst he
        rw [if_pos (hmem.2 (Or.inl rfl)), if_pos rfl, if_neg hk', if_pos rfl]
      · rw [if_neg he, if_neg (Ne.symm he)]
        by_cases h : k ∈ dictKeys A
        · rw [if_pos (hmem.2 (Or.inr h)), if_pos h]
        · rw [if_neg h, if_neg (by rw [hmem]; tauto)]

end

theorem compatLoop_get (args : List (Str × ArgVal)) (k : Str) :
    dictGet (compatLoop args) k = if k ∈ dictKeys args then dictGet args k else dictGet compatDefaults k := by
  unfold compatLoop
  generalize compatDefaults = D
  convert setdefault_get D args k

/-- **C165.** Whatever the options given: `_compat` does not raise; an option that is given keeps its value, one that is
not has its default; the only exception is that a filter switches off partial functions. Doing it again changes
nothing. -/
theorem C165_compat (args : List (Str × ArgVal)) :
    ∃ r, compat args = .ok r ∧
      (∀ k, k ≠ "no_partial".toList → k ∈ dictKeys args → dictGet r k = dictGet args k) ∧
      (∀ k, k ≠ "no_partial".toList → k ∉ dictKeys args → dictGet r k = dictGet compatDefaults k) ∧
      (∀ v, dictGet args "filter".toList = .ok v → v ≠ .none → dictGet r "no_partial".toList = .ok (.bool true)) ∧
      ((∀ v, dictGet args "filter".toList = .ok v → v = .none) → dictGet r "no_partial".toList =
        if "no_partial".toList ∈ dictKeys args then dictGet args "no_partial".toList else .ok (.bool false)) ∧
      ∃ r', compat r = .ok r' ∧ ∀ k, dictGet r' k = dictGet r k := by
  have hf : ∃ v, dictGet (compatLoop args) "filter".toList = .ok v ∧
      (dictGet args "filter".toList = .ok v ∨ ("filter".toList ∉ dictKeys args ∧ v = .none)) := by
    rw [compatLoop_get]
    by_cases h : "filter".toList ∈ dictKeys args
    · rw [if_pos h]
      obtain ⟨v, hv, -⟩ := dictGet_mem h
      exact ⟨v, hv, Or.inl hv⟩
    · rw [if_neg h]
      exact ⟨.none, by decide +kernel, Or.inr ⟨h, rfl⟩⟩
  obtain ⟨v, hv, hv'⟩ := hf
  have hc : ∀ a : List (Str × ArgVal), compat a = (dictGet (compatLoop a) "filter".toList).bind fun f =>
      if f ≠ .none then .ok (dictSet (compatLoop a) "no_partial".toList (.bool true)) else .ok (compatLoop a) := by
    intro a
    unfold compat
    cases h : dictGet (compatLoop a) "filter".toList with
    | error e => simp only [h]; rfl
    | ok f =>
      simp only [h]
      show (if f ≠ .none then _ else _) = (if f ≠ .none then _ else _)
      split_ifs <;> rfl
  have hne : "filter".toList ≠ "no_partial".toList := by decide
  have hnp : dictGet compatDefaults "no_partial".toList = .ok (.bool false) := by decide +kernel
  have hgetv : ∀ w, dictGet args "filter".toList = .ok w → w = v := by
    intro w hw
    rcases hv' with h | ⟨h, -⟩
    · rw [h] at hw; exact (Except.ok.inj hw).symm
    · rw [dictGet_not_mem h] at hw; cases hw
  have hmem_loop : ∀ (a : List (Str × ArgVal)) k w, dictGet a k = .ok w → k ∈ dictKeys a := by
    intro a k w h
    by_contra hn
    rw [dictGet_not_mem hn] at h
    cases h
  have again : ∀ r : List (Str × ArgVal), (∀ k ∈ dictKeys compatDefaults, k ∈ dictKeys r) →
      ∀ k, dictGet (compatLoop r) k = dictGet r k := by
    intro r hr k
    rw [compatLoop_get]
    by_cases h : k ∈ dictKeys r
    · rw [if_pos h]
    · rw [if_neg h, dictGet_not_mem h, dictGet_not_mem fun h' => h (hr k h')]
  have hkeys : ∀ k ∈ dictKeys compatDefaults, k ∈ dictKeys (compatLoop args) := by
    intro k hk
    by_cases h : k ∈ dictKeys args
    · obtain ⟨w, hw, -⟩ := dictGet_mem h
      refine hmem_loop _ _ w ?_
      rw [compatLoop_get, if_pos h, hw]
    · obtain ⟨w, hw, -⟩ := dictGet_mem hk
      refine hmem_loop _ _ w ?_
      rw [compatLoop_get, if_neg h, hw]
  by_cases hvn : v = .none
  · refine ⟨compatLoop args, ?_, ?_, ?_, ?_, ?_, ?_⟩
    · rw [hc, hv]
      show (if v ≠ .none then _ else _) = _
      rw [if_neg (by simp [hvn])]
    · intro k _ h; rw [compatLoop_get, if_pos h]
    · intro k _ h; rw [compatLoop_get, if_neg h]
    · intro w hw hwn
      exact absurd ((hgetv w hw).trans hvn) hwn
    · intro _
      rw [compatLoop_get, hnp]
    · refine ⟨compatLoop (compatLoop args), ?_, again _ hkeys⟩
      rw [hc, again _ hkeys, hv]
      show (if v ≠ .none then _ else _) = _
      rw [if_neg (by simp [hvn])]
  · have hkeys' : ∀ k ∈ dictKeys compatDefaults, k ∈ dictKeys (dictSet (compatLoop args) "no_partial".toList (.bool true)) := by
      intro k hk
      obtain ⟨w, hw, -⟩ := dictGet_mem (hkeys k hk)
      by_cases h : k = "no_partial".toList
      · exact hmem_loop _ _ (.bool true) (by rw [dictGet_dictSet, if_pos h])
      · exact hmem_loop _ _ w (by rw [dictGet_dictSet, if_neg h, hw])
    refine ⟨dictSet (compatLoop args) "no_partial".toList (.bool true), ?_, ?_, ?_, ?_, ?_, ?_⟩
    · rw [hc, hv]
      show (if v ≠ .none then _ else _) = _
      rw [if_pos hvn]
    · intro k hk h; rw [dictGet_dictSet, if_neg hk, compatLoop_get, if_pos h]
    · intro k hk h; rw [dictGet_dictSet, if_neg hk, compatLoop_get, if_neg h]
    · intro w _ _
      rw [dictGet_dictSet, if_pos rfl]
    · intro hall
      rcases hv' with h | ⟨_, h⟩
      · exact absurd (hall v h) hvn
      · exact absurd h hvn
    · refine ⟨_, by rw [hc, again _ hkeys', dictGet_dictSet, if_neg hne, hv]; show (if v ≠ .none then _ else _) = _; rw [if_pos hvn], ?_⟩
      intro k
      rw [dictGet_dictSet, again _ hkeys']
      by_cases h : k = "no_partial".toList
      · rw [if_pos h, h, dictGet_dictSet, if_pos rfl]
      · rw [if_neg h]

/-- `gr(file, filter="x>0", legacy=True)`. -/
example : (compat [("filter".toList, .str "x>0".toList), ("legacy".toList, .bool true)]).toOption.map (fun r =>
      (r.length, dictGet r "no_partial".toList, dictGet r "legacy".toList, dictGet r "fast".toList)) =
    some (13, .ok (.bool true), .ok (.bool true), .ok (.bool false)) := by decide +kernel

/-- **C165**, the defaults: a switch that is not given is off, any other option that is not given is `None`, and there are
no further options. -/
theorem C165_defaults (args r : List (Str × ArgVal)) (h : compat args = .ok r) (k : Str) (hk : k ∉ dictKeys args) :
    (k ∈ ["center".toList, "fast".toList, "legacy".toList, "no_cache".toList, "update".toList] →
      dictGet r k = .ok (.bool false)) ∧
    (k ∈ ["first".toList, "last".toList, "skip".toList, "fmt".toList, "species_layout".toList, "norigins".toList,
      "filter".toList] → dictGet r k = .ok .none) ∧
    (k ∉ ["center".toList, "fast".toList, "legacy".toList, "no_cache".toList, "update".toList, "first".toList,
      "last".toList, "skip".toList, "fmt".toList, "species_layout".toList, "norigins".toList, "filter".toList,
      "no_partial".toList] → dictGet r k = .error .keyError) := by
  obtain ⟨r', h1, -, h2, -⟩ := C165_compat args
  rw [h] at h1
  cases h1
  have hd : ∀ k ∈ ["center".toList, "fast".toList, "legacy".toList, "no_cache".toList, "update".toList],
      k ≠ "no_partial".toList ∧ dictGet compatDefaults k = .ok (.bool false) := by decide +kernel
  have hn : ∀ k ∈ ["first".toList, "last".toList, "skip".toList, "fmt".toList, "species_layout".toList,
      "norigins".toList, "filter".toList], k ≠ "no_partial".toList ∧ dictGet compatDefaults k = .ok .none := by
    decide +kernel
  have hs : ∀ k ∈ dictKeys compatDefaults, k ∈ ["center".toList, "fast".toList, "legacy".toList, "no_cache".toList,
      "update".toList, "first".toList, "last".toList, "skip".toList, "fmt".toList, "species_layout".toList,
      "norigins".toList, "filter".toList, "no_partial".toList] := by decide +kernel
  have hp : "no_partial".toList ∈ ["center".toList, "fast".toList, "legacy".toList, "no_cache".toList,
      "update".toList, "first".toList, "last".toList, "skip".toList, "fmt".toList, "species_layout".toList,
      "norigins".toList, "filter".toList, "no_partial".toList] := by decide +kernel
  refine ⟨fun hm => ?_, fun hm => ?_, fun hm => ?_⟩
  · rw [h2 k (hd k hm).1 hk, (hd k hm).2]
  · rw [h2 k (hn k hm).1 hk, (hn k hm).2]
  · have hne : k ≠ "no_partial".toList := by
      rintro rfl
      exact hm hp
    rw [h2 k hne hk]
    exact dictGet_not_mem fun hmem => hm (hs k hmem)

example (r : List (Str × ArgVal)) (h : compat [("fast".toList, .bool true)] = .ok r) :
    dictGet r "update".toList = .ok (.bool false) ∧ dictGet r "first".toList = .ok .none ∧
      dictGet r "tmax".toList = .error .keyError :=
  ⟨(C165_defaults _ _ h _ (by decide +kernel)).1 (by decide +kernel),
    (C165_defaults _ _ h _ (by decide +kernel)).2.1 (by decide +kernel),
    (C165_defaults _ _ h _ (by decide +kernel)).2.2 (by decide +kernel)⟩

/-! ### C166 -/

/-- **C166**, what holds: with the Fortran modules, `gr` and `fskt` use the fast implementation unless the legacy one is
requested; `fast` makes no difference. -/
theorem C166_default_fast_partial (c : Command) (hc : c = .gr ∨ c = .fskt) (fast legacy : Bool) :
    backend true fast legacy c = some (.ok (if legacy then .legacy else .fast)) := by
  rcases hc with rfl | rfl <;> cases legacy <;> rfl

/-- Without the Fortran modules `gr` and `fskt` use the legacy implementation. -/
theorem C166_without_fortran (c : Command) (hc : c = .gr ∨ c = .fskt) (fast legacy : Bool) :
    backend false fast legacy c = some (.ok .legacy) := by
  rcases hc with rfl | rfl <;> cases legacy <;> rfl

/-- **C166** is false: `sk` uses the legacy implementation by default, ignores `legacy`, and uses the fast one only with
the option `fast`, which is documented as deprecated. -/
theorem C166_counterexample_sk (wrapped legacy : Bool) :
    backend wrapped false legacy .sk = some (.ok .legacy) ∧ backend wrapped true legacy .sk = some (.ok .fast) :=
  ⟨rfl, rfl⟩

/-- **C166** is false: `chi4qs` never uses the optimized implementation: by default it uses the plain one, with `fast` it
raises. -/
theorem C166_counterexample_chi4qs (wrapped legacy : Bool) :
    backend wrapped false legacy .chi4qs = some (.ok .legacy) ∧
      backend wrapped true legacy .chi4qs = some (.error .attributeError) := ⟨rfl, rfl⟩

/-- With the Fortran modules and no options, `gr` is fast and `sk` is not. -/
example : backend true false false .gr = some (.ok .fast) ∧ backend true false false .sk = some (.ok .legacy) := ⟨rfl, rfl⟩

/-! ### C167 -/

theorem params_length (c : Command) : 2 < c.params.length := by cases c <;> decide

theorem params_head (c : Command) : ∃ r, c.params = ("input_file".toList, Option.none) :: r ∧ (∀ p ∈ r, p.2.isSome) ∧
    (r.map Prod.fst).Nodup ∧ "input_file".toList ∉ r.map Prod.fst := by
  cases c <;> exact ⟨_, rfl, by decide +kernel, by decide +kernel, by decide +kernel⟩

theorem bindRest_default (kw : List (Str × ArgVal)) (p : Str × Option ArgVal) (hp : p.2.isSome) :
    ∃ v, bindRest kw p = .ok (p.1, v) ∧ (p.1 ∉ dictKeys kw → p.2 = some v) ∧
      (p.1 ∈ dictKeys kw → dictGet kw p.1 = .ok v) := by
  obtain ⟨w, hw⟩ := Option.isSome_iff_exists.1 hp
  unfold bindRest
  by_cases h : p.1 ∈ dictKeys kw
  · obtain ⟨v, hv, -⟩ := dictGet_mem h
    rw [hv]
    exact ⟨v, rfl, fun h' => absurd h h', fun _ => rfl⟩
  · rw [dictGet_not_mem h, hw]
    exact ⟨w, rfl, fun _ => rfl, fun h' => absurd h' h⟩

theorem mapM_bindRest (kw : List (Str × ArgVal)) (l : List (Str × Option ArgVal)) (h : ∀ p ∈ l, p.2.isSome) :
    ∃ r, l.mapM (bindRest kw) = .ok r ∧ r.map Prod.fst = l.map Prod.fst ∧
      ∀ p ∈ l, ∃ v, (p.1, v) ∈ r ∧ (p.1 ∉ dictKeys kw → p.2 = some v) ∧ (p.1 ∈ dictKeys kw → dictGet kw p.1 = .ok v) := by
  induction l with
  | nil => exact ⟨[], rfl, rfl, by simp⟩
  | cons p l ih =>
    obtain ⟨r, h1, h2, h3⟩ := ih fun q hq => h q (by simp [hq])
    obtain ⟨v, hv, hv2, hv3⟩ := bindRest_default kw p (h p (by simp))
    refine ⟨(p.1, v) :: r, ?_, by simp [h2], ?_⟩
    · rw [List.mapM_cons, hv, h1]; rfl
    · intro q hq
      rcases List.mem_cons.1 hq with rfl | hq
      · exact ⟨v, by simp, hv2, hv3⟩
      · obtain ⟨w, hw, hw2⟩ := h3 q hq
        exact ⟨w, by simp [hw], hw2⟩

theorem bindCall_ok (params : List (Str × Option ArgVal)) (pos : List ArgVal) (kw rest : List (Str × ArgVal))
    (hkw : ∀ p ∈ params.take pos.length, p.1 ∉ dictKeys kw)
    (hrest : (params.drop pos.length).mapM (bindRest kw) = .ok rest) :
    bindCall params pos kw = .ok ⟨List.zipWith (fun p v => (p.1, v)) (params.take pos.length) pos ++ rest,
      pos.drop params.length, kw.filter fun e => decide (e.1 ∉ params.map Prod.fst)⟩ := by
  unfold bindCall
  have : ((params.take pos.length).any fun p => decide (p.1 ∈ dictKeys kw)) = false := by
    rw [List.any_eq_false]
    intro p hp
    simpa using hkw p hp
  simp only [this, Bool.false_eq_true, if_false]
  rw [hrest]
  rfl

/-- **C167** is false: if the files are given one after the other, as in `gr(file1, file2)`, and there are no more of them
than parameters, only the first is used, for every function of the api: the others are taken for the values of the
optional parameters, in order. -/
theorem C167_counterexample_positional (c : Command) (f : ArgVal) (fs : List ArgVal) (hl : fs.length < c.params.length)
    (kw : List (Str × ArgVal)) (hkw : ∀ p ∈ c.params.take (fs.length + 1), p.1 ∉ dictKeys kw) :
    ∃ b, bindCall c.params (f :: fs) kw = .ok b ∧ b.inputFiles = .ok [f] ∧
      (b.params.map Prod.snd).take (fs.length + 1) = f :: fs := by
  obtain ⟨r, hr, hsome, -, -⟩ := params_head c
  obtain ⟨rest, h1, -, -⟩ := mapM_bindRest kw (c.params.drop (f :: fs).length) (by
    intro p hp
    rw [hr, List.length_cons, List.drop_succ_cons] at hp
    exact hsome p (List.mem_of_mem_drop hp))
  refine ⟨_, bindCall_ok _ _ _ _ (by simpa using hkw) h1, ?_, ?_⟩
  · unfold Bound.inputFiles
    rw [List.drop_eq_nil_of_le (by simp; omega), hr]
    rfl
  · have hz : (List.zipWith (fun (p : Str × Option ArgVal) v => (p.1, v)) (c.params.take (f :: fs).length) (f :: fs)).map
        Prod.snd = f :: fs := by
      rw [List.map_zipWith]
      have : ∀ (l : List (Str × Option ArgVal)) (vs : List ArgVal), l.length = vs.length →
          List.zipWith (fun _ v => v) l vs = vs := by
        intro l
        induction l with
        | nil => intro vs h; simp at h; simp [List.eq_nil_of_length_eq_zero h.symm]
        | cons a l ih =>
          intro vs h
          cases vs with
          | nil => simp at h
          | cons v vs => simp only [List.zipWith_cons_cons, ih vs (by simpa using h)]
      exact this _ _ (by simp; omega)
    simp only [List.map_append, hz]
    rw [List.take_append_of_le_length (by simp), List.take_of_length_le (by simp)]

/-- **C167** is false: with several positional arguments, a parameter that they fill cannot be given by name. -/
theorem C167_counterexample_keyword (c : Command) (f : ArgVal) (fs : List ArgVal) (kw : List (Str × ArgVal))
    (p : Str × Option ArgVal) (hp : p ∈ c.params.take (fs.length + 1)) (hk : p.1 ∈ dictKeys kw) :
    bindCall c.params (f :: fs) kw = .error .typeError := by
  unfold bindCall
  have : ((c.params.take (f :: fs).length).any fun p => decide (p.1 ∈ dictKeys kw)) = true := by
    rw [List.any_eq_true]
    exact ⟨p, by simpa using hp, by simpa using hk⟩
  simp only [this, if_true]
  rfl

/-- **C167**, what holds: all the files are used if every optional parameter is given by position before them. -/
theorem C167_all_positional_partial (c : Command) (f : ArgVal) (opts fs : List ArgVal)
    (hl : opts.length + 1 = c.params.length) (kw : List (Str × ArgVal)) (hkw : ∀ p ∈ c.params, p.1 ∉ dictKeys kw) :
    ∃ b, bindCall c.params (f :: opts ++ fs) kw = .ok b ∧ b.inputFiles = .ok (f :: fs) ∧
      b.params.map Prod.snd = f :: opts ∧ b.globals = kw := by
  obtain ⟨r, hr, -, -, -⟩ := params_head c
  have hlen : (f :: opts ++ fs).length = c.params.length + fs.length := by simp; omega
  have hd : c.params.drop (f :: opts ++ fs).length = [] := List.drop_eq_nil_of_le (by omega)
  have ht : c.params.take (f :: opts ++ fs).length = c.params := List.take_of_length_le (by omega)
  refine ⟨_, bindCall_ok _ _ _ [] (by rw [ht]; exact hkw) (by rw [hd]; rfl), ?_, ?_, ?_⟩
  · unfold Bound.inputFiles
    rw [List.cons_append, ← List.cons_append, List.drop_append_of_le_length (by simp; omega),
      List.drop_eq_nil_of_le (by simp; omega), ht, hr]
    rfl
  · simp only [ht, List.append_nil]
    rw [List.map_zipWith]
    have : ∀ (l : List (Str × Option ArgVal)) (vs ws : List ArgVal), l.length = vs.length →
        List.zipWith (fun _ v => v) l (vs ++ ws) = vs := by
      intro l
      induction l with
      | nil => intro vs ws h; simp at h; simp [List.eq_nil_of_length_eq_zero h.symm]
      | cons a l ih =>
        intro vs ws h
        cases vs with
        | nil => simp at h
        | cons v vs => simp only [List.cons_append, List.zipWith_cons_cons, ih vs ws (by simpa using h)]
    exact this _ (f :: opts) fs (by simp; omega)
  · rw [List.filter_eq_self]
    intro e he
    simp only [decide_eq_true_eq]
    intro h
    obtain ⟨p, hp, hpe⟩ := List.mem_map.1 h
    exact hkw p hp (by rw [hpe]; exact List.mem_map.2 ⟨e, he, rfl⟩)

/-- **C167**, what holds: with one file and everything else by name, the file is used, each parameter has the value given
or its default, and the other names are global options. -/
theorem C167_one_file_partial (c : Command) (f : ArgVal) (kw : List (Str × ArgVal))
    (hkw : "input_file".toList ∉ dictKeys kw) :
    ∃ b, bindCall c.params [f] kw = .ok b ∧ b.inputFiles = .ok [f] ∧
      (∀ p ∈ c.params.drop 1, ∃ v, dictGet b.params p.1 = .ok v ∧ (p.1 ∉ dictKeys kw → p.2 = some v) ∧
        (p.1 ∈ dictKeys kw → dictGet kw p.1 = .ok v)) ∧
      ∀ e, e ∈ b.globals ↔ e ∈ kw ∧ e.1 ∉ c.params.map Prod.fst := by
  obtain ⟨r, hr, hsome, hnd, hin⟩ := params_head c
  obtain ⟨rest, h1, h2, h3⟩ := mapM_bindRest kw (c.params.drop [f].length) (by
    intro p hp
    rw [hr] at hp
    exact hsome p (by simpa using hp))
  refine ⟨_, bindCall_ok _ _ _ _ (by rw [hr]; simpa using hkw) h1, ?_, ?_, ?_⟩
  · unfold Bound.inputFiles
    rw [List.drop_eq_nil_of_le (by have := params_length c; simp; omega), hr]
    rfl
  · intro p hp
    obtain ⟨v, hv, hv2⟩ := h3 p hp
    refine ⟨v, ?_, hv2⟩
    rw [hr] at hp h2 ⊢
    have hpn : p.1 ≠ "input_file".toList := by
      intro h
      exact hin (h ▸ List.mem_map.2 ⟨p, by simpa using hp, rfl⟩)
    show dictGet (("input_file".toList, f) :: rest) p.1 = _
    unfold dictGet
    rw [if_neg (Ne.symm hpn)]
    have hnd' : (rest.map Prod.fst).Nodup := by rw [h2]; simpa using hnd
    clear h1 h2 h3
    induction rest with
    | nil => simp at hv
    | cons e rest ih =>
      obtain ⟨k, w⟩ := e
      rw [List.map_cons, List.nodup_cons] at hnd'
      unfold dictGet
      rcases List.mem_cons.1 hv with h | h
      · obtain ⟨rfl, rfl⟩ := Prod.mk.inj h
        rw [if_pos rfl]
      · rw [if_neg]
        · exact ih h hnd'.2
        · rintro rfl
          exact hnd'.1 (List.mem_map.2 ⟨_, h, rfl⟩)
  · intro e
    simp [List.mem_filter]

/-- `msd('a.xyz', 'b.xyz')`: the second file is taken for `tmax`. -/
example : (bindCall (Command.params .msd) [.str "a.xyz".toList, .str "b.xyz".toList] []).toOption.map
      (fun b => (b.inputFiles.toOption, dictGet b.params "tmax".toList)) =
    some (some [.str "a.xyz".toList], .ok (.str "b.xyz".toList)) ∧
    bindCall (Command.params .msd) [.str "a.xyz".toList, .str "b.xyz".toList] [("tmax".toList, .num 1)] =
      .error .typeError ∧
    (bindCall (Command.params .ba) [.str "a.xyz".toList, .num 4, .bool false, .str "b.xyz".toList]
      [("norigins".toList, .num 1)]).toOption.map (fun b => (b.inputFiles.toOption, b.globals)) =
      some (some [.str "a.xyz".toList, .str "b.xyz".toList], [("norigins".toList, .num 1)]) := by decide +kernel

/-- **C167**: a call without any file raises `TypeError`, whatever the other options. -/
theorem C167_no_file (c : Command) (kw : List (Str × ArgVal)) (hkw : "input_file".toList ∉ dictKeys kw) :
    bindCall c.params [] kw = .error .typeError := by
  obtain ⟨r, hr, -, -, -⟩ := params_head c
  unfold bindCall
  rw [hr]
  simp only [List.length_nil, List.take_zero, List.any_nil, Bool.false_eq_true, if_false, List.drop_zero]
  rw [List.mapM_cons]
  have : bindRest kw ("input_file".toList, Option.none) = .error .typeError := by
    unfold bindRest
    rw [dictGet_not_mem hkw]
  rw [this]
  rfl

example : bindCall Command.gr.params [] [("dr".toList, .num 1)] = .error .typeError :=
  C167_no_file .gr _ (by decide +kernel)

/-! ### C168 -/

/-- **C168.** A grid of wave-numbers given as a string: the numbers between the commas, in order; `ValueError` if one of
them is not a number. -/
theorem C168_kgrid (l : List Str) (hl : l ≠ []) (hc : ∀ s ∈ l, ',' ∉ s) :
    (∀ ks, List.Forall₂ (fun s k => pyFloatOfStr s = .ok k) l ks → kgridOfStr (List.intercalate [','] l) = .ok ks) ∧
    ((∃ s ∈ l, ∃ e, pyFloatOfStr s = .error e) → kgridOfStr (List.intercalate [','] l) = .error .valueError) := by
  have hs : pySplit ',' (List.intercalate [','] l) = l := by
    unfold pySplit
    exact List.splitOn_intercalate ',' hc hl
  have herr : ∀ s e, pyFloatOfStr s = .error e → e = .valueError := by
    intro s e h
    unfold pyFloatOfStr at h
    simp only at h
    split_ifs at h
    all_goals first
      | exact (Except.error.inj h).symm
      | cases h
  unfold kgridOfStr
  rw [hs]
  clear hs hl hc
  refine ⟨?_, ?_⟩
  · intro ks h
    induction h with
    | nil => rfl
    | cons h1 _ ih => rw [List.mapM_cons, h1, ih]; rfl
  · rintro ⟨s, hs, e, he⟩
    induction l with
    | nil => simp at hs
    | cons a l ih =>
      rw [List.mapM_cons]
      cases ha : pyFloatOfStr a with
      | error e' => rw [herr a e' ha]; rfl
      | ok v =>
        rcases List.mem_cons.1 hs with rfl | hs
        · rw [ha] at he; cases he
        · rw [ih hs]; rfl

/-- **C168.** The names of the time grids: four of them, `KeyError` for all others. -/
theorem C168_func (s : Str) :
    funcOf s = if s = "linear".toList ∨ s = "linear_grid".toList then .ok .linear
      else if s = "logx".toList ∨ s = "logx_grid".toList then .ok .logx else .error .keyError := by
  by_cases h1 : s = "linear_grid".toList
  · subst h1; decide +kernel
  by_cases h2 : s = "linear".toList
  · subst h2; decide +kernel
  by_cases h3 : s = "logx_grid".toList
  · subst h3; decide +kernel
  by_cases h4 : s = "logx".toList
  · subst h4; decide +kernel
  rw [if_neg (by tauto), if_neg (by tauto)]
  apply dictGet_not_mem
  show s ∉ ["linear_grid".toList, "linear".toList, "logx_grid".toList, "logx".toList]
  simp only [List.mem_cons, List.not_mem_nil, or_false]
  tauto

example : kgridOfStr "1.5,7,0.25".toList = .ok [3 / 2, 7, 1 / 4] ∧ kgridOfStr "1.5,".toList = .error .valueError ∧
    funcOf "logx".toList = .ok .logx ∧ funcOf "log".toList = .error .keyError := by decide +kernel

end PP.Props
