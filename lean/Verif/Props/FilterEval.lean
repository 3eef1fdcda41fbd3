import Verif.Model.FilterEval
import Verif.Props.Partials

/-!
# C203, C204, C205: evaluation of the conditions of filters
-/

namespace PP.Spec

/-- State of a reader of python text: the quotation mark of the string being read, if any, and the number of open brackets. -/
def readChar (st : Option Char × ℕ) (ch : Char) : Option Char × ℕ :=
  match st.1 with
  | some q => if ch = q then (none, st.2) else st
  | none =>
    if ch = '"' ∨ ch = '\'' then (some ch, st.2)
    else if ch ∈ ['(', '[', '{'] then (none, st.2 + 1)
    else if ch ∈ [')', ']', '}'] then (none, st.2 - 1)
    else st

/-- The text ends inside a string or a bracket: it is not a python expression. -/
def Unclosed (s : List Char) : Prop := s.foldl readChar (none, 0) ≠ (none, 0)

instance (s : List Char) : Decidable (Unclosed s) := inferInstanceAs (Decidable (_ ≠ _))

end PP.Spec

namespace PP.Props
open PP

variable {V : Type}

/-- The dictionary after `eval`. -/
def withBuiltins (S : PySem V) (p : List (Str × V)) : List (Str × V) :=
  if builtinsKey ∈ dictKeys p then p else dictSet p builtinsKey S.builtins

/-- Truth value of a condition. -/
def condTest (S : PySem V) (parse : Str → Py (PyExpr V)) (c : Str) (p : List (Str × V)) : Py Bool :=
  (parse c >>= evalExpr S (withBuiltins S p)) >>= S.truth

theorem dictKeys_dictSet_mem (p : List (Str × V)) (k : Str) (v : V) : k ∈ dictKeys (dictSet p k v) := by
  induction p with
  | nil => simp [dictSet, dictKeys]
  | cons x p ih =>
    obtain ⟨k', v'⟩ := x
    unfold dictSet
    split
    · next h => simp [dictKeys, h]
    · simp only [dictKeys, List.map_cons, List.mem_cons]
      exact Or.inr ih

theorem withBuiltins_mem (S : PySem V) (p : List (Str × V)) : builtinsKey ∈ dictKeys (withBuiltins S p) := by
  unfold withBuiltins
  split
  · next h => exact h
  · exact dictKeys_dictSet_mem _ _ _

theorem withBuiltins_idem (S : PySem V) (p : List (Str × V)) : withBuiltins S (withBuiltins S p) = withBuiltins S p := by
  exact if_pos (withBuiltins_mem S p)

theorem withBuiltins_get (S : PySem V) (p : List (Str × V)) (k : Str) (hk : k ≠ builtinsKey) :
    dictGet (withBuiltins S p) k = dictGet p k := by
  unfold withBuiltins
  split
  · rfl
  · rw [dictGet_dictSet, if_neg hk]

theorem condTest_with (S : PySem V) (parse : Str → Py (PyExpr V)) (c : Str) (p : List (Str × V)) :
    condTest S parse c (withBuiltins S p) = condTest S parse c p := by
  unfold condTest
  rw [withBuiltins_idem]

theorem filterEval_cons (S : PySem V) (parse : Str → Py (PyExpr V)) (c : Str) (p : List (Str × V)) (ps : List (List (Str × V))) :
    filterEval S parse c (p :: ps) =
      match condTest S parse c p with
      | .error e => (withBuiltins S p :: ps, .error e)
      | .ok t => (withBuiltins S p :: (filterEval S parse c ps).1, do
          let g ← (filterEval S parse c ps).2
          return (if t then [0] else []) ++ g.map (· + 1)) := rfl

theorem filterEval_spec (S : PySem V) (parse : Str → Py (PyExpr V)) (c : Str) (ps : List (List (Str × V))) (g : List ℕ)
    (h : (filterEval S parse c ps).2 = .ok g) :
    g.Pairwise (· < ·) ∧ (∀ i, i ∈ g ↔ ∃ p, ps[i]? = some p ∧ condTest S parse c p = .ok true) ∧
    ∀ p ∈ ps, ∃ t, condTest S parse c p = .ok t := by
  induction ps generalizing g with
  | nil => cases h; simp
  | cons p ps ih =>
    rw [filterEval_cons] at h
    cases ht : condTest S parse c p with
    | error e => rw [ht] at h; cases h
    | ok t =>
      rw [ht] at h
      cases hg : (filterEval S parse c ps).2 with
      | error e => simp only [hg] at h; cases h
      | ok g' =>
        simp only [hg] at h
        cases h
        obtain ⟨i1, i2, i3⟩ := ih g' hg
        refine ⟨?_, ?_, ?_⟩
        · refine List.pairwise_append.2 ⟨?_, ?_, ?_⟩
          · split <;> simp
          · rw [List.pairwise_map]
            exact i1.imp fun h => by omega
          · intro a ha b hb
            obtain ⟨x, -, rfl⟩ := List.mem_map.1 hb
            split at ha
            · simp only [List.mem_cons, List.not_mem_nil, or_false] at ha; omega
            · cases ha
        · intro i
          rw [List.mem_append]
          cases i with
          | zero =>
            simp only [List.getElem?_cons_zero, Option.some.injEq, exists_eq_left', ht, Except.ok.injEq]
            cases t <;> simp
          | succ i =>
            simp only [List.getElem?_cons_succ, List.mem_map, Nat.add_right_cancel_iff, exists_eq_right, ← i2 i]
            constructor
            · rintro (h | h)
              · split at h <;> simp at h
              · exact h
            · exact Or.inr
        · intro q hq
          rcases List.mem_cons.1 hq with rfl | hq
          · exact ⟨t, ht⟩
          · exact i3 q hq

theorem filterEval_ok (S : PySem V) (parse : Str → Py (PyExpr V)) (c : Str) (ps : List (List (Str × V)))
    (h : ∀ p ∈ ps, ∃ t, condTest S parse c p = .ok t) : ∃ g, (filterEval S parse c ps).2 = .ok g := by
  induction ps with
  | nil => exact ⟨[], rfl⟩
  | cons p ps ih =>
    obtain ⟨t, ht⟩ := h p (by simp)
    obtain ⟨g, hg⟩ := ih fun q hq => h q (by simp [hq])
    rw [filterEval_cons, ht]
    simp only [hg]
    exact ⟨_, rfl⟩

theorem filterEval_fst (S : PySem V) (parse : Str → Py (PyExpr V)) (c : Str) (ps : List (List (Str × V))) :
    List.Forall₂ (fun p q => q = p ∨ q = withBuiltins S p) ps (filterEval S parse c ps).1 := by
  induction ps with
  | nil => exact .nil
  | cons p ps ih =>
    rw [filterEval_cons]
    cases condTest S parse c p with
    | error e => exact .cons (Or.inr rfl) (List.forall₂_same.2 fun _ _ => Or.inl rfl)
    | ok t => exact .cons (Or.inr rfl) ih

/-! ## C203 -/

theorem condTest_ok (S : PySem V) {parse : Str → Py (PyExpr V)} {c : Str} {e : PyExpr V} (h : parse c = .ok e)
    (p : List (Str × V)) : condTest S parse c p = evalExpr S (withBuiltins S p) e >>= S.truth := by
  unfold condTest
  rw [h]
  rfl

theorem condTest_and (S : PySem V) {parse : Str → Py (PyExpr V)} {a b c : Str} {ea eb : PyExpr V} (ha : parse a = .ok ea)
    (hb : parse b = .ok eb) (hc : parse c = .ok (.and ea eb)) (p : List (Str × V)) (s t : Bool)
    (h1 : condTest S parse a p = .ok s) (h2 : condTest S parse b p = .ok t) : condTest S parse c p = .ok (s && t) := by
  rw [condTest_ok S ha] at h1
  rw [condTest_ok S hb] at h2
  rw [condTest_ok S hc]
  cases hx : evalExpr S (withBuiltins S p) ea with
  | error e => rw [hx] at h1; cases h1
  | ok x =>
    rw [hx] at h1
    have h1 : S.truth x = .ok s := h1
    show (evalExpr S (withBuiltins S p) ea >>= fun x => S.truth x >>= fun t =>
      if t then evalExpr S (withBuiltins S p) eb else return x) >>= S.truth = _
    rw [hx]
    show (S.truth x >>= fun t => if t then evalExpr S (withBuiltins S p) eb else return x) >>= S.truth = _
    rw [h1]
    cases s
    · exact h1
    · exact h2

theorem condTest_or (S : PySem V) {parse : Str → Py (PyExpr V)} {a b c : Str} {ea eb : PyExpr V} (ha : parse a = .ok ea)
    (hb : parse b = .ok eb) (hc : parse c = .ok (.or ea eb)) (p : List (Str × V)) (s t : Bool)
    (h1 : condTest S parse a p = .ok s) (h2 : condTest S parse b p = .ok t) : condTest S parse c p = .ok (s || t) := by
  rw [condTest_ok S ha] at h1
  rw [condTest_ok S hb] at h2
  rw [condTest_ok S hc]
  cases hx : evalExpr S (withBuiltins S p) ea with
  | error e => rw [hx] at h1; cases h1
  | ok x =>
    rw [hx] at h1
    have h1 : S.truth x = .ok s := h1
    show (evalExpr S (withBuiltins S p) ea >>= fun x => S.truth x >>= fun t =>
      if t then return x else evalExpr S (withBuiltins S p) eb) >>= S.truth = _
    rw [hx]
    show (S.truth x >>= fun t => if t then return x else evalExpr S (withBuiltins S p) eb) >>= S.truth = _
    rw [h1]
    cases s
    · exact h2
    · exact h1

theorem condTest_not (S : PySem V) (hS : ∀ b, S.truth (S.ofBool b) = .ok b) {parse : Str → Py (PyExpr V)} {a c : Str}
    {ea : PyExpr V} (ha : parse a = .ok ea) (hc : parse c = .ok (.not ea)) (p : List (Str × V)) (s : Bool)
    (h1 : condTest S parse a p = .ok s) : condTest S parse c p = .ok !s := by
  rw [condTest_ok S ha] at h1
  rw [condTest_ok S hc]
  cases hx : evalExpr S (withBuiltins S p) ea with
  | error e => rw [hx] at h1; cases h1
  | ok x =>
    rw [hx] at h1
    have h1 : S.truth x = .ok s := h1
    show (evalExpr S (withBuiltins S p) ea >>= fun x => S.truth x >>= fun t => return S.ofBool !t) >>= S.truth = _
    rw [hx]
    show (S.truth x >>= fun t => return S.ofBool !t) >>= S.truth = _
    rw [h1]
    exact hS _

/-- **C203**, what holds: the particles of a group are in the order of the system and each is there once; the conditions
`a and b`, `a or b` select the particles selected by both and by at least one of `a` and `b`. -/
theorem C203_and_or_partial (S : PySem V) (parse : Str → Py (PyExpr V)) (a b c d : Str) (ea eb : PyExpr V)
    (ha : parse a = .ok ea) (hb : parse b = .ok eb) (hc : parse c = .ok (.and ea eb)) (hd : parse d = .ok (.or ea eb))
    (ps : List (List (Str × V))) (ga gb : List ℕ) (h1 : (filterEval S parse a ps).2 = .ok ga)
    (h2 : (filterEval S parse b ps).2 = .ok gb) :
    ∃ gc gd, (filterEval S parse c ps).2 = .ok gc ∧ (filterEval S parse d ps).2 = .ok gd ∧
      gc.Pairwise (· < ·) ∧ gd.Pairwise (· < ·) ∧ (∀ i, i ∈ gc ↔ i ∈ ga ∧ i ∈ gb) ∧ ∀ i, i ∈ gd ↔ i ∈ ga ∨ i ∈ gb := by
  obtain ⟨-, a2, a3⟩ := filterEval_spec S parse a ps ga h1
  obtain ⟨-, b2, b3⟩ := filterEval_spec S parse b ps gb h2
  obtain ⟨gc, hgc⟩ := filterEval_ok S parse c ps fun p hp => by
    obtain ⟨s, hs⟩ := a3 p hp
    obtain ⟨t, ht⟩ := b3 p hp
    exact ⟨_, condTest_and S ha hb hc p s t hs ht⟩
  obtain ⟨gd, hgd⟩ := filterEval_ok S parse d ps fun p hp => by
    obtain ⟨s, hs⟩ := a3 p hp
    obtain ⟨t, ht⟩ := b3 p hp
    exact ⟨_, condTest_or S ha hb hd p s t hs ht⟩
  obtain ⟨c1, c2, -⟩ := filterEval_spec S parse c ps gc hgc
  obtain ⟨d1, d2, -⟩ := filterEval_spec S parse d ps gd hgd
  refine ⟨gc, gd, hgc, hgd, c1, d1, fun i => ?_, fun i => ?_⟩
  · rw [c2, a2, b2]
    cases hi : ps[i]? with
    | none => simp
    | some p =>
      obtain ⟨s, hs⟩ := a3 p (List.mem_of_getElem? hi)
      obtain ⟨t, ht⟩ := b3 p (List.mem_of_getElem? hi)
      simp only [Option.some.injEq, exists_eq_left', hs, ht, condTest_and S ha hb hc p s t hs ht, Except.ok.injEq]
      cases s <;> cases t <;> simp
  · rw [d2, a2, b2]
    cases hi : ps[i]? with
    | none => simp
    | some p =>
      obtain ⟨s, hs⟩ := a3 p (List.mem_of_getElem? hi)
      obtain ⟨t, ht⟩ := b3 p (List.mem_of_getElem? hi)
      simp only [Option.some.injEq, exists_eq_left', hs, ht, condTest_or S ha hb hd p s t hs ht, Except.ok.injEq]
      cases s <;> cases t <;> simp

/-- **C203**, what holds: a comparison such as `radius > 1` selects the particles for whose attribute the comparison is true, in
the order of the system and once each. -/
theorem C203_compare_partial (S : PySem V) (parse : Str → Py (PyExpr V)) (c s op : Str) (v : V) (hk : s ≠ "__builtins__".toList)
    (hc : parse c = .ok (.cmp op (.name s) (.const v))) (ps : List (List (Str × V))) (xs : List V) (ts : List Bool)
    (hx : List.Forall₂ (fun p x => dictGet p s = .ok x) ps xs)
    (ht : List.Forall₂ (fun x t => (S.cmp op x v >>= S.truth) = .ok t) xs ts) :
    ∃ g, (filterEval S parse c ps).2 = .ok g ∧ g.Pairwise (· < ·) ∧ ∀ i, i ∈ g ↔ ts[i]? = some true := by
  have key : List.Forall₂ (fun p t => condTest S parse c p = .ok t) ps ts := by
    induction hx generalizing ts with
    | nil => cases ht; exact .nil
    | cons hx _ ih =>
      cases ht with
      | cons h1 h2 =>
        refine .cons ?_ (ih _ h2)
        rw [condTest_ok S hc]
        simp only [evalExpr, withBuiltins_get S _ s hk, hx]
        exact h1
  obtain ⟨g, hg⟩ := filterEval_ok S parse c ps fun p hp => by
    obtain ⟨i, hi, rfl⟩ := List.getElem_of_mem hp
    exact ⟨_, (List.forall₂_iff_get.1 key).2 i hi (key.length_eq ▸ hi)⟩
  obtain ⟨g1, g2, -⟩ := filterEval_spec S parse c ps g hg
  refine ⟨g, hg, g1, fun i => ?_⟩
  rw [g2]
  have hl := key.length_eq
  by_cases hi : i < ps.length
  · have := (List.forall₂_iff_get.1 key).2 i hi (hl ▸ hi)
    simp only [List.get_eq_getElem] at this
    rw [List.getElem?_eq_getElem hi, List.getElem?_eq_getElem (hl ▸ hi)]
    simp [this]
  · rw [List.getElem?_eq_none (by omega), List.getElem?_eq_none (by omega)]
    simp

/-- **C203**, what holds: `not a` selects the other particles. -/
theorem C203_not_partial (S : PySem V) (hS : ∀ b, S.truth (S.ofBool b) = .ok b) (parse : Str → Py (PyExpr V)) (a c : Str)
    (ea : PyExpr V) (ha : parse a = .ok ea) (hc : parse c = .ok (.not ea)) (ps : List (List (Str × V))) (ga : List ℕ)
    (h1 : (filterEval S parse a ps).2 = .ok ga) :
    ∃ gc, (filterEval S parse c ps).2 = .ok gc ∧ gc.Pairwise (· < ·) ∧ ∀ i, i ∈ gc ↔ i < ps.length ∧ i ∉ ga := by
  obtain ⟨-, a2, a3⟩ := filterEval_spec S parse a ps ga h1
  obtain ⟨gc, hgc⟩ := filterEval_ok S parse c ps fun p hp => by
    obtain ⟨s, hs⟩ := a3 p hp
    exact ⟨_, condTest_not S hS ha hc p s hs⟩
  obtain ⟨c1, c2, -⟩ := filterEval_spec S parse c ps gc hgc
  refine ⟨gc, hgc, c1, fun i => ?_⟩
  rw [c2, a2]
  cases hi : ps[i]? with
  | none =>
    have := List.getElem?_eq_none_iff.1 hi
    simp; omega
  | some p =>
    have hlt := (List.getElem?_eq_some_iff.1 hi).1
    obtain ⟨s, hs⟩ := a3 p (List.mem_of_getElem? hi)
    simp only [Option.some.injEq, exists_eq_left', hs, condTest_not S hS ha hc p s hs, Except.ok.injEq]
    cases s <;> simp [hlt]

/-- **C203**, what holds: a comparison with an attribute that some particle does not have raises an exception, if the name is
not one of those of the module `builtins`. -/
theorem C203_missing_partial (S : PySem V) (parse : Str → Py (PyExpr V)) (c s op : Str) (e : PyExpr V)
    (hc : parse c = .ok (.cmp op (.name s) e)) (hs : S.builtin s = none) (hk : s ≠ "__builtins__".toList)
    (ps : List (List (Str × V))) (p : List (Str × V)) (hp : p ∈ ps) (hm : s ∉ dictKeys p) :
    ∃ err, (filterEval S parse c ps).2 = .error err := by
  cases h : (filterEval S parse c ps).2 with
  | error e => exact ⟨e, rfl⟩
  | ok g =>
    exfalso
    obtain ⟨-, -, h3⟩ := filterEval_spec S parse c ps g h
    obtain ⟨t, ht⟩ := h3 p hp
    rw [condTest_ok S hc] at ht
    have hget : ∀ q : List (Str × V), s ∉ dictKeys q → dictGet q s = .error .keyError := by
      intro q
      induction q with
      | nil => intro _; rfl
      | cons x q ih =>
        intro hx
        obtain ⟨k, v⟩ := x
        simp only [dictKeys, List.map_cons, List.mem_cons, not_or] at hx
        unfold dictGet
        rw [if_neg fun h => hx.1 h.symm]
        exact ih hx.2
    have hn : evalExpr S (withBuiltins S p) (.name s) = .error .nameError := by
      simp only [evalExpr, withBuiltins_get S p s hk, hget p hm, hs]
    simp only [evalExpr, withBuiltins_get S p s hk, hget p hm, hs] at ht
    cases ht

/-- **C203** is false for the names of the module `builtins`: in a condition such as `id == 1` the name stands for the builtin
function if the particles do not have the attribute, and no particle is selected without an exception. -/
theorem C203_counterexample (S : PySem V) (hS : ∀ b, S.truth (S.ofBool b) = .ok b) (parse : Str → Py (PyExpr V)) (c s : Str)
    (f v : V) (hc : parse c = .ok (.cmp "==".toList (.name s) (.const v))) (hs : S.builtin s = some f)
    (hf : S.cmp "==".toList f v = .ok (S.ofBool false)) (hk : s ≠ "__builtins__".toList) (ps : List (List (Str × V)))
    (hm : ∀ p ∈ ps, s ∉ dictKeys p) : (filterEval S parse c ps).2 = .ok [] := by
  have ht : ∀ p ∈ ps, condTest S parse c p = .ok false := by
    intro p hp
    rw [condTest_ok S hc]
    have hget : dictGet p s = .error .keyError := by
      have hx := hm p hp
      clear hp
      induction p with
      | nil => rfl
      | cons x q ih =>
        obtain ⟨k, v⟩ := x
        simp only [dictKeys, List.map_cons, List.mem_cons, not_or] at hx
        unfold dictGet
        rw [if_neg fun h => hx.1 h.symm]
        exact ih hx.2
    simp only [evalExpr, withBuiltins_get S p s hk, hget, hs]
    show S.cmp _ f v >>= S.truth = _
    rw [hf]
    exact hS false
  obtain ⟨g, hg⟩ := filterEval_ok S parse c ps fun p hp => ⟨_, ht p hp⟩
  obtain ⟨-, h2, -⟩ := filterEval_spec S parse c ps g hg
  rw [hg]
  congr 1
  refine List.eq_nil_iff_forall_not_mem.2 fun i hi => ?_
  obtain ⟨p, hp, hpt⟩ := (h2 i).1 hi
  rw [ht p (List.mem_of_getElem? hp)] at hpt
  cases hpt

/-! ## C204 -/

/-- **C204**, what holds: a filter does not change the number of particles nor the values of their attributes, except for
`__builtins__`. -/
theorem C204_attributes_partial (S : PySem V) (parse : Str → Py (PyExpr V)) (c : Str) (ps : List (List (Str × V))) :
    List.Forall₂ (fun p q => ∀ k, k ≠ "__builtins__".toList → dictGet q k = dictGet p k) ps (filterEval S parse c ps).1 := by
  refine (filterEval_fst S parse c ps).imp ?_
  rintro p q (rfl | rfl) k hk
  · rfl
  · exact withBuiltins_get S p k hk

/-- **C204**, what holds: the groups selected by other filters do not change. -/
theorem C204_groups_partial (S : PySem V) (parse : Str → Py (PyExpr V)) (c c' : Str) (ps : List (List (Str × V))) :
    (filterEval S parse c (filterEval S parse c' ps).1).2 = (filterEval S parse c ps).2 := by
  have h := filterEval_fst S parse c' ps
  generalize (filterEval S parse c' ps).1 = qs at h
  induction h with
  | nil => rfl
  | @cons p q ps qs hpq _ ih =>
    have ht : condTest S parse c q = condTest S parse c p := by
      rcases hpq with rfl | rfl
      · rfl
      · exact condTest_with S parse c p
    rw [filterEval_cons, filterEval_cons, ht]
    cases condTest S parse c p with
    | error e => rfl
    | ok t => simp only [ih]

/-- **C204** is false: whatever the condition, a filter adds an attribute `__builtins__` to the first particle, and to all of
them if there are no exceptions. -/
theorem C204_counterexample (S : PySem V) (parse : Str → Py (PyExpr V)) (c : Str) (p : List (Str × V)) (ps : List (List (Str × V)))
    (hp : "__builtins__".toList ∉ dictKeys p) :
    (filterEval S parse c (p :: ps)).1 ≠ p :: ps ∧
    (∀ g, (filterEval S parse c (p :: ps)).2 = .ok g →
      ∀ q ∈ (filterEval S parse c (p :: ps)).1, "__builtins__".toList ∈ dictKeys q) := by
  constructor
  · intro h
    have hh : ((filterEval S parse c (p :: ps)).1).head? = some (withBuiltins S p) := by
      rw [filterEval_cons]
      cases condTest S parse c p <;> rfl
    rw [h] at hh
    simp only [List.head?_cons, Option.some.injEq] at hh
    exact hp (hh ▸ withBuiltins_mem S p)
  · intro g
    generalize p :: ps = l
    clear hp p ps
    induction l generalizing g with
    | nil => intro _ q hq; cases hq
    | cons p ps ih =>
      intro h q hq
      rw [filterEval_cons] at h hq
      cases ht : condTest S parse c p with
      | error e => rw [ht] at h; cases h
      | ok t =>
        rw [ht] at h hq
        cases hg : (filterEval S parse c ps).2 with
        | error e => simp only [hg] at h; cases h
        | ok g' =>
          rcases List.mem_cons.1 hq with rfl | hq
          · exact withBuiltins_mem S p
          · exact ih g' hg q hq

/-! ## C205 -/

/-- **C205**, what holds: a condition without commas selects the particles of the first group of a two-body function, the second
one has all the particles. -/
theorem C205_no_commas_partial (S : PySem V) (parse : Str → Py (PyExpr V)) (c : Str) (hc : ',' ∉ c) (ps : List (List (Str × V)))
    (g : List ℕ) (h : (filterEval S parse c ps).2 = .ok g) :
    (twoGroups S parse c ps).2 = .ok (g, List.range ps.length) := by
  unfold twoGroups pySplit
  rw [List.splitOn_eq_singleton hc]
  have hl := (filterEval_fst S parse c ps).length_eq
  simp only [h, ← hl]
  rfl

/-- **C205**, what holds: with two conditions without further commas, separated by a comma, the first group is that of the first one
and the second group is that of the second one. -/
theorem C205_two_partial (S : PySem V) (parse : Str → Py (PyExpr V)) (a b : Str) (ha : ',' ∉ a) (hb : ',' ∉ b)
    (ps : List (List (Str × V))) (g g' : List ℕ) (h : (filterEval S parse a ps).2 = .ok g) (h' : (filterEval S parse b ps).2 = .ok g') :
    (twoGroups S parse (a ++ ',' :: b) ps).2 = .ok (g, g') := by
  unfold twoGroups pySplit
  rw [List.splitOn_append_cons_self, List.splitOn_eq_singleton ha, List.splitOn_eq_singleton hb]
  rw [← C204_groups_partial S parse b a ps] at h'
  simp only [List.singleton_append, h, h']
  rfl

/-- **C205** is false: if the first comma of a condition is inside brackets or inside a string, as in `species in ("A", "B")`,
the two-body function raises an exception for every frame with particles, also if the condition is a valid expression. -/
theorem C205_counterexample (S : PySem V) (parse : Str → Py (PyExpr V)) (hparse : ∀ s, Spec.Unclosed s → ∃ e, parse s = .error e)
    (a b : Str) (ha : ',' ∉ a) (hu : Spec.Unclosed a) (p : List (Str × V)) (ps : List (List (Str × V))) :
    ∃ e, (twoGroups S parse (a ++ ',' :: b) (p :: ps)).2 = .error e := by
  obtain ⟨e, he⟩ := hparse a hu
  unfold twoGroups pySplit
  rw [List.splitOn_append_cons_self, List.splitOn_eq_singleton ha]
  have hr : (filterEval S parse a (p :: ps)).2 = .error e := by
    rw [filterEval_cons]
    have : condTest S parse a p = .error e := by
      unfold condTest
      rw [he]
      rfl
    rw [this]
  cases hb : b.splitOn ',' with
  | nil => exact absurd hb (List.splitOn_ne_nil _ _)
  | cons c l =>
    cases l with
    | nil =>
      simp only [List.singleton_append, hr]
      exact ⟨e, rfl⟩
    | cons d l => exact ⟨_, rfl⟩

/-! ## Examples -/

/-- Values of the examples: integers, strings, tuples of strings, functions and modules. -/
inductive ExObj
  | int (z : ℤ)
  | str (s : Str)
  | tup (l : List Str)
  | fn (s : Str)
  | mod
  deriving DecidableEq

/-- A few operators on these values. -/
def exSem : PySem ExObj where
  cmp op a b :=
    if op = "==".toList then .ok (.int (if a = b then 1 else 0))
    else match a, b with
      | .int x, .int y => if op = ">".toList then .ok (.int (if y < x then 1 else 0)) else .error .typeError
      | .str x, .tup l => if op = "in".toList then .ok (.int (if x ∈ l then 1 else 0)) else .error .typeError
      | _, _ => .error .typeError
  truth
    | .int z => .ok (decide (z ≠ 0))
    | .str s => .ok (decide (s ≠ []))
    | .tup l => .ok (decide (l ≠ []))
    | _ => .ok true
  ofBool b := .int (if b then 1 else 0)
  builtin s := if s = "id".toList then some (.fn s) else none
  builtins := .mod

theorem exSem_bool (b : Bool) : exSem.truth (exSem.ofBool b) = .ok b := by cases b <;> rfl

def exIsA : PyExpr ExObj := .cmp "==".toList (.name "species".toList) (.const (.str "A".toList))
def exBig : PyExpr ExObj := .cmp ">".toList (.name "charge".toList) (.const (.int 0))

/-- A parser for the texts of the examples. -/
def exParse (s : Str) : Py (PyExpr ExObj) :=
  if Spec.Unclosed s then .error .runtimeError
  else if s = "species == 'A'".toList then .ok exIsA
  else if s = "charge > 0".toList then .ok exBig
  else if s = "species == 'A' and charge > 0".toList then .ok (.and exIsA exBig)
  else if s = "species == 'A' or charge > 0".toList then .ok (.or exIsA exBig)
  else if s = "not species == 'A'".toList then .ok (.not exIsA)
  else if s = "spin > 0".toList then .ok (.cmp ">".toList (.name "spin".toList) (.const (.int 0)))
  else if s = "id == 1".toList then .ok (.cmp "==".toList (.name "id".toList) (.const (.int 1)))
  else if s = "species in ('A','B')".toList then .ok (.cmp "in".toList (.name "species".toList) (.const (.tup ["A".toList, "B".toList])))
  else .error .runtimeError

def exParticle (s : Str) (z : ℤ) : List (Str × ExObj) := [("species".toList, .str s), ("charge".toList, .int z)]

def exParticles : List (List (Str × ExObj)) := [exParticle "A".toList 1, exParticle "B".toList 2, exParticle "A".toList (-1)]

example : ∃ gc gd, (filterEval exSem exParse "species == 'A' and charge > 0".toList exParticles).2 = .ok gc ∧
    (filterEval exSem exParse "species == 'A' or charge > 0".toList exParticles).2 = .ok gd ∧ gc = [0] ∧ gd = [0, 1, 2] := by
  obtain ⟨gc, gd, h1, h2, -⟩ := C203_and_or_partial exSem exParse "species == 'A'".toList "charge > 0".toList
    "species == 'A' and charge > 0".toList "species == 'A' or charge > 0".toList exIsA exBig rfl rfl rfl rfl exParticles [0, 2] [0, 1]
    rfl rfl
  have e1 : (filterEval exSem exParse "species == 'A' and charge > 0".toList exParticles).2 = .ok [0] := rfl
  have e2 : (filterEval exSem exParse "species == 'A' or charge > 0".toList exParticles).2 = .ok [0, 1, 2] := rfl
  rw [e1] at h1
  rw [e2] at h2
  cases h1
  cases h2
  exact ⟨_, _, e1, e2, rfl, rfl⟩

example : ∃ gc, (filterEval exSem exParse "not species == 'A'".toList exParticles).2 = .ok gc ∧ gc.Pairwise (· < ·) ∧
    ∀ i, i ∈ gc ↔ i < exParticles.length ∧ i ∉ [0, 2] :=
  C203_not_partial exSem exSem_bool exParse "species == 'A'".toList _ exIsA rfl rfl exParticles [0, 2] rfl

example : ∃ err, (filterEval exSem exParse "spin > 0".toList exParticles).2 = .error err :=
  C203_missing_partial exSem exParse _ "spin".toList ">".toList (.const (.int 0)) rfl rfl (by decide) exParticles
    (exParticle "A".toList 1) (by simp [exParticles]) (by decide)

/-- The particles have no attribute `id`. -/
example : (filterEval exSem exParse "id == 1".toList exParticles).2 = .ok [] :=
  C203_counterexample exSem exSem_bool exParse _ "id".toList (.fn "id".toList) (.int 1) rfl rfl rfl (by decide) exParticles (by decide)

example : ((filterEval exSem exParse "charge > 0".toList exParticles).1.map dictKeys) =
    List.replicate 3 ["species".toList, "charge".toList, "__builtins__".toList] := by decide +kernel

example : (filterEval exSem exParse "charge > 0".toList (filterEval exSem exParse "id == 1".toList exParticles).1).2 = .ok [0, 1] :=
  (C204_groups_partial exSem exParse _ _ exParticles).trans rfl

example : (filterEval exSem exParse "id == 1".toList exParticles).1 ≠ exParticles :=
  (C204_counterexample exSem exParse _ (exParticle "A".toList 1) _ (by decide)).1

example : (twoGroups exSem exParse "charge > 0".toList exParticles).2 = .ok ([0, 1], [0, 1, 2]) :=
  C205_no_commas_partial exSem exParse _ (by decide) exParticles [0, 1] rfl

example : (twoGroups exSem exParse "charge > 0,species == 'A'".toList exParticles).2 = .ok ([0, 1], [0, 2]) :=
  C205_two_partial exSem exParse "charge > 0".toList "species == 'A'".toList (by decide) (by decide) exParticles _ _ rfl rfl

example : ∃ g, (filterEval exSem exParse "charge > 0".toList exParticles).2 = .ok g ∧ g.Pairwise (· < ·) ∧
    ∀ i, i ∈ g ↔ [true, true, false][i]? = some true :=
  C203_compare_partial exSem exParse _ "charge".toList ">".toList (.int 0) (by decide) rfl exParticles [.int 1, .int 2, .int (-1)]
    [true, true, false] (by simp [exParticles, exParticle, dictGet]) (by
      refine .cons rfl (.cons rfl (.cons rfl .nil)))

/-- The condition is a valid one. -/
example : (filterEval exSem exParse "species in ('A','B')".toList exParticles).2 = .ok [0, 1, 2] ∧
    ∃ e, (twoGroups exSem exParse "species in ('A','B')".toList exParticles).2 = .error e :=
  ⟨rfl, C205_counterexample exSem exParse (fun s hs => ⟨_, if_pos hs⟩) "species in ('A'".toList "'B')".toList (by decide) (by decide) _ _⟩

end PP.Props
