import Verif.Props.Arrays
import Verif.Lemmas.Expo

/-!
# C182: species are numbered in the same way in all frames and groups
-/

set_option linter.unusedSectionVars false

namespace PP.Props
open PP

section
variable {d : ℕ} {S K Y : Type} [Field K] [DecidableEq S]

/-- The particles of the second group: those of the second filter, else of the first one, else all. -/
def secondGroup (cbk : List (ASys d S K Y → ASys d S K Y)) (s : ASys d S K Y) : ASys d S K Y :=
  match cbk with
  | [] => s
  | [c] => c s
  | _ :: c :: _ => c s

/-- The number of a species in a list. -/
def speciesCode (names : List S) (a : S) : ℕ := (names.idxOf? a).getD 0

theorem speciesIndex_mem {names : List S} {a : S} (h : a ∈ names) :
    speciesIndex names a = .ok (speciesCode names a) ∧ names[speciesCode names a]? = some a := by
  unfold speciesIndex speciesCode
  have h1 : (names.idxOf? a).isSome := by rw [List.isSome_idxOf?]; exact h
  obtain ⟨i, hi⟩ := Option.isSome_iff_exists.1 h1
  rw [hi]
  obtain ⟨h2, h3, -⟩ := List.idxOf?_eq_some_iff.1 hi
  refine ⟨rfl, ?_⟩
  rw [Option.getD_some, List.getElem?_eq_getElem h2, h3]

theorem speciesIndex_not_mem {names : List S} {a : S} (h : a ∉ names) : speciesIndex names a = .error .valueError := by
  unfold speciesIndex
  rw [List.idxOf?_eq_none_iff.2 h]

theorem dumpAllIds_codes {phasespace : List PhaseVar} (hps : .ids ∈ phasespace) (names : List S) (l : List (ASys d S K Y))
    (h : ∀ s ∈ l, ∀ p ∈ s.particle, p.species ∈ names) :
    dumpAllIds phasespace names l = .ok (l.map fun s => s.particle.map fun p => speciesCode names p.species) := by
  unfold dumpAllIds
  rw [if_pos hps]
  refine mapM_ok_map fun s hs => ?_
  unfold dumpIds
  exact mapM_ok_map fun p hp => (speciesIndex_mem (h s hs p hp)).1

theorem mapM_value {α β : Type} {f : α → Py β} (hf : ∀ a e, f a = .error e → e = .valueError) {l : List α}
    (h : ∃ a ∈ l, f a = .error .valueError) : l.mapM f = .error .valueError := by
  induction l with
  | nil => obtain ⟨a, ha, -⟩ := h; simp at ha
  | cons b l ih =>
    rw [List.mapM_cons]
    cases hb : f b with
    | error e => rw [hf b e hb]; rfl
    | ok v =>
      obtain ⟨a, ha, hae⟩ := h
      rcases List.mem_cons.1 ha with rfl | ha
      · rw [hb] at hae; cases hae
      · rw [ih ⟨a, ha, hae⟩]; rfl

theorem mapM_value_only {α β : Type} {f : α → Py β} (hf : ∀ a e, f a = .error e → e = .valueError) (l : List α)
    (e : PyErr) (h : l.mapM f = .error e) : e = .valueError := by
  induction l with
  | nil => cases h
  | cons b l ih =>
    rw [List.mapM_cons] at h
    cases hb : f b with
    | error e' =>
      rw [hb] at h
      cases h
      exact hf b _ hb
    | ok v =>
      rw [hb] at h
      cases hl : l.mapM f with
      | error e' =>
        rw [hl] at h
        cases h
        exact ih hl
      | ok w => rw [hl] at h; cases h

theorem speciesIndex_only (names : List S) (a : S) (e : PyErr) (h : speciesIndex names a = .error e) : e = .valueError := by
  unfold speciesIndex at h
  split at h <;> cases h
  rfl

theorem dumpAllIds_only {phasespace : List PhaseVar} (names : List S) (l : List (ASys d S K Y))
    (e : PyErr) (h : dumpAllIds phasespace names l = .error e) : e = .valueError := by
  unfold dumpAllIds at h
  split at h
  · exact mapM_value_only (fun s e h => mapM_value_only (fun p e h => speciesIndex_only _ _ e h) _ e h) _ e h
  · cases h

theorem dumpAllIds_error {phasespace : List PhaseVar} (hps : .ids ∈ phasespace) (names : List S) (l : List (ASys d S K Y))
    (h : ∃ s ∈ l, ∃ p ∈ s.particle, p.species ∉ names) : dumpAllIds phasespace names l = .error .valueError := by
  unfold dumpAllIds
  rw [if_pos hps]
  obtain ⟨s, hs, p, hp, hn⟩ := h
  refine mapM_value (fun s e h => mapM_value_only (fun p e h => speciesIndex_only _ _ e h) _ e h) ⟨s, hs, ?_⟩
  exact mapM_value (fun p e h => speciesIndex_only _ _ e h) ⟨p, hp, speciesIndex_not_mem hn⟩

/-- The arrays of positions and species of the two groups, if no unfolding is needed. -/
theorem setup_two (distinct : List S → List S) (dec : Decorators d S K Y) (s0 : ASys d S K Y) (l : List (ASys d S K Y))
    (o : ArrObj d S K Y) (h2 : o.nbodies = 2) (hids : .ids ∈ o.phasespace) (hpos : .pos ∈ o.phasespace)
    (hunf : .posUnf ∉ o.phasespace) (hcm : o.fixCm = false) (ho : o.pos = [] ∧ o.pos0 = [] ∧ o.pos1 = []) 
    (hi : o.ids = [] ∧ o.ids0 = [] ∧ o.ids1 = []) :
    (setupArrays distinct dec (s0 :: l) o).map (fun o' => (o'.pos0, o'.ids0, o'.pos1, o'.ids1)) = (do
      let a ← dumpAllIds o.phasespace (distinct (s0.particle.map APart.species)) ((s0 :: l).map (firstFilter o.cbk))
      let b ← dumpAllIds o.phasespace (distinct (s0.particle.map APart.species)) ((s0 :: l).map (secondGroup o.cbk))
      return ((s0 :: l).map fun s => dumpPos (firstFilter o.cbk s), a, (s0 :: l).map fun s => dumpPos (secondGroup o.cbk s), b)) := by
  obtain ⟨p1, p2, p3⟩ := ho
  obtain ⟨i1, i2, i3⟩ := hi
  unfold setupArrays
  rw [if_neg (by omega), if_pos h2]
  have one : ∀ g : ASys d S K Y → ASys d S K Y, firstFilter o.cbk = g →
      setupOnebody distinct dec (s0 :: l) o = (do
        let a ← dumpAllIds o.phasespace (distinct (s0.particle.map APart.species)) ((s0 :: l).map g)
        return { o with
          pos := (s0 :: l).map fun s => dumpPos (g s)
          vel := o.vel ++ (if .vel ∈ o.phasespace then ((s0 :: l).map g).map dumpVel else [])
          ids := a }) := by
    intro g hg
    have hch : chooseTraj dec o (s0 :: l) = .ok (s0 :: l, o.unfolded) := by
      unfold chooseTraj unfoldedMissing
      rw [if_neg hunf, hcm]
      simp [bind, Except.bind, pure, Except.pure]
    have hget : pyGet (s0 :: l) 0 = .ok s0 := rfl
    unfold setupOnebody
    rw [hch]
    simp only [bind, Except.bind]
    unfold readFolded
    simp only [hpos, hids, true_or, or_true, if_true, hget, bind, Except.bind, hg, p1, i1, List.nil_append]
    cases dumpAllIds o.phasespace (distinct (s0.particle.map APart.species)) ((s0 :: l).map g) with
    | error e => rfl
    | ok a =>
      simp only [pure, Except.pure, readUnfolded, hunf, if_false, List.map_map]
      rfl
  match hcb : o.cbk with
  | [] =>
    have := one id (by rw [hcb]; rfl)
    have e0 : firstFilter ([] : List (ASys d S K Y → ASys d S K Y)) = id := rfl
    have e1 : secondGroup ([] : List (ASys d S K Y → ASys d S K Y)) = id := rfl
    simp only [setupTwobody, hcb, this, e0, e1]
    cases dumpAllIds o.phasespace (distinct (s0.particle.map APart.species)) ((s0 :: l).map id) with
    | error e => rfl
    | ok a => rfl
  | [c] =>
    have := one c (by rw [hcb]; rfl)
    have e0 : firstFilter [c] = c := rfl
    have e1 : secondGroup [c] = c := rfl
    simp only [setupTwobody, hcb, this, e0, e1]
    cases dumpAllIds o.phasespace (distinct (s0.particle.map APart.species)) ((s0 :: l).map c) with
    | error e => rfl
    | ok a => rfl
  | c0 :: c1 :: cs =>
    have hget : pyGet (s0 :: l) 0 = .ok s0 := rfl
    have e0 : firstFilter (c0 :: c1 :: cs) = c0 := rfl
    have e1 : secondGroup (c0 :: c1 :: cs) = c1 := rfl
    simp only [setupTwobody, hcb, e0, e1, readTwo]
    simp only [hpos, hids, true_or, or_true, if_true, hget, bind, Except.bind, p2, p3, i2, i3, List.nil_append]
    cases dumpAllIds o.phasespace (distinct (s0.particle.map APart.species)) ((s0 :: l).map c0) with
    | error e => rfl
    | ok a =>
      cases dumpAllIds o.phasespace (distinct (s0.particle.map APart.species)) ((s0 :: l).map c1) with
      | error e => rfl
      | ok b =>
        simp only [hunf, if_false]
        rfl

/-- **C182, what holds**: if all species are found in the first frame, each species has the same number in all frames and in
both groups, different species have different numbers, smaller than the number of species, and the numbers are in the
order of the positions. -/
theorem C182_numbers_partial (distinct : List S → List S) (hd : ∀ l a, a ∈ distinct l ↔ a ∈ l) (dec : Decorators d S K Y)
    (s0 : ASys d S K Y) (l : List (ASys d S K Y)) (o : ArrObj d S K Y) (h2 : o.nbodies = 2)
    (hids : .ids ∈ o.phasespace) (hpos : .pos ∈ o.phasespace) (hunf : .posUnf ∉ o.phasespace) (hcm : o.fixCm = false)
    (ho : Spec.FreshArrays o) (hi : o.ids = [] ∧ o.ids0 = [] ∧ o.ids1 = [] ∧ o.pos0 = [] ∧ o.pos1 = [])
    (hc : ∀ c ∈ o.cbk, ∀ s, ∀ p ∈ (c s).particle, p ∈ s.particle)
    (hs : ∀ s ∈ l, ∀ p ∈ s.particle, ∃ q ∈ s0.particle, q.species = p.species) :
    ∃ (o' : ArrObj d S K Y) (code : S → ℕ), setupArrays distinct dec (s0 :: l) o = .ok o' ∧
      (∀ p ∈ s0.particle, ∀ q ∈ s0.particle, code p.species = code q.species → p.species = q.species) ∧
      (∀ p ∈ s0.particle, code p.species < (distinct (s0.particle.map APart.species)).length) ∧
      o'.pos0 = (s0 :: l).map (fun s => (firstFilter o.cbk s).particle.map APart.pos) ∧
      o'.ids0 = (s0 :: l).map (fun s => (firstFilter o.cbk s).particle.map fun p => code p.species) ∧
      o'.pos1 = (s0 :: l).map (fun s => (secondGroup o.cbk s).particle.map APart.pos) ∧
      o'.ids1 = (s0 :: l).map (fun s => (secondGroup o.cbk s).particle.map fun p => code p.species) := by
  have h := setup_two distinct dec s0 l o h2 hids hpos hunf hcm ⟨ho.pos, hi.2.2.2⟩ ⟨hi.1, hi.2.1, hi.2.2.1⟩
  set names := distinct (s0.particle.map APart.species) with hn
  have hmem : ∀ p ∈ s0.particle, p.species ∈ names := fun p hp => (hd _ _).2 (List.mem_map_of_mem hp)
  have hall : ∀ s ∈ s0 :: l, ∀ p ∈ s.particle, p.species ∈ names := by
    intro s hs' p hp
    rcases List.mem_cons.1 hs' with rfl | hs'
    · exact hmem p hp
    · obtain ⟨q, hq, e⟩ := hs s hs' p hp
      rw [← e]
      exact hmem q hq
  have hf : ∀ s, ∀ p ∈ (firstFilter o.cbk s).particle, p ∈ s.particle := by
    intro s p hp
    unfold firstFilter at hp
    split at hp
    · exact hp
    · rename_i c cs hcb
      exact hc c (by rw [hcb]; simp) s p hp
  have hg : ∀ s, ∀ p ∈ (secondGroup o.cbk s).particle, p ∈ s.particle := by
    intro s p hp
    unfold secondGroup at hp
    split at hp
    · exact hp
    · rename_i c hcb
      exact hc c (by rw [hcb]; simp) s p hp
    · rename_i c' c cs hcb
      exact hc c (by rw [hcb]; simp) s p hp
  rw [dumpAllIds_codes hids names _ (by
      intro s hs' p hp
      obtain ⟨t, ht, rfl⟩ := List.mem_map.1 hs'
      exact hall t ht p (hf t p hp)),
    dumpAllIds_codes hids names _ (by
      intro s hs' p hp
      obtain ⟨t, ht, rfl⟩ := List.mem_map.1 hs'
      exact hall t ht p (hg t p hp))] at h
  cases hr : setupArrays distinct dec (s0 :: l) o with
  | error e => rw [hr] at h; cases h
  | ok o' =>
    rw [hr] at h
    simp only [Except.map, bind, Except.bind, pure, Except.pure, Except.ok.injEq, Prod.mk.injEq, List.map_map] at h
    obtain ⟨e1, e2, e3, e4⟩ := h
    refine ⟨o', speciesCode names, rfl, ?_, ?_, e1, e2, e3, e4⟩
    · intro p hp q hq e
      have h1 := (speciesIndex_mem (hmem p hp)).2
      have h2 := (speciesIndex_mem (hmem q hq)).2
      rw [e, h2] at h1
      exact (Option.some.inj h1).symm
    · intro p hp
      exact (List.getElem?_eq_some_iff.1 (speciesIndex_mem (hmem p hp)).2).1

/-- **C182** is false: a species which is not in the first frame makes the calculation fail with `ValueError`, if its
particles are in one of the groups. -/
theorem C182_counterexample_new (distinct : List S → List S) (hd : ∀ l a, a ∈ distinct l ↔ a ∈ l) (dec : Decorators d S K Y)
    (s0 : ASys d S K Y) (l : List (ASys d S K Y)) (o : ArrObj d S K Y) (h2 : o.nbodies = 2)
    (hids : .ids ∈ o.phasespace) (hpos : .pos ∈ o.phasespace) (hunf : .posUnf ∉ o.phasespace) (hcm : o.fixCm = false)
    (ho : Spec.FreshArrays o) (hi : o.ids = [] ∧ o.ids0 = [] ∧ o.ids1 = [] ∧ o.pos0 = [] ∧ o.pos1 = [])
    (s : ASys d S K Y) (hs : s ∈ l) (p : APart d S K)
    (hp : p ∈ (firstFilter o.cbk s).particle ∨ p ∈ (secondGroup o.cbk s).particle)
    (hnew : ∀ q ∈ s0.particle, q.species ≠ p.species) :
    setupArrays distinct dec (s0 :: l) o = .error .valueError := by
  have h := setup_two distinct dec s0 l o h2 hids hpos hunf hcm ⟨ho.pos, hi.2.2.2⟩ ⟨hi.1, hi.2.1, hi.2.2.1⟩
  set names := distinct (s0.particle.map APart.species) with hn
  have hnot : p.species ∉ names := by
    intro hm
    obtain ⟨q, hq, e⟩ := List.mem_map.1 ((hd _ _).1 hm)
    exact hnew q hq e
  have key : (setupArrays distinct dec (s0 :: l) o).map (fun o' => (o'.pos0, o'.ids0, o'.pos1, o'.ids1)) =
      .error .valueError := by
    rw [h]
    rcases hp with hp | hp
    · rw [dumpAllIds_error hids names _ ⟨_, List.mem_map_of_mem (List.mem_cons_of_mem _ hs), p, hp, hnot⟩]
      rfl
    · cases ha : dumpAllIds o.phasespace names ((s0 :: l).map (firstFilter o.cbk)) with
      | error e => rw [dumpAllIds_only names _ e ha]; rfl
      | ok a =>
        rw [dumpAllIds_error hids names _ ⟨_, List.mem_map_of_mem (List.mem_cons_of_mem _ hs), p, hp, hnot⟩]
        rfl
  cases hr : setupArrays distinct dec (s0 :: l) o with
  | error e => rw [hr] at key; cases key; rfl
  | ok o' => rw [hr] at key; cases key

end

/-- Species 7 is not in the first frame; without the last frame species 3 and 5 are numbered 0 and 1. -/
def idsExample : List (ASys 1 ℕ ℚ Unit) :=
  [⟨[⟨![0], none, ![0], 3, 1⟩, ⟨![2], none, ![0], 5, 1⟩], ()⟩,
   ⟨[⟨![1], none, ![0], 5, 1⟩, ⟨![4], none, ![0], 3, 1⟩, ⟨![5], none, ![0], 5, 1⟩], ()⟩,
   ⟨[⟨![1], none, ![0], 5, 1⟩, ⟨![4], none, ![0], 7, 1⟩], ()⟩]

/-- As in the bond-angle distribution around particles of species 5. -/
def idsObject : ArrObj 1 ℕ ℚ Unit :=
  { nbodies := 2, phasespace := [.pos, .ids], fixCm := false, cbk := [filterGeneric fun p => p.species = 5, id] }

example : ((setupArrays (fun l => l.dedup) decExample (idsExample.take 2) idsObject).map fun o => (o.ids0, o.ids1)) =
    .ok ([[1], [1, 1]], [[0, 1], [1, 0, 1]]) := by decide +kernel

example : setupArrays (fun l => l.dedup) decExample idsExample idsObject = .error .valueError :=
  C182_counterexample_new _ (by simp) _ _ _ _ rfl (by decide) (by decide) (by decide) rfl ⟨rfl, rfl, rfl, rfl, rfl⟩
    ⟨rfl, rfl, rfl, rfl, rfl⟩ ⟨[⟨![1], none, ![0], 5, 1⟩, ⟨![4], none, ![0], 7, 1⟩], ()⟩ (by simp) ⟨![4], none, ![0], 7, 1⟩
    (Or.inr (by simp [idsObject, secondGroup])) (by simp)

end PP.Props
