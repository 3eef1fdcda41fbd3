import Verif.Props.Sk
import Mathlib.Algebra.BigOperators.Field

/-!
# Partial structure factors (C52)
-/

set_option linter.unusedSectionVars false

namespace PP.Props

open Classical

variable {d : ℕ} {σ : Type}

/-- A frame of a mixture: the particles with their species, and the wave-vectors. -/
abbrev MixFrame (d : ℕ) (σ : Type) := List (Vec d ℝ × σ) × KState d ℝ

/-- Positions of the particles of species `a`. -/
noncomputable def ofSpecies (ps : List (Vec d ℝ × σ)) (a : σ) : List (Vec d ℝ) :=
  (ps.filter fun e => decide (e.2 = a)).map Prod.fst

/-- The calculation without filters. -/
noncomputable def totalSk (mix : List (MixFrame d σ)) (skip nk : ℕ) : SkObj d :=
  { same := true, weighted := false, skip := skip, nk := nk,
    frames := mix.map fun m => ⟨m.1.map Prod.fst, m.1.map Prod.fst, [], [], m.2⟩ }

/-- The calculation for a pair of species: one filter if they are equal, two otherwise. -/
noncomputable def partialSk (mix : List (MixFrame d σ)) (skip nk : ℕ) (a b : σ) : SkObj d :=
  { same := decide (a = b), weighted := false, skip := skip, nk := nk,
    frames := mix.map fun m => ⟨ofSpecies m.1 a, ofSpecies m.1 b, [], [], m.2⟩ }

/-- Mean number of particles of a species. -/
noncomputable def meanOf (mix : List (MixFrame d σ)) (a : σ) : ℝ :=
  (((mix.map fun m => (ofSpecies m.1 a).length).sum : ℕ) : ℝ) / mix.length

/-- Two groups of particles chosen by `p` and `q`. -/
def pairSk (mix : List (MixFrame d σ)) (skip nk : ℕ) (same : Bool) (p q : List (Vec d ℝ × σ) → List (Vec d ℝ)) :
    SkObj d :=
  { same := same, weighted := false, skip := skip, nk := nk,
    frames := mix.map fun m => ⟨p m.1, q m.1, [], [], m.2⟩ }

theorem density_species (k : Fin d → ℝ) (ps : List (Vec d ℝ × σ)) (S : Finset σ) (hS : ∀ e ∈ ps, e.2 ∈ S) :
    Spec.density k (ps.map Prod.fst) = ∑ a ∈ S, Spec.density k (ofSpecies ps a) := by
  unfold Spec.density ofSpecies
  induction ps with
  | nil => simp
  | cons e ps ih =>
    rw [List.map_cons, List.map_cons, List.sum_cons, ih fun x hx => hS x (by simp [hx])]
    have : ∀ a, ((((e :: ps).filter fun e => decide (e.2 = a)).map Prod.fst).map fun x =>
        Complex.exp (Complex.I * (Spec.dot k x : ℝ))).sum =
        (if e.2 = a then Complex.exp (Complex.I * (Spec.dot k e.1 : ℝ)) else 0) +
        (((ps.filter fun e => decide (e.2 = a)).map Prod.fst).map fun x =>
          Complex.exp (Complex.I * (Spec.dot k x : ℝ))).sum := by
      intro a
      by_cases h : e.2 = a
      · simp [List.filter_cons, h]
      · simp [List.filter_cons, h]
    rw [Finset.sum_congr rfl fun a _ => this a, Finset.sum_add_distrib, Finset.sum_ite_eq, if_pos (hS e (by simp))]

theorem mean_pos_species {mix : List (MixFrame d σ)} (hne : mix ≠ []) {a : σ} (h : ∀ m ∈ mix, ofSpecies m.1 a ≠ []) :
    0 < meanOf mix a := by
  unfold meanOf
  refine div_pos ?_ (by exact_mod_cast List.length_pos_iff.2 hne)
  obtain ⟨m, hm⟩ := List.exists_mem_of_ne_nil _ hne
  have h1 := List.length_pos_iff.2 (h m hm)
  have h2 := List.single_le_sum (l := mix.map fun m => (ofSpecies m.1 a).length) (fun _ _ => Nat.zero_le _) _
    (List.mem_map.2 ⟨m, hm, rfl⟩)
  have : 0 < (mix.map fun m => (ofSpecies m.1 a).length).sum := by omega
  exact_mod_cast this

theorem sum_comm_list {α β : Type} (l : List α) (S : Finset β) (F : α → β → ℝ) :
    (l.map fun x => ∑ a ∈ S, F x a).sum = ∑ a ∈ S, (l.map fun x => F x a).sum := by
  induction l with
  | nil => simp
  | cons x l ih => simp only [List.map_cons, List.sum_cons, ih, Finset.sum_add_distrib]

/-- C52: with the same wave-vectors, `N S(k) = Σ_ab sqrt(N_a N_b) S_ab(k)` at every grid point, and the partial
structure factors are symmetric. `N`, `N_a` are mean numbers of particles: the composition may change with time. -/
theorem C52_sum (hd : d = 2 ∨ d = 3) (mix : List (MixFrame d σ)) (skip nk : ℕ) (hne : mix ≠ []) (hskip : 0 < skip)
    (S : Finset σ) (hS : ∀ m ∈ mix, ∀ e ∈ m.1, e.2 ∈ S) (hpres : ∀ m ∈ mix, ∀ a ∈ S, ∃ e ∈ m.1, e.2 = a)
    (hpos : ∀ m ∈ mix, m.1 ≠ []) (hall : ∀ m ∈ mix, Allowed m.2)
    (hsh : ∀ m ∈ mix, m.2.kvectors.length = nk ∧ ∀ l ∈ m.2.kvectors, l ≠ []) :
    ∃ (total nonorm : List ℝ) (part pnonorm : σ → σ → List ℝ),
      skLegacy (totalSk mix skip nk) = .ok (total, nonorm) ∧
      (∀ a ∈ S, ∀ b ∈ S, skLegacy (partialSk mix skip nk a b) = .ok (part a b, pnonorm a b)) ∧
      (∀ a ∈ S, ∀ b ∈ S, part a b = part b a) ∧
      ∀ n < nk, (((mix.map fun m => m.1.length).sum : ℕ) : ℝ) / mix.length * total.getD n 0 =
        ∑ a ∈ S, ∑ b ∈ S, √(meanOf mix a * meanOf mix b) * (part a b).getD n 0 := by
  have hsp : ∀ m ∈ mix, ∀ a ∈ S, ofSpecies m.1 a ≠ [] := by
    intro m hm a ha hc
    obtain ⟨e, he, rfl⟩ := hpres m hm a ha
    unfold ofSpecies at hc
    rw [List.map_eq_nil_iff, List.filter_eq_nil_iff] at hc
    exact hc e he (by simp)
  have hT : SkRegular (totalSk mix skip nk) := by
    refine ⟨by simpa [totalSk] using hne, hskip, Or.inl rfl, ?_, ?_, ?_, ?_, ?_⟩
    · intro _ f hf
      obtain ⟨m, hm, rfl⟩ := List.mem_map.1 hf
      exact ⟨rfl, rfl⟩
    all_goals
      intro f hf
      obtain ⟨m, hm, rfl⟩ := List.mem_map.1 hf
    · simpa using hpos m hm
    · simpa using hpos m hm
    · exact hall m hm
    · exact hsh m hm
  have hP : ∀ a ∈ S, ∀ b ∈ S, SkRegular (partialSk mix skip nk a b) := by
    intro a ha b hb
    refine ⟨by simpa [partialSk] using hne, hskip, Or.inr hd, ?_, ?_, ?_, ?_, ?_⟩
    · intro hs f hf
      obtain ⟨m, hm, rfl⟩ := List.mem_map.1 hf
      have : a = b := by simpa [partialSk] using hs
      subst this
      exact ⟨rfl, rfl⟩
    all_goals
      intro f hf
      obtain ⟨m, hm, rfl⟩ := List.mem_map.1 hf
    · exact hsp m hm a ha
    · exact hsp m hm b hb
    · exact hall m hm
    · exact hsh m hm
  have mp : ∀ (p q : List (Vec d ℝ × σ) → List (Vec d ℝ)) (same : Bool) (n : ℕ),
      modeProducts (pairSk mix skip nk same p q) n =
      ((Spec.everyNth skip mix).flatMap fun m => ((kvectorsGet m.2).getD n []).map fun k => (m.1, k)).map fun e =>
        (Spec.density e.2 (p e.1) * star (Spec.density e.2 (q e.1))).re := by
    intro p q same n
    unfold modeProducts pairSk
    simp only
    rw [everyNth_map, List.flatMap_map, List.map_flatMap]
    congr 1
    funext m
    rw [List.map_map]; rfl
  set L := fun n => (Spec.everyNth skip mix).flatMap fun m => ((kvectorsGet m.2).getD n []).map fun k => (m.1, k) with hL
  have hLS : ∀ n, ∀ e ∈ L n, ∀ x ∈ e.1, x.2 ∈ S := by
    intro n e he x hx
    obtain ⟨m, hm, he⟩ := List.mem_flatMap.1 he
    obtain ⟨k, -, rfl⟩ := List.mem_map.1 he
    rw [← originFrames_eq _ hskip] at hm
    exact hS m (originFrames_mem hm) x hx
  obtain ⟨total, nonorm, h1, h2, h3, h4⟩ := C80_definition _ hT rfl
  have hdef : ∀ a b, ∃ r : List ℝ × List ℝ, a ∈ S → b ∈ S → skLegacy (partialSk mix skip nk a b) = .ok r ∧
      r.1.length = nk ∧ r.2.length = nk ∧ ∀ n < nk,
        r.2.getD n 0 = ((L n).map fun e => (Spec.density e.2 (ofSpecies e.1 a) *
          star (Spec.density e.2 (ofSpecies e.1 b))).re).sum / (L n).length ∧
        r.1.getD n 0 = r.2.getD n 0 / √(meanOf mix a * meanOf mix b) := by
    intro a b
    by_cases hab : a ∈ S ∧ b ∈ S
    · obtain ⟨v, u, g1, g2, g3, g4⟩ := C80_definition _ (hP a hab.1 b hab.2) rfl
      refine ⟨(v, u), fun _ _ => ⟨g1, g2, g3, fun n hn => ?_⟩⟩
      obtain ⟨g5, g6⟩ := g4 n hn
      have e := mp (fun ps => ofSpecies ps a) (fun ps => ofSpecies ps b) (decide (a = b)) n
      refine ⟨?_, ?_⟩
      · have e' : modeProducts (partialSk mix skip nk a b) n = _ := e
        rw [g5, e', List.length_map]
      · rw [g6]
        unfold partialSk meanOf
        simp only [List.map_map, List.length_map]
        rfl
    · exact ⟨([], []), fun ha hb => absurd ⟨ha, hb⟩ hab⟩
  choose r hr using hdef
  refine ⟨total, nonorm, fun a b => (r a b).1, fun a b => (r a b).2, h1, fun a ha b hb => (hr a b ha hb).1, ?_, ?_⟩
  · intro a ha b hb
    obtain ⟨-, l1, -, g1⟩ := hr a b ha hb
    obtain ⟨-, l2, -, g2⟩ := hr b a hb ha
    show (r a b).1 = (r b a).1
    apply List.ext_getElem (by omega)
    intro n hn hn'
    have e1 := (g1 n (by omega)).2
    have e2 := (g2 n (by omega)).2
    rw [List.getD_eq_getElem _ _ hn] at e1
    rw [List.getD_eq_getElem _ _ hn'] at e2
    rw [e1, e2, (g1 n (by omega)).1, (g2 n (by omega)).1, mul_comm (meanOf mix b)]
    congr 3
    apply List.map_congr_left
    intro e _
    simp only [Complex.mul_re, Complex.star_def, Complex.conj_re, Complex.conj_im]
    ring
  · intro n hn
    obtain ⟨h5, h6⟩ := h4 n hn
    have hNpos : 0 < (((mix.map fun m => m.1.length).sum : ℕ) : ℝ) / mix.length := by
      refine div_pos ?_ (by exact_mod_cast List.length_pos_iff.2 hne)
      obtain ⟨m, hm⟩ := List.exists_mem_of_ne_nil _ hne
      have g1 := List.length_pos_iff.2 (hpos m hm)
      have g2 := List.single_le_sum (l := mix.map fun m => m.1.length) (fun _ _ => Nat.zero_le _) _
        (List.mem_map.2 ⟨m, hm, rfl⟩)
      have : 0 < (mix.map fun m => m.1.length).sum := by omega
      exact_mod_cast this
    have e := mp (fun ps => ps.map Prod.fst) (fun ps => ps.map Prod.fst) true n
    have hl0 : (((totalSk mix skip nk).frames.map fun f => f.pos0.length).sum : ℕ) =
        (mix.map fun m => m.1.length).sum := by simp [totalSk, Function.comp_def]
    have hl1 : (((totalSk mix skip nk).frames.map fun f => f.pos1.length).sum : ℕ) =
        (mix.map fun m => m.1.length).sum := by simp [totalSk, Function.comp_def]
    have hl2 : (totalSk mix skip nk).frames.length = mix.length := by simp [totalSk]
    rw [h6, hl0, hl1, hl2, Real.sqrt_mul_self hNpos.le, mul_div_cancel₀ _ hNpos.ne', h5]
    have e' : modeProducts (totalSk mix skip nk) n = (L n).map fun e =>
        (Spec.density e.2 (e.1.map Prod.fst) * star (Spec.density e.2 (e.1.map Prod.fst))).re := e
    rw [e', List.length_map]
    have split : ∀ e ∈ L n, (Spec.density e.2 (e.1.map Prod.fst) * star (Spec.density e.2 (e.1.map Prod.fst))).re =
        ∑ a ∈ S, ∑ b ∈ S, (Spec.density e.2 (ofSpecies e.1 a) * star (Spec.density e.2 (ofSpecies e.1 b))).re := by
      intro e he
      rw [density_species e.2 e.1 S (hLS n e he), star_sum, Finset.sum_mul_sum, Complex.re_sum]
      refine Finset.sum_congr rfl fun a _ => ?_
      rw [Complex.re_sum]
    rw [List.map_congr_left split, sum_comm_list, Finset.sum_div]
    refine Finset.sum_congr rfl fun a ha => ?_
    rw [sum_comm_list, Finset.sum_div]
    refine Finset.sum_congr rfl fun b hb => ?_
    obtain ⟨-, -, -, g⟩ := hr a b ha hb
    obtain ⟨g1, g2⟩ := g n hn
    rw [g2, g1]
    have p1 := mean_pos_species hne (fun m hm => hsp m hm a ha)
    have p2 := mean_pos_species hne (fun m hm => hsp m hm b hb)
    have := (Real.sqrt_pos.2 (mul_pos p1 p2)).ne'
    field_simp

/-- A non-trivial case of C52: two frames with different compositions of two species. -/
example : ∃ (total nonorm : List ℝ) (part pnonorm : Bool → Bool → List ℝ),
    skLegacy (totalSk [([(![0, 0, 0], true), (![1, 2, 3], false), (![1, 1, 3], false)], exKs),
      ([(![0, 1, 0], true), (![1, 2, 2], false)], exKs)] 1 2) = .ok (total, nonorm) ∧
    (∀ a b, skLegacy (partialSk [([(![0, 0, 0], true), (![1, 2, 3], false), (![1, 1, 3], false)], exKs),
      ([(![0, 1, 0], true), (![1, 2, 2], false)], exKs)] 1 2 a b) = .ok (part a b, pnonorm a b)) ∧
    part true false = part false true ∧
    ∀ n < 2, 5 / 2 * total.getD n 0 = (part true true).getD n 0 + 2 * √(3 / 2) * (part true false).getD n 0 +
      3 / 2 * (part false false).getD n 0 := by
  obtain ⟨total, nonorm, part, pn, h1, h2, h3, h4⟩ := C52_sum (Or.inr rfl)
    [([(![0, 0, 0], true), (![1, 2, 3], false), (![1, 1, 3], false)], exKs),
      ([(![0, 1, 0], true), (![1, 2, 2], false)], exKs)] 1 2 (by simp) one_pos Finset.univ (by simp) (by simp)
    (by simp) (by simp [exKs_allowed]) (by simp; simp [exKs])
  refine ⟨total, nonorm, part, pn, h1, fun a b => h2 a (by simp) b (by simp), h3 _ (by simp) _ (by simp), ?_⟩
  intro n hn
  have := h4 n hn
  have et : meanOf [([((![0, 0, 0] : Vec 3 ℝ), true), (![1, 2, 3], false), (![1, 1, 3], false)], exKs),
      ([(![0, 1, 0], true), (![1, 2, 2], false)], exKs)] true = 1 := by
    norm_num [meanOf, ofSpecies]
  have ef : meanOf [([((![0, 0, 0] : Vec 3 ℝ), true), (![1, 2, 3], false), (![1, 1, 3], false)], exKs),
      ([(![0, 1, 0], true), (![1, 2, 2], false)], exKs)] false = 3 / 2 := by
    norm_num [meanOf, ofSpecies]
  simp only [Fintype.univ_bool, Finset.sum_insert, Finset.mem_singleton, Bool.true_eq_false, not_false_eq_true,
    Finset.sum_singleton, et, ef] at this
  rw [h3 false (by simp) true (by simp)] at this
  simp only [one_mul, mul_one, Real.sqrt_one] at this
  rw [Real.sqrt_mul_self (by norm_num)] at this
  generalize √(3 / 2) = s at this ⊢
  norm_num at this ⊢
  linarith

end PP.Props
