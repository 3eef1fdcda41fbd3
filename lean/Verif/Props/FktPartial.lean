import Verif.Props.Fkt
import Verif.Props.SkPartial

/-!
# C183: partial intermediate scattering functions add up
-/

set_option linter.unusedSectionVars false

namespace PP.Props

open Classical

variable {d : ℕ} {σ : Type}

/-- What the calculations have in common. -/
structure FkSetup (d : ℕ) where
  steps : List ℤ
  timestep : ℝ
  skip : ℕ
  tgrid : List (ℕ × ℕ)
  ks : KState d ℝ
  normalize : Bool

/-- The calculation without filters. -/
noncomputable def totalFk (c : FkSetup d) (mix : List (List (Vec d ℝ × σ))) : FkObj d :=
  ⟨c.steps, c.timestep, c.skip, c.tgrid, true, mix.map fun m => m.map Prod.fst, mix.map fun m => m.map Prod.fst, c.ks,
    c.normalize⟩

/-- The calculation for a pair of species: one filter if they are equal, two otherwise. -/
noncomputable def partialFk (c : FkSetup d) (mix : List (List (Vec d ℝ × σ))) (a b : σ) : FkObj d :=
  ⟨c.steps, c.timestep, c.skip, c.tgrid, decide (a = b), mix.map fun m => ofSpecies m a, mix.map fun m => ofSpecies m b,
    c.ks, c.normalize⟩

/-- The hypotheses on the calculation: two or three dimensions, a stride, wave-vectors in the tables. -/
structure FkSetup.Regular (c : FkSetup d) : Prop where
  dims : d = 2 ∨ d = 3
  skip_pos : 0 < c.skip
  allowed : Allowed c.ks
  kgrid : c.ks.kgrid.length = c.ks.kvectors.length
  shells_ne : c.ks.kvectors ≠ []
  shells : ∀ l ∈ c.ks.kvectors, l ≠ []

theorem totalFk_regular {c : FkSetup d} (h : c.Regular) {mix : List (List (Vec d ℝ × σ))} (hl : mix.length ≤ c.steps.length)
    (hne : ∀ m ∈ mix, m ≠ []) : FkRegular (totalFk c mix) := by
  have : ∀ f ∈ mix.map (fun m => m.map Prod.fst), f ≠ [] := by
    intro f hf
    obtain ⟨m, hm, rfl⟩ := List.mem_map.1 hf
    simpa using hne m hm
  exact ⟨h.dims, h.skip_pos, by simpa [totalFk] using hl, rfl, fun _ => rfl, this, this, h.allowed, h.kgrid, h.shells_ne, h.shells⟩

theorem partialFk_regular {c : FkSetup d} (h : c.Regular) {mix : List (List (Vec d ℝ × σ))} (hl : mix.length ≤ c.steps.length)
    {a b : σ} (ha : ∀ m ∈ mix, ∃ e ∈ m, e.2 = a) (hb : ∀ m ∈ mix, ∃ e ∈ m, e.2 = b) : FkRegular (partialFk c mix a b) := by
  have : ∀ a : σ, (∀ m ∈ mix, ∃ e ∈ m, e.2 = a) → ∀ f ∈ mix.map (fun m => ofSpecies m a), f ≠ [] := by
    intro a ha f hf
    obtain ⟨m, hm, rfl⟩ := List.mem_map.1 hf
    obtain ⟨e, he, rfl⟩ := ha m hm
    intro hc
    unfold ofSpecies at hc
    rw [List.map_eq_nil_iff, List.filter_eq_nil_iff] at hc
    exact hc e he (by simp)
  refine ⟨h.dims, h.skip_pos, by simpa [partialFk] using hl, by simp [partialFk], ?_, this a ha, this b hb, h.allowed, h.kgrid,
    h.shells_ne, h.shells⟩
  intro hs
  have : a = b := by simpa [partialFk] using hs
  subst this
  rfl

theorem mean_sum_sum {α : Type} (l : List α) (S : Finset σ) (F : α → σ → σ → ℝ) :
    Spec.mean (l.map fun x => ∑ a ∈ S, ∑ b ∈ S, F x a b) = ∑ a ∈ S, ∑ b ∈ S, Spec.mean (l.map fun x => F x a b) := by
  unfold Spec.mean
  simp only [List.length_map]
  rw [sum_comm_list l S fun x a => ∑ b ∈ S, F x a b, Finset.sum_div]
  refine Finset.sum_congr rfl fun a _ => ?_
  rw [sum_comm_list l S fun x b => F x a b, Finset.sum_div]

theorem flatMap_product {α β γ : Type} (l : List α) (m : List β) (F : α → β → γ) :
    (l.flatMap fun v => m.map fun p => F v p) = (l.product m).map fun e => F e.1 e.2 := by
  unfold List.product
  rw [List.map_flatMap]
  simp [List.map_map, Function.comp_def]

/-- The values of a pair of groups add up to those of the whole system at each lag. -/
theorem coh_sum {c : FkSetup d} (h : c.Regular) {mix : List (List (Vec d ℝ × σ))} (hl : mix.length ≤ c.steps.length)
    (S : Finset σ) (hS : ∀ m ∈ mix, ∀ e ∈ m, e.2 ∈ S) (hpres : ∀ m ∈ mix, ∀ a ∈ S, ∃ e ∈ m, e.2 = a)
    (hne : ∀ m ∈ mix, m ≠ []) (kl : List (KVec d)) (δ : ℤ) :
    Spec.mean (cohList (totalFk c mix) kl δ) = ∑ a ∈ S, ∑ b ∈ S, Spec.mean (cohList (partialFk c mix a b) kl δ) := by
  have hp : ∀ a ∈ S, ∀ b ∈ S, cohList (partialFk c mix a b) kl δ = (kl.product
      (pairsAt c.steps (Spec.sampled mix.length c.skip c.tgrid) δ)).map fun e =>
        (Spec.density (kvecOf c.ks e.1) (ofSpecies (mix.getD (e.2.1 + e.2.2) []) a) *
          star (Spec.density (kvecOf c.ks e.1) (ofSpecies (mix.getD e.2.1 []) b))).re := by
    intro a ha b hb
    rw [cohList_eq _ (partialFk_regular h hl (fun m hm => hpres m hm a ha) fun m hm => hpres m hm b hb), flatMap_product]
    simp only [partialFk, List.length_map]
    refine List.map_congr_left fun e he => ?_
    have hg : ∀ (a : σ) (i : ℕ), (mix.map fun m => ofSpecies m a).getD i [] = ofSpecies (mix.getD i []) a := by
      intro a i
      rw [List.getD_eq_getElem?_getD, List.getD_eq_getElem?_getD, List.getElem?_map]
      cases mix[i]? <;> rfl
    rw [hg, hg]
  rw [cohList_eq _ (totalFk_regular h hl hne), flatMap_product]
  have hd : ∀ (k : Fin d → ℝ) (i : ℕ), Spec.density k ((mix.map fun m => m.map Prod.fst).getD i []) =
      ∑ a ∈ S, Spec.density k (ofSpecies (mix.getD i []) a) := by
    intro k i
    have hg : (mix.map fun m => m.map Prod.fst).getD i [] = (mix.getD i []).map Prod.fst := by
      rw [List.getD_eq_getElem?_getD, List.getD_eq_getElem?_getD, List.getElem?_map]
      cases mix[i]? <;> rfl
    rw [hg]
    refine density_species k _ S fun e he => ?_
    rw [List.getD_eq_getElem?_getD] at he
    cases hm : mix[i]? with
    | none => rw [hm] at he; simp at he
    | some m => rw [hm] at he; exact hS m (List.mem_of_getElem? hm) e he
  have he : ∀ a ∈ S, ∀ b ∈ S, Spec.mean (cohList (partialFk c mix a b) kl δ) = Spec.mean ((kl.product
      (pairsAt c.steps (Spec.sampled mix.length c.skip c.tgrid) δ)).map fun e =>
        (Spec.density (kvecOf c.ks e.1) (ofSpecies (mix.getD (e.2.1 + e.2.2) []) a) *
          star (Spec.density (kvecOf c.ks e.1) (ofSpecies (mix.getD e.2.1 []) b))).re) :=
    fun a ha b hb => by rw [hp a ha b hb]
  rw [Finset.sum_congr rfl fun a ha => Finset.sum_congr rfl fun b hb => he a ha b hb, ← mean_sum_sum]
  simp only [totalFk, List.length_map]
  congr 1
  refine List.map_congr_left fun e _ => ?_
  rw [hd, hd, star_sum, Finset.sum_mul_sum, Complex.re_sum]
  refine Finset.sum_congr rfl fun a _ => ?_
  rw [Complex.re_sum]

/-- **C183, what holds**: at each wave-number and time, the values before the normalisation of the functions of all the ordered
pairs of species add up to that of the whole system. The numbers of particles of the species may change with time. -/
theorem C183_sum_partial {c : FkSetup d} (h : c.Regular) {mix : List (List (Vec d ℝ × σ))} (hl : mix.length ≤ c.steps.length)
    (S : Finset σ) (hS : ∀ m ∈ mix, ∀ e ∈ m, e.2 ∈ S) (hpres : ∀ m ∈ mix, ∀ a ∈ S, ∃ e ∈ m, e.2 = a)
    (hne : ∀ m ∈ mix, m ≠ []) :
    ∃ (ts : List ℝ) (value total : List (List ℝ)) (pvalue part : σ → σ → List (List ℝ)),
      fkCompute (totalFk c mix) = .ok (ts, value, total) ∧
      (∀ a ∈ S, ∀ b ∈ S, fkCompute (partialFk c mix a b) = .ok (ts, pvalue a b, part a b)) ∧
      total.length = c.ks.kvectors.length ∧ (∀ row ∈ total, row.length = ts.length) ∧
      ∀ n < c.ks.kvectors.length, ∀ j < ts.length,
        (total.getD n []).getD j 0 = ∑ a ∈ S, ∑ b ∈ S, ((part a b).getD n []).getD j 0 := by
  have hlag : ∀ a b, fkLags (partialFk c mix a b) = fkLags (totalFk c mix) := by
    intro a b
    simp [fkLags, partialFk, totalFk]
  refine ⟨(fkLags (totalFk c mix)).map fun t : ℤ => (t : ℝ) * c.timestep, _, fkRaw (totalFk c mix),
    fun a b => if c.normalize then (fkRaw (partialFk c mix a b)).map fun v => v.map fun x => x / v.getD 0 0
      else fkRaw (partialFk c mix a b), fun a b => fkRaw (partialFk c mix a b),
    fkCompute_eq _ (totalFk_regular h hl hne), ?_, ?_, ?_, ?_⟩
  · intro a ha b hb
    rw [fkCompute_eq _ (partialFk_regular h hl (fun m hm => hpres m hm a ha) fun m hm => hpres m hm b hb), hlag]
    rfl
  · simp [fkRaw, totalFk]
  · intro row hrow
    obtain ⟨kl, -, rfl⟩ := List.mem_map.1 hrow
    simp
  · intro n hn j hj
    rw [List.length_map] at hj
    have hrow : ∀ o : FkObj d, o.ks = c.ks → fkLags o = fkLags (totalFk c mix) →
        ((fkRaw o).getD n []).getD j 0 = Spec.mean (cohList o c.ks.kvectors[n] (fkLags (totalFk c mix))[j]) := by
      intro o h1 h2
      unfold fkRaw
      rw [h1, h2]
      simp [List.getD_eq_getElem?_getD, List.getElem?_map, List.getElem?_eq_getElem hn, List.getElem?_eq_getElem hj]
    rw [hrow _ rfl rfl, coh_sum h hl S hS hpres hne]
    refine Finset.sum_congr rfl fun a _ => Finset.sum_congr rfl fun b _ => ?_
    rw [hrow _ rfl (hlag a b)]

/-- **C183** is false for the functions of `Partial`, where that of `(b, a)` is a copy of that of `(a, b)`: with two species,
wherever the functions calculated from the two orders differ, `F_aa + 2 F_ab + F_bb` is not the function of the whole system. -/
theorem C183_counterexample_copies {c : FkSetup d} (h : c.Regular) {mix : List (List (Vec d ℝ × σ))}
    (hl : mix.length ≤ c.steps.length) {a b : σ} (hab : a ≠ b) (hS : ∀ m ∈ mix, ∀ e ∈ m, e.2 = a ∨ e.2 = b)
    (ha : ∀ m ∈ mix, ∃ e ∈ m, e.2 = a) (hb : ∀ m ∈ mix, ∃ e ∈ m, e.2 = b) :
    ∃ (ts : List ℝ) (value total : List (List ℝ)) (pvalue part : σ → σ → List (List ℝ)),
      fkCompute (totalFk c mix) = .ok (ts, value, total) ∧
      (∀ x ∈ [a, b], ∀ y ∈ [a, b], fkCompute (partialFk c mix x y) = .ok (ts, pvalue x y, part x y)) ∧
      ∀ n < c.ks.kvectors.length, ∀ j < ts.length, ((part a b).getD n []).getD j 0 ≠ ((part b a).getD n []).getD j 0 →
        (total.getD n []).getD j 0 ≠ ((part a a).getD n []).getD j 0 + ((part a b).getD n []).getD j 0 +
          ((part a b).getD n []).getD j 0 + ((part b b).getD n []).getD j 0 := by
  obtain ⟨ts, value, total, pvalue, part, h1, h2, -, -, h5⟩ := C183_sum_partial h hl {a, b} (by
      intro m hm e he
      simpa using hS m hm e he) (by
      intro m hm x hx
      rcases Finset.mem_insert.1 hx with rfl | hx
      · exact ha m hm
      · rw [Finset.mem_singleton.1 hx]; exact hb m hm) (by
      intro m hm hc
      obtain ⟨e, he, -⟩ := ha m hm
      rw [hc] at he
      simp at he)
  refine ⟨ts, value, total, pvalue, part, h1, fun x hx y hy => h2 x (by simpa using hx) y (by simpa using hy), ?_⟩
  intro n hn j hj hne heq
  rw [h5 n hn j hj, Finset.sum_pair hab, Finset.sum_pair hab, Finset.sum_pair hab] at heq
  apply hne
  linarith

/-! #### Example -/

/-- The setup and the particles of the example of C56: particle A (species 0) moves by half a wavelength, B does not move. -/
noncomputable def exSetup : FkSetup 2 := ⟨[0, 1], 1, 2, [(0, 0), (0, 1)], exKs2, false⟩

noncomputable def exMix : List (List (Vec 2 ℝ × ℕ)) := [[(![0, 0], 0), (![0, 0], 1)], [(![Real.pi, 0], 0), (![0, 0], 1)]]

theorem exSetup_regular : exSetup.Regular :=
  ⟨Or.inl rfl, by simp [exSetup], exKs2_allowed, by simp [exSetup, exKs2], by simp [exSetup, exKs2], by simp [exSetup, exKs2]⟩

theorem exMix_ab : partialFk exSetup exMix 0 1 = exSwap false := by
  simp [partialFk, exSwap, exSetup, exMix, ofSpecies]

theorem exMix_ba : partialFk exSetup exMix 1 0 = (exSwap false).swap := by
  simp [partialFk, exSwap, exSetup, exMix, ofSpecies, FkObj.swap]

/-- The functions of the two orders differ at the second time, hence the copies do not add up. -/
example : ∃ (ts : List ℝ) (value total : List (List ℝ)) (pvalue part : ℕ → ℕ → List (List ℝ)),
    fkCompute (totalFk exSetup exMix) = .ok (ts, value, total) ∧
    (∀ x ∈ [0, 1], ∀ y ∈ [0, 1], fkCompute (partialFk exSetup exMix x y) = .ok (ts, pvalue x y, part x y)) ∧
    (total.getD 0 []).getD 1 0 ≠ ((part 0 0).getD 0 []).getD 1 0 + ((part 0 1).getD 0 []).getD 1 0 +
      ((part 0 1).getD 0 []).getD 1 0 + ((part 1 1).getD 0 []).getD 1 0 := by
  obtain ⟨ts, value, total, pvalue, part, h1, h2, h3⟩ := C183_counterexample_copies exSetup_regular (mix := exMix)
    (by simp [exMix, exSetup]) (show (0 : ℕ) ≠ 1 by decide) (by
      intro m hm e he
      simp only [exMix, List.mem_cons, List.not_mem_nil, or_false] at hm
      rcases hm with rfl | rfl <;>
      · simp only [List.mem_cons, List.not_mem_nil, or_false] at he
        rcases he with rfl | rfl <;> simp) (by simp [exMix]) (by simp [exMix])
  obtain ⟨e1, e2⟩ := C56_counterexample_swap false
  have f1 := h2 0 (by simp) 1 (by simp)
  have f2 := h2 1 (by simp) 0 (by simp)
  rw [exMix_ab, e1] at f1
  rw [exMix_ba, e2] at f2
  simp only [Except.ok.injEq, Prod.mk.injEq] at f1 f2
  refine ⟨ts, value, total, pvalue, part, h1, h2, h3 0 (by simp [exSetup, exKs2]) 1 (by rw [← f1.1]; simp) ?_⟩
  rw [← f1.2.2, ← f2.2.2]
  norm_num

end PP.Props
