import Verif.Props.Sk
import Mathlib.Algebra.BigOperators.Field

/-!
# C190: the structure factor is a sum over the pairs of particles
-/

namespace PP.Spec

variable {d : ℕ}

/-- Vector between `y` and the image of `x` displaced by `m` cell sides `L`. -/
def imageVector (L : Fin d → ℝ) (m : Fin d → ℤ) (x y : Fin d → ℝ) : Fin d → ℝ := fun c => x c - y c - m c * L c

/-- Sum of `cos(k · r_ij)` over the pairs `i < j` of particles, `m i j` selecting the image of `i` next to `j`. -/
noncomputable def pairCosines (L : Fin d → ℝ) (m : ℕ → ℕ → Fin d → ℤ) (k : Fin d → ℝ) (pos : List (Fin d → ℝ)) : ℝ :=
  ∑ i : Fin pos.length, ∑ j : Fin pos.length,
    if i < j then Real.cos (dot k (imageVector L (m i j) pos[i] pos[j])) else 0

/-- Sum of `cos(k · r_ij)` over the pairs made of a particle of one group and one of another. -/
noncomputable def crossCosines (L : Fin d → ℝ) (m : ℕ → ℕ → Fin d → ℤ) (k : Fin d → ℝ) (pos0 pos1 : List (Fin d → ℝ)) : ℝ :=
  ∑ i : Fin pos0.length, ∑ j : Fin pos1.length, Real.cos (dot k (imageVector L (m i j) pos0[i] pos1[j]))

end PP.Spec

namespace PP.Props
open PP

variable {d : ℕ}

/-- The phase of a difference does not depend on the image, for a wave-vector of the cell. -/
theorem cos_image {L : Vec d ℝ} (hL : ∀ c, 0 < L c) (ks : KState d ℝ) (hk : ∀ c, ks.k0 c = 2 * Real.pi / L c) (v : KVec d)
    (m : Fin d → ℤ) (x y : Vec d ℝ) : Real.cos (Spec.dot (kvecOf ks v) (Spec.imageVector L m x y)) =
      Real.cos (Spec.dot (kvecOf ks v) fun c => x c - y c) := by
  have e : Spec.dot (kvecOf ks v) (Spec.imageVector L m x y) =
      Spec.dot (kvecOf ks v) (fun c => x c - y c) - ((∑ c, (v c - ks.koffset) * m c : ℤ) : ℝ) * (2 * Real.pi) := by
    unfold Spec.dot kvecOf Spec.imageVector
    push_cast
    rw [Finset.sum_mul, ← Finset.sum_sub_distrib]
    refine Finset.sum_congr rfl fun c _ => ?_
    rw [hk c]
    have := (hL c).ne'
    field_simp
  rw [e, Real.cos_sub_int_mul_two_pi]

theorem dot_sub_pair (k x y : Fin d → ℝ) : Spec.dot k (fun c => x c - y c) = Spec.dot k x - Spec.dot k y := by
  unfold Spec.dot
  rw [← Finset.sum_sub_distrib]
  exact Finset.sum_congr rfl fun c _ => by ring

/-- Product of two density modes. -/
theorem density_product (k : Fin d → ℝ) (pos pos' : List (Fin d → ℝ)) :
    (Spec.density k pos * star (Spec.density k pos')).re =
      ∑ i : Fin pos.length, ∑ j : Fin pos'.length, Real.cos (Spec.dot k (fun c => pos[i] c - pos'[j] c)) := by
  have h : ∀ pos : List (Fin d → ℝ), Spec.density k pos = ∑ i : Fin pos.length, ccis (Spec.dot k pos[i]) := by
    intro pos
    unfold Spec.density
    rw [← List.sum_ofFn]
    congr 1
    refine List.ext_getElem (by simp) fun i _ _ => ?_
    simp [ccis]
  have hre : ∀ x, (ccis x).re = Real.cos x := by
    intro x
    unfold ccis
    rw [mul_comm, Complex.exp_ofReal_mul_I_re]
  rw [h, h, star_sum, Finset.sum_mul_sum, Complex.re_sum]
  refine Finset.sum_congr rfl fun i _ => ?_
  rw [Complex.re_sum]
  refine Finset.sum_congr rfl fun j _ => ?_
  rw [star_ccis, ← ccis_add, hre, dot_sub_pair, sub_eq_add_neg]

theorem sum_symm_pairs {n : ℕ} (F : Fin n → Fin n → ℝ) (hs : ∀ i j, F i j = F j i) (h1 : ∀ i, F i i = 1) :
    ∑ i, ∑ j, F i j = n + 2 * ∑ i, ∑ j, if i < j then F i j else 0 := by
  have e : ∀ i j, F i j = (if i = j then 1 else 0) + ((if i < j then F i j else 0) + (if j < i then F j i else 0)) := by
    intro i j
    rcases lt_trichotomy i j with h | h | h
    · rw [if_neg h.ne, if_pos h, if_neg h.asymm]; ring
    · subst h; simp [h1]
    · rw [if_neg h.ne', if_neg h.asymm, if_pos h, hs i j]; ring
  rw [Finset.sum_congr rfl fun i _ => Finset.sum_congr rfl fun j _ => e i j]
  simp only [Finset.sum_add_distrib]
  rw [Finset.sum_comm (f := fun i j => if j < i then F j i else 0)]
  simp only [Finset.sum_ite_eq, Finset.mem_univ, if_true, Finset.sum_const, Finset.card_univ, Fintype.card_fin, nsmul_eq_mul,
    mul_one]
  ring

theorem density_pairs {L : Vec d ℝ} (hL : ∀ c, 0 < L c) (ks : KState d ℝ) (hk : ∀ c, ks.k0 c = 2 * Real.pi / L c) (v : KVec d)
    (m : ℕ → ℕ → Fin d → ℤ) (pos : List (Vec d ℝ)) :
    (Spec.density (kvecOf ks v) pos * star (Spec.density (kvecOf ks v) pos)).re =
      pos.length + 2 * Spec.pairCosines L m (kvecOf ks v) pos := by
  rw [density_product, sum_symm_pairs]
  · unfold Spec.pairCosines
    congr 2
    refine Finset.sum_congr rfl fun i _ => Finset.sum_congr rfl fun j _ => ?_
    by_cases h : i < j
    · rw [if_pos h, if_pos h, cos_image hL ks hk]
    · rw [if_neg h, if_neg h]
  · intro i j
    rw [dot_sub_pair, dot_sub_pair, ← Real.cos_neg, neg_sub]
  · intro i
    rw [dot_sub_pair, sub_self, Real.cos_zero]

/-- The sums over pairs at all the wave-vectors of grid point `n` in all the frames used. -/
noncomputable def pairTerms (side : SkFrame d → Vec d ℝ) (m : SkFrame d → ℕ → ℕ → Fin d → ℤ) (o : SkObj d) (n : ℕ) :
    List ℝ :=
  (Spec.everyNth o.skip o.frames).flatMap fun f => ((kvectorsGet f.ks).getD n []).map fun k =>
    Spec.pairCosines (side f) (m f) k f.pos0

/-- The same between the two groups. -/
noncomputable def crossTerms (side : SkFrame d → Vec d ℝ) (m : SkFrame d → ℕ → ℕ → Fin d → ℤ) (o : SkObj d) (n : ℕ) :
    List ℝ :=
  (Spec.everyNth o.skip o.frames).flatMap fun f => ((kvectorsGet f.ks).getD n []).map fun k =>
    Spec.crossCosines (side f) (m f) k f.pos0 f.pos1

theorem kvectorsGet_getD_pair (ks : KState d ℝ) (n : ℕ) :
    (kvectorsGet ks).getD n [] = (ks.kvectors.getD n []).map (kvecOf ks) := by
  unfold kvectorsGet
  rw [List.getD_eq_getElem?_getD, List.getD_eq_getElem?_getD, List.getElem?_map]
  rcases ks.kvectors[n]? with _ | l
  · rfl
  · rfl

theorem modeProducts_pairs (o : SkObj d) (h : SkRegular o) (hs : o.same = true) (side : SkFrame d → Vec d ℝ)
    (hside : ∀ f ∈ o.frames, ∀ c, 0 < side f c) (hk : ∀ f ∈ o.frames, ∀ c, f.ks.k0 c = 2 * Real.pi / side f c) {N : ℕ}
    (hN : ∀ f ∈ o.frames, f.pos0.length = N) (m : SkFrame d → ℕ → ℕ → Fin d → ℤ) (n : ℕ) :
    modeProducts o n = (pairTerms side m o n).map fun x => (N : ℝ) + 2 * x := by
  unfold modeProducts pairTerms
  rw [List.map_flatMap, List.flatMap_def, List.flatMap_def]
  congr 1
  refine List.map_congr_left fun f hf => ?_
  have hf' : f ∈ o.frames := by
    rw [← originFrames_eq _ h.skip_pos] at hf
    exact originFrames_mem hf
  rw [kvectorsGet_getD_pair, List.map_map, List.map_map, List.map_map]
  refine List.map_congr_left fun v _ => ?_
  simp only [Function.comp_apply]
  rw [(h.same hs f hf').1, density_pairs (hside f hf') f.ks (hk f hf'), hN f hf']

/-- **C190**: the structure factor of one group of `N` particles at each grid point is 1 plus 2/N times the average, over the
frames used and the wave-vectors of the grid point, of the sum of `cos(k · r_ij)` over the pairs of particles, whatever the images of the particles chosen
to compute `r_ij`. -/
theorem C190_pairs (o : SkObj d) (h : SkRegular o) (hs : o.same = true) (hw : o.weighted = false)
    (side : SkFrame d → Vec d ℝ) (hside : ∀ f ∈ o.frames, ∀ c, 0 < side f c)
    (hk : ∀ f ∈ o.frames, ∀ c, f.ks.k0 c = 2 * Real.pi / side f c) {N : ℕ} (hN : ∀ f ∈ o.frames, f.pos0.length = N)
    (m : SkFrame d → ℕ → ℕ → Fin d → ℤ) :
    ∃ value nonorm, skLegacy o = .ok (value, nonorm) ∧ value.length = o.nk ∧
      ∀ n < o.nk, value.getD n 0 = 1 + 2 / N * ((pairTerms side m o n).sum / (pairTerms side m o n).length) := by
  obtain ⟨value, nonorm, h1, h2, h3, h4⟩ := C80_definition o h hw
  refine ⟨value, nonorm, h1, h2, fun n hn => ?_⟩
  obtain ⟨e1, e2⟩ := h4 n hn
  have hF : (0 : ℝ) < o.frames.length := by exact_mod_cast List.length_pos_iff.2 h.frames_ne
  obtain ⟨f0, hf0⟩ := List.exists_mem_of_ne_nil _ h.frames_ne
  have hN0 : (0 : ℝ) < N := by
    have := List.length_pos_iff.2 (h.pos0 f0 hf0)
    rw [hN f0 hf0] at this
    exact_mod_cast this
  have hsum : ∀ (g : SkFrame d → ℕ) (l : List (SkFrame d)), (∀ f ∈ l, g f = N) → (l.map g).sum = l.length * N := by
    intro g l hl
    rw [List.map_congr_left hl]
    simp
  have hM : (pairTerms side m o n).length ≠ 0 := by
    have hne : pairTerms side m o n ≠ [] := by
      obtain ⟨f, fs, hff⟩ := List.exists_cons_of_ne_nil h.frames_ne
      have hf : f ∈ o.frames := by rw [hff]; simp
      have hmem : f ∈ Spec.everyNth o.skip o.frames := by
        rw [hff]; simp [Spec.everyNth]
      have hsh := h.shells f hf
      intro hc
      unfold pairTerms at hc
      rw [List.flatMap_eq_nil_iff] at hc
      have := hc f hmem
      rw [kvectorsGet_getD_pair, List.map_map, List.map_eq_nil_iff] at this
      have hn' : n < f.ks.kvectors.length := by rw [hsh.1]; exact hn
      rw [List.getD_eq_getElem _ _ hn'] at this
      exact hsh.2 _ (List.getElem_mem hn') this
    simpa using hne
  have hM' : ((pairTerms side m o n).length : ℝ) ≠ 0 := by exact_mod_cast hM
  rw [e2, e1, modeProducts_pairs o h hs side hside hk hN m, List.length_map, hsum _ _ hN,
    hsum (fun f => f.pos1.length) _ fun f hf => by rw [(h.same hs f hf).1]; exact hN f hf]
  have hlin : ∀ l : List ℝ, (l.map fun x => (N : ℝ) + 2 * x).sum = l.length * N + 2 * l.sum := by
    intro l
    induction l with
    | nil => simp
    | cons a l ih => simp only [List.map_cons, List.sum_cons, ih, List.length_cons]; push_cast; ring
  rw [hlin]
  push_cast
  have hsq : (o.frames.length : ℝ) * N / o.frames.length * (o.frames.length * N / o.frames.length) = (N : ℝ) ^ 2 := by
    field_simp
  rw [hsq, Real.sqrt_sq hN0.le]
  field_simp

theorem modeProducts_cross (o : SkObj d) (h : SkRegular o) (side : SkFrame d → Vec d ℝ)
    (hside : ∀ f ∈ o.frames, ∀ c, 0 < side f c) (hk : ∀ f ∈ o.frames, ∀ c, f.ks.k0 c = 2 * Real.pi / side f c)
    (m : SkFrame d → ℕ → ℕ → Fin d → ℤ) (n : ℕ) : modeProducts o n = crossTerms side m o n := by
  unfold modeProducts crossTerms
  rw [List.flatMap_def, List.flatMap_def]
  congr 1
  refine List.map_congr_left fun f hf => ?_
  have hf' : f ∈ o.frames := by
    rw [← originFrames_eq _ h.skip_pos] at hf
    exact originFrames_mem hf
  rw [kvectorsGet_getD_pair, List.map_map, List.map_map]
  refine List.map_congr_left fun v _ => ?_
  simp only [Function.comp_apply]
  rw [density_product]
  unfold Spec.crossCosines
  exact Finset.sum_congr rfl fun i _ => Finset.sum_congr rfl fun j _ => (cos_image (hside f hf') f.ks (hk f hf') v _ _ _).symm

/-- **C190**, two groups of `N` and `M` particles: the average of the sum over the pairs between them over `√(NM)`. -/
theorem C190_two_groups (o : SkObj d) (h : SkRegular o) (hw : o.weighted = false)
    (side : SkFrame d → Vec d ℝ) (hside : ∀ f ∈ o.frames, ∀ c, 0 < side f c)
    (hk : ∀ f ∈ o.frames, ∀ c, f.ks.k0 c = 2 * Real.pi / side f c) {N M : ℕ} (hN : ∀ f ∈ o.frames, f.pos0.length = N)
    (hM : ∀ f ∈ o.frames, f.pos1.length = M) (m : SkFrame d → ℕ → ℕ → Fin d → ℤ) :
    ∃ value nonorm, skLegacy o = .ok (value, nonorm) ∧ value.length = o.nk ∧
      ∀ n < o.nk, value.getD n 0 = (crossTerms side m o n).sum / (crossTerms side m o n).length / √(N * M) := by
  obtain ⟨value, nonorm, h1, h2, h3, h4⟩ := C80_definition o h hw
  refine ⟨value, nonorm, h1, h2, fun n hn => ?_⟩
  obtain ⟨e1, e2⟩ := h4 n hn
  have hF : (0 : ℝ) < o.frames.length := by exact_mod_cast List.length_pos_iff.2 h.frames_ne
  have hsum : ∀ (g : SkFrame d → ℕ) (N : ℕ) (l : List (SkFrame d)), (∀ f ∈ l, g f = N) → (l.map g).sum = l.length * N := by
    intro g N l hl
    rw [List.map_congr_left hl]
    simp
  rw [e2, e1, modeProducts_cross o h side hside hk m, hsum _ _ _ hN, hsum (fun f => f.pos1.length) _ _ hM]
  push_cast
  rw [mul_div_cancel_left₀ _ hF.ne', mul_div_cancel_left₀ _ hF.ne']

/-- Three particles in two frames of a cell of side `2π`: the images are those displaced by `i - j` sides. -/
example : ∃ value nonorm, skLegacy exSk = .ok (value, nonorm) ∧ value.length = 2 ∧
    ∀ n < 2, value.getD n 0 = 1 + 2 / (3 : ℕ) * ((pairTerms (fun _ _ => 2 * Real.pi) (fun _ i j _ => i - j) exSk n).sum /
      (pairTerms (fun _ _ => 2 * Real.pi) (fun _ i j _ => i - j) exSk n).length) := by
  refine C190_pairs exSk exSk_regular rfl rfl (fun _ _ => 2 * Real.pi) (fun _ _ _ => by positivity) ?_ (N := 3) ?_ _
  · intro f hf c
    simp only [exSk, List.mem_cons, List.not_mem_nil, or_false] at hf
    have := Real.pi_pos.ne'
    rcases hf with rfl | rfl <;> fin_cases c <;> simp [exKs, this]
  · simp [exSk]

/-- Three particles of one group and two of another. -/
example : ∃ value nonorm, skLegacy { exSk with same := false, frames := exSk.frames.map fun f => { f with pos1 := f.pos1.take 2 } } =
      .ok (value, nonorm) ∧ value.length = 2 := by
  have hr : SkRegular { exSk with same := false, frames := exSk.frames.map fun f => { f with pos1 := f.pos1.take 2 } } := by
    refine ⟨by simp [exSk], by simp [exSk], Or.inr (Or.inr rfl), ?_, ?_, ?_, ?_, ?_⟩
    all_goals simp [exSk, exKs_allowed]
    simp [exKs]
  obtain ⟨value, nonorm, h1, h2, -⟩ := C190_two_groups _ hr rfl (fun _ _ => 2 * Real.pi) (fun _ _ _ => by positivity)
    (by
      intro f hf c
      simp only [exSk, List.map_cons, List.map_nil, List.mem_cons, List.not_mem_nil, or_false] at hf
      have := Real.pi_pos.ne'
      rcases hf with rfl | rfl <;> fin_cases c <;> simp [exKs, this])
    (N := 3) (M := 2) (by simp [exSk]) (by simp [exSk]) fun _ i j _ => i - j
  exact ⟨value, nonorm, h1, h2⟩

end PP.Props
