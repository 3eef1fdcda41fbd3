import Verif.Props.SkCrystal
import Verif.Props.GrReplica
import Mathlib.Algebra.Field.GeomSum

/-!
# C202: structure factor of a cell repeated along the axes
-/

namespace PP.Props
open PP

variable {d : ℕ}

theorem ccis_mul_nat (x : ℝ) (n : ℕ) : ccis (n * x) = ccis x ^ n := by
  unfold ccis
  rw [← Complex.exp_nat_mul]
  congr 1
  push_cast
  ring

theorem ccis_eq_one_iff (x : ℝ) : ccis x = 1 ↔ ∃ j : ℤ, x = j * (2 * Real.pi) := by
  unfold ccis
  rw [Complex.exp_eq_one_iff]
  constructor
  · rintro ⟨j, hj⟩
    refine ⟨j, ?_⟩
    have hI : Complex.I * ((x : ℝ) : ℂ) = Complex.I * ((j * (2 * Real.pi) : ℝ) : ℂ) := by
      rw [hj]; push_cast; ring
    exact_mod_cast mul_left_cancel₀ Complex.I_ne_zero hI
  · rintro ⟨j, rfl⟩
    exact ⟨j, by push_cast; ring⟩

theorem ccis_sum_range {ι : Type} (s : Finset ι) (f : ι → ℝ) : ccis (∑ c ∈ s, f c) = ∏ c ∈ s, ccis (f c) := by
  unfold ccis
  rw [← Complex.exp_sum]
  congr 1
  push_cast
  rw [Finset.mul_sum]

/-- Density mode of a repeated cell, for a wave-vector of the large cell. -/
theorem density_repeated (m : Fin d → ℕ) (L k : Vec d ℝ) (x X : List (Vec d ℝ)) (h : Spec.Repeated m L x X)
    (hk : ∀ c, ∃ j : ℤ, k c * (m c * L c) = j * (2 * Real.pi)) :
    Spec.density k X = (∏ c, ∑ q : Fin (m c), ccis (k c * L c) ^ (q : ℕ)) * Spec.density k x := by
  obtain ⟨e, he⟩ := h
  have hsum : ∀ l : List (Vec d ℝ), Spec.density k l = ∑ i : Fin l.length, ccis (Spec.dot k l[i]) := by
    intro l
    unfold Spec.density
    rw [← Fin.sum_univ_fun_getElem l fun x => Complex.exp (Complex.I * (Spec.dot k x : ℝ))]
    rfl
  have hterm : ∀ q i, ccis (Spec.dot k X[e (q, i)]) = (∏ c, ccis (k c * L c) ^ (q c : ℕ)) * ccis (Spec.dot k x[i]) := by
    intro q i
    unfold Spec.dot
    rw [ccis_sum_range, ccis_sum_range, ← Finset.prod_mul_distrib]
    refine Finset.prod_congr rfl fun c _ => ?_
    obtain ⟨z, hz⟩ := he q i c
    obtain ⟨j, hj⟩ := hk c
    rw [hz, ← ccis_mul_nat]
    have e1 : k c * (x[i] c + (((q c : ℕ) + m c * z : ℤ) : ℝ) * L c) =
        (q c : ℕ) * (k c * L c) + k c * x[i] c + ((z * j : ℤ) : ℝ) * (2 * Real.pi) := by
      push_cast
      rw [mul_assoc (z : ℝ), ← hj]
      ring
    rw [e1, ccis_add, ccis_add, (ccis_eq_one_iff _).2 ⟨z * j, rfl⟩, mul_one]
  rw [hsum X, hsum x, ← e.sum_comp, Fintype.sum_prod_type, Finset.prod_univ_sum, Fintype.piFinset_univ, Finset.sum_mul]
  refine Finset.sum_congr rfl fun q _ => ?_
  rw [Finset.mul_sum]
  exact Finset.sum_congr rfl fun i _ => hterm q i

/-- Sum of the phases of the copies along one axis. -/
theorem phases_one (a : ℝ) (m : ℕ) (h : ∃ j : ℤ, a = j * (2 * Real.pi)) : ∑ q : Fin m, ccis a ^ (q : ℕ) = m := by
  rw [(ccis_eq_one_iff a).2 h]
  simp

theorem phases_zero (a : ℝ) (m : ℕ) (h : ∀ j : ℤ, a ≠ j * (2 * Real.pi)) (hm : ∃ j : ℤ, m * a = j * (2 * Real.pi)) :
    ∑ q : Fin m, ccis a ^ (q : ℕ) = 0 := by
  have h1 : ccis a ≠ 1 := fun hc => by
    obtain ⟨j, hj⟩ := (ccis_eq_one_iff a).1 hc
    exact h j hj
  rw [Fin.sum_univ_eq_sum_range (fun q => ccis a ^ q), geom_sum_eq h1, ← ccis_mul_nat, (ccis_eq_one_iff _).2 hm, sub_self, zero_div]

/-- A wave-vector of the cell of sides `L`. -/
theorem kvecOf_side {L : Vec d ℝ} (hL : ∀ c, 0 < L c) (ks : KState d ℝ) (hk : ∀ c, ks.k0 c = 2 * Real.pi / L c) (n : ℕ)
    (k : Vec d ℝ) (h : k ∈ (kvectorsGet ks).getD n []) (c : Fin d) : ∃ j : ℤ, k c * L c = j * (2 * Real.pi) := by
  rw [kvectorsGet_getD_pair] at h
  obtain ⟨v, -, rfl⟩ := List.mem_map.1 h
  refine ⟨v c - ks.koffset, ?_⟩
  unfold kvecOf
  rw [hk c]
  have := (hL c).ne'
  push_cast
  field_simp

/-- **C202**: in a cell repeated `m c` times along each axis the structure factor is that of the cell times the number of
copies, for the grid points with the same wave-vectors, and it is zero for the grid points none of whose wave-vectors `k` is a
wave-vector of the small cell (`k c * L c` is not a multiple of `2π` along some axis). -/
theorem C202_repeated (o : SkObj d) (h : SkRegular o) (hw : o.weighted = false) (m : Fin d → ℕ) (hm : ∀ c, 0 < m c)
    (g : SkFrame d → SkFrame d) (h' : SkRegular { o with frames := o.frames.map g })
    (side : SkFrame d → Vec d ℝ) (hside : ∀ f ∈ o.frames, ∀ c, 0 < side f c)
    (hk : ∀ f ∈ o.frames, ∀ c, f.ks.k0 c = 2 * Real.pi / side f c)
    (hk' : ∀ f ∈ o.frames, ∀ c, (g f).ks.k0 c = 2 * Real.pi / (m c * side f c))
    (hg : ∀ f ∈ o.frames, Spec.Repeated m (side f) f.pos0 (g f).pos0 ∧ Spec.Repeated m (side f) f.pos1 (g f).pos1) :
    ∃ v v' u u', skLegacy o = .ok (v, u) ∧ skLegacy { o with frames := o.frames.map g } = .ok (v', u') ∧
      v.length = o.nk ∧ v'.length = o.nk ∧ ∀ n < o.nk,
      ((∀ f ∈ o.frames, (kvectorsGet (g f).ks).getD n [] = (kvectorsGet f.ks).getD n []) →
        v'.getD n 0 = (∏ c, m c : ℕ) * v.getD n 0) ∧
      ((∀ f ∈ o.frames, ∀ k ∈ (kvectorsGet (g f).ks).getD n [], ∃ c, ∀ j : ℤ, k c * side f c ≠ j * (2 * Real.pi)) →
        v'.getD n 0 = 0) := by
  obtain ⟨v, u, a1, a2, -, a4⟩ := C80_definition o h hw
  obtain ⟨v', u', b1, b2, -, b4⟩ := C80_definition { o with frames := o.frames.map g } h' hw
  refine ⟨v, v', u, u', a1, b1, a2, b2, fun n hn => ?_⟩
  obtain ⟨a5, a6⟩ := a4 n hn
  obtain ⟨b5, b6⟩ := b4 n hn
  set M : ℕ := ∏ c, m c with hM
  have hM0 : (0 : ℝ) < M := by
    have : 0 < M := Finset.prod_pos fun c _ => hm c
    exact_mod_cast this
  have hmem : ∀ f ∈ Spec.everyNth o.skip o.frames, f ∈ o.frames := by
    intro f hf
    rw [← originFrames_eq _ h.skip_pos] at hf
    exact originFrames_mem hf
  have hside' : ∀ f ∈ o.frames, ∀ c, (0 : ℝ) < m c * side f c := fun f hf c =>
    mul_pos (by exact_mod_cast hm c) (hside f hf c)
  have hP : modeProducts { o with frames := o.frames.map g } n =
      (Spec.everyNth o.skip o.frames).flatMap fun f => ((kvectorsGet (g f).ks).getD n []).map fun k =>
        (Spec.density k (g f).pos0 * star (Spec.density k (g f).pos1)).re := by
    unfold modeProducts
    rw [everyNth_map, List.flatMap_map]
  constructor
  · intro hkk
    have hP' : modeProducts { o with frames := o.frames.map g } n = (modeProducts o n).map fun y => (M : ℝ) ^ 2 * y := by
      rw [hP]
      unfold modeProducts
      rw [List.map_flatMap]
      refine List.flatMap_congr fun f hf => ?_
      have hf' := hmem f hf
      rw [hkk f hf', List.map_map]
      refine List.map_congr_left fun k hkm => ?_
      have hj := kvecOf_side (hside f hf') f.ks (hk f hf') n k hkm
      have hj' : ∀ c, ∃ j : ℤ, k c * (m c * side f c) = j * (2 * Real.pi) := fun c => by
        obtain ⟨j, hj⟩ := hj c
        exact ⟨m c * j, by push_cast; rw [mul_assoc, ← hj]; ring⟩
      have hpr : (∏ c, ∑ q : Fin (m c), ccis (k c * side f c) ^ (q : ℕ)) = ((M : ℝ) : ℂ) := by
        rw [Finset.prod_congr rfl fun c _ => phases_one _ _ (hj c), hM]
        push_cast
        rfl
      rw [Function.comp, density_repeated m _ k _ _ (hg f hf').1 hj', density_repeated m _ k _ _ (hg f hf').2 hj', hpr, star_mul']
      rw [show star ((M : ℝ) : ℂ) = ((M : ℝ) : ℂ) from Complex.conj_ofReal _,
        show ((M : ℝ) : ℂ) * Spec.density k f.pos0 * (((M : ℝ) : ℂ) * star (Spec.density k f.pos1)) =
          (((M : ℝ) ^ 2 : ℝ) : ℂ) * (Spec.density k f.pos0 * star (Spec.density k f.pos1)) by push_cast; ring,
        Complex.re_ofReal_mul]
    have hN : ∀ (s : SkFrame d → List (Vec d ℝ)), (∀ f ∈ o.frames, (s (g f)).length = M * (s f).length) →
        (((o.frames.map g).map fun f => (s f).length).sum : ℕ) = M * (o.frames.map fun f => (s f).length).sum := by
      intro s hs
      rw [List.map_map, ← List.sum_map_mul_left]
      congr 1
      exact List.map_congr_left hs
    have hs : ((modeProducts o n).map fun y => (M : ℝ) ^ 2 * y).sum = (M : ℝ) ^ 2 * (modeProducts o n).sum := by
      rw [List.sum_map_mul_left, List.map_id']
    rw [b6, b5, hP', hs, List.length_map, a6, a5, hN _ fun f hf => repeated_length (hg f hf).1,
      hN _ fun f hf => repeated_length (hg f hf).2, List.length_map,
      Nat.cast_mul, Nat.cast_mul]
    generalize (((o.frames.map fun f => f.pos0.length).sum : ℕ) : ℝ) = A
    generalize (((o.frames.map fun f => f.pos1.length).sum : ℕ) : ℝ) = B
    rw [show (M : ℝ) * A / o.frames.length * (M * B / o.frames.length) = (M : ℝ) ^ 2 * (A / o.frames.length * (B / o.frames.length)) by ring,
      Real.sqrt_mul (by positivity), Real.sqrt_sq hM0.le]
    have := hM0.ne'
    field_simp
  · intro hkk
    have hz : (modeProducts { o with frames := o.frames.map g } n).sum = 0 := by
      refine List.sum_eq_zero fun y hy => ?_
      rw [hP] at hy
      obtain ⟨f, hf, hy⟩ := List.mem_flatMap.1 hy
      obtain ⟨k, hkm, rfl⟩ := List.mem_map.1 hy
      have hf' := hmem f hf
      have hj' := kvecOf_side (L := fun c => m c * side f c) (hside' f hf') (g f).ks (hk' f hf') n k hkm
      obtain ⟨c, hc⟩ := hkk f hf' k hkm
      have hpr : (∏ c, ∑ q : Fin (m c), ccis (k c * side f c) ^ (q : ℕ)) = 0 := by
        refine Finset.prod_eq_zero (Finset.mem_univ c) (phases_zero _ _ hc ?_)
        obtain ⟨j, hj⟩ := hj' c
        exact ⟨j, by rw [← hj]; ring⟩
      rw [density_repeated m _ k _ _ (hg f hf').1 hj', hpr, zero_mul, zero_mul, Complex.zero_re]
    rw [b6, b5, hz, zero_div, zero_div]

/-- Wave-vector (1, 0, 0) twice in a cell of side `2π`. -/
noncomputable def exOneKs : KState 3 ℝ := { k0 := ![1, 1, 1], kgrid := [1, 1], kvectors := [[![3, 2, 2]], [![3, 2, 2]]], koffset := 2 }

/-- Wave-vectors (1, 0, 0) and (1/2, 0, 0) in a cell of side `4π`. -/
noncomputable def exEightKs : KState 3 ℝ :=
  { k0 := ![1 / 2, 1 / 2, 1 / 2], kgrid := [1, 1 / 2], kvectors := [[![4, 2, 2]], [![3, 2, 2]]], koffset := 2 }

/-- One particle in a cell of side `2π`. -/
noncomputable def exOne : SkObj 3 :=
  { same := true, weighted := false, skip := 1, nk := 2, frames := [⟨[![0, 0, 0]], [![0, 0, 0]], [], [], exOneKs⟩] }

/-- The cell repeated twice along each axis. -/
noncomputable def exEight (f : SkFrame 3) : SkFrame 3 :=
  ⟨repeatTwice (fun _ => 2 * Real.pi) f.pos0, repeatTwice (fun _ => 2 * Real.pi) f.pos1, [], [], exEightKs⟩

theorem exOneKs_allowed : Allowed exOneKs := by
  refine ⟨by norm_num [exOneKs], ?_⟩
  intro l hl v hv c
  simp only [exOneKs, List.mem_cons, List.not_mem_nil, or_false] at hl
  rcases hl with rfl | rfl <;> simp only [List.mem_cons, List.not_mem_nil, or_false] at hv <;>
    subst hv <;> fin_cases c <;> simp [exOneKs]

theorem exEightKs_allowed : Allowed exEightKs := by
  refine ⟨by norm_num [exEightKs], ?_⟩
  intro l hl v hv c
  simp only [exEightKs, List.mem_cons, List.not_mem_nil, or_false] at hl
  rcases hl with rfl | rfl <;> simp only [List.mem_cons, List.not_mem_nil, or_false] at hv <;>
    subst hv <;> fin_cases c <;> simp [exEightKs]

theorem exOne_regular : SkRegular exOne := by
  refine ⟨by simp [exOne], by simp [exOne], Or.inl rfl, ?_, ?_, ?_, ?_, ?_⟩
  all_goals simp [exOne, exOneKs_allowed]
  simp [exOneKs]

theorem exEight_regular : SkRegular { exOne with frames := exOne.frames.map exEight } := by
  refine ⟨by simp [exOne], by simp [exOne], Or.inl rfl, ?_, ?_, ?_, ?_, ?_⟩
  all_goals simp [exOne, exEight, exEightKs_allowed]
  · intro h
    simpa [repeatTwice] using congrArg List.length h
  · intro h
    simpa [repeatTwice] using congrArg List.length h
  · simp [exEightKs]

/-- One particle per cell: the structure factor of the eight copies is 8 at (1, 0, 0) and 0 at (1/2, 0, 0). -/
example : ∃ v u, skLegacy { exOne with frames := exOne.frames.map exEight } = .ok (v, u) ∧ v.getD 0 0 = 8 ∧ v.getD 1 0 = 0 := by
  have hpi := Real.pi_pos.ne'
  obtain ⟨v, v', u, u', h1, h2, -, -, h3⟩ := C202_repeated exOne exOne_regular rfl (fun _ => 2) (fun _ => by norm_num) exEight
    exEight_regular (fun _ _ => 2 * Real.pi) (fun _ _ _ => by positivity)
    (by
      intro f hf c
      simp only [exOne, List.mem_cons, List.not_mem_nil, or_false] at hf
      subst hf
      fin_cases c <;> simp [exOneKs, hpi])
    (by
      intro f hf c
      fin_cases c <;> simp [exEight, exEightKs, hpi] <;> field_simp)
    (fun f _ => ⟨repeatTwice_repeated _ _, repeatTwice_repeated _ _⟩)
  obtain ⟨w, w', h4, -, h5⟩ := C199_bragg exOne exOne_regular rfl rfl (N := 1) (by simp [exOne])
  rw [h1] at h4
  cases h4
  have hv : v.getD 0 0 = 1 := by
    have := h5 0 (by simp [exOne]) (by
      intro f hf k _ x hx y hy
      have hf : f ∈ exOne.frames := by
        rw [← originFrames_eq _ (by simp [exOne])] at hf
        exact originFrames_mem hf
      simp only [exOne, List.mem_cons, List.not_mem_nil, or_false] at hf
      subst hf
      simp only [List.mem_cons, List.not_mem_nil, or_false] at hx hy
      subst hx hy
      exact ⟨0, by simp [Spec.dot]⟩)
    simpa using this
  refine ⟨v', u', h2, ?_, ?_⟩
  · rw [(h3 0 (by simp [exOne])).1, hv]
    · norm_num
    · intro f hf
      simp only [exOne, List.mem_cons, List.not_mem_nil, or_false] at hf
      subst hf
      simp only [exEight, kvectorsGet, exEightKs, exOneKs, List.map_cons, List.map_nil, List.getD_cons_zero]
      congr 1
      funext c
      fin_cases c <;> simp [kvecOf]
  · refine (h3 1 (by simp [exOne])).2 ?_
    intro f hf k hk
    simp only [exEight, kvectorsGet, exEightKs, List.map_cons, List.map_nil, List.getD_cons_succ, List.getD_cons_zero, List.mem_cons,
      List.not_mem_nil, or_false] at hk
    subst hk
    refine ⟨0, fun j hj => ?_⟩
    simp only [kvecOf] at hj
    have h6 : (1 : ℝ) = 2 * j := by
      have : Real.pi = j * (2 * Real.pi) := by
        rw [← hj]; simp
      field_simp at this
      linarith
    have h7 : (1 : ℤ) = 2 * j := by exact_mod_cast h6
    omega

end PP.Props
