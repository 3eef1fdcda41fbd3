import Verif.Props.SkPairs

/-!
# C199: structure factor of periodic arrangements of particles
-/

namespace PP.Spec

variable {d : ℕ}

/-- The translation by `t` maps the particles onto themselves, up to their order and to their periodic images in a cell of
sides `L`. -/
def Repeats (L t : Fin d → ℝ) (pos : List (Fin d → ℝ)) : Prop :=
  ∃ pos' : List (Fin d → ℝ), pos'.Perm pos ∧
    List.Forall₂ (fun x y => ∃ m : Fin d → ℤ, ∀ c, x c + t c = y c + m c * L c) pos pos'

end PP.Spec

namespace PP.Props
open PP

variable {d : ℕ}

theorem density_cons (k x : Fin d → ℝ) (pos : List (Fin d → ℝ)) :
    Spec.density k (x :: pos) = ccis (Spec.dot k x) + Spec.density k pos := by
  unfold Spec.density
  rw [List.map_cons, List.sum_cons]
  rfl

/-- The phase of a wave-vector of the cell does not depend on the image. -/
theorem ccis_image {L : Vec d ℝ} (hL : ∀ c, 0 < L c) (ks : KState d ℝ) (hk : ∀ c, ks.k0 c = 2 * Real.pi / L c) (v : KVec d)
    (m : Fin d → ℤ) (t x y : Vec d ℝ) (h : ∀ c, x c + t c = y c + m c * L c) :
    ccis (Spec.dot (kvecOf ks v) y) = ccis (Spec.dot (kvecOf ks v) x) * ccis (Spec.dot (kvecOf ks v) t) := by
  have e : Spec.dot (kvecOf ks v) y =
      Spec.dot (kvecOf ks v) x + Spec.dot (kvecOf ks v) t + ((-∑ c, (v c - ks.koffset) * m c : ℤ) : ℝ) * (2 * Real.pi) := by
    have hy : y = fun c => x c + t c - m c * L c := funext fun c => by linarith [h c]
    rw [hy]
    unfold Spec.dot kvecOf
    push_cast
    rw [neg_mul, Finset.sum_mul, ← Finset.sum_add_distrib, ← sub_eq_add_neg, ← Finset.sum_sub_distrib]
    refine Finset.sum_congr rfl fun c _ => ?_
    rw [hk c]
    have := (hL c).ne'
    field_simp
  have h1 : ccis (((-∑ c, (v c - ks.koffset) * m c : ℤ) : ℝ) * (2 * Real.pi)) = 1 := by
    rw [ccis_int_mul]
    have := Complex.exp_int_mul_two_pi_mul_I (-∑ c, (v c - ks.koffset) * m c)
    rw [← this]
    congr 1
    push_cast
    ring
  rw [e, ccis_add, h1, mul_one, ccis_add]

/-- The density mode of particles that are repeated by a translation. -/
theorem density_repeats {L : Vec d ℝ} (hL : ∀ c, 0 < L c) (ks : KState d ℝ) (hk : ∀ c, ks.k0 c = 2 * Real.pi / L c)
    (v : KVec d) (t : Vec d ℝ) (pos : List (Vec d ℝ)) (h : Spec.Repeats L t pos)
    (ht : ∀ j : ℤ, Spec.dot (kvecOf ks v) t ≠ j * (2 * Real.pi)) : Spec.density (kvecOf ks v) pos = 0 := by
  obtain ⟨pos', hp, hf⟩ := h
  have h1 : Spec.density (kvecOf ks v) pos' = Spec.density (kvecOf ks v) pos := by
    unfold Spec.density
    exact (hp.map _).sum_eq
  have h2 : Spec.density (kvecOf ks v) pos' = Spec.density (kvecOf ks v) pos * ccis (Spec.dot (kvecOf ks v) t) := by
    clear h1 hp
    induction hf with
    | nil => simp [Spec.density]
    | cons hxy _ ih =>
      obtain ⟨m, hm⟩ := hxy
      rw [density_cons, density_cons, ih, ccis_image hL ks hk v m t _ _ hm]
      ring
  have h3 : ccis (Spec.dot (kvecOf ks v) t) ≠ 1 := by
    intro hc
    unfold ccis at hc
    obtain ⟨j, hj⟩ := Complex.exp_eq_one_iff.1 hc
    refine ht j ?_
    have hI : Complex.I * ((Spec.dot (kvecOf ks v) t : ℝ) : ℂ) = Complex.I * ((j * (2 * Real.pi) : ℝ) : ℂ) := by
      rw [hj]; push_cast; ring
    exact_mod_cast mul_left_cancel₀ Complex.I_ne_zero hI
  have h4 : Spec.density (kvecOf ks v) pos * (ccis (Spec.dot (kvecOf ks v) t) - 1) = 0 := by
    rw [mul_sub, ← h2, h1, mul_one, sub_self]
  exact (mul_eq_zero.1 h4).resolve_right (sub_ne_zero.2 h3)

/-- **C199**: the structure factor is zero at a grid point if for each of its wave-vectors `k` the particles of the first group
are repeated by some translation `t` such that `k · t` is not a multiple of `2π`. -/
theorem C199_extinction (o : SkObj d) (h : SkRegular o) (hw : o.weighted = false)
    (side : SkFrame d → Vec d ℝ) (hside : ∀ f ∈ o.frames, ∀ c, 0 < side f c)
    (hk : ∀ f ∈ o.frames, ∀ c, f.ks.k0 c = 2 * Real.pi / side f c) :
    ∃ value nonorm, skLegacy o = .ok (value, nonorm) ∧ value.length = o.nk ∧ ∀ n < o.nk,
      (∀ f ∈ Spec.everyNth o.skip o.frames, ∀ k ∈ (kvectorsGet f.ks).getD n [], ∃ t, Spec.Repeats (side f) t f.pos0 ∧
        ∀ j : ℤ, Spec.dot k t ≠ j * (2 * Real.pi)) → value.getD n 0 = 0 := by
  obtain ⟨value, nonorm, h1, h2, h3, h4⟩ := C80_definition o h hw
  refine ⟨value, nonorm, h1, h2, fun n hn hrep => ?_⟩
  obtain ⟨e1, e2⟩ := h4 n hn
  have hz : (modeProducts o n).sum = 0 := by
    refine List.sum_eq_zero fun x hx => ?_
    unfold modeProducts at hx
    obtain ⟨f, hf, hx⟩ := List.mem_flatMap.1 hx
    obtain ⟨k, hkk, rfl⟩ := List.mem_map.1 hx
    have hf' : f ∈ o.frames := by
      rw [← originFrames_eq _ h.skip_pos] at hf
      exact originFrames_mem hf
    obtain ⟨t, ht, hj⟩ := hrep f hf k hkk
    rw [kvectorsGet_getD_pair] at hkk
    obtain ⟨v, -, rfl⟩ := List.mem_map.1 hkk
    rw [density_repeats (hside f hf') f.ks (hk f hf') v t f.pos0 ht hj, zero_mul, Complex.zero_re]
  rw [e2, e1, hz, zero_div, zero_div]

/-- **C199**: the structure factor is the number of particles at a grid point if for each of its wave-vectors `k` the phase
`k · (x - y)` is a multiple of `2π` for all pairs of particles. -/
theorem C199_bragg (o : SkObj d) (h : SkRegular o) (hs : o.same = true) (hw : o.weighted = false) {N : ℕ}
    (hN : ∀ f ∈ o.frames, f.pos0.length = N) :
    ∃ value nonorm, skLegacy o = .ok (value, nonorm) ∧ value.length = o.nk ∧ ∀ n < o.nk,
      (∀ f ∈ Spec.everyNth o.skip o.frames, ∀ k ∈ (kvectorsGet f.ks).getD n [], ∀ x ∈ f.pos0, ∀ y ∈ f.pos0,
        ∃ j : ℤ, Spec.dot k (fun c => x c - y c) = j * (2 * Real.pi)) → value.getD n 0 = N := by
  obtain ⟨value, nonorm, h1, h2, h3, h4⟩ := C80_definition o h hw
  refine ⟨value, nonorm, h1, h2, fun n hn hrep => ?_⟩
  obtain ⟨e1, e2⟩ := h4 n hn
  have hF : (0 : ℝ) < o.frames.length := by exact_mod_cast List.length_pos_iff.2 h.frames_ne
  obtain ⟨f0, hf0⟩ := List.exists_mem_of_ne_nil _ h.frames_ne
  have hN0 : (0 : ℝ) < N := by
    have := List.length_pos_iff.2 (h.pos0 f0 hf0)
    rw [hN f0 hf0] at this
    exact_mod_cast this
  have hall : ∀ x ∈ modeProducts o n, x = (N : ℝ) ^ 2 := by
    intro x hx
    unfold modeProducts at hx
    obtain ⟨f, hf, hx⟩ := List.mem_flatMap.1 hx
    obtain ⟨k, hkk, rfl⟩ := List.mem_map.1 hx
    have hf' : f ∈ o.frames := by
      rw [← originFrames_eq _ h.skip_pos] at hf
      exact originFrames_mem hf
    rw [(h.same hs f hf').1, density_product]
    rw [Finset.sum_congr rfl fun i _ => Finset.sum_congr rfl fun j _ => show _ = (1 : ℝ) from ?_]
    · simp [hN f hf', sq]
    · obtain ⟨z, hz⟩ := hrep f hf k hkk _ (List.getElem_mem (l := f.pos0) i.2) _ (List.getElem_mem (l := f.pos0) j.2)
      simp only [Fin.getElem_fin]
      rw [hz, Real.cos_int_mul_two_pi]
  have hM : (modeProducts o n).length ≠ 0 := by
    intro hc
    have hnil := List.length_eq_zero_iff.1 hc
    obtain ⟨f, fs, hff⟩ := List.exists_cons_of_ne_nil h.frames_ne
    have hf : f ∈ o.frames := by rw [hff]; simp
    have hmem : f ∈ Spec.everyNth o.skip o.frames := by rw [hff]; simp [Spec.everyNth]
    have hsh := h.shells f hf
    unfold modeProducts at hnil
    rw [List.flatMap_eq_nil_iff] at hnil
    have := hnil f hmem
    rw [kvectorsGet_getD_pair, List.map_map, List.map_eq_nil_iff] at this
    have hn' : n < f.ks.kvectors.length := by rw [hsh.1]; exact hn
    rw [List.getD_eq_getElem _ _ hn'] at this
    exact hsh.2 _ (List.getElem_mem hn') this
  have hM' : ((modeProducts o n).length : ℝ) ≠ 0 := by exact_mod_cast hM
  have hsum : ∀ (g : SkFrame d → ℕ) (l : List (SkFrame d)), (∀ f ∈ l, g f = N) → (l.map g).sum = l.length * N := by
    intro g l hl
    rw [List.map_congr_left hl]
    simp
  rw [e2, e1, List.eq_replicate_of_mem hall, List.sum_replicate, List.length_replicate, hsum _ _ hN,
    hsum (fun f => f.pos1.length) _ fun f hf => by rw [(h.same hs f hf).1]; exact hN f hf]
  push_cast
  rw [nsmul_eq_mul, mul_div_cancel_left₀ _ hM', mul_div_cancel_left₀ _ hF.ne', ← sq, Real.sqrt_sq hN0.le]
  field_simp

/-- Wave-vectors of a cell of side `2π`: (1, 0, 0) and (0, 1, 0), then (2, 0, 0) and (0, 2, 0). -/
noncomputable def exCrystalKs : KState 3 ℝ :=
  { k0 := ![1, 1, 1], kgrid := [1, 2], kvectors := [[![3, 2, 2], ![2, 3, 2]], [![4, 2, 2], ![2, 4, 2]]], koffset := 2 }

/-- Two particles at a distance of half a cell of side `2π`: the structure factor vanishes for the wave-vectors (1, 0, 0) and
(0, 1, 0), and is 2 for (2, 0, 0) and (0, 2, 0). -/
noncomputable def exCrystal : SkObj 3 :=
  { same := true, weighted := false, skip := 1, nk := 2,
    frames := [⟨[![0, 0, 0], ![Real.pi, Real.pi, 0]], [![0, 0, 0], ![Real.pi, Real.pi, 0]], [], [], exCrystalKs⟩] }

theorem exCrystal_regular : SkRegular exCrystal := by
  have hA : Allowed exCrystalKs := by
    refine ⟨by norm_num [exCrystalKs], ?_⟩
    intro l hl v hv c
    simp only [exCrystalKs, List.mem_cons, List.not_mem_nil, or_false] at hl
    rcases hl with rfl | rfl <;> simp only [List.mem_cons, List.not_mem_nil, or_false] at hv <;>
      rcases hv with rfl | rfl <;> fin_cases c <;> simp [exCrystalKs]
  refine ⟨by simp [exCrystal], by simp [exCrystal], Or.inl rfl, ?_, ?_, ?_, ?_, ?_⟩
  all_goals simp [exCrystal, hA]
  simp [exCrystalKs]

example : ∃ value nonorm, skLegacy exCrystal = .ok (value, nonorm) ∧ value.getD 0 0 = 0 ∧ value.getD 1 0 = 2 := by
  have hpi := Real.pi_pos.ne'
  obtain ⟨value, nonorm, h1, -, h2⟩ := C199_extinction exCrystal exCrystal_regular rfl (fun _ _ => 2 * Real.pi)
    (fun _ _ _ => by positivity) (by
      intro f hf c
      simp only [exCrystal, List.mem_cons, List.not_mem_nil, or_false] at hf
      subst hf
      fin_cases c <;> simp [exCrystalKs, hpi])
  obtain ⟨value', nonorm', h1', -, h2'⟩ := C199_bragg exCrystal exCrystal_regular rfl rfl (N := 2) (by simp [exCrystal])
  rw [h1] at h1'
  cases h1'
  refine ⟨value, nonorm, h1, h2 0 (by simp [exCrystal]) ?_, ?_⟩
  · intro f hf k hk
    have hf : f ∈ exCrystal.frames := by
      rw [← originFrames_eq _ (by simp [exCrystal])] at hf
      exact originFrames_mem hf
    simp only [exCrystal, List.mem_cons, List.not_mem_nil, or_false] at hf
    subst hf
    refine ⟨![Real.pi, Real.pi, 0], ⟨[![Real.pi, Real.pi, 0], ![0, 0, 0]], List.Perm.swap _ _ _, ?_⟩, ?_⟩
    · refine .cons ⟨fun _ => 0, ?_⟩ (.cons ⟨![1, 1, 0], ?_⟩ .nil)
      · intro c; fin_cases c <;> simp
      · intro c; fin_cases c <;> simp <;> ring
    · intro j hj
      have hj' : Real.pi = j * (2 * Real.pi) := by
        rw [← hj]
        simp only [kvectorsGet, exCrystalKs, List.map_cons, List.map_nil, List.getD_cons_zero, List.mem_cons, List.not_mem_nil, or_false] at hk
        rcases hk with rfl | rfl <;> simp [Spec.dot, kvecOf, Fin.sum_univ_three] <;> norm_num
      have h3 : (1 : ℝ) = 2 * j := by
        field_simp at hj'
        linarith
      have h4 : (1 : ℤ) = 2 * j := by exact_mod_cast h3
      omega
  · have := h2' 1 (by simp [exCrystal]) ?_
    · simpa using this
    · intro f hf k hk x hx y hy
      have hf : f ∈ exCrystal.frames := by
        rw [← originFrames_eq _ (by simp [exCrystal])] at hf
        exact originFrames_mem hf
      simp only [exCrystal, List.mem_cons, List.not_mem_nil, or_false] at hf
      subst hf
      simp only [kvectorsGet, exCrystalKs, List.map_cons, List.map_nil, List.getD_cons_succ, List.getD_cons_zero, List.mem_cons,
        List.not_mem_nil, or_false] at hk
      simp only [List.mem_cons, List.not_mem_nil, or_false] at hx hy
      rcases hk with rfl | rfl <;> rcases hx with rfl | rfl <;> rcases hy with rfl | rfl
      · exact ⟨0, by simp [Spec.dot]⟩
      · exact ⟨-1, by simp [Spec.dot, kvecOf, Fin.sum_univ_three]; norm_num⟩
      · exact ⟨1, by simp [Spec.dot, kvecOf, Fin.sum_univ_three]; norm_num⟩
      · exact ⟨0, by simp [Spec.dot]⟩
      · exact ⟨0, by simp [Spec.dot]⟩
      · exact ⟨-1, by simp [Spec.dot, kvecOf, Fin.sum_univ_three]; norm_num⟩
      · exact ⟨1, by simp [Spec.dot, kvecOf, Fin.sum_univ_three]; norm_num⟩
      · exact ⟨0, by simp [Spec.dot]⟩

end PP.Props
