import Verif.Props.Sk
import Verif.Props.GrOrder

/-!
# C134, C135, C136: symmetries of the structure factor, stride, weights and origin of the coordinates
-/

set_option linter.unusedSectionVars false

namespace PP.Spec

/-- The particles of a group with their weights, 1 if no weight is set. -/
noncomputable def particles {d : ℕ} (weighted : Bool) (pos : List (Fin d → ℝ)) (w : List ℝ) : List ((Fin d → ℝ) × ℝ) :=
  pos.zipIdx.map fun e => (e.1, if weighted then w.getD e.2 0 else 1)

end PP.Spec

namespace PP.Props
open PP

variable {d : ℕ}

theorem modesValue_perm (weighted : Bool) {l l' : List (ℂ × ℂ)} (h : l.Perm l') :
    modesValue weighted l = modesValue weighted l' := by
  unfold modesValue
  rw [(h.map _).sum_eq, (h.map Prod.fst).sum_eq, (h.map Prod.snd).sum_eq, h.length_eq]

theorem sum_star (l : List ℂ) : (l.map star).sum = star l.sum := by
  induction l with
  | nil => simp
  | cons a l ih => rw [List.map_cons, List.sum_cons, List.sum_cons, ih, star_add]

theorem modesValue_star (weighted : Bool) (l : List (ℂ × ℂ)) :
    modesValue weighted (l.map fun r => (star r.1, star r.2)) = modesValue weighted l := by
  have e1 : ((l.map fun r => (star r.1, star r.2)).map fun r => r.1 * star r.2).sum
      = star (l.map fun r => r.1 * star r.2).sum := by
    rw [← sum_star, List.map_map, List.map_map]
    congr 1
    apply List.map_congr_left
    intro r _
    simp [mul_comm]
  have e2 : ((l.map fun r => (star r.1, star r.2)).map Prod.fst).sum = star (l.map Prod.fst).sum := by
    rw [← sum_star, List.map_map, List.map_map]; rfl
  have e3 : ((l.map fun r => (star r.1, star r.2)).map Prod.snd).sum = star (l.map Prod.snd).sum := by
    rw [← sum_star, List.map_map, List.map_map]; rfl
  have e4 : ∀ (z w : ℂ) (n : ℕ), (star z / (n : ℂ) - star w / (n : ℂ) ^ 2) = star (z / (n : ℂ) - w / (n : ℂ) ^ 2) := by
    intro z w n; simp
  unfold modesValue
  rw [e1, e2, e3, List.length_map]
  by_cases hw : weighted = true
  · rw [if_pos hw, if_pos hw, ← star_mul', e4]
    exact Complex.conj_re _
  · rw [if_neg hw, if_neg hw]
    have := e4 (l.map fun r => r.1 * star r.2).sum 0 l.length
    rw [star_zero] at this
    rw [this]
    exact Complex.conj_re _

/-! ## C134 -/

theorem skRegular_frames (o : SkObj d) (h : SkRegular o) (F : List (SkFrame d)) (hne : F ≠ []) (skip : ℕ) (hs : 0 < skip)
    (hF : ∀ f ∈ F, f ∈ o.frames) : SkRegular { o with frames := F, skip := skip } :=
  ⟨hne, hs, h.dims, fun hs f hf => h.same hs f (hF f hf), fun f hf => h.pos0 f (hF f hf), fun f hf => h.pos1 f (hF f hf),
    fun f hf => h.allowed f (hF f hf), fun f hf => h.shells f (hF f hf)⟩

/-- **C134.** With all the frames as time origins, the structure factor does not depend on the order of the frames,
with or without weights. -/
theorem C134_order (o : SkObj d) (h : SkRegular o) (hskip : o.skip = 1) (F : List (SkFrame d))
    (hF : F.Perm o.frames) :
    ∃ r, skLegacy o = .ok r ∧ skLegacy { o with frames := F } = .ok r := by
  have hne : F ≠ [] := by rintro rfl; exact h.frames_ne hF.symm.eq_nil
  have hr := skRegular_frames o h F hne o.skip h.skip_pos (fun f hf => hF.mem_iff.1 hf)
  refine ⟨_, skLegacy_eq o h, ?_⟩
  rw [skLegacy_eq _ hr]
  have hm : ∀ n, modesValue o.weighted (gridModes { o with frames := F } n) = modesValue o.weighted (gridModes o n) := by
    intro n
    apply modesValue_perm
    unfold gridModes
    simp only [hskip, originFrames_one]
    exact hF.flatMap_right _
  have h0 : skN0 { o with frames := F } = skN0 o := by
    unfold skN0
    simp only
    rw [(hF.map _).sum_eq, hF.length_eq]
  have h1 : skN1 { o with frames := F } = skN1 o := by
    unfold skN1
    simp only
    rw [(hF.map _).sum_eq, hF.length_eq]
  have hw : ({ o with frames := F, skip := o.skip } : SkObj d).weighted = o.weighted := rfl
  simp only at h0 h1 hm ⊢
  rw [h0, h1]
  simp only [hm]

theorem fieldMode_particles (k : Fin d → ℝ) (weighted : Bool) (w : List ℝ) (pos : List (Vec d ℝ)) :
    Spec.fieldMode k (realWeight weighted w) pos =
      ((Spec.particles weighted pos w).map fun p => (p.2 : ℂ) * Complex.exp (Complex.I * (Spec.dot k p.1 : ℝ))).sum := by
  unfold Spec.fieldMode Spec.particles realWeight
  rw [List.map_map]
  rfl

/-- **C134.** The structure factor does not depend on the labels of the particles, provided the weights are those of
the same particles; the labels may be exchanged in a different way in each frame and group. -/
theorem C134_labels (o : SkObj d) (h : SkRegular o) (g : SkFrame d → SkFrame d)
    (hks : ∀ f ∈ o.frames, (g f).ks = f.ks)
    (hsame : o.same = true → ∀ f ∈ o.frames, (g f).pos1 = (g f).pos0 ∧ (g f).w1 = (g f).w0)
    (h0 : ∀ f ∈ o.frames, (Spec.particles o.weighted (g f).pos0 (g f).w0).Perm (Spec.particles o.weighted f.pos0 f.w0))
    (h1 : ∀ f ∈ o.frames, (Spec.particles o.weighted (g f).pos1 (g f).w1).Perm (Spec.particles o.weighted f.pos1 f.w1)) :
    ∃ r, skLegacy o = .ok r ∧ skLegacy { o with frames := o.frames.map g } = .ok r := by
  have hlen : ∀ (b : Bool) (p q : List (Vec d ℝ)) (w v : List ℝ),
      (Spec.particles b p w).Perm (Spec.particles b q v) → p.length = q.length := by
    intro b p q w v hp
    have := hp.length_eq
    simpa [Spec.particles] using this
  have hl0 : ∀ f ∈ o.frames, (g f).pos0.length = f.pos0.length := fun f hf => hlen _ _ _ _ _ (h0 f hf)
  have hl1 : ∀ f ∈ o.frames, (g f).pos1.length = f.pos1.length := fun f hf => hlen _ _ _ _ _ (h1 f hf)
  have hne : ∀ {a b : List (Vec d ℝ)}, a.length = b.length → b ≠ [] → a ≠ [] := by
    intro a b hab hb ha
    rw [ha] at hab
    exact hb (List.length_eq_zero_iff.1 hab.symm)
  have hr : SkRegular { o with frames := o.frames.map g } := by
    refine ⟨by simpa using h.frames_ne, h.skip_pos, h.dims, ?_, ?_, ?_, ?_, ?_⟩
    · intro hs f hf
      obtain ⟨f, hf', rfl⟩ := List.mem_map.1 hf
      exact hsame hs f hf'
    · intro f hf
      obtain ⟨f, hf', rfl⟩ := List.mem_map.1 hf
      exact hne (hl0 f hf') (h.pos0 f hf')
    · intro f hf
      obtain ⟨f, hf', rfl⟩ := List.mem_map.1 hf
      exact hne (hl1 f hf') (h.pos1 f hf')
    · intro f hf
      obtain ⟨f, hf', rfl⟩ := List.mem_map.1 hf
      rw [hks f hf']; exact h.allowed f hf'
    · intro f hf
      obtain ⟨f, hf', rfl⟩ := List.mem_map.1 hf
      rw [hks f hf']; exact h.shells f hf'
  refine ⟨_, skLegacy_eq o h, ?_⟩
  rw [skLegacy_eq _ hr]
  have hm : ∀ n, gridModes { o with frames := o.frames.map g } n = gridModes o n := by
    intro n
    unfold gridModes
    simp only
    rw [skFrames_map h.skip_pos, List.flatMap_map]
    apply List.flatMap_congr
    intro f hf
    have hf' := originFrames_mem hf
    rw [hks f hf']
    apply List.map_congr_left
    intro v _
    unfold skModes
    rw [hks f hf', fieldMode_particles, fieldMode_particles, fieldMode_particles, fieldMode_particles,
      ((h0 f hf').map _).sum_eq, ((h1 f hf').map _).sum_eq]
  have e0 : skN0 { o with frames := o.frames.map g } = skN0 o := by
    unfold skN0
    simp only [List.map_map, List.length_map]
    congr 3
    exact List.map_congr_left fun f hf => hl0 f hf
  have e1 : skN1 { o with frames := o.frames.map g } = skN1 o := by
    unfold skN1
    simp only [List.map_map, List.length_map]
    congr 3
    exact List.map_congr_left fun f hf => hl1 f hf
  rw [e0, e1]
  simp only [hm]

theorem fieldMode_neg (k : Fin d → ℝ) (w : ℕ → ℝ) (pos : List (Vec d ℝ)) :
    Spec.fieldMode k w (pos.map fun x => -x) = star (Spec.fieldMode k w pos) := by
  unfold Spec.fieldMode
  rw [← sum_star, List.zipIdx_map, List.map_map, List.map_map]
  congr 1
  apply List.map_congr_left
  intro e _
  have : Spec.dot k (-e.1) = -Spec.dot k e.1 := by
    unfold Spec.dot
    rw [← Finset.sum_neg_distrib]
    exact Finset.sum_congr rfl fun c _ => by simp
  have e1 : star (Complex.exp (Complex.I * ((Spec.dot k e.1 : ℝ) : ℂ))) =
      Complex.exp (Complex.I * ((-Spec.dot k e.1 : ℝ) : ℂ)) := by
    rw [show star (Complex.exp (Complex.I * ((Spec.dot k e.1 : ℝ) : ℂ)))
      = (starRingEnd ℂ) (Complex.exp (Complex.I * ((Spec.dot k e.1 : ℝ) : ℂ))) from rfl, ← Complex.exp_conj]
    congr 1
    simp
  show (w e.2 : ℂ) * Complex.exp (Complex.I * (Spec.dot k (-e.1) : ℝ))
    = star ((w e.2 : ℂ) * Complex.exp (Complex.I * (Spec.dot k e.1 : ℝ)))
  rw [star_mul', e1, this]
  congr 1
  exact (Complex.conj_ofReal _).symm

/-- **C134.** The structure factor does not change under inversion of the coordinates, with or without weights, for one
or two groups. -/
theorem C134_inversion (o : SkObj d) (h : SkRegular o) :
    ∃ r, skLegacy o = .ok r ∧ skLegacy { o with frames := o.frames.map fun f =>
      { f with pos0 := f.pos0.map fun x => -x, pos1 := f.pos1.map fun x => -x } } = .ok r := by
  have hr : SkRegular { o with frames := o.frames.map fun f =>
      { f with pos0 := f.pos0.map fun x => -x, pos1 := f.pos1.map fun x => -x } } := by
    refine ⟨by simpa using h.frames_ne, h.skip_pos, h.dims, ?_, ?_, ?_, ?_, ?_⟩
    · intro hs f hf
      obtain ⟨f, hf', rfl⟩ := List.mem_map.1 hf
      obtain ⟨e1, e2⟩ := h.same hs f hf'
      simp only [e1, e2, and_self]
    · intro f hf
      obtain ⟨f, hf', rfl⟩ := List.mem_map.1 hf
      simpa using h.pos0 f hf'
    · intro f hf
      obtain ⟨f, hf', rfl⟩ := List.mem_map.1 hf
      simpa using h.pos1 f hf'
    · intro f hf
      obtain ⟨f, hf', rfl⟩ := List.mem_map.1 hf
      exact h.allowed f hf'
    · intro f hf
      obtain ⟨f, hf', rfl⟩ := List.mem_map.1 hf
      exact h.shells f hf'
  refine ⟨_, skLegacy_eq o h, ?_⟩
  rw [skLegacy_eq _ hr]
  have hm : ∀ n, gridModes { o with frames := o.frames.map fun f =>
      { f with pos0 := f.pos0.map fun x => -x, pos1 := f.pos1.map fun x => -x } } n
        = (gridModes o n).map fun r => (star r.1, star r.2) := by
    intro n
    unfold gridModes
    simp only
    rw [skFrames_map h.skip_pos, List.flatMap_map, List.map_flatMap]
    apply List.flatMap_congr
    intro f _
    rw [List.map_map]
    apply List.map_congr_left
    intro v _
    unfold skModes
    simp only [Function.comp_apply]
    rw [fieldMode_neg, fieldMode_neg]
  have e0 : skN0 { o with frames := o.frames.map fun f =>
      { f with pos0 := f.pos0.map fun x => -x, pos1 := f.pos1.map fun x => -x } } = skN0 o := by
    unfold skN0
    simp only [List.map_map, List.length_map]
    congr 3
    exact List.map_congr_left fun f hf => by simp
  have e1 : skN1 { o with frames := o.frames.map fun f =>
      { f with pos0 := f.pos0.map fun x => -x, pos1 := f.pos1.map fun x => -x } } = skN1 o := by
    unfold skN1
    simp only [List.map_map, List.length_map]
    congr 3
    exact List.map_congr_left fun f hf => by simp
  rw [e0, e1]
  simp only [hm, modesValue_star]

/-! ## C135 -/

/-- **C135 does not hold** if the number of particles fluctuates: the numbers of particles are averaged over all the
frames, also those that are not time origins. The normalised values are those of the trajectory made of the frames
0, `skip`, 2 `skip`, ... multiplied by the square root of the ratio of the mean numbers. -/
theorem C135_counterexample_number (o : SkObj d) (h : SkRegular o) (F : List (SkFrame d))
    (hF : ∀ i, F[i]? = o.frames[i * o.skip]?) :
    ∃ v x, skLegacy { o with frames := F, skip := 1 } = .ok (v, x) ∧
      skLegacy o = .ok (v.map (· * √((((F.map fun f => (f.pos0.length : ℝ)).sum / F.length)
          * ((F.map fun f => (f.pos1.length : ℝ)).sum / F.length))
        / (((o.frames.map fun f => (f.pos0.length : ℝ)).sum / o.frames.length)
          * ((o.frames.map fun f => (f.pos1.length : ℝ)).sum / o.frames.length)))), x) := by
  have hof := originFrames_of h.skip_pos hF
  have hne : F ≠ [] := by rw [← hof]; exact originFrames_ne_nil h.frames_ne h.skip_pos
  have hmem : ∀ f ∈ F, f ∈ o.frames := fun f hf => originFrames_mem (by rw [hof]; exact hf)
  have hr := skRegular_frames o h F hne 1 one_pos hmem
  refine ⟨_, _, skLegacy_eq _ hr, ?_⟩
  rw [skLegacy_eq o h]
  have hm : ∀ n, gridModes { o with frames := F, skip := 1 } n = gridModes o n := by
    intro n
    unfold gridModes
    simp only [originFrames_one, hof]
  have hc : ∀ (G : List (SkFrame d)) (p : SkFrame d → List (Vec d ℝ)),
      (((G.map fun f => (p f).length).sum : ℕ) : ℝ) = (G.map fun f => ((p f).length : ℝ)).sum := by
    intro G p
    rw [Nat.cast_list_sum, List.map_map]
    rfl
  have hpos : ∀ (G : List (SkFrame d)) (p : SkFrame d → List (Vec d ℝ)), G ≠ [] → (∀ f ∈ G, p f ≠ []) →
      0 < (G.map fun f => ((p f).length : ℝ)).sum / (G.length : ℝ) := by
    intro G p hG hp
    apply div_pos
    · apply List.sum_pos
      · intro x hx
        obtain ⟨f, hf, rfl⟩ := List.mem_map.1 hx
        exact_mod_cast List.length_pos_iff.2 (hp f hf)
      · simpa using hG
    · exact_mod_cast List.length_pos_iff.2 hG
  have p1 := hpos F SkFrame.pos0 hne hr.pos0
  have p2 := hpos F SkFrame.pos1 hne hr.pos1
  have p3 := hpos o.frames SkFrame.pos0 h.frames_ne h.pos0
  have p4 := hpos o.frames SkFrame.pos1 h.frames_ne h.pos1
  simp only [hm, List.map_map]
  congr 2
  apply List.map_congr_left
  intro n _
  simp only [Function.comp_apply, skN0, skN1, hc]
  set a := (F.map fun f => (f.pos0.length : ℝ)).sum / (F.length : ℝ)
  set b := (F.map fun f => (f.pos1.length : ℝ)).sum / (F.length : ℝ)
  set c := (o.frames.map fun f => (f.pos0.length : ℝ)).sum / (o.frames.length : ℝ)
  set e := (o.frames.map fun f => (f.pos1.length : ℝ)).sum / (o.frames.length : ℝ)
  rw [Real.sqrt_div (mul_pos p1 p2).le]
  have q1 : √(a * b) ≠ 0 := (Real.sqrt_pos.2 (mul_pos p1 p2)).ne'
  have q2 : √(c * e) ≠ 0 := (Real.sqrt_pos.2 (mul_pos p3 p4)).ne'
  field_simp

/-- **C135** (part that holds). With a constant number of particles, the stride of the time origins selects the
frames. -/
theorem C135_constant_partial (o : SkObj d) (h : SkRegular o) (F : List (SkFrame d))
    (hF : ∀ i, F[i]? = o.frames[i * o.skip]?) {n0 n1 : ℕ} (h0 : ∀ f ∈ o.frames, f.pos0.length = n0)
    (h1 : ∀ f ∈ o.frames, f.pos1.length = n1) :
    ∃ r, skLegacy o = .ok r ∧ skLegacy { o with frames := F, skip := 1 } = .ok r := by
  have hof := originFrames_of h.skip_pos hF
  have hne : F ≠ [] := by rw [← hof]; exact originFrames_ne_nil h.frames_ne h.skip_pos
  have hmem : ∀ f ∈ F, f ∈ o.frames := fun f hf => originFrames_mem (by rw [hof]; exact hf)
  have hr := skRegular_frames o h F hne 1 one_pos hmem
  obtain ⟨f, hf⟩ := List.exists_mem_of_ne_nil _ h.frames_ne
  obtain ⟨v, x, e1, e2⟩ := C135_counterexample_number o h F hF
  have hav : ∀ (G : List (SkFrame d)) (p : SkFrame d → List (Vec d ℝ)) (n : ℕ), G ≠ [] → (∀ f ∈ G, (p f).length = n) →
      (G.map fun f => ((p f).length : ℝ)).sum / (G.length : ℝ) = n := by
    intro G p n hG hp
    have hl : (G.length : ℝ) ≠ 0 := by
      have := List.length_pos_iff.2 hG
      exact_mod_cast this.ne'
    rw [List.map_congr_left (g := fun _ => (n : ℝ)) (fun f hf => by rw [hp f hf]), List.map_const', List.sum_replicate,
      nsmul_eq_mul]
    field_simp
  have q0 : (n0 : ℝ) ≠ 0 := by
    have := List.length_pos_iff.2 (h.pos0 f hf); rw [h0 f hf] at this; exact_mod_cast this.ne'
  have q1 : (n1 : ℝ) ≠ 0 := by
    have := List.length_pos_iff.2 (h.pos1 f hf); rw [h1 f hf] at this; exact_mod_cast this.ne'
  rw [hav F _ n0 hne (fun f hf => h0 f (hmem f hf)), hav F _ n1 hne (fun f hf => h1 f (hmem f hf)),
    hav o.frames _ n0 h.frames_ne h0, hav o.frames _ n1 h.frames_ne h1, div_self (mul_ne_zero q0 q1), Real.sqrt_one] at e2
  simp only [mul_one, List.map_id'] at e2
  exact ⟨_, e2, e1⟩

/-! ## C136 -/

theorem fieldMode_translate (k t : Fin d → ℝ) (w : ℕ → ℝ) (pos : List (Vec d ℝ)) :
    Spec.fieldMode k w (pos.map fun x => x + t) = ccis (Spec.dot k t) * Spec.fieldMode k w pos := by
  unfold Spec.fieldMode
  rw [← List.sum_map_mul_left, List.zipIdx_map, List.map_map]
  congr 1
  apply List.map_congr_left
  intro e _
  show (w e.2 : ℂ) * Complex.exp (Complex.I * (Spec.dot k (e.1 + t) : ℝ)) = _
  have : Spec.dot k (e.1 + t) = Spec.dot k e.1 + Spec.dot k t := by
    unfold Spec.dot
    rw [← Finset.sum_add_distrib]
    exact Finset.sum_congr rfl fun c _ => by rw [Pi.add_apply, mul_add]
  unfold ccis
  rw [this]
  push_cast
  rw [mul_add, Complex.exp_add]
  ring

theorem modesValue_pair (r1 r2 : ℂ) : modesValue true [(r1, r1), (r2, r2)] = ‖r1 - r2‖ ^ 2 / 4 := by
  rw [← mul_star_re]
  unfold modesValue
  simp only [List.map_cons, List.map_nil, List.sum_cons, List.sum_nil, List.length_cons, List.length_nil, if_true]
  rw [show (r1 * star r1 + (r2 * star r2 + 0)) / ((0 + 1 + 1 : ℕ) : ℂ)
      - (r1 + (r2 + 0)) * star (r1 + (r2 + 0)) / ((0 + 1 + 1 : ℕ) : ℂ) ^ 2
      = ((1 / 4 : ℝ) : ℂ) * ((r1 - r2) * star (r1 - r2)) by
    push_cast
    rw [star_add, star_add, star_sub, star_zero]
    ring, Complex.re_ofReal_mul]
  ring

theorem ccis_norm (x : ℝ) : ‖ccis x‖ = 1 := by
  unfold ccis
  rw [mul_comm]
  exact Complex.norm_exp_ofReal_mul_I x

/-- **C136 does not hold** for translations. In one frame, at a point of the grid with two wave-vectors, moving the
origin of the coordinates by `t` with `(k₁ - k₂)·t = π` changes the weighted structure factor (before the
normalisation) by the real part of the product of the two modes. -/
theorem C136_counterexample_origin (o : SkObj d) (h : SkRegular o) (hw : o.weighted = true) (hs : o.same = true)
    (f : SkFrame d) (hf : o.frames = [f]) {n : ℕ} {v1 v2 : KVec d} (hn : f.ks.kvectors[n]? = some [v1, v2])
    (t : Vec d ℝ) (ht : Spec.dot (kvecOf f.ks v1) t - Spec.dot (kvecOf f.ks v2) t = Real.pi) :
    ∃ v x v' x', skLegacy o = .ok (v, x) ∧
      skLegacy { o with frames := [{ f with pos0 := f.pos0.map fun x => x + t, pos1 := f.pos1.map fun x => x + t }] }
        = .ok (v', x') ∧
      x'.getD n 0 - x.getD n 0 = (Spec.fieldMode (kvecOf f.ks v1) (fun p => f.w0.getD p 0) f.pos0
        * star (Spec.fieldMode (kvecOf f.ks v2) (fun p => f.w0.getD p 0) f.pos0)).re := by
  have hmem : f ∈ o.frames := by rw [hf]; simp
  have hr : SkRegular { o with frames := [{ f with pos0 := f.pos0.map fun x => x + t, pos1 := f.pos1.map fun x => x + t }] } := by
    refine ⟨by simp, h.skip_pos, h.dims, ?_, ?_, ?_, ?_, ?_⟩
    all_goals simp only [List.mem_singleton, forall_eq]
    · intro _; obtain ⟨e1, e2⟩ := h.same hs f hmem; rw [e1, e2]; exact ⟨rfl, rfl⟩
    · simpa using h.pos0 f hmem
    · simpa using h.pos1 f hmem
    · exact h.allowed f hmem
    · exact h.shells f hmem
  refine ⟨_, _, _, _, skLegacy_eq o h, skLegacy_eq _ hr, ?_⟩
  have hnk : n < o.nk := by
    rw [← (h.shells f hmem).1]
    by_contra hc
    rw [List.getElem?_eq_none (by omega)] at hn
    cases hn
  have hget : ∀ g : ℕ → ℝ, ((List.range o.nk).map g).getD n 0 = g n := by
    intro g
    rw [List.getD_eq_getElem?_getD, List.getElem?_map, List.getElem?_range hnk]
    rfl
  have hor : ∀ a : SkFrame d, originFrames [a] o.skip = [a] := by
    intro a
    refine originFrames_of h.skip_pos fun i => ?_
    rcases i with _ | i
    · simp
    · have : 1 ≤ (i + 1) * o.skip := Nat.mul_pos (by omega) h.skip_pos
      rw [List.getElem?_eq_none (by simp), List.getElem?_eq_none (by simpa using this)]
  have hkv : f.ks.kvectors.getD n [] = [v1, v2] := by rw [List.getD_eq_getElem?_getD, hn]; rfl
  obtain ⟨s1, s2⟩ := h.same hs f hmem
  rw [hget, hget]
  unfold gridModes
  simp only [hf, hor, List.flatMap_cons, List.flatMap_nil, List.append_nil, hkv, List.map_cons, List.map_nil, skModes, s1, s2, hw,
    fieldMode_translate]
  rw [modesValue_pair, modesValue_pair]
  have ew : realWeight true f.w0 = fun p => f.w0.getD p 0 := by funext p; rfl
  rw [ew]
  set r1 := Spec.fieldMode (kvecOf f.ks v1) (fun p => f.w0.getD p 0) f.pos0
  set r2 := Spec.fieldMode (kvecOf f.ks v2) (fun p => f.w0.getD p 0) f.pos0
  set a1 := Spec.dot (kvecOf f.ks v1) t
  set a2 := Spec.dot (kvecOf f.ks v2) t
  have e1 : ccis a1 = -ccis a2 := by
    rw [show a1 = a2 + Real.pi by linarith]
    unfold ccis
    push_cast
    rw [mul_add, Complex.exp_add, mul_comm Complex.I (Real.pi : ℂ), Complex.exp_pi_mul_I]
    ring
  have e2 : ccis a1 * r1 - ccis a2 * r2 = -(ccis a2 * (r1 + r2)) := by rw [e1]; ring
  rw [e2, norm_neg, norm_mul, ccis_norm, one_mul, ← mul_star_re, ← mul_star_re, star_add, star_sub]
  have e3 : (r1 + r2) * (star r1 + star r2) = (r1 - r2) * (star r1 - star r2) + (2 * (r1 * star r2) + 2 * (star (r1 * star r2))) := by
    rw [star_mul', star_star]; ring
  rw [e3, Complex.add_re, Complex.add_re]
  have e4 : ∀ z : ℂ, (2 * z).re = 2 * z.re := by
    intro z; rw [show (2 : ℂ) = ((2 : ℝ) : ℂ) by norm_num, Complex.re_ofReal_mul]
  have e5 : (star (r1 * star r2)).re = (r1 * star r2).re := Complex.conj_re _
  rw [e4, e4, e5]
  ring

/-- **C136** (part that holds). With or without weights, the structure factor does not change if particles are moved by
whole sides of the cell. -/
theorem C136_images_partial (o : SkObj d) (h : SkRegular o) (side : SkFrame d → Vec d ℝ)
    (hside : ∀ f ∈ o.frames, ∀ c, 0 < side f c) (hk : ∀ f ∈ o.frames, ∀ c, f.ks.k0 c = 2 * Real.pi / side f c)
    (n0 n1 : SkFrame d → ℕ → Fin d → ℤ) (hn : o.same = true → n1 = n0) :
    ∃ r, skLegacy o = .ok r ∧ skLegacy (o.mapFrames fun f => { f with
        pos0 := f.pos0.mapIdx fun p x c => x c + n0 f p c * side f c
        pos1 := f.pos1.mapIdx fun p x c => x c + n1 f p c * side f c }) = .ok r := by
  have hr : SkRegular (o.mapFrames fun f => { f with
        pos0 := f.pos0.mapIdx fun p x c => x c + n0 f p c * side f c
        pos1 := f.pos1.mapIdx fun p x c => x c + n1 f p c * side f c }) := by
    refine ⟨by simpa [SkObj.mapFrames] using h.frames_ne, h.skip_pos, h.dims, ?_, ?_, ?_, ?_, ?_⟩
    · intro hs f hf
      obtain ⟨f, hf', rfl⟩ := List.mem_map.1 hf
      obtain ⟨e1, e2⟩ := h.same hs f hf'
      simp only [e1, e2, hn hs, and_self]
    · intro f hf
      obtain ⟨f, hf', rfl⟩ := List.mem_map.1 hf
      simpa using h.pos0 f hf'
    · intro f hf
      obtain ⟨f, hf', rfl⟩ := List.mem_map.1 hf
      simpa using h.pos1 f hf'
    · intro f hf
      obtain ⟨f, hf', rfl⟩ := List.mem_map.1 hf
      exact h.allowed f hf'
    · intro f hf
      obtain ⟨f, hf', rfl⟩ := List.mem_map.1 hf
      exact h.shells f hf'
  have hfold : ∀ f ∈ o.frames, ∀ v w (pos : List (Vec d ℝ)) (m : ℕ → Fin d → ℤ),
      Spec.fieldMode (kvecOf f.ks v) w (pos.mapIdx fun p x c => x c + m p c * side f c)
        = Spec.fieldMode (kvecOf f.ks v) w pos := by
    intro f hf v w pos m
    unfold Spec.fieldMode
    congr 1
    apply List.ext_getElem (by simp)
    intro p hp1 hp2
    simp only [List.getElem_map, List.getElem_zipIdx, List.getElem_mapIdx]
    congr 1
    have hp : p < pos.length := by simpa using hp2
    have := density_fold (hside f hf) f.ks (hk f hf) v [pos[p]] (fun _ => m p)
    unfold Spec.density at this
    simpa using this
  refine ⟨_, skLegacy_eq o h, ?_⟩
  rw [skLegacy_eq _ hr]
  have hm : ∀ n, gridModes (o.mapFrames fun f => { f with
        pos0 := f.pos0.mapIdx fun p x c => x c + n0 f p c * side f c
        pos1 := f.pos1.mapIdx fun p x c => x c + n1 f p c * side f c }) n = gridModes o n := by
    intro n
    unfold gridModes SkObj.mapFrames
    simp only
    rw [skFrames_map h.skip_pos, List.flatMap_map]
    apply List.flatMap_congr
    intro f hf
    have hf' := originFrames_mem hf
    apply List.map_congr_left
    intro v _
    unfold skModes
    simp only
    rw [hfold f hf', hfold f hf']
  have e0 : skN0 (o.mapFrames fun f => { f with
        pos0 := f.pos0.mapIdx fun p x c => x c + n0 f p c * side f c
        pos1 := f.pos1.mapIdx fun p x c => x c + n1 f p c * side f c }) = skN0 o := by
    unfold skN0 SkObj.mapFrames
    simp only [List.map_map, List.length_map]
    congr 3
    exact List.map_congr_left fun f hf => by simp
  have e1 : skN1 (o.mapFrames fun f => { f with
        pos0 := f.pos0.mapIdx fun p x c => x c + n0 f p c * side f c
        pos1 := f.pos1.mapIdx fun p x c => x c + n1 f p c * side f c }) = skN1 o := by
    unfold skN1 SkObj.mapFrames
    simp only [List.map_map, List.length_map]
    congr 3
    exact List.map_congr_left fun f hf => by simp
  rw [e0, e1]
  simp only [hm]
  rfl

/-! ## C137 -/

/-- Mean over the frames used and the wave-vectors of grid point `n` of the density modes of a group of particles. -/
noncomputable def meanMode (o : SkObj d) (p : SkFrame d → List (Vec d ℝ)) (n : ℕ) : ℂ :=
  ((Spec.everyNth o.skip o.frames).flatMap fun f => ((kvectorsGet f.ks).getD n []).map fun k =>
      Spec.density k (p f)).sum
    / (((Spec.everyNth o.skip o.frames).flatMap fun f => (kvectorsGet f.ks).getD n []).length : ℂ)

theorem kvectorsGet_getD (ks : KState d ℝ) (n : ℕ) :
    (kvectorsGet ks).getD n [] = (ks.kvectors.getD n []).map (kvecOf ks) := by
  unfold kvectorsGet
  rw [List.getD_eq_getElem?_getD, List.getD_eq_getElem?_getD, List.getElem?_map]
  rcases ks.kvectors[n]? with _ | l
  · rfl
  · rfl

theorem fieldMode_ones (k : Fin d → ℝ) (pos : List (Vec d ℝ)) :
    Spec.fieldMode k (realWeight true (pos.map fun _ => 1)) pos = Spec.fieldMode k (realWeight false []) pos := by
  unfold Spec.fieldMode
  congr 1
  apply List.map_congr_left
  intro e he
  have hp : e.2 < pos.length := by
    have := List.snd_lt_of_mem_zipIdx he
    simpa using this
  have : realWeight true (pos.map fun _ => 1) e.2 = realWeight false [] e.2 := by
    unfold realWeight
    simp [List.getD_eq_getElem?_getD, hp]
  rw [this]

/-- **C137 does not hold.** With weights all equal to one, the structure factor (before the normalisation) is the one
without weights minus the product of the means of the density modes of the two groups. -/
theorem C137_counterexample_ones (o : SkObj d) (h : SkRegular o) (hw : o.weighted = false) :
    ∃ v x v' x', skLegacy o = .ok (v, x) ∧ x.length = o.nk ∧
      skLegacy { o with weighted := true, frames := o.frames.map fun f =>
        { f with w0 := f.pos0.map fun _ => 1, w1 := f.pos1.map fun _ => 1 } } = .ok (v', x') ∧ x'.length = o.nk ∧
      ∀ n < o.nk, x'.getD n 0
        = x.getD n 0 - (meanMode o SkFrame.pos0 n * star (meanMode o SkFrame.pos1 n)).re := by
  have hr : SkRegular { o with weighted := true, frames := o.frames.map fun f =>
      { f with w0 := f.pos0.map fun _ => 1, w1 := f.pos1.map fun _ => 1 } } := by
    refine ⟨by simpa using h.frames_ne, h.skip_pos, h.dims, ?_, ?_, ?_, ?_, ?_⟩
    · intro hs f hf
      obtain ⟨f, hf', rfl⟩ := List.mem_map.1 hf
      obtain ⟨e1, e2⟩ := h.same hs f hf'
      simp only [e1, and_self]
    · intro f hf
      obtain ⟨f, hf', rfl⟩ := List.mem_map.1 hf
      exact h.pos0 f hf'
    · intro f hf
      obtain ⟨f, hf', rfl⟩ := List.mem_map.1 hf
      exact h.pos1 f hf'
    · intro f hf
      obtain ⟨f, hf', rfl⟩ := List.mem_map.1 hf
      exact h.allowed f hf'
    · intro f hf
      obtain ⟨f, hf', rfl⟩ := List.mem_map.1 hf
      exact h.shells f hf'
  refine ⟨_, _, _, _, skLegacy_eq o h, by simp, skLegacy_eq _ hr, by simp, ?_⟩
  intro n hn
  have hget : ∀ g : ℕ → ℝ, ((List.range o.nk).map g).getD n 0 = g n := by
    intro g
    rw [List.getD_eq_getElem?_getD, List.getElem?_map, List.getElem?_range hn]
    rfl
  rw [hget, hget]
  have hm : gridModes { o with weighted := true, frames := o.frames.map fun f =>
      { f with w0 := f.pos0.map fun _ => 1, w1 := f.pos1.map fun _ => 1 } } n = gridModes o n := by
    unfold gridModes
    simp only
    rw [skFrames_map h.skip_pos, List.flatMap_map]
    apply List.flatMap_congr
    intro f _
    apply List.map_congr_left
    intro v _
    unfold skModes
    simp only [hw]
    rw [fieldMode_ones, fieldMode_ones]
    rfl
  have hmean : ∀ (q : ℂ × ℂ → ℂ) (p : SkFrame d → List (Vec d ℝ)),
      (∀ f v, q (skModes false f v) = Spec.density (kvecOf f.ks v) (p f)) →
      meanMode o p n = ((gridModes o n).map q).sum / ((gridModes o n).length : ℂ) := by
    intro q p hq
    have e1 : ((originFrames o.frames o.skip).flatMap fun f => (kvectorsGet f.ks).getD n []).length
        = (gridModes o n).length := by
      unfold gridModes
      rw [List.length_flatMap, List.length_flatMap]
      congr 2
      funext f
      rw [kvectorsGet_getD, List.length_map, List.length_map]
    have e2 : ((originFrames o.frames o.skip).flatMap fun f => ((kvectorsGet f.ks).getD n []).map fun k =>
        Spec.density k (p f)) = (gridModes o n).map q := by
      unfold gridModes
      rw [List.map_flatMap]
      congr 1
      funext f
      rw [kvectorsGet_getD, List.map_map, List.map_map, hw]
      apply List.map_congr_left
      intro v _
      exact (hq f v).symm
    unfold meanMode
    rw [← originFrames_eq _ h.skip_pos, e1, e2]
  rw [hm, hmean Prod.fst SkFrame.pos0 (fun f v => by
      unfold skModes; rw [realWeight_false, fieldMode_one]),
    hmean Prod.snd SkFrame.pos1 (fun f v => by
      unfold skModes; simp only; rw [realWeight_false, fieldMode_one])]
  unfold modesValue
  rw [if_pos rfl, if_neg (by rw [hw]; simp), Complex.sub_re, Complex.sub_re, zero_div, Complex.zero_re, sub_zero]
  congr 2
  rw [star_div₀]
  have : star ((gridModes o n).length : ℂ) = ((gridModes o n).length : ℂ) := by simp
  rw [this]
  ring

/-- In particular, with one frame and one wave-vector it vanishes. -/
theorem C137_counterexample_single (o : SkObj d) (h : SkRegular o) (hw : o.weighted = true)
    (f : SkFrame d) (hf : o.frames = [f]) {n : ℕ} {k : KVec d} (hn : f.ks.kvectors[n]? = some [k]) :
    ∃ v x, skLegacy o = .ok (v, x) ∧ n < x.length ∧ x.getD n 0 = 0 ∧ v.getD n 0 = 0 := by
  have hmem : f ∈ o.frames := by rw [hf]; simp
  have hnk : n < o.nk := by
    rw [← (h.shells f hmem).1]
    by_contra hc
    rw [List.getElem?_eq_none (by omega)] at hn
    cases hn
  have hget : ∀ g : ℕ → ℝ, ((List.range o.nk).map g).getD n 0 = g n := by
    intro g
    rw [List.getD_eq_getElem?_getD, List.getElem?_map, List.getElem?_range hnk]
    rfl
  have hor : ∀ a : SkFrame d, originFrames [a] o.skip = [a] := by
    intro a
    refine originFrames_of h.skip_pos fun i => ?_
    rcases i with _ | i
    · simp
    · have : 1 ≤ (i + 1) * o.skip := Nat.mul_pos (by omega) h.skip_pos
      rw [List.getElem?_eq_none (by simp), List.getElem?_eq_none (by simpa using this)]
  have hkv : f.ks.kvectors.getD n [] = [k] := by rw [List.getD_eq_getElem?_getD, hn]; rfl
  have hz : modesValue o.weighted (gridModes o n) = 0 := by
    unfold gridModes
    simp only [hf, hor, List.flatMap_cons, List.flatMap_nil, List.append_nil, hkv, List.map_cons, List.map_nil, hw]
    unfold modesValue
    simp
  refine ⟨_, _, skLegacy_eq o h, by simpa using hnk, ?_, ?_⟩
  · rw [hget, hz]
  · rw [hget, hz, zero_div]

/-! ### Non-trivial cases -/

/-- The frames of the example exchanged, the first two particles exchanged in the second frame, the coordinates
inverted. -/
example : ∃ r, skLegacy exSk = .ok r ∧ skLegacy { exSk with frames := exSk.frames.reverse } = .ok r :=
  C134_order exSk exSk_regular rfl _ (List.reverse_perm _)

example : ∃ r, skLegacy exSk = .ok r ∧ skLegacy { exSk with frames := exSk.frames.map fun f =>
    { f with pos0 := f.pos0.reverse, pos1 := f.pos0.reverse } } = .ok r := by
  have hp : ∀ l w : List (Vec 3 ℝ), l = w.reverse → ∀ v : List ℝ,
      (Spec.particles false l v).Perm (Spec.particles false w v) := by
    rintro _ w rfl v
    have e : ∀ l : List (Vec 3 ℝ), Spec.particles false l v = l.map fun x => (x, 1) := by
      intro l
      unfold Spec.particles
      apply List.ext_getElem (by simp)
      intro i h1 h2
      simp
    rw [e, e, List.map_reverse]
    exact List.reverse_perm _
  refine C134_labels exSk exSk_regular _ (fun _ _ => rfl) ?_ ?_ ?_
  · intro _ f hf
    simp only [exSk, List.mem_cons, List.not_mem_nil, or_false] at hf
    rcases hf with rfl | rfl <;> exact ⟨rfl, rfl⟩
  · exact fun f _ => hp _ _ rfl _
  · intro f hf
    simp only [exSk, List.mem_cons, List.not_mem_nil, or_false] at hf
    rcases hf with rfl | rfl <;> exact hp _ _ rfl _

example : ∃ r, skLegacy exSk = .ok r ∧ skLegacy { exSk with frames := exSk.frames.map fun f =>
    { f with pos0 := f.pos0.map fun x => -x, pos1 := f.pos1.map fun x => -x } } = .ok r :=
  C134_inversion exSk exSk_regular

/-- Two frames with three and one particles, only the first is used: the values are divided by 2 in
place of 3. -/
noncomputable def exSkNumber : SkObj 3 :=
  { same := true, weighted := false, skip := 2, nk := 2,
    frames := [⟨[![0, 0, 0], ![1, 2, 3], ![4, 0, 1]], [![0, 0, 0], ![1, 2, 3], ![4, 0, 1]], [], [], exKs⟩,
      ⟨[![0, 1, 0]], [![0, 1, 0]], [], [], exKs⟩] }

theorem exSkNumber_regular : SkRegular exSkNumber := by
  refine ⟨by simp [exSkNumber], by simp [exSkNumber], Or.inl rfl, ?_, ?_, ?_, ?_, ?_⟩
  all_goals simp [exSkNumber, exKs_allowed]
  simp [exKs]

example : ∃ v x, skLegacy { exSkNumber with frames := exSkNumber.frames.take 1, skip := 1 } = .ok (v, x) ∧
    skLegacy exSkNumber = .ok (v.map (· * (3 / 2)), x) := by
  obtain ⟨v, x, h1, h2⟩ := C135_counterexample_number exSkNumber exSkNumber_regular (exSkNumber.frames.take 1) (by
    intro i
    rcases i with _ | i
    · rfl
    · show _ = exSkNumber.frames[(i + 1) * 2]?
      rw [List.getElem?_eq_none (by show 1 ≤ i + 1; omega), List.getElem?_eq_none (by show 2 ≤ (i + 1) * 2; omega)])
  refine ⟨v, x, h1, ?_⟩
  rw [h2]
  have : √((((exSkNumber.frames.take 1).map fun f => (f.pos0.length : ℝ)).sum / (exSkNumber.frames.take 1).length
          * (((exSkNumber.frames.take 1).map fun f => (f.pos1.length : ℝ)).sum / (exSkNumber.frames.take 1).length))
        / (((exSkNumber.frames.map fun f => (f.pos0.length : ℝ)).sum / exSkNumber.frames.length)
          * ((exSkNumber.frames.map fun f => (f.pos1.length : ℝ)).sum / exSkNumber.frames.length))) = 3 / 2 := by
    rw [show (3 / 2 : ℝ) = √((3 / 2) ^ 2) by rw [Real.sqrt_sq (by norm_num)]]
    congr 1
    norm_num [exSkNumber]
  rw [this]

/-- One frame of three particles with weights, and its translation along the first axis by π/2: the wave-vectors of the
second grid point are (1, 1, 0) and (-1, 0, 1). -/
noncomputable def exSkWeighted : SkObj 3 :=
  { same := true, weighted := true, skip := 1, nk := 2,
    frames := [⟨[![0, 0, 0], ![1, 2, 3], ![4, 0, 1]], [![0, 0, 0], ![1, 2, 3], ![4, 0, 1]], [1, 0, 0], [1, 0, 0], exKs⟩] }

theorem exSkWeighted_regular : SkRegular exSkWeighted := by
  refine ⟨by simp [exSkWeighted], by simp [exSkWeighted], Or.inl rfl, ?_, ?_, ?_, ?_, ?_⟩
  all_goals simp [exSkWeighted, exKs_allowed]
  simp [exKs]

/-- With the weight on the first particle, at the origin, the change of the structure factor is 1. -/
example : ∃ v x v' x', skLegacy exSkWeighted = .ok (v, x) ∧ skLegacy (exSkWeighted.mapFrames fun f =>
      ⟨f.pos0.map (fun x => x + ![Real.pi / 2, 0, 0]), f.pos1.map (fun x => x + ![Real.pi / 2, 0, 0]), f.w0, f.w1, f.ks⟩) = .ok (v', x') ∧ x'.getD 1 0 - x.getD 1 0 = 1 := by
  obtain ⟨v, x, v', x', h1, h2, h3⟩ := C136_counterexample_origin exSkWeighted exSkWeighted_regular rfl rfl
    ⟨[![0, 0, 0], ![1, 2, 3], ![4, 0, 1]], [![0, 0, 0], ![1, 2, 3], ![4, 0, 1]], [1, 0, 0], [1, 0, 0], exKs⟩ rfl
    (n := 1) (v1 := ![3, 3, 2]) (v2 := ![1, 2, 3]) rfl ![Real.pi / 2, 0, 0] (by
      simp [Spec.dot, kvecOf, exKs, Fin.sum_univ_three]
      ring)
  refine ⟨v, x, v', x', h1, h2, ?_⟩
  rw [h3]
  simp [Spec.fieldMode, Spec.dot, Fin.sum_univ_three]

/-- One wave-vector and one frame: the first grid point of the example. -/
example : ∃ v x, skLegacy exSkWeighted = .ok (v, x) ∧ 0 < x.length ∧ x.getD 0 0 = 0 ∧ v.getD 0 0 = 0 :=
  C137_counterexample_single exSkWeighted exSkWeighted_regular rfl _ rfl (n := 0) (k := ![3, 2, 2]) rfl

end PP.Props
