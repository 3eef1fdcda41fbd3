import Verif.Model.Ik
import Verif.Spec.Ik
import Verif.Lemmas.Sk
import Verif.Props.Sk
import Mathlib.Analysis.SpecialFunctions.Trigonometric.Deriv
import Mathlib.MeasureTheory.Integral.IntervalIntegral.FundThmCalculus

/-!
# C72: the spectral density
-/

set_option linter.unusedSectionVars false

namespace PP.Props

variable {d : ℕ}

/-- The form factor is the transform of a ball, at the wave-number it is given. -/
theorem ikForm_eq {q : ℝ} (hq : q ≠ 0) (R : ℝ) : ikForm q R = Spec.ballTransform q R := by
  have hd : ∀ r ∈ Set.uIcc (0 : ℝ) R, HasDerivAt (fun r => ikForm q r)
      (4 * Real.pi * r ^ 2 * (Real.sin (q * r) / (q * r))) r := by
    intro r _
    have hqr : HasDerivAt (fun r : ℝ => q * r) q r := by simpa using (hasDerivAt_id r).const_mul q
    have hs : HasDerivAt (fun r : ℝ => Real.sin (q * r)) (Real.cos (q * r) * q) r := (Real.hasDerivAt_sin _).comp r hqr
    have hc : HasDerivAt (fun r : ℝ => Real.cos (q * r)) (-Real.sin (q * r) * q) r :=
      (Real.hasDerivAt_cos _).comp r hqr
    have h := ((hs.sub (hqr.mul hc)).const_mul (4 * Real.pi / q ^ 3))
    have e : 4 * Real.pi / q ^ 3 * (Real.cos (q * r) * q - (q * Real.cos (q * r) + q * r * (-Real.sin (q * r) * q))) =
        4 * Real.pi * r ^ 2 * (Real.sin (q * r) / (q * r)) := by
      rcases eq_or_ne r 0 with rfl | hr
      · simp
      · field_simp; ring
    rw [e] at h
    exact h
  have hcont : ContinuousOn (fun r : ℝ => 4 * Real.pi * r ^ 2 * (Real.sin (q * r) / (q * r))) (Set.uIcc (0 : ℝ) R) := by
    have : (fun r : ℝ => 4 * Real.pi * r ^ 2 * (Real.sin (q * r) / (q * r))) =
        fun r => 4 * Real.pi / q * (r * Real.sin (q * r)) := by
      funext r
      rcases eq_or_ne r 0 with rfl | hr
      · simp
      · field_simp
    rw [this]
    fun_prop
  unfold Spec.ballTransform
  rw [intervalIntegral.integral_eq_sub_of_hasDerivAt hd hcont.intervalIntegrable]
  simp [ikForm]

/-- Arguments for which the spectral density is defined: three dimensions, wave-vectors in the range of the table and with
non-zero indices, one radius for each particle. -/
structure IkRegular (frames : List (IkFrame 3)) (skip nk : ℕ) : Prop where
  frames_ne : frames ≠ []
  skip_pos : 0 < skip
  pos : ∀ f ∈ frames, f.pos ≠ []
  radius : ∀ f ∈ frames, ∃ rs, f.radius = some rs ∧ rs.length = f.pos.length
  allowed : ∀ f ∈ frames, Allowed f.ks
  index_ne : ∀ f ∈ frames, ∀ l ∈ f.ks.kvectors, ∀ v ∈ l, v ≠ 0
  shells : ∀ f ∈ frames, f.ks.kvectors.length = nk ∧ ∀ l ∈ f.ks.kvectors, l ≠ []

theorem ikNorm_ne {v : KVec d} (hv : v ≠ 0) : ikNorm v ≠ 0 := by
  unfold ikNorm
  rw [Real.sqrt_ne_zero']
  obtain ⟨c, hc⟩ : ∃ c, v c ≠ 0 := by
    by_contra h
    push Not at h
    exact hv (funext h)
  refine Finset.sum_pos' (fun c _ => mul_self_nonneg _) ⟨c, Finset.mem_univ _, ?_⟩
  have : (v c : ℝ) ≠ 0 := by exact_mod_cast hc
  exact mul_self_pos.2 this

/-- The mode that is computed. -/
noncomputable def ikMode (f : IkFrame 3) (v : KVec 3) : ℂ :=
  Spec.fieldMode (kvecOf f.ks v) (fun p => Spec.ballTransform (ikNorm v) ((f.radius.getD []).getD p 0)) f.pos

theorem ikFrame_eq {f : IkFrame 3} {nk : ℕ} (hpos : f.pos ≠ []) {rs : List ℝ} (hr : f.radius = some rs)
    (hlen : rs.length = f.pos.length) (ha : Allowed f.ks) (hidx : ∀ l ∈ f.ks.kvectors, ∀ v ∈ l, v ≠ 0)
    (hsh : f.ks.kvectors.length = nk) (acc : List SkAcc) (hacc : acc.length = nk) :
    ikFrame acc f = .ok (accShells (fun v => (ikMode f v, ikMode f v)) f.ks.kvectors acc) := by
  have hoff : 1 ≤ f.ks.koffset.toNat := by have := ha.1; omega
  have ht : expoSphere ccis (fun _ => 0) f.ks.k0 f.ks.koffset.toNat f.pos = .ok (skTable f.ks f.pos) :=
    expoSphere_eq _ _ _ hoff _ hpos
  unfold ikFrame
  rw [ht]
  apply shells_loop
  · intro l hl v hv
    have hb := ha.2 l hl v hv
    have hne := ikNorm_ne (hidx l hl v hv)
    unfold ikRho
    rw [hr]
    simp only
    rw [if_pos (by simp [skTable, hlen])]
    have hdims : ikDims 3 = .ok (List.finRange 3) := rfl
    rw [hdims]
    simp only [bind, Except.bind]
    rw [rhoSum_eq _ ha.1 v hb]
    show Except.ok _ = _
    congr 1
    have : (f.pos.zipIdx.map fun e => ((ikForm (ikNorm v) (rs.getD e.2 0) : ℝ) : ℂ) *
        ((List.finRange 3).map fun c => ccis (((v c - f.ks.koffset : ℤ) : ℝ) * (f.ks.k0 c * e.1 c))).prod).sum =
        ikMode f v := by
      unfold ikMode Spec.fieldMode
      congr 1
      apply List.map_congr_left
      intro e _
      rw [ccis_kvec, ikForm_eq hne, hr]
      rfl
    rw [this]
  · omega

/-- Squared modes that enter a grid point, with the transforms of the balls taken at `q k v` for the wave-vector `k` with
indices `v`. -/
noncomputable def ballModes (q : (Fin 3 → ℝ) → KVec 3 → ℝ) (frames : List (IkFrame 3)) (skip n : ℕ) : List ℝ :=
  (Spec.everyNth skip frames).flatMap fun f => (f.ks.kvectors.getD n []).map fun v =>
    Spec.ballMode (q (kvecOf f.ks v) v) (kvecOf f.ks v) (f.radius.getD []) f.pos

/-- Closed form of both results. -/
theorem ikCompute_closed (frames : List (IkFrame 3)) (skip nk : ℕ) (h : IkRegular frames skip nk) :
    ikCompute frames skip nk = .ok
      ((List.range nk).map fun n => (ballModes (fun _ v => √(∑ c, (v c : ℝ) ^ 2)) frames skip n).sum /
          (ballModes (fun _ v => √(∑ c, (v c : ℝ) ^ 2)) frames skip n).length /
        ((frames.map fun f => f.volume).sum / frames.length),
      (List.range nk).map fun n => (ballModes (fun _ v => √(∑ c, (v c : ℝ) ^ 2)) frames skip n).sum /
          (ballModes (fun _ v => √(∑ c, (v c : ℝ) ^ 2)) frames skip n).length) := by
  have h6 : pyRange 0 frames.length skip = .ok (rangeList 0 frames.length skip) := by
    have := h.skip_pos
    unfold pyRange; rw [if_neg (by omega)]
  have h9 := foldlM_pyGet frames (rangeList 0 frames.length skip)
    (fun i hi => by rw [mem_rangeList h.skip_pos] at hi; omega) ikFrame (List.replicate nk ⟨0, 0, 0, 0⟩)
  change _ = (originFrames frames skip).foldlM ikFrame _ at h9
  have h7 := foldlM_inv_ok (f := ikFrame)
    (g := fun acc f => accShells (fun v => (ikMode f v, ikMode f v)) f.ks.kvectors acc)
    (P := fun a : List SkAcc => a.length = nk) (originFrames frames skip)
    (List.replicate nk ⟨0, 0, 0, 0⟩) (by simp) (fun a ha f hf => by
      have hf' := originFrames_mem hf
      obtain ⟨rs, h1, h2⟩ := h.radius f hf'
      exact ⟨ikFrame_eq (h.pos f hf') h1 h2 (h.allowed f hf') (h.index_ne f hf') (h.shells f hf').1 a ha,
        by rw [accShells_length]; exact ha⟩)
  rw [h7.1, foldl_accShells] at h9
  set M : ℕ → List (ℂ × ℂ) := fun n => (originFrames frames skip).flatMap fun f =>
    (f.ks.kvectors.getD n []).map fun v => (ikMode f v, ikMode f v) with hM
  have h8 : ((List.replicate nk (⟨0, 0, 0, 0⟩ : SkAcc)).mapIdx fun n a => (M n).foldl SkAcc.add a) =
      (List.range nk).map fun n => (M n).foldl SkAcc.add ⟨0, 0, 0, 0⟩ := by
    apply List.ext_getElem?
    intro n
    rw [List.getElem?_mapIdx, List.getElem?_map]
    rcases Nat.lt_or_ge n nk with h | h
    · rw [List.getElem?_replicate, if_pos h, List.getElem?_range h]; rfl
    · rw [List.getElem?_replicate, if_neg (by omega), List.getElem?_eq_none (by simpa using h)]; rfl
  rw [h8] at h9
  have hMne : ∀ n < nk, M n ≠ [] := by
    intro n hn
    obtain ⟨f, hf⟩ := List.exists_mem_of_ne_nil _ (originFrames_ne_nil h.frames_ne h.skip_pos)
    have hkf := h.shells f (originFrames_mem hf)
    have hlt : n < f.ks.kvectors.length := by omega
    obtain ⟨v, hv⟩ := List.exists_mem_of_ne_nil _ (hkf.2 _ (List.getElem_mem hlt))
    intro hc
    have : (ikMode f v, ikMode f v) ∈ M n := by
      rw [hM, List.mem_flatMap]
      refine ⟨f, hf, List.mem_map.2 ⟨v, ?_, rfl⟩⟩
      rw [List.getD_eq_getElem _ _ hlt]; exact hv
    rw [hc] at this
    cases this
  have h10 : ((List.range nk).map fun n => (M n).foldl SkAcc.add ⟨0, 0, 0, 0⟩).mapM (skNonorm false) =
      .ok ((List.range nk).map fun n => modesValue false (M n)) := by
    rw [List.mapM_map]
    apply mapM_ok_map
    intro n hn
    exact skNonorm_modes _ _ (hMne n (List.mem_range.1 hn))
  have h11 : ((List.range nk).map fun n => modesValue false (M n)) =
      (List.range nk).map fun n => (ballModes (fun _ v => √(∑ c, (v c : ℝ) ^ 2)) frames skip n).sum /
          (ballModes (fun _ v => √(∑ c, (v c : ℝ) ^ 2)) frames skip n).length := by
    apply List.map_congr_left
    intro n _
    rw [sum_div_re]
    have hlist : (M n).map (fun r => (r.1 * star r.2).re) = ballModes (fun _ v => √(∑ c, (v c : ℝ) ^ 2)) frames skip n := by
      unfold ballModes
      rw [← originFrames_eq _ h.skip_pos, hM, List.map_flatMap]
      congr 1
      funext f
      rw [List.map_map]
      apply List.map_congr_left
      intro v _
      simp only [Function.comp, mul_star_re]
      unfold Spec.ballMode ikMode ikNorm
      simp only [pow_two]
    rw [hlist, ← hlist, List.length_map, hlist]
  unfold ikCompute
  simp only [h6, bind, Except.bind] at h9 ⊢
  rw [h9]
  simp only
  rw [h10, h11]
  show Except.ok _ = _
  rw [List.map_map]
  rfl

/-- **C72**, what is computed: at each grid point, the average over the frames used and the wave-vectors `k` of
`|Σ_p m(q; R_p) exp(i k·x_p)|²`, divided by the average volume, where `m(q; R)` is the transform of a ball. But `q` is the
norm of the indices in the table of exponentials, not that of `k`. -/
theorem C72_definition_partial (frames : List (IkFrame 3)) (skip nk : ℕ) (h : IkRegular frames skip nk) :
    ∃ value nonorm, ikCompute frames skip nk = .ok (value, nonorm) ∧ value.length = nk ∧
      ∀ n < nk, value.getD n 0 =
        (ballModes (fun _ v => √(∑ c, (v c : ℝ) ^ 2)) frames skip n).sum /
          (ballModes (fun _ v => √(∑ c, (v c : ℝ) ^ 2)) frames skip n).length /
        ((frames.map fun f => f.volume).sum / frames.length) := by
  refine ⟨_, _, ikCompute_closed frames skip nk h, by simp, ?_⟩
  intro n hn
  rw [List.getD_eq_getElem _ _ (by simpa using hn)]
  simp only [List.getElem_map, List.getElem_range]

/-- **C72**: the values that are not normalised are the others times the average volume. -/
theorem C72_nonorm (frames : List (IkFrame 3)) (skip nk : ℕ) (h : IkRegular frames skip nk)
    (hV : (frames.map fun f => f.volume).sum ≠ 0) :
    ∃ value nonorm, ikCompute frames skip nk = .ok (value, nonorm) ∧ nonorm.length = nk ∧
      nonorm = value.map fun x => x * ((frames.map fun f => f.volume).sum / frames.length) := by
  refine ⟨_, _, ikCompute_closed frames skip nk h, by simp, ?_⟩
  have hl : (frames.length : ℝ) ≠ 0 := by
    have := List.length_pos_iff.2 h.frames_ne
    exact_mod_cast this.ne'
  rw [List.map_map]
  apply List.map_congr_left
  intro n _
  simp only [Function.comp]
  rw [div_mul_cancel₀]
  exact div_ne_zero hV hl

/-- **C72**: the values are not negative. -/
theorem C72_nonneg (frames : List (IkFrame 3)) (skip nk : ℕ) (h : IkRegular frames skip nk)
    (hV : ∀ f ∈ frames, 0 ≤ f.volume) {value nonorm : List ℝ} (hok : ikCompute frames skip nk = .ok (value, nonorm)) :
    ∀ x ∈ value, 0 ≤ x := by
  obtain ⟨value', nonorm', h1, h2, h3⟩ := C72_definition_partial frames skip nk h
  rw [hok] at h1
  cases h1
  intro x hx
  obtain ⟨n, hn, rfl⟩ := List.mem_iff_getElem.1 hx
  have := h3 n (by omega)
  rw [List.getD_eq_getElem _ _ hn] at this
  rw [this]
  have hs : 0 ≤ (ballModes (fun _ v => √(∑ c, (v c : ℝ) ^ 2)) frames skip n).sum := by
    apply List.sum_nonneg
    intro y hy
    unfold ballModes at hy
    simp only [List.mem_flatMap, List.mem_map] at hy
    obtain ⟨_, _, _, _, rfl⟩ := hy
    exact sq_nonneg _
  have hv : 0 ≤ (frames.map fun f => f.volume).sum := by
    apply List.sum_nonneg
    intro y hy
    obtain ⟨f, hf, rfl⟩ := List.mem_map.1 hy
    exact hV f hf
  positivity

/-- **C72**, counter-example: for every cell and every wave-vector whose integer components do not add up to zero, the
argument of the form factor is wrong for the wave-vector or for its opposite, as the arguments differ but the norms do
not. -/
theorem C72_counterexample (ks : KState 3 ℝ) (hoff : 1 ≤ ks.koffset) (v w : KVec 3)
    (hw : kvecOf ks w = -kvecOf ks v) (hk : ∀ c, ks.k0 c ≠ 0) (hsum : ∑ c, (v c - ks.koffset) ≠ 0) :
    ¬ (√(∑ c, (v c : ℝ) ^ 2) = √(∑ c, kvecOf ks v c ^ 2) ∧ √(∑ c, (w c : ℝ) ^ 2) = √(∑ c, kvecOf ks w c ^ 2)) := by
  rintro ⟨h1, h2⟩
  have hw' : ∀ c, (w c : ℝ) = 2 * ks.koffset - v c := by
    intro c
    have := congrFun hw c
    simp only [kvecOf, Pi.neg_apply] at this
    rw [← mul_neg] at this
    have := mul_left_cancel₀ (hk c) this
    push_cast at this
    linarith
  rw [hw] at h2
  simp only [Pi.neg_apply, neg_sq] at h2
  rw [← h1, Real.sqrt_inj (Finset.sum_nonneg fun _ _ => sq_nonneg _) (Finset.sum_nonneg fun _ _ => sq_nonneg _)] at h2
  simp only [hw', Fin.sum_univ_three] at h2
  apply hsum
  have hoff' : (ks.koffset : ℝ) ≠ 0 := by
    have : ks.koffset ≠ 0 := by omega
    exact_mod_cast this
  have : ((∑ c, (v c - ks.koffset) : ℤ) : ℝ) = 0 := by
    rw [Fin.sum_univ_three]
    push_cast
    apply mul_left_cancel₀ hoff'
    linarith
  exact_mod_cast this

theorem fieldMode_single (k x : Fin 3 → ℝ) (w : ℕ → ℝ) : ‖Spec.fieldMode k w [x]‖ ^ 2 = w 0 ^ 2 := by
  have h := norm_ccis (Spec.dot k x)
  unfold ccis at h
  simp [Spec.fieldMode, h]

/-- **C72**, counter-example for the values: a single ball of radius `R` with `q R = π`, where `q` is the norm of the
indices, and a wave-vector of norm `2 q`. The result is 16 times the spectral density, which is not zero. -/
theorem C72_counterexample_value (ks : KState 3 ℝ) (v : KVec 3) (x : Vec 3 ℝ) (V : ℝ) (hV : 0 < V)
    (hkv : ks.kvectors = [[v]]) (ha : Allowed ks) (hv : v ≠ 0)
    (hk : √(∑ c, kvecOf ks v c ^ 2) = 2 * √(∑ c, (v c : ℝ) ^ 2)) :
    let R := Real.pi / √(∑ c, (v c : ℝ) ^ 2)
    let exact := Spec.ballMode (√(∑ c, kvecOf ks v c ^ 2)) (kvecOf ks v) [R] [x] / V
    0 < exact ∧ ∃ nonorm, ikCompute [⟨[x], some [R], V, ks⟩] 1 1 = .ok ([16 * exact], nonorm) := by
  intro R exact
  have hq : √(∑ c, (v c : ℝ) ^ 2) ≠ 0 := by
    have := ikNorm_ne hv
    unfold ikNorm at this
    simpa only [pow_two] using this
  set q := √(∑ c, (v c : ℝ) ^ 2) with hqdef
  have hq0 : 0 < q := lt_of_le_of_ne (Real.sqrt_nonneg _) (Ne.symm hq)
  have hreg : IkRegular [⟨[x], some [R], V, ks⟩] 1 1 := by
    refine ⟨by simp, by simp, by simp, by simp, ?_, ?_, ?_⟩
    · intro f hf; rw [List.mem_singleton] at hf; rw [hf]; exact ha
    · intro f hf; rw [List.mem_singleton] at hf; rw [hf]; simp [hkv, hv]
    · intro f hf; rw [List.mem_singleton] at hf; rw [hf]; simp [hkv]
  have e1 : Spec.ballTransform q R = 4 * Real.pi ^ 2 / q ^ 3 := by
    rw [← ikForm_eq hq]
    unfold ikForm
    have : q * R = Real.pi := by simp only [R]; rw [← hqdef]; field_simp
    rw [this]
    simp
    ring
  have e2 : Spec.ballTransform (2 * q) R = -Real.pi ^ 2 / q ^ 3 := by
    rw [← ikForm_eq (by positivity)]
    unfold ikForm
    have : 2 * q * R = 2 * Real.pi := by simp only [R]; rw [← hqdef]; field_simp
    rw [this, Real.sin_two_pi, Real.cos_two_pi]
    field_simp
    ring
  have hex : exact = (Real.pi ^ 2 / q ^ 3) ^ 2 / V := by
    simp only [exact]
    unfold Spec.ballMode
    rw [hk, fieldMode_single]
    simp only [List.getD_cons_zero, e2]
    ring
  have hpos : 0 < Real.pi := Real.pi_pos
  refine ⟨by rw [hex]; positivity, ?_⟩
  obtain ⟨value, nonorm, h1, h2, h3⟩ := C72_definition_partial _ 1 1 hreg
  refine ⟨nonorm, ?_⟩
  rw [h1]
  congr 2
  obtain ⟨a, rfl⟩ : ∃ a, value = [a] := by
    match value, h2 with
    | [a], _ => exact ⟨a, rfl⟩
  have h4 := h3 0 (by omega)
  rw [List.getD_cons_zero] at h4
  rw [h4]
  have hb : ballModes (fun _ v => √(∑ c, (v c : ℝ) ^ 2)) [⟨[x], some [R], V, ks⟩] 1 0 = [(4 * Real.pi ^ 2 / q ^ 3) ^ 2] := by
    have hev : Spec.everyNth 1 [(⟨[x], some [R], V, ks⟩ : IkFrame 3)] = [⟨[x], some [R], V, ks⟩] := by simp [Spec.everyNth]
    unfold ballModes
    rw [hev]
    simp only [List.flatMap_cons, List.flatMap_nil, List.append_nil, hkv, List.getD_cons_zero, List.map_cons, List.map_nil]
    unfold Spec.ballMode
    rw [fieldMode_single, ← hqdef]
    simp only [Option.getD_some, List.getD_cons_zero, e1]
  rw [hb, hex]
  simp
  ring

/-- **C72**: in fewer than three dimensions there is an error at the first wave-vector. -/
theorem C72_counterexample_dimensions (hd : d < 3) (table : List (List (List ℂ))) (radius : Option (List ℝ))
    (v : KVec d) (r : ℂ) : ikRho table radius v ≠ .ok r := by
  unfold ikRho
  cases radius with
  | none => simp
  | some rs =>
    simp only
    split_ifs
    · have : ikDims d = .error .indexError := by unfold ikDims; rw [dif_neg (by omega)]
      rw [this]
      simp [bind, Except.bind]
    · simp

theorem foldlM_bad {α β : Type} {f : β → α → Py β} {a : α} (h : ∀ b r, f b a ≠ .ok r) :
    ∀ (l : List α), a ∈ l → ∀ (b r : β), l.foldlM f b ≠ .ok r := by
  intro l
  induction l with
  | nil => intro ha; simp at ha
  | cons x l ih =>
    intro ha b r hr
    rw [List.foldlM_cons] at hr
    obtain ⟨b', h1, h2⟩ := bind_ok_iff.1 hr
    rcases List.mem_cons.1 ha with rfl | ha
    · exact h _ _ h1
    · exact ih ha _ _ h2

/-- **C72**: no spectral density is returned if the frame of the other trajectory does not exist, or has more or fewer
radii than there are particles. -/
theorem C72_missing_radii (frames : List (IkFrame d)) (skip nk i : ℕ) (f : IkFrame d) (hs : 0 < skip)
    (hf : frames[i]? = some f) (hi : i % skip = 0) (hv : ∃ l ∈ f.ks.kvectors, l ≠ [])
    (hr : ∀ rs, f.radius = some rs → rs.length ≠ f.pos.length) (r : List ℝ × List ℝ) :
    ikCompute frames skip nk ≠ .ok r := by
  intro h
  unfold ikCompute at h
  obtain ⟨is, h1, h⟩ := bind_ok_iff.1 h
  obtain ⟨acc, h2, -⟩ := bind_ok_iff.1 h
  have hmem : i ∈ is := by
    have hlt := (List.getElem?_eq_some_iff.1 hf).1
    unfold pyRange at h1
    rw [if_neg (by omega)] at h1
    cases h1
    rw [mem_rangeList hs]
    exact ⟨Nat.zero_le _, hlt, by rw [Nat.sub_zero]; exact hi⟩
  refine foldlM_bad (a := i) ?_ is hmem _ _ h2
  intro b r' hb
  simp only [pyGet, hf, bind, Except.bind] at hb
  unfold ikFrame at hb
  obtain ⟨table, ht, hb⟩ := bind_ok_iff.1 hb
  obtain ⟨l, hl, hne⟩ := hv
  obtain ⟨v, l', rfl⟩ := List.exists_cons_of_ne_nil hne
  obtain ⟨n, hn, hln⟩ := List.getElem_of_mem hl
  refine foldlM_bad (a := (v :: l', n)) ?_ _ (by rw [List.mem_zipIdx_iff_getElem?, List.getElem?_eq_getElem hn, hln]) _ _ hb
  intro b r''
  refine foldlM_bad (a := v) ?_ _ (by simp) b r''
  intro b r3 h3
  obtain ⟨x, h4, -⟩ := bind_ok_iff.1 h3
  obtain ⟨y, h5, -⟩ := bind_ok_iff.1 h4
  have hlen : table.length = f.pos.length := by
    unfold expoSphere at ht
    split at ht
    · cases ht
    · exact (mapM_ok_get ht).1
  unfold ikRho at h5
  cases hrad : f.radius with
  | none => rw [hrad] at h5; cases h5
  | some rs =>
    rw [hrad] at h5
    simp only at h5
    rw [if_neg (by rw [hlen]; exact hr rs hrad)] at h5
    cases h5

/-- The wave-vector (1,0,0) in the example of the structure factor and its opposite meet the hypotheses of the
counter-example. -/
example : kvecOf exKs ![1, 2, 2] = -kvecOf exKs ![3, 2, 2] ∧ (∀ c, exKs.k0 c ≠ 0) ∧
    ∑ c, ((![3, 2, 2] : KVec 3) c - exKs.koffset) ≠ 0 := by
  refine ⟨?_, ?_, ?_⟩
  · funext c
    fin_cases c <;> simp [kvecOf, exKs]
  · intro c
    fin_cases c <;> simp [exKs]
  · simp [Fin.sum_univ_three, exKs]

/-- A cell and a wave-vector that meet the hypotheses of the counter-example for the values. -/
example : ∃ ks : KState 3 ℝ, ks.kvectors = [[![2, 1, 1]]] ∧ Allowed ks ∧
    √(∑ c, kvecOf ks ![2, 1, 1] c ^ 2) = 2 * √(∑ c, ((![2, 1, 1] : KVec 3) c : ℝ) ^ 2) := by
  refine ⟨⟨fun _ => 2 * √6, [2 * √6], [[![2, 1, 1]]], 1⟩, rfl, ⟨by simp, ?_⟩, ?_⟩
  · intro l hl v hv c
    simp only [List.mem_cons, List.not_mem_nil, or_false] at hl
    subst hl
    simp only [List.mem_cons, List.not_mem_nil, or_false] at hv
    subst hv
    fin_cases c <;> simp
  · simp only [kvecOf, Fin.sum_univ_three]
    have h2 : (![2, 1, 1] : KVec 3) 2 = 1 := rfl
    rw [h2]
    norm_num

/-- Two balls of different radii. -/
noncomputable def ikExample : List (IkFrame 3) := [⟨[![0, 0, 0], ![1, 2, 3]], some [1, 2], 5, exKs⟩]

theorem ikExample_regular : IkRegular ikExample 1 2 := by
  unfold ikExample
  refine ⟨by simp, by simp, by simp, by simp, ?_, ?_, ?_⟩
  · intro f hf; rw [List.mem_singleton] at hf; rw [hf]; exact exKs_allowed
  · intro f hf l hl v hv h0
    rw [List.mem_singleton] at hf
    rw [hf] at hl
    rw [h0] at hv
    simp only [exKs, List.mem_cons, List.not_mem_nil, or_false] at hl
    rcases hl with rfl | rfl
    · simp only [List.mem_cons, List.not_mem_nil, or_false] at hv
      have := congrFun hv 1
      simp at this
    · simp only [List.mem_cons, List.not_mem_nil, or_false] at hv
      rcases hv with hv | hv
      · have := congrFun hv 1
        simp at this
      · have := congrFun hv 1
        simp at this
  · intro f hf; rw [List.mem_singleton] at hf; rw [hf]; simp [exKs]

/-- The hypotheses of the definition hold for them. -/
example : ∃ value nonorm, ikCompute ikExample 1 2 = .ok (value, nonorm) ∧ value.length = 2 ∧ ∀ x ∈ value, 0 ≤ x := by
  obtain ⟨value, nonorm, h1, h2, -⟩ := C72_definition_partial _ _ _ ikExample_regular
  exact ⟨value, nonorm, h1, h2, C72_nonneg _ _ _ ikExample_regular (by simp [ikExample]) h1⟩

/-- With volume 5 the array without normalisation is five times the other. -/
example : ∃ value nonorm, ikCompute ikExample 1 2 = .ok (value, nonorm) ∧ nonorm = value.map fun x => x * 5 := by
  obtain ⟨value, nonorm, h1, -, h3⟩ := C72_nonorm _ _ _ ikExample_regular (by simp [ikExample])
  refine ⟨value, nonorm, h1, ?_⟩
  rw [h3]
  simp [ikExample]

/-- A frame of two particles and one radius. -/
example (r : List ℝ × List ℝ) : ikCompute [⟨[![0, 0, 0], ![1, 0, 0]], some [1], 5, exKs⟩] 1 2 ≠ .ok r :=
  C72_missing_radii _ 1 2 0 _ one_pos rfl rfl ⟨_, List.mem_cons_self, by simp⟩
    (by intro rs hrs; cases hrs; simp) r

end PP.Props
