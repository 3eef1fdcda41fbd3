import Verif.Props.Ik
import Verif.Props.SkOrder
import Verif.Props.BaLabels
import Verif.Lemmas.Fskt

/-!
# C173: symmetries of the spectral density
-/

set_option linter.unusedSectionVars false

namespace PP.Props
open PP

/-- Two sequences of frames with the same modes and volumes. -/
theorem ik_congr (frames : List (IkFrame 3)) (skip nk : ℕ) (h : IkRegular frames skip nk) (g : IkFrame 3 → IkFrame 3)
    (hks : ∀ f ∈ frames, (g f).ks = f.ks) (hvol : ∀ f ∈ frames, (g f).volume = f.volume)
    (hpos : ∀ f ∈ frames, (g f).pos ≠ [])
    (hrad : ∀ f ∈ frames, ∃ rs, (g f).radius = some rs ∧ rs.length = (g f).pos.length)
    (hmode : ∀ f ∈ frames, ∀ (q : ℝ), ∀ l ∈ f.ks.kvectors, ∀ v ∈ l,
      Spec.ballMode q (kvecOf f.ks v) ((g f).radius.getD []) (g f).pos =
        Spec.ballMode q (kvecOf f.ks v) (f.radius.getD []) f.pos) :
    ∃ r, ikCompute frames skip nk = .ok r ∧ ikCompute (frames.map g) skip nk = .ok r := by
  have hr : IkRegular (frames.map g) skip nk := by
    refine ⟨by simpa using h.frames_ne, h.skip_pos, ?_, ?_, ?_, ?_, ?_⟩
    · intro f hf
      obtain ⟨f, hf', rfl⟩ := List.mem_map.1 hf
      exact hpos f hf'
    · intro f hf
      obtain ⟨f, hf', rfl⟩ := List.mem_map.1 hf
      exact hrad f hf'
    · intro f hf
      obtain ⟨f, hf', rfl⟩ := List.mem_map.1 hf
      rw [hks f hf']; exact h.allowed f hf'
    · intro f hf
      obtain ⟨f, hf', rfl⟩ := List.mem_map.1 hf
      rw [hks f hf']; exact h.index_ne f hf'
    · intro f hf
      obtain ⟨f, hf', rfl⟩ := List.mem_map.1 hf
      rw [hks f hf']; exact h.shells f hf'
  refine ⟨_, ikCompute_closed frames skip nk h, ?_⟩
  rw [ikCompute_closed _ skip nk hr]
  have hm : ∀ (q : (Fin 3 → ℝ) → KVec 3 → ℝ) n, n < nk → ballModes q (frames.map g) skip n = ballModes q frames skip n := by
    intro q n hn
    unfold ballModes
    rw [everyNth_map, List.flatMap_map]
    apply List.flatMap_congr
    intro f hf
    have hf' := everyNth_mem hf
    have hk := (h.shells f hf').1
    rw [hks f hf']
    apply List.map_congr_left
    intro v hv
    exact hmode f hf' _ (f.ks.kvectors.getD n []) (getD_mem (by omega)) v hv
  have hv : (frames.map g).map (fun f => f.volume) = frames.map fun f => f.volume := by
    rw [List.map_map]
    exact List.map_congr_left fun f hf => hvol f hf
  rw [hv, List.length_map]
  congr 2
  · exact List.map_congr_left fun n hn => by rw [hm _ n (List.mem_range.1 hn)]
  · exact List.map_congr_left fun n hn => by rw [hm _ n (List.mem_range.1 hn)]

theorem radius_of (frames : List (IkFrame 3)) (skip nk : ℕ) (h : IkRegular frames skip nk)
    (φ : IkFrame 3 → List (Vec 3 ℝ)) (hl : ∀ f ∈ frames, (φ f).length = f.pos.length) :
    (∀ f ∈ frames, φ f ≠ []) ∧ ∀ f ∈ frames, ∃ rs, f.radius = some rs ∧ rs.length = (φ f).length := by
  constructor
  · intro f hf h0
    have := hl f hf
    rw [h0] at this
    exact h.pos f hf (List.length_eq_zero_iff.1 this.symm)
  · intro f hf
    obtain ⟨rs, h1, h2⟩ := h.radius f hf
    exact ⟨rs, h1, by rw [h2, hl f hf]⟩

/-- **C173.** The spectral density does not change if the origin of the coordinates is moved, even by a different vector in
each frame. -/
theorem C173_origin (frames : List (IkFrame 3)) (skip nk : ℕ) (h : IkRegular frames skip nk) (t : IkFrame 3 → Vec 3 ℝ) :
    ∃ r, ikCompute frames skip nk = .ok r ∧
      ikCompute (frames.map fun f => { f with pos := f.pos.map fun x => x + t f }) skip nk = .ok r := by
  obtain ⟨h1, h2⟩ := radius_of frames skip nk h (fun f => f.pos.map fun x => x + t f) (by simp)
  refine ik_congr frames skip nk h _ (fun _ _ => rfl) (fun _ _ => rfl) h1 h2 ?_
  intro f _ q l _ v _
  unfold Spec.ballMode
  simp only
  rw [fieldMode_translate, norm_mul, ccis_norm, one_mul]

/-- **C173.** Nor under inversion of the coordinates. -/
theorem C173_inversion (frames : List (IkFrame 3)) (skip nk : ℕ) (h : IkRegular frames skip nk) :
    ∃ r, ikCompute frames skip nk = .ok r ∧
      ikCompute (frames.map fun f => { f with pos := f.pos.map fun x => -x }) skip nk = .ok r := by
  obtain ⟨h1, h2⟩ := radius_of frames skip nk h (fun f => f.pos.map fun x => -x) (by simp)
  refine ik_congr frames skip nk h _ (fun _ _ => rfl) (fun _ _ => rfl) h1 h2 ?_
  intro f _ q l _ v _
  unfold Spec.ballMode
  simp only
  rw [fieldMode_neg, norm_star]

theorem fieldMode_zip (k : Fin 3 → ℝ) (m : ℝ → ℝ) (rs : List ℝ) (pos : List (Vec 3 ℝ)) (hl : rs.length = pos.length) :
    Spec.fieldMode k (fun p => m (rs.getD p 0)) pos =
      ((pos.zip rs).map fun e => (m e.2 : ℂ) * Complex.exp (Complex.I * (Spec.dot k e.1 : ℝ))).sum := by
  unfold Spec.fieldMode
  congr 1
  apply List.ext_getElem
  · simp [hl]
  · intro i h1 h2
    have hi : i < pos.length := by simpa using h1
    simp [List.getElem?_eq_getElem (show i < rs.length by omega)]

/-- **C173.** Nor if the particles are listed in another order, a different one in each frame, provided the radii are those
of the same particles. -/
theorem C173_labels (frames : List (IkFrame 3)) (skip nk : ℕ) (h : IkRegular frames skip nk)
    (pos : IkFrame 3 → List (Vec 3 ℝ)) (rad : IkFrame 3 → List ℝ) (hlen : ∀ f ∈ frames, (rad f).length = (pos f).length)
    (hp : ∀ f ∈ frames, ((pos f).zip (rad f)).Perm (f.pos.zip (f.radius.getD []))) :
    ∃ r, ikCompute frames skip nk = .ok r ∧
      ikCompute (frames.map fun f => { f with pos := pos f, radius := some (rad f) }) skip nk = .ok r := by
  have hl : ∀ f ∈ frames, (pos f).length = f.pos.length := by
    intro f hf
    have := (hp f hf).length_eq
    obtain ⟨rs, h1, h2⟩ := h.radius f hf
    rw [List.length_zip, List.length_zip, hlen f hf, h1, Option.getD_some, h2, min_self, min_self] at this
    exact this
  refine ik_congr frames skip nk h _ (fun _ _ => rfl) (fun _ _ => rfl) ?_ ?_ ?_
  · exact (radius_of frames skip nk h pos hl).1
  · intro f hf
    exact ⟨_, rfl, hlen f hf⟩
  · intro f hf q l _ v _
    obtain ⟨rs, h1, h2⟩ := h.radius f hf
    have hpf := hp f hf
    rw [h1, Option.getD_some] at hpf
    unfold Spec.ballMode
    rw [h1]
    simp only [Option.getD_some]
    rw [fieldMode_zip _ (Spec.ballTransform q) _ _ (hlen f hf), fieldMode_zip _ (Spec.ballTransform q) _ _ h2,
      (hpf.map _).sum_eq]

/-- **C173.** Nor if the particles are replaced by periodic images. -/
theorem C173_images (frames : List (IkFrame 3)) (skip nk : ℕ) (h : IkRegular frames skip nk) (side : IkFrame 3 → Vec 3 ℝ)
    (hside : ∀ f ∈ frames, ∀ c, 0 < side f c) (hk : ∀ f ∈ frames, ∀ c, f.ks.k0 c = 2 * Real.pi / side f c)
    (m : IkFrame 3 → ℕ → Fin 3 → ℤ) :
    ∃ r, ikCompute frames skip nk = .ok r ∧
      ikCompute (frames.map fun f => { f with pos := f.pos.mapIdx fun p x c => x c + m f p c * side f c }) skip nk = .ok r := by
  obtain ⟨h1, h2⟩ := radius_of frames skip nk h (fun f => f.pos.mapIdx fun p x c => x c + m f p c * side f c) (by simp)
  refine ik_congr frames skip nk h _ (fun _ _ => rfl) (fun _ _ => rfl) h1 h2 ?_
  intro f hf q l _ v _
  unfold Spec.ballMode
  congr 2
  unfold Spec.fieldMode
  congr 1
  apply List.ext_getElem
  · simp
  · intro i h3 h4
    have hi : i < f.pos.length := by simpa using h4
    simp only [List.getElem_map, List.getElem_zipIdx, List.getElem_mapIdx, zero_add]
    congr 1
    have e : Spec.dot (kvecOf f.ks v) (fun c => f.pos[i] c + m f i c * side f c) =
        Spec.dot (kvecOf f.ks v) f.pos[i] + ((∑ c, (v c - f.ks.koffset) * m f i c : ℤ) : ℝ) * (2 * Real.pi) := by
      unfold Spec.dot kvecOf
      push_cast
      rw [Finset.sum_mul, ← Finset.sum_add_distrib]
      refine Finset.sum_congr rfl fun c _ => ?_
      have := (hside f hf c).ne'
      rw [hk f hf c]
      field_simp
    rw [e]
    have := ccis_two_pi (∑ c, (v c - f.ks.koffset) * m f i c)
    unfold ccis at this
    rw [Complex.ofReal_add, mul_add, Complex.exp_add]
    rw [show Complex.exp (Complex.I * ((((∑ c, (v c - f.ks.koffset) * m f i c : ℤ) : ℝ) * (2 * Real.pi) : ℝ) : ℂ)) = 1 by
      rw [← this], mul_one]

/-- **C173.** Nor, if all frames are used, if the frames are in another order. -/
theorem C173_order (frames frames' : List (IkFrame 3)) (nk : ℕ) (h : IkRegular frames 1 nk) (hp : frames'.Perm frames) :
    ∃ r, ikCompute frames 1 nk = .ok r ∧ ikCompute frames' 1 nk = .ok r := by
  have hr : IkRegular frames' 1 nk := by
    refine ⟨fun h0 => h.frames_ne ?_, h.skip_pos, fun f hf => h.pos f (hp.subset hf), fun f hf => h.radius f (hp.subset hf),
      fun f hf => h.allowed f (hp.subset hf), fun f hf => h.index_ne f (hp.subset hf),
      fun f hf => h.shells f (hp.subset hf)⟩
    rw [h0] at hp
    exact List.Perm.nil_eq hp |>.symm
  refine ⟨_, ikCompute_closed frames 1 nk h, ?_⟩
  rw [ikCompute_closed frames' 1 nk hr]
  have hm : ∀ (q : (Fin 3 → ℝ) → KVec 3 → ℝ) n, (ballModes q frames' 1 n).Perm (ballModes q frames 1 n) := by
    intro q n
    unfold ballModes
    rw [everyNth_one, everyNth_one]
    exact hp.flatMap_right _
  simp only [(hm _ _).sum_eq, (hm _ _).length_eq, (hp.map _).sum_eq, hp.length_eq]

/-- Two balls of different radii, exchanged together with their radii. -/
example : ∃ r, ikCompute ikExample 1 2 = .ok r ∧ ikCompute [⟨[![1, 2, 3], ![0, 0, 0]], some [2, 1], 5, exKs⟩] 1 2 = .ok r := by
  have := C173_labels ikExample 1 2 ikExample_regular (fun _ => [![1, 2, 3], ![0, 0, 0]]) (fun _ => [2, 1]) (by simp)
    (by intro f hf; simp only [ikExample, List.mem_singleton] at hf; subst hf; exact List.Perm.swap _ _ _)
  simpa [ikExample] using this

/-- The same two balls in other coordinates. -/
example : (∃ r, ikCompute ikExample 1 2 = .ok r ∧
      ikCompute (ikExample.map fun f => { f with pos := f.pos.map fun x => x + ![1, 0, 7] }) 1 2 = .ok r) ∧
    ∃ r, ikCompute ikExample 1 2 = .ok r ∧
      ikCompute (ikExample.map fun f => { f with pos := f.pos.map fun x => -x }) 1 2 = .ok r :=
  ⟨C173_origin _ _ _ ikExample_regular fun _ => ![1, 0, 7], C173_inversion _ _ _ ikExample_regular⟩

/-- A cell in which the wave-vectors of the example are those of the periodic images. -/
example : ∀ f ∈ ikExample, (∀ c, 0 < (fun c => 2 * Real.pi / f.ks.k0 c) c) ∧
    ∀ c, f.ks.k0 c = 2 * Real.pi / (2 * Real.pi / f.ks.k0 c) := by
  intro f hf
  simp only [ikExample, List.mem_singleton] at hf
  subst hf
  have h0 : ∀ c, 0 < exKs.k0 c := by
    intro c
    fin_cases c <;> simp [exKs]
  refine ⟨fun c => div_pos Real.two_pi_pos (h0 c), fun c => ?_⟩
  have := (h0 c).ne'
  have := Real.pi_ne_zero
  show exKs.k0 c = 2 * Real.pi / (2 * Real.pi / exKs.k0 c)
  field_simp

/-- Two different frames in both orders. -/
example : ∃ r, ikCompute (ikExample ++ [⟨[![4, 0, 1]], some [3], 6, exKs⟩]) 1 2 = .ok r ∧
    ikCompute ([⟨[![4, 0, 1]], some [3], 6, exKs⟩] ++ ikExample) 1 2 = .ok r := by
  have h := ikExample_regular
  have hmem : ∀ f ∈ ikExample ++ [(⟨[![4, 0, 1]], some [3], 6, exKs⟩ : IkFrame 3)], f.ks = exKs := by
    intro f hf
    simp only [ikExample, List.cons_append, List.nil_append, List.mem_cons, List.not_mem_nil, or_false] at hf
    rcases hf with rfl | rfl <;> rfl
  have h0 : (⟨[![0, 0, 0], ![1, 2, 3]], some [1, 2], 5, exKs⟩ : IkFrame 3) ∈ ikExample := by simp [ikExample]
  refine C173_order _ _ _ ⟨by simp, by simp, by simp [ikExample], by simp [ikExample], ?_, ?_, ?_⟩ List.perm_append_comm
  · intro f hf; rw [hmem f hf]; exact exKs_allowed
  · intro f hf; rw [hmem f hf]; exact h.index_ne _ h0
  · intro f hf; rw [hmem f hf]; exact h.shells _ h0

end PP.Props
