import Verif.Props.SkOrder
import Verif.Props.SkPairs

/-!
# C209, C210: the structure factor as a form in the weights, inequality between partial structure factors
-/

set_option linter.unusedSectionVars false

namespace PP.Props
open PP

section
variable {ι : Type}

/-- Value of a grid point for two families of modes. -/
noncomputable def modesCov (b : Bool) (L : List ι) (X Y : ι → ℂ) : ℝ := modesValue b (L.map fun x => (X x, Y x))

theorem modesCov_eq (b : Bool) (L : List ι) (X Y : ι → ℂ) : modesCov b L X Y =
    ((L.map fun x => X x * star (Y x)).sum / (L.length : ℂ) -
      (if b then (L.map X).sum * star (L.map Y).sum else 0) / (L.length : ℂ) ^ 2).re := by
  unfold modesCov modesValue
  simp only [List.map_map, List.length_map]
  rfl

theorem sum_map_lin (L : List ι) (a b : ℂ) (X X' : ι → ℂ) :
    (L.map fun x => a * X x + b * X' x).sum = a * (L.map X).sum + b * (L.map X').sum := by
  induction L with
  | nil => simp
  | cons x L ih => simp only [List.map_cons, List.sum_cons, ih]; ring

theorem modesCov_lin (w : Bool) (L : List ι) (a b : ℝ) (X X' Y : ι → ℂ) :
    modesCov w L (fun x => a * X x + b * X' x) Y = a * modesCov w L X Y + b * modesCov w L X' Y := by
  rw [modesCov_eq, modesCov_eq, modesCov_eq, sum_map_lin]
  have e : (L.map fun x => ((a : ℂ) * X x + b * X' x) * star (Y x)).sum =
      a * (L.map fun x => X x * star (Y x)).sum + b * (L.map fun x => X' x * star (Y x)).sum := by
    rw [← sum_map_lin]
    congr 1
    exact List.map_congr_left fun x _ => by ring
  rw [e, ← Complex.re_ofReal_mul, ← Complex.re_ofReal_mul, ← Complex.add_re]
  congr 1
  cases w
  · simp only [Bool.false_eq_true, if_false]; ring
  · simp only [if_true]; ring

theorem modesCov_symm (w : Bool) (L : List ι) (X Y : ι → ℂ) : modesCov w L X Y = modesCov w L Y X := by
  rw [modesCov_eq, modesCov_eq, ← Complex.conj_re]
  congr 1
  have e : star (L.map fun x => X x * star (Y x)).sum = (L.map fun x => Y x * star (X x)).sum := by
    rw [← sum_star, List.map_map]
    congr 1
    refine List.map_congr_left fun x _ => ?_
    simp only [Function.comp, star_mul', star_star]
    ring
  show star _ = _
  rw [star_sub, star_div₀, star_div₀, e]
  simp only [star_pow, star_natCast]
  congr 2
  cases w
  · simp
  · simp only [if_true, star_mul', star_star]; ring

theorem modesCov_self (w : Bool) (L : List ι) (X : ι → ℂ) : modesCov w L X X =
    (L.map fun x => ‖X x‖ ^ 2).sum / L.length - (if w then ‖(L.map X).sum‖ ^ 2 else 0) / (L.length : ℝ) ^ 2 := by
  rw [modesCov_eq]
  have e0 : ∀ z : ℂ, z * star z = ((‖z‖ ^ 2 : ℝ) : ℂ) := fun z => by
    have := Complex.mul_conj z
    rw [Complex.normSq_eq_norm_sq] at this
    exact this
  have e1 : (L.map fun x => X x * star (X x)).sum = (((L.map fun x => ‖X x‖ ^ 2).sum : ℝ) : ℂ) := by
    induction L with
    | nil => simp
    | cons z m ih => rw [List.map_cons, List.sum_cons, ih, e0, List.map_cons, List.sum_cons, Complex.ofReal_add]
  have e2 : (((L.map fun x => ‖X x‖ ^ 2).sum : ℝ) : ℂ) / (L.length : ℂ) -
      (if w then (L.map X).sum * star (L.map X).sum else 0) / (L.length : ℂ) ^ 2 =
      (((L.map fun x => ‖X x‖ ^ 2).sum / L.length - (if w then ‖(L.map X).sum‖ ^ 2 else 0) / (L.length : ℝ) ^ 2 : ℝ) : ℂ) := by
    cases w
    · simp
    · simp only [if_true, e0]; push_cast; rfl
  rw [e1, e2, Complex.ofReal_re]

theorem modesCov_nonneg (w : Bool) (L : List ι) (X : ι → ℂ) : 0 ≤ modesCov w L X X := by
  rw [modesCov_self]
  cases w
  · simp only [Bool.false_eq_true, if_false, zero_div, sub_zero]
    exact div_nonneg (List.sum_nonneg fun x hx => by obtain ⟨y, -, rfl⟩ := List.mem_map.1 hx; positivity) (Nat.cast_nonneg _)
  · have := norm_variance_nonneg (L.map X)
    simp only [List.map_map, List.length_map, Function.comp_def] at this
    simpa using this

theorem modesCov_sq_le (w : Bool) (L : List ι) (X Y : ι → ℂ) :
    modesCov w L X Y ^ 2 ≤ modesCov w L X X * modesCov w L Y Y := by
  have h : ∀ a b : ℝ, 0 ≤ a ^ 2 * modesCov w L X X + 2 * (a * b) * modesCov w L X Y + b ^ 2 * modesCov w L Y Y := by
    intro a b
    have h0 := modesCov_nonneg w L (fun x => a * X x + b * Y x)
    rw [modesCov_lin, modesCov_symm w L X, modesCov_symm w L Y, modesCov_lin, modesCov_lin, modesCov_symm w L Y X] at h0
    linarith
  have h1 := h (modesCov w L Y Y) (-modesCov w L X Y)
  have h2 := h (-modesCov w L X Y) (modesCov w L X X)
  have hX := modesCov_nonneg w L X
  have hY := modesCov_nonneg w L Y
  have h3 := h 1 1
  have h4 := h 1 (-1)
  rcases hY.eq_or_lt with hY0 | hY0
  · rcases hX.eq_or_lt with hX0 | hX0
    · nlinarith
    · nlinarith
  · nlinarith

end

variable {d : ℕ}

/-- The structure factor of the same particles with other weights, `u0 i p` and `u1 i p` for particle `p` of frame `i`. -/
def _root_.PP.Spec.weightedBy (o : SkObj d) (u0 u1 : ℕ → ℕ → ℝ) : SkObj d :=
  { o with weighted := true, frames := o.frames.mapIdx fun i f =>
    { f with w0 := (List.range f.pos0.length).map (u0 i), w1 := (List.range f.pos1.length).map (u1 i) } }

/-- The structure factor of the first group of particles with itself. -/
def _root_.PP.Spec.firstOnly (o : SkObj d) : SkObj d :=
  { o with same := true, frames := o.frames.map fun f => { f with pos1 := f.pos0, w1 := f.w0 } }

/-- The structure factor of the second group of particles with itself. -/
def _root_.PP.Spec.secondOnly (o : SkObj d) : SkObj d :=
  { o with same := true, frames := o.frames.map fun f => { f with pos0 := f.pos1, w0 := f.w1 } }

theorem firstOnly_regular (o : SkObj d) (h : SkRegular o) : SkRegular (Spec.firstOnly o) := by
  refine ⟨by simpa [Spec.firstOnly] using h.frames_ne, h.skip_pos, Or.inl rfl, ?_, ?_, ?_, ?_, ?_⟩
  · intro _ f hf
    obtain ⟨f, hf', rfl⟩ := List.mem_map.1 hf
    exact ⟨rfl, rfl⟩
  all_goals
    intro f hf
    obtain ⟨f, hf', rfl⟩ := List.mem_map.1 hf
  · exact h.pos0 f hf'
  · exact h.pos0 f hf'
  · exact h.allowed f hf'
  · exact h.shells f hf'

theorem secondOnly_regular (o : SkObj d) (h : SkRegular o) : SkRegular (Spec.secondOnly o) := by
  refine ⟨by simpa [Spec.secondOnly] using h.frames_ne, h.skip_pos, Or.inl rfl, ?_, ?_, ?_, ?_, ?_⟩
  · intro _ f hf
    obtain ⟨f, hf', rfl⟩ := List.mem_map.1 hf
    exact ⟨rfl, rfl⟩
  all_goals
    intro f hf
    obtain ⟨f, hf', rfl⟩ := List.mem_map.1 hf
  · exact h.pos1 f hf'
  · exact h.pos1 f hf'
  · exact h.allowed f hf'
  · exact h.shells f hf'

theorem weightedBy_regular (o : SkObj d) (h : SkRegular o) (u0 u1 : ℕ → ℕ → ℝ) (hu : o.same = true → u1 = u0) :
    SkRegular (Spec.weightedBy o u0 u1) := by
  refine ⟨by simpa [Spec.weightedBy] using h.frames_ne, h.skip_pos, h.dims, ?_, ?_, ?_, ?_, ?_⟩
  · intro hs f hf
    obtain ⟨i, hi, rfl⟩ := List.mem_mapIdx.1 hf
    obtain ⟨e1, -⟩ := h.same hs _ (List.getElem_mem hi)
    simp only [e1, hu hs, and_self]
  all_goals
    intro f hf
    obtain ⟨i, hi, rfl⟩ := List.mem_mapIdx.1 hf
  · exact h.pos0 o.frames[i] (List.getElem_mem hi)
  · exact h.pos1 o.frames[i] (List.getElem_mem hi)
  · exact h.allowed o.frames[i] (List.getElem_mem hi)
  · exact h.shells o.frames[i] (List.getElem_mem hi)

/-- Index of the frame, frame and wave-vector of the modes that enter grid point `n`. -/
def modeIndex (o : SkObj d) (n : ℕ) : List (ℕ × SkFrame d × KVec d) :=
  ((rangeList 0 o.frames.length o.skip).filterMap fun i => o.frames[i]?.map fun f => (i, f)).flatMap fun e =>
    (e.2.ks.kvectors.getD n []).map fun v => (e.1, e.2, v)

theorem gridModes_index (o : SkObj d) (n : ℕ) : gridModes o n = (modeIndex o n).map fun x =>
    (Spec.fieldMode (kvecOf x.2.1.ks x.2.2) (realWeight o.weighted x.2.1.w0) x.2.1.pos0,
      Spec.fieldMode (kvecOf x.2.1.ks x.2.2) (realWeight o.weighted x.2.1.w1) x.2.1.pos1) := by
  unfold gridModes modeIndex originFrames
  have e : ((rangeList 0 o.frames.length o.skip).filterMap fun i => o.frames[i]?) =
      ((rangeList 0 o.frames.length o.skip).filterMap fun i => o.frames[i]?.map fun f => (i, f)).map Prod.snd := by
    rw [List.map_filterMap]
    congr 1
    funext i
    cases o.frames[i]? <;> rfl
  rw [e, List.flatMap_map, List.map_flatMap]
  refine List.flatMap_congr fun x _ => ?_
  rw [List.map_map]
  rfl

theorem fieldMode_range (k : Fin d → ℝ) (u : ℕ → ℝ) (pos : List (Vec d ℝ)) :
    Spec.fieldMode k (realWeight true ((List.range pos.length).map u)) pos = Spec.fieldMode k u pos := by
  unfold Spec.fieldMode
  congr 1
  refine List.ext_getElem (by simp) fun p h1 h2 => ?_
  have hp : p < pos.length := by simpa using h1
  simp [realWeight, hp]

theorem gridModes_weightedBy (o : SkObj d) (u0 u1 : ℕ → ℕ → ℝ) (n : ℕ) :
    gridModes (Spec.weightedBy o u0 u1) n = (modeIndex o n).map fun x =>
      (Spec.fieldMode (kvecOf x.2.1.ks x.2.2) (u0 x.1) x.2.1.pos0, Spec.fieldMode (kvecOf x.2.1.ks x.2.2) (u1 x.1) x.2.1.pos1) := by
  rw [gridModes_index]
  have e : modeIndex (Spec.weightedBy o u0 u1) n = (modeIndex o n).map fun x =>
      (x.1, { x.2.1 with w0 := (List.range x.2.1.pos0.length).map (u0 x.1), w1 := (List.range x.2.1.pos1.length).map (u1 x.1) }, x.2.2) := by
    unfold modeIndex Spec.weightedBy
    simp only [List.length_mapIdx, List.getElem?_mapIdx]
    rw [List.map_flatMap]
    have e2 : ((rangeList 0 o.frames.length o.skip).filterMap fun i => (o.frames[i]?.map fun f : SkFrame d =>
        ({ f with w0 := (List.range f.pos0.length).map (u0 i), w1 := (List.range f.pos1.length).map (u1 i) } : SkFrame d)).map fun f => (i, f)) =
        ((rangeList 0 o.frames.length o.skip).filterMap fun i => o.frames[i]?.map fun f => (i, f)).map fun e =>
          (e.1, { e.2 with w0 := (List.range e.2.pos0.length).map (u0 e.1), w1 := (List.range e.2.pos1.length).map (u1 e.1) }) := by
      rw [List.map_filterMap]
      congr 1
      funext i
      cases o.frames[i]? <;> rfl
    rw [e2, List.flatMap_map]
    refine List.flatMap_congr fun x _ => ?_
    rw [List.map_map]
    rfl
  rw [e, List.map_map]
  refine List.map_congr_left fun x _ => ?_
  have hw : (Spec.weightedBy o u0 u1).weighted = true := rfl
  simp only [Function.comp, hw, fieldMode_range]

theorem fieldMode_lin (k : Fin d → ℝ) (a b : ℝ) (u u' : ℕ → ℝ) (pos : List (Vec d ℝ)) :
    Spec.fieldMode k (fun p => a * u p + b * u' p) pos = a * Spec.fieldMode k u pos + b * Spec.fieldMode k u' pos := by
  unfold Spec.fieldMode
  rw [← sum_map_lin]
  congr 1
  refine List.map_congr_left fun e _ => ?_
  push_cast
  ring

theorem skN_weightedBy (o : SkObj d) (u0 u1 : ℕ → ℕ → ℝ) :
    skN0 (Spec.weightedBy o u0 u1) = skN0 o ∧ skN1 (Spec.weightedBy o u0 u1) = skN1 o := by
  unfold skN0 skN1 Spec.weightedBy
  simp only [List.length_mapIdx]
  constructor
  · congr 3
    refine List.ext_getElem (by simp) fun i h1 h2 => by simp
  · congr 3
    refine List.ext_getElem (by simp) fun i h1 h2 => by simp

/-- Values of the structure factor with the given weights. -/
theorem weightedBy_values (o : SkObj d) (h : SkRegular o) (u0 u1 : ℕ → ℕ → ℝ) (hu : o.same = true → u1 = u0) :
    skLegacy (Spec.weightedBy o u0 u1) = .ok ((List.range o.nk).map (fun n => modesCov true (modeIndex o n)
        (fun x => Spec.fieldMode (kvecOf x.2.1.ks x.2.2) (u0 x.1) x.2.1.pos0)
        (fun x => Spec.fieldMode (kvecOf x.2.1.ks x.2.2) (u1 x.1) x.2.1.pos1) / √(skN0 o * skN1 o)),
      (List.range o.nk).map fun n => modesCov true (modeIndex o n)
        (fun x => Spec.fieldMode (kvecOf x.2.1.ks x.2.2) (u0 x.1) x.2.1.pos0)
        (fun x => Spec.fieldMode (kvecOf x.2.1.ks x.2.2) (u1 x.1) x.2.1.pos1)) := by
  rw [skLegacy_eq _ (weightedBy_regular o h u0 u1 hu), (skN_weightedBy o u0 u1).1, (skN_weightedBy o u0 u1).2]
  simp only [gridModes_weightedBy]
  rfl

/-- **C209**: the weighted structure factor of two groups of particles is linear in the weights of the first group. -/
theorem C209_linear_first (o : SkObj d) (h : SkRegular o) (hs : o.same = false) (a b : ℝ) (u u' u1 : ℕ → ℕ → ℝ) :
    ∃ v x v' x', skLegacy (Spec.weightedBy o u u1) = .ok (v, x) ∧ skLegacy (Spec.weightedBy o u' u1) = .ok (v', x') ∧
      skLegacy (Spec.weightedBy o (fun i p => a * u i p + b * u' i p) u1) =
        .ok (List.zipWith (fun y z => a * y + b * z) v v', List.zipWith (fun y z => a * y + b * z) x x') := by
  have hu : ∀ u0 : ℕ → ℕ → ℝ, o.same = true → u1 = u0 := fun u0 e => by rw [hs] at e; cases e
  refine ⟨_, _, _, _, weightedBy_values o h u u1 (hu _), weightedBy_values o h u' u1 (hu _), ?_⟩
  rw [weightedBy_values o h _ u1 (hu _)]
  simp only [fieldMode_lin, modesCov_lin, List.zipWith_map_left, List.zipWith_map_right, List.zipWith_self]
  congr 2
  refine List.map_congr_left fun n _ => ?_
  ring

/-- **C209**: and in those of the second group. -/
theorem C209_linear_second (o : SkObj d) (h : SkRegular o) (hs : o.same = false) (a b : ℝ) (u0 u u' : ℕ → ℕ → ℝ) :
    ∃ v x v' x', skLegacy (Spec.weightedBy o u0 u) = .ok (v, x) ∧ skLegacy (Spec.weightedBy o u0 u') = .ok (v', x') ∧
      skLegacy (Spec.weightedBy o u0 fun i p => a * u i p + b * u' i p) =
        .ok (List.zipWith (fun y z => a * y + b * z) v v', List.zipWith (fun y z => a * y + b * z) x x') := by
  have hu : ∀ u1 : ℕ → ℕ → ℝ, o.same = true → u1 = u0 := fun u1 e => by rw [hs] at e; cases e
  refine ⟨_, _, _, _, weightedBy_values o h u0 u (hu _), weightedBy_values o h u0 u' (hu _), ?_⟩
  rw [weightedBy_values o h u0 _ (hu _)]
  simp only [fieldMode_lin, modesCov_symm true _ (fun x : ℕ × SkFrame d × KVec d => Spec.fieldMode (kvecOf x.2.1.ks x.2.2) (u0 x.1) x.2.1.pos0),
    modesCov_lin, List.zipWith_map_left, List.zipWith_map_right, List.zipWith_self]
  congr 2
  refine List.map_congr_left fun n _ => ?_
  ring

/-- **C209**: with the fields multiplied by `a` and `b`, the structure factor is multiplied by `a b`. -/
theorem C209_units (o : SkObj d) (h : SkRegular o) (a b : ℝ) (u0 u1 : ℕ → ℕ → ℝ) (hu : o.same = true → u1 = u0 ∧ a = b) :
    ∃ v x, skLegacy (Spec.weightedBy o u0 u1) = .ok (v, x) ∧
      skLegacy (Spec.weightedBy o (fun i p => a * u0 i p) fun i p => b * u1 i p) =
        .ok (v.map fun y => a * b * y, x.map fun y => a * b * y) := by
  refine ⟨_, _, weightedBy_values o h u0 u1 fun e => (hu e).1, ?_⟩
  rw [weightedBy_values o h _ _ fun e => by rw [(hu e).1, (hu e).2]]
  have e1 : ∀ (c : ℝ) (k : Fin d → ℝ) (u : ℕ → ℝ) (pos : List (Vec d ℝ)),
      Spec.fieldMode k (fun p => c * u p) pos = c * Spec.fieldMode k u pos := by
    intro c k u pos
    simpa using fieldMode_lin k c 0 u (fun _ => 0) pos
  have e2 : ∀ (c : ℝ) (n : ℕ) (X Y : ℕ × SkFrame d × KVec d → ℂ),
      modesCov true (modeIndex o n) (fun x => c * X x) Y = c * modesCov true (modeIndex o n) X Y := by
    intro c n X Y
    simpa using modesCov_lin true (modeIndex o n) c 0 X (fun _ => 0) Y
  have e3 : ∀ (n : ℕ) (X Y : ℕ × SkFrame d × KVec d → ℂ),
      modesCov true (modeIndex o n) (fun x => a * X x) (fun x => b * Y x) = a * b * modesCov true (modeIndex o n) X Y := by
    intro n X Y
    rw [e2, modesCov_symm, e2, modesCov_symm, mul_assoc]
  simp only [e1, e3, List.map_map, Function.comp_def]
  congr 2
  exact List.map_congr_left fun n _ => by ring

/-- **C209**: the structure factors for the fields `u`, `u'`, `u + u'` and `u - u'` obey the parallelogram law. -/
theorem C209_parallelogram (o : SkObj d) (h : SkRegular o) (u u' : ℕ → ℕ → ℝ) :
    ∃ v x v' x' vp xp vm xm, skLegacy (Spec.weightedBy o u u) = .ok (v, x) ∧ skLegacy (Spec.weightedBy o u' u') = .ok (v', x') ∧
      skLegacy (Spec.weightedBy o (fun i p => u i p + u' i p) fun i p => u i p + u' i p) = .ok (vp, xp) ∧
      skLegacy (Spec.weightedBy o (fun i p => u i p - u' i p) fun i p => u i p - u' i p) = .ok (vm, xm) ∧
      vp.length = o.nk ∧ vm.length = o.nk ∧ v.length = o.nk ∧ v'.length = o.nk ∧
      List.zipWith (· + ·) vp vm = List.zipWith (fun y z => 2 * y + 2 * z) v v' := by
  refine ⟨_, _, _, _, _, _, _, _, weightedBy_values o h u u fun _ => rfl, weightedBy_values o h u' u' fun _ => rfl,
    weightedBy_values o h _ _ fun _ => rfl, weightedBy_values o h _ _ fun _ => rfl, by simp, by simp, by simp, by simp, ?_⟩
  have e1 : ∀ (k : Fin d → ℝ) (w w' : ℕ → ℝ) (pos : List (Vec d ℝ)),
      Spec.fieldMode k (fun p => w p + w' p) pos = (1 : ℝ) * Spec.fieldMode k w pos + (1 : ℝ) * Spec.fieldMode k w' pos := by
    intro k w w' pos
    rw [← fieldMode_lin]; simp
  have e2 : ∀ (k : Fin d → ℝ) (w w' : ℕ → ℝ) (pos : List (Vec d ℝ)),
      Spec.fieldMode k (fun p => w p - w' p) pos = (1 : ℝ) * Spec.fieldMode k w pos + (-1 : ℝ) * Spec.fieldMode k w' pos := by
    intro k w w' pos
    have := fieldMode_lin k 1 (-1) w w' pos
    push_cast at this ⊢
    rw [← this]
    congr 1
    funext p
    ring
  have e4 : ∀ (n : ℕ) (a b : ℝ) (X X' Y Y' : ℕ × SkFrame d × KVec d → ℂ),
      modesCov true (modeIndex o n) (fun x => a * X x + b * X' x) (fun x => a * Y x + b * Y' x) =
        a * a * modesCov true (modeIndex o n) X Y + a * b * modesCov true (modeIndex o n) X Y' +
        b * a * modesCov true (modeIndex o n) X' Y + b * b * modesCov true (modeIndex o n) X' Y' := by
    intro n a b X X' Y Y'
    rw [modesCov_lin, modesCov_symm true _ X, modesCov_symm true _ X', modesCov_lin, modesCov_lin, modesCov_symm true _ Y X,
      modesCov_symm true _ Y' X, modesCov_symm true _ Y X', modesCov_symm true _ Y' X']
    ring
  simp only [e1, e2, e4, List.zipWith_map_left, List.zipWith_map_right, List.zipWith_self]
  exact List.map_congr_left fun n _ => by ring

/-! ## C210 -/

theorem gridModes_first (o : SkObj d) (hskip : 0 < o.skip) (n : ℕ) :
    gridModes (Spec.firstOnly o) n = (gridModes o n).map fun r => (r.1, r.1) := by
  unfold gridModes Spec.firstOnly
  simp only
  rw [skFrames_map hskip, List.flatMap_map, List.map_flatMap]
  refine List.flatMap_congr fun f _ => ?_
  rw [List.map_map]
  rfl

theorem gridModes_second (o : SkObj d) (hskip : 0 < o.skip) (n : ℕ) :
    gridModes (Spec.secondOnly o) n = (gridModes o n).map fun r => (r.2, r.2) := by
  unfold gridModes Spec.secondOnly
  simp only
  rw [skFrames_map hskip, List.flatMap_map, List.map_flatMap]
  refine List.flatMap_congr fun f _ => ?_
  rw [List.map_map]
  rfl

/-- **C210**: the square of the structure factor of two groups of particles is at most the product of those of the two groups, at each
grid point, with and without weights and normalisation. -/
theorem C210_bound (o : SkObj d) (h : SkRegular o) :
    ∃ v x v0 x0 v1 x1, skLegacy o = .ok (v, x) ∧ skLegacy (Spec.firstOnly o) = .ok (v0, x0) ∧
      skLegacy (Spec.secondOnly o) = .ok (v1, x1) ∧ v.length = o.nk ∧ v0.length = o.nk ∧ v1.length = o.nk ∧ ∀ n < o.nk,
        x.getD n 0 ^ 2 ≤ x0.getD n 0 * x1.getD n 0 ∧ v.getD n 0 ^ 2 ≤ v0.getD n 0 * v1.getD n 0 := by
  refine ⟨_, _, _, _, _, _, skLegacy_eq o h, skLegacy_eq _ (firstOnly_regular o h), skLegacy_eq _ (secondOnly_regular o h),
    by simp, by simp [Spec.firstOnly], by simp [Spec.secondOnly], fun n hn => ?_⟩
  have hget : ∀ g : ℕ → ℝ, ((List.range o.nk).map g).getD n 0 = g n := by
    intro g
    rw [List.getD_eq_getElem?_getD, List.getElem?_map, List.getElem?_range hn]
    rfl
  have e0 : (Spec.firstOnly o).nk = o.nk := rfl
  have e1 : (Spec.secondOnly o).nk = o.nk := rfl
  have w0 : (Spec.firstOnly o).weighted = o.weighted := rfl
  have w1 : (Spec.secondOnly o).weighted = o.weighted := rfl
  have n00 : skN0 (Spec.firstOnly o) = skN0 o := by simp [skN0, Spec.firstOnly, Function.comp_def]
  have n01 : skN1 (Spec.firstOnly o) = skN0 o := by simp [skN0, skN1, Spec.firstOnly, Function.comp_def]
  have n10 : skN0 (Spec.secondOnly o) = skN1 o := by simp [skN0, skN1, Spec.secondOnly, Function.comp_def]
  have n11 : skN1 (Spec.secondOnly o) = skN1 o := by simp [skN1, Spec.secondOnly, Function.comp_def]
  have p0 : 0 ≤ skN0 o := by unfold skN0; positivity
  have p1 : 0 ≤ skN1 o := by unfold skN1; positivity
  rw [e0, e1, w0, w1, n00, n01, n10, n11, hget, hget, hget, hget, hget, hget, gridModes_first o h.skip_pos, gridModes_second o h.skip_pos]
  have key := modesCov_sq_le o.weighted (gridModes o n) Prod.fst Prod.snd
  have e2 : modesCov o.weighted (gridModes o n) Prod.fst Prod.snd = modesValue o.weighted (gridModes o n) := by
    unfold modesCov; simp
  rw [e2] at key
  refine ⟨key, ?_⟩
  rw [div_pow, Real.sq_sqrt (mul_nonneg p0 p1), Real.sqrt_mul_self p0, Real.sqrt_mul_self p1, div_mul_div_comm]
  exact div_le_div_of_nonneg_right key (mul_nonneg p0 p1)

/-! ## Examples -/

/-- The particles of `exSk` with the first two of them as second group. -/
noncomputable def exGroups : SkObj 3 :=
  { exSk with same := false, frames := exSk.frames.map fun f => { f with pos1 := f.pos1.take 2 } }

theorem exGroups_regular : SkRegular exGroups := by
  refine ⟨by simp [exGroups, exSk], by simp [exGroups, exSk], Or.inr (Or.inr rfl), ?_, ?_, ?_, ?_, ?_⟩
  all_goals simp [exGroups, exSk, exKs_allowed]
  all_goals simp [exKs]

example := C209_linear_first exGroups exGroups_regular rfl 2 (-1) (fun i p => i + p) (fun _ p => p) fun _ p => 1 - p

example := C209_linear_second exGroups exGroups_regular rfl 2 (-1) (fun _ p => 1 - p) (fun i p => i + p) fun _ p => p

example := C209_units exSk exSk_regular (-3) (-3) (fun i p => i + p) (fun i p => i + p) fun _ => ⟨rfl, rfl⟩

example := C209_parallelogram exSk exSk_regular (fun i p => i + p) fun _ p => 1 - p

example := C210_bound exGroups exGroups_regular

end PP.Props
