import Verif.Props.BaLabels
import Verif.Props.GrOrder
import Verif.Props.Ik

/-!
# C184: the stride selects the frames of the bond-angle distribution and of the spectral density
# C185: bond-angle distributions of the parts of a trajectory
-/

namespace PP.Props
open PP

variable {d : ℕ}

/-- **C184, bond angles**: the distribution computed with a stride is the one of the trajectory made of the frames 0, `skip`,
2 `skip`, .... -/
theorem C184_ba_partial (rcut : List (List ℝ)) (nsp : ℕ) {skip : ℕ} (hs : 0 < skip) (grid : List ℝ)
    (frames F : List (BaFrame d)) (hF : ∀ i, F[i]? = frames[i * skip]?) :
    baCompute rcut nsp skip grid frames = baCompute rcut nsp 1 grid F := by
  have e : Spec.everyNth skip frames = Spec.everyNth 1 F := by
    rw [everyNth_one, ← originFrames_eq _ hs]
    exact originFrames_of hs hF
  unfold baCompute
  simp only [pyRange, if_neg hs.ne', if_neg Nat.one_ne_zero, bind, Except.bind]
  have h1 := fun dtheta => mapM_origins frames hs fun f =>
    (List.range f.pos0.length).mapM (baParticle rcut dtheta grid.length f)
  have h2 := fun dtheta => mapM_origins F one_pos fun f =>
    (List.range f.pos0.length).mapM (baParticle rcut dtheta grid.length f)
  simp only [bind, Except.bind] at h1 h2
  simp only [h1, h2, e]

/-- Mean volume of the cells. -/
noncomputable def meanVolume (frames : List (IkFrame d)) : ℝ := (frames.map fun f => f.volume).sum / (frames.length : ℝ)

theorem ik_stride {skip : ℕ} (hs : 0 < skip) (nk : ℕ) (frames F : List (IkFrame d)) (hF : ∀ i, F[i]? = frames[i * skip]?) :
    ikCompute frames skip nk = (ikCompute F 1 nk).map fun r => (r.2.map fun x => x / meanVolume frames, r.2) := by
  unfold ikCompute
  simp only [pyRange, if_neg hs.ne', if_neg Nat.one_ne_zero, bind, Except.bind]
  have h1 := foldlM_pyGet frames (rangeList 0 frames.length skip)
    (fun i hi => by rw [mem_rangeList hs] at hi; omega) ikFrame (List.replicate nk ⟨0, 0, 0, 0⟩)
  have h2 := foldlM_pyGet F (rangeList 0 F.length 1)
    (fun i hi => by rw [mem_rangeList one_pos] at hi; omega) ikFrame (List.replicate nk ⟨0, 0, 0, 0⟩)
  simp only [bind, Except.bind] at h1 h2
  have e1 : (rangeList 0 frames.length skip).filterMap (fun i => frames[i]?) = F := originFrames_of hs hF
  have e2 : (rangeList 0 F.length 1).filterMap (fun i => F[i]?) = F := originFrames_one F
  rw [h1, h2, e1, e2]
  cases F.foldlM ikFrame (List.replicate nk ⟨0, 0, 0, 0⟩) with
  | error e => rfl
  | ok acc =>
    simp only
    cases acc.mapM (skNonorm false) with
    | error e => rfl
    | ok v => rfl

/-- **C184, what holds** for the spectral density: the values without normalisation are those of the selected frames, and the
others too if the volume of the cell is constant. -/
theorem C184_ik_partial {skip : ℕ} (hs : 0 < skip) (nk : ℕ) (frames F : List (IkFrame d))
    (hF : ∀ i, F[i]? = frames[i * skip]?) :
    (ikCompute frames skip nk).map Prod.snd = (ikCompute F 1 nk).map Prod.snd ∧
      ∀ V, (∀ f ∈ frames, f.volume = V) → ikCompute frames skip nk = ikCompute F 1 nk := by
  constructor
  · rw [ik_stride hs nk frames F hF]
    cases ikCompute F 1 nk <;> rfl
  · intro V hV
    have hm : ∀ f ∈ F, f ∈ frames := by
      intro f hf
      obtain ⟨i, hi⟩ := List.mem_iff_getElem?.1 hf
      rw [hF i] at hi
      exact List.mem_of_getElem? hi
    have hconst : ∀ l : List (IkFrame d), (∀ f ∈ l, f.volume = V) → (l.map fun f => f.volume).sum = l.length * V := by
      intro l hl
      rw [List.map_congr_left (g := fun _ => V) hl]
      simp
    have hmean : meanVolume frames = meanVolume F := by
      unfold meanVolume
      rw [hconst frames hV, hconst F fun f hf => hV f (hm f hf)]
      rcases frames with _ | ⟨a, l⟩
      · have : F = [] := by
          cases F with
          | nil => rfl
          | cons b F => have := hF 0; simp at this
        rw [this]
      · have : F ≠ [] := by
          rintro rfl
          have := hF 0
          simp at this
        have h1 : ((a :: l).length : ℝ) ≠ 0 := by simp; positivity
        have h2 : (F.length : ℝ) ≠ 0 := by exact_mod_cast (List.length_pos_iff.2 this).ne'
        field_simp
    rw [ik_stride hs nk frames F hF, hmean, ← ik_stride one_pos nk F F (by simp)]

/-- **C184** is false for the spectral density if the volume changes: values are divided by the mean volume of all the frames,
not of those used, hence they are multiplied by the ratio of the two. -/
theorem C184_counterexample_volume {skip : ℕ} (hs : 0 < skip) (nk : ℕ) (frames F : List (IkFrame d))
    (hF : ∀ i, F[i]? = frames[i * skip]?) (hV : meanVolume F ≠ 0) {v x v' x' : List ℝ}
    (h : ikCompute frames skip nk = .ok (v, x)) (h' : ikCompute F 1 nk = .ok (v', x')) :
    x = x' ∧ v = v'.map (· * (meanVolume F / meanVolume frames)) := by
  have e1 := ik_stride hs nk frames F hF
  have e2 := ik_stride one_pos nk F F (by simp)
  rw [h, h'] at e1
  rw [h'] at e2
  simp only [Except.map, Except.ok.injEq, Prod.mk.injEq, and_true] at e1 e2
  refine ⟨e1.2, ?_⟩
  rw [e1.1, e2, List.map_map]
  refine List.map_congr_left fun a _ => ?_
  simp only [Function.comp]
  rw [div_mul_div_cancel₀ hV]

/-! ### C185 -/

/-- **C185**: the distribution of a trajectory in two parts is the average of those of the parts, weighted by the numbers of
angles, provided that there are angles below the last point of the grid in both. -/
theorem C185_parts {rcut : List (List ℝ)} {rc : ℕ → ℕ → ℝ} {nsp : ℕ} {w : ℝ} (hw : 0 < w) (hw180 : w ≤ 180)
    (A B : List (BaFrame d)) (hsp : ∀ i < nsp, ∃ row, rcut[i]? = some row ∧ nsp ≤ row.length)
    (hv : ∀ f ∈ A ++ B, BaValid rcut rc f) (hbuf : ∀ f ∈ A ++ B, ∀ i < f.pos0.length, Spec.inRange rc f i ≤ 50)
    (nA nB : ℕ) (hnA : nA = Spec.between 0 (⌊180 / w⌋₊ * w) (A.flatMap (Spec.frameAngles rc)))
    (hnB : nB = Spec.between 0 (⌊180 / w⌋₊ * w) (B.flatMap (Spec.frameAngles rc))) (hA : nA ≠ 0) (hB : nB ≠ 0) :
    ∃ (grid x : List ℝ) (t : List (ℝ × ℝ)), baGrid w = .ok grid ∧
      baCompute rcut nsp 1 grid A = .ok (x, t.map fun p => some p.1) ∧
      baCompute rcut nsp 1 grid B = .ok (x, t.map fun p => some p.2) ∧
      baCompute rcut nsp 1 grid (A ++ B) = .ok (x, t.map fun p => some ((nA * p.1 + nB * p.2) / (nA + nB))) := by
  have hne : ∀ l : List (BaFrame d), Spec.between 0 (⌊180 / w⌋₊ * w) (l.flatMap (Spec.frameAngles rc)) ≠ 0 →
      ∃ f ∈ l, f.pos0 ≠ [] := by
    intro l hl
    by_contra hc
    push Not at hc
    apply hl
    rw [List.flatMap_eq_nil_iff.2]
    · rfl
    · intro f hf
      unfold Spec.frameAngles
      rw [hc f hf]
      rfl
  have key : ∀ l : List (BaFrame d), (∀ f ∈ l, f ∈ A ++ B) →
      Spec.between 0 (⌊180 / w⌋₊ * w) (l.flatMap (Spec.frameAngles rc)) ≠ 0 →
      ∃ grid, baGrid w = .ok grid ∧ baCompute rcut nsp 1 grid l = .ok
        ((List.range ⌊180 / w⌋₊).map (fun b : ℕ => ((b : ℝ) + 1 / 2) * w),
        (List.range ⌊180 / w⌋₊).map fun b : ℕ => some
          ((Spec.between (b * w) ((b + 1) * w) (l.flatMap (Spec.frameAngles rc)) : ℝ) /
            ((Spec.between 0 (⌊180 / w⌋₊ * w) (l.flatMap (Spec.frameAngles rc)) : ℝ) * w))) := by
    intro l hl h0
    obtain ⟨grid, r, h1, h2, h3, h4⟩ := C70_values (rc := rc) (nsp := nsp) one_pos hw hw180 l hsp
      (by rw [everyNth_one]; exact fun f hf => hv f (hl f hf))
      (by rw [everyNth_one]; exact fun f hf => hbuf f (hl f hf)) (by rw [everyNth_one]; exact hne l h0)
    refine ⟨grid, h1, ?_⟩
    rw [h2]
    rw [everyNth_one] at h4
    simp only [if_neg h0] at h4
    rw [← h3, ← h4]
  have hadd : ∀ a b : ℝ, Spec.between a b ((A ++ B).flatMap (Spec.frameAngles rc)) =
      Spec.between a b (A.flatMap (Spec.frameAngles rc)) + Spec.between a b (B.flatMap (Spec.frameAngles rc)) := by
    intro a b
    unfold Spec.between
    rw [List.flatMap_append, List.countP_append]
  obtain ⟨grid, g1, a1⟩ := key A (fun f hf => List.mem_append_left _ hf) (hnA ▸ hA)
  obtain ⟨grid2, g2, a2⟩ := key B (fun f hf => List.mem_append_right _ hf) (hnB ▸ hB)
  obtain ⟨grid3, g3, a3⟩ := key (A ++ B) (fun f hf => hf) (by rw [hadd, ← hnA, ← hnB]; omega)
  rw [g1] at g2 g3
  cases g2
  cases g3
  refine ⟨grid, (List.range ⌊180 / w⌋₊).map (fun b : ℕ => ((b : ℝ) + 1 / 2) * w), (List.range ⌊180 / w⌋₊).map fun b : ℕ =>
    ((Spec.between (b * w) ((b + 1) * w) (A.flatMap (Spec.frameAngles rc)) : ℝ) / (nA * w),
      (Spec.between (b * w) ((b + 1) * w) (B.flatMap (Spec.frameAngles rc)) : ℝ) / (nB * w)), g1, ?_, ?_, ?_⟩
  · rw [a1, List.map_map, ← hnA]; rfl
  · rw [a2, List.map_map, ← hnB]; rfl
  · rw [a3, List.map_map]
    refine congrArg Except.ok (Prod.ext rfl (List.map_congr_left fun b _ => ?_))
    simp only [Function.comp, Option.some.injEq]
    rw [hadd, hadd, ← hnA, ← hnB]
    have h1 : (nA : ℝ) ≠ 0 := by exact_mod_cast hA
    have h2 : (nB : ℝ) ≠ 0 := by exact_mod_cast hB
    have h3 : (nA : ℝ) + nB ≠ 0 := by positivity
    push_cast
    field_simp

/-! ### Concrete cases -/

/-- Bond angles with a stride of two over three frames. -/
example (grid : List ℝ) : baCompute [[3]] 1 2 grid [oneSide, trimer, oneSide] =
    baCompute [[3]] 1 1 grid [oneSide, oneSide] :=
  C184_ba_partial _ _ (by norm_num) grid _ _ fun i => by
    rcases i with _ | _ | i
    · rfl
    · rfl
    · rw [List.getElem?_eq_none (by simp), List.getElem?_eq_none (by simp; omega)]

/-- Two frames, the second in a larger cell. -/
noncomputable def ikGrowing : List (IkFrame 3) := [⟨[![0, 0, 0], ![1, 2, 3]], some [1, 2], 5, exKs⟩,
  ⟨[![0, 0, 0], ![1, 2, 3]], some [1, 2], 10, exKs⟩]

theorem ikGrowing_first (i : ℕ) : ikExample[i]? = ikGrowing[i * 2]? := by
  rcases i with _ | i
  · rfl
  · rw [List.getElem?_eq_none (by simp [ikExample]), List.getElem?_eq_none (by simp [ikGrowing])]

/-- With a stride of two only the first one is used, but its values are divided by 15/2 instead of 5. -/
example : ∃ v x, ikCompute ikExample 1 2 = .ok (v, x) ∧
    ikCompute ikGrowing 2 2 = .ok (v.map (· * (5 / (15 / 2))), x) := by
  have h' := ikCompute_closed ikExample 1 2 ikExample_regular
  refine ⟨_, _, h', ?_⟩
  have hs := ik_stride two_pos 2 ikGrowing ikExample ikGrowing_first
  rw [h'] at hs
  obtain ⟨h1, h2⟩ := C184_counterexample_volume two_pos 2 ikGrowing ikExample ikGrowing_first
    (by norm_num [meanVolume, ikExample]) hs h'
  rw [hs]
  refine congrArg Except.ok (Prod.ext ?_ h1)
  refine h2.trans ?_
  have e : meanVolume ikExample / meanVolume ikGrowing = 5 / (15 / 2) := by
    norm_num [meanVolume, ikExample, ikGrowing]
  rw [e]

/-- The hypotheses of C185 hold for two copies of a frame with two neighbours on the same side of a particle. -/
example : ∃ (grid x : List ℝ) (t : List (ℝ × ℝ)) (n : ℕ), n ≠ 0 ∧ baGrid 4 = .ok grid ∧
      baCompute [[3]] 1 1 grid [oneSide] = .ok (x, t.map fun p => some p.1) ∧
      baCompute [[3]] 1 1 grid [oneSide, oneSide] = .ok (x, t.map fun p => some p.2) ∧
      baCompute [[3]] 1 1 grid [oneSide, oneSide, oneSide] =
        .ok (x, t.map fun p => some ((n * p.1 + (n + n : ℕ) * p.2) / (n + (n + n : ℕ)))) := by
  have h45 : ⌊(180 : ℝ) / 4⌋₊ = 45 := by
    have : (180 : ℝ) / 4 = ((45 : ℕ) : ℝ) := by norm_num
    rw [this, Nat.floor_natCast]
  have hpos : Spec.between 0 (⌊(180 : ℝ) / 4⌋₊ * 4) ([oneSide].flatMap (Spec.frameAngles fun _ _ => 3)) ≠ 0 := by
    unfold Spec.between
    rw [h45]
    refine (List.countP_pos_iff.2 ⟨0, ?_, by norm_num⟩).ne'
    rw [List.mem_flatMap]
    exact ⟨oneSide, by simp, oneSide_angles⟩
  have h2 : Spec.between 0 (⌊(180 : ℝ) / 4⌋₊ * 4) ([oneSide, oneSide].flatMap (Spec.frameAngles fun _ _ => 3)) =
      Spec.between 0 (⌊(180 : ℝ) / 4⌋₊ * 4) ([oneSide].flatMap (Spec.frameAngles fun _ _ => 3)) +
      Spec.between 0 (⌊(180 : ℝ) / 4⌋₊ * 4) ([oneSide].flatMap (Spec.frameAngles fun _ _ => 3)) := by
    unfold Spec.between
    rw [← List.countP_append, ← List.flatMap_append]
    rfl
  have hall : ∀ f ∈ [oneSide] ++ [oneSide, oneSide], f = oneSide := by simp
  obtain ⟨grid, x, t, h1, h3, h4, h5⟩ := C185_parts (rcut := [[3]]) (rc := fun _ _ => 3) (nsp := 1) (w := 4)
    (by norm_num) (by norm_num) [oneSide] [oneSide, oneSide] (by
      intro i hi
      obtain rfl : i = 0 := by omega
      exact ⟨[3], rfl, by simp⟩) (fun f hf => by rw [hall f hf]; exact oneSide_valid) (fun f hf i _ => by
      rw [hall f hf]
      exact le_trans List.countP_le_length (by simp [oneSide])) _ _ rfl h2.symm hpos (by omega)
  exact ⟨grid, x, t, _, hpos, h1, h3, h4, h5⟩

end PP.Props
