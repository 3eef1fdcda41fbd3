import Verif.Model.BaAgain
import Verif.Props.BaParts
import Verif.Props.Memory

/-!
# C186: bond-angle distributions can be computed again
-/

namespace PP.Props
open PP

variable {d : ℕ}

theorem baArrays_append (rcut : List (List ℝ)) (nsp skip : ℕ) (grid : List ℝ) (frames rest : List (BaFrame d)) :
    baArrays rcut nsp skip frames.length grid (frames ++ rest) = baCompute rcut nsp skip grid frames := by
  unfold baArrays baCompute
  rcases Nat.eq_zero_or_pos skip with rfl | hs
  · rfl
  simp only [pyRange, if_neg hs.ne', bind, Except.bind]
  have : ∀ dtheta : ℝ, (rangeList 0 frames.length skip).mapM (fun i => do
        let f ← pyGet (frames ++ rest) i
        (List.range f.pos0.length).mapM (baParticle rcut dtheta grid.length f)) =
      (rangeList 0 frames.length skip).mapM (fun i => do
        let f ← pyGet frames i
        (List.range f.pos0.length).mapM (baParticle rcut dtheta grid.length f)) := by
    intro dtheta
    refine mapM_congr_mem fun i hi => ?_
    rw [mem_rangeList hs] at hi
    unfold pyGet
    rw [List.getElem?_append_left (by omega)]
  simp only [bind, Except.bind] at this
  simp only [this]

/-- The distribution for any grid of equally spaced points. -/
theorem ba_uniform {rcut : List (List ℝ)} {rc : ℕ → ℕ → ℝ} {nsp skip : ℕ} (hs : 0 < skip) {w : ℝ} (hw : 0 < w) (x0 : ℝ) {m : ℕ}
    (hm1 : 1 ≤ m) (frames : List (BaFrame d)) (hsp : ∀ i < nsp, ∃ row, rcut[i]? = some row ∧ nsp ≤ row.length)
    (hv : ∀ f ∈ Spec.everyNth skip frames, BaValid rcut rc f)
    (hbuf : ∀ f ∈ Spec.everyNth skip frames, ∀ i < f.pos0.length, Spec.inRange rc f i ≤ 50)
    (hne : ∃ f ∈ Spec.everyNth skip frames, f.pos0 ≠ []) :
    baCompute rcut nsp skip ((List.range (m + 1)).map fun i : ℕ => x0 + (i : ℝ) * w) frames =
      .ok ((List.range m).map (fun b : ℕ => x0 + w / 2 + (b : ℝ) * w), (List.range m).map (fun b : ℕ =>
        if Spec.between 0 (m * w) ((Spec.everyNth skip frames).flatMap (Spec.frameAngles rc)) = 0 then none
        else some ((Spec.between (b * w) ((b + 1) * w) ((Spec.everyNth skip frames).flatMap (Spec.frameAngles rc)) : ℝ) /
          ((Spec.between 0 (m * w) ((Spec.everyNth skip frames).flatMap (Spec.frameAngles rc)) : ℝ) * w)))) := by
  set A := (Spec.everyNth skip frames).flatMap (Spec.frameAngles rc) with hA
  set grid : List ℝ := (List.range (m + 1)).map fun i : ℕ => x0 + (i : ℝ) * w with hgrid
  have hg0 : pyGet grid 0 = .ok x0 := by
    unfold pyGet
    rw [hgrid, List.getElem?_map, List.getElem?_range (by omega)]
    simp
  have hg1 : pyGet grid 1 = .ok (x0 + w) := by
    unfold pyGet
    rw [hgrid, List.getElem?_map, List.getElem?_range (by omega)]
    simp
  have hlen : grid.length = m + 1 := by simp [hgrid]
  rcases baLoops (rcut := rcut) (rc := rc) hs hw (m + 1) frames hv with ⟨_, hists, h1, h2⟩ | ⟨⟨f, hf, i, hi, h⟩, _⟩
  swap
  · have := hbuf f hf i hi; omega
  unfold baCompute pyRange
  rw [if_neg (by omega)]
  have hd : x0 + w - x0 = w := by ring
  simp only [bind, Except.bind, hg0, hg1, baCheckRcut_ok hsp, hd, hlen]
  simp only [bind, Except.bind] at h1
  rw [h1]
  have hP : particleAngles rc (Spec.everyNth skip frames) ≠ [] := by
    obtain ⟨f, hf, hne⟩ := hne
    intro hnil
    unfold particleAngles at hnil
    rw [List.flatMap_eq_nil_iff] at hnil
    have := hnil f hf
    rw [List.map_eq_nil_iff, List.range_eq_nil] at this
    exact hne (List.length_eq_zero_iff.1 this)
  have htot : baTotal (m + 1) hists.flatten = .ok ((List.range m).map fun b : ℕ =>
      Spec.between ((b : ℝ) * w) (((b : ℝ) + 1) * w) A) := by
    unfold baTotal
    rw [h2, if_neg (by simpa using hP)]
    congr 1
    apply List.map_congr_left
    intro b hb
    rw [List.mem_range, Nat.add_sub_cancel] at hb
    rw [List.map_map, hA, ← particleAngles_flatten, ← between_flatten]
    congr 1
    apply List.map_congr_left
    intro l _
    simp only [Function.comp_apply]
    rw [List.getD_eq_getElem?_getD, List.getElem?_map, List.getElem?_range (by omega)]
    rfl
  simp only [htot, pure, Except.pure]
  congr 1
  refine Prod.ext ?_ ?_
  · simp only
    apply List.ext_getElem
    · simp [hgrid]
    · intro i h3 h4
      simp [hgrid]
      ring
  · simp only [List.map_map]
    have hsum := between_sum hw m A
    apply List.map_congr_left
    intro b _
    have hcast : ((List.map (fun b : ℕ => Spec.between ((b : ℝ) * w) (((b : ℝ) + 1) * w) A) (List.range m)).sum : ℝ) =
        (Spec.between 0 ((m : ℝ) * w) A : ℝ) := by
      exact_mod_cast hsum
    simp only [Function.comp_apply]
    unfold npDiv
    simp only
    rw [hcast]
    by_cases h0 : Spec.between 0 ((m : ℝ) * w) A = 0
    · rw [if_pos h0, h0]; simp
    · rw [if_neg h0, if_neg (mul_ne_zero (by exact_mod_cast h0) hw.ne')]

/-- **C186** is false: each call adds half a bin to all the angles of the grid, although the values are still the fractions of the
angles from `b w` to `(b + 1) w`, and one more bin, the last one, is lost and left out of the normalisation. -/
theorem C186_counterexample_shift {rcut : List (List ℝ)} {rc : ℕ → ℕ → ℝ} {nsp skip : ℕ} (hs : 0 < skip) {w : ℝ} (hw : 0 < w)
    (frames : List (BaFrame d)) (hsp : ∀ i < nsp, ∃ row, rcut[i]? = some row ∧ nsp ≤ row.length)
    (hv : ∀ f ∈ Spec.everyNth skip frames, BaValid rcut rc f)
    (hbuf : ∀ f ∈ Spec.everyNth skip frames, ∀ i < f.pos0.length, Spec.inRange rc f i ≤ 50)
    (hne : ∃ f ∈ Spec.everyNth skip frames, f.pos0 ≠ []) :
    ∃ grid, baGrid w = .ok grid ∧ ∀ k < ⌊180 / w⌋₊, baCall rcut nsp skip grid frames k =
      .ok ((List.range (⌊180 / w⌋₊ - k)).map (fun b : ℕ => (b : ℝ) * w + ((k : ℝ) + 1) * (w / 2)),
        (List.range (⌊180 / w⌋₊ - k)).map (fun b : ℕ =>
        if Spec.between 0 ((⌊180 / w⌋₊ - k : ℕ) * w) ((Spec.everyNth skip frames).flatMap (Spec.frameAngles rc)) = 0 then none
        else some ((Spec.between (b * w) ((b + 1) * w) ((Spec.everyNth skip frames).flatMap (Spec.frameAngles rc)) : ℝ) /
          ((Spec.between 0 ((⌊180 / w⌋₊ - k : ℕ) * w) ((Spec.everyNth skip frames).flatMap (Spec.frameAngles rc)) : ℝ) * w)))) := by
  refine ⟨_, baGrid_ok hw, fun k => ?_⟩
  set m := ⌊180 / w⌋₊ with hm
  induction k with
  | zero =>
    intro hk
    have h := ba_uniform (rc := rc) hs hw 0 (m := m) (by omega) frames hsp hv hbuf hne
    have h0 := baArrays_append rcut nsp skip ((List.range (m + 1)).map fun i : ℕ => (0 : ℝ) + (i : ℝ) * w) frames []
    rw [List.append_nil, h] at h0
    unfold baCall
    simp only [zero_add] at h0
    rw [h0]
    refine congrArg Except.ok (Prod.ext (List.map_congr_left fun b _ => ?_) rfl)
    simp
    ring
  | succ k ih =>
    intro hk
    have ih := ih (by omega)
    unfold baCall
    rw [ih]
    simp only [bind, Except.bind]
    have h := ba_uniform (rc := rc) hs hw (((k : ℝ) + 1) * (w / 2)) (m := m - (k + 1)) (by omega) frames hsp hv hbuf hne
    have e : m - k = m - (k + 1) + 1 := by omega
    have eg : (List.range (m - k)).map (fun b : ℕ => (b : ℝ) * w + ((k : ℝ) + 1) * (w / 2)) =
        (List.range (m - (k + 1) + 1)).map fun i : ℕ => ((k : ℝ) + 1) * (w / 2) + (i : ℝ) * w := by
      rw [e]
      exact List.map_congr_left fun b _ => by ring
    have hr : (List.replicate (k + 2) frames).flatten = frames ++ (List.replicate (k + 1) frames).flatten := by
      rw [List.replicate_succ, List.flatten_cons]
    rw [hr, baArrays_append, eg, h]
    refine congrArg Except.ok (Prod.ext (List.map_congr_left fun b _ => ?_) rfl)
    push_cast
    ring

/-- **C186** is false: after as many calls as bins, `compute` raises `IndexError`. -/
theorem C186_counterexample_exhausted {rcut : List (List ℝ)} {rc : ℕ → ℕ → ℝ} {nsp skip : ℕ} (hs : 0 < skip) {w : ℝ} (hw : 0 < w)
    (hw180 : w ≤ 180) (frames : List (BaFrame d)) (hsp : ∀ i < nsp, ∃ row, rcut[i]? = some row ∧ nsp ≤ row.length)
    (hv : ∀ f ∈ Spec.everyNth skip frames, BaValid rcut rc f)
    (hbuf : ∀ f ∈ Spec.everyNth skip frames, ∀ i < f.pos0.length, Spec.inRange rc f i ≤ 50)
    (hne : ∃ f ∈ Spec.everyNth skip frames, f.pos0 ≠ []) :
    ∃ grid, baGrid w = .ok grid ∧ ∀ k ≥ ⌊180 / w⌋₊, baCall rcut nsp skip grid frames k = .error .indexError := by
  obtain ⟨grid, h1, h2⟩ := C186_counterexample_shift (rc := rc) hs hw frames hsp hv hbuf hne
  have hm1 : 1 ≤ ⌊180 / w⌋₊ := by
    rw [Nat.one_le_floor_iff, le_div_iff₀ hw]
    linarith
  refine ⟨grid, h1, fun k hk => ?_⟩
  induction k, hk using Nat.le_induction with
  | base =>
    obtain ⟨k, hk⟩ : ∃ k, ⌊180 / w⌋₊ = k + 1 := ⟨⌊180 / w⌋₊ - 1, by omega⟩
    rw [hk]
    unfold baCall
    rw [h2 k (by omega), hk]
    simp only [bind, Except.bind, Nat.add_sub_cancel_left]
    unfold baArrays
    simp only [pyRange, if_neg hs.ne', bind, Except.bind]
    rfl
  | succ k hk ih =>
    unfold baCall
    rw [ih]
    rfl

/-- The hypotheses hold for two neighbours on the same side of a particle: the second call gives 44 points from 4 to 176
degrees in place of 45 points from 2 to 178. -/
example : ∃ grid, baGrid 4 = .ok grid ∧
    (baCall [[3]] 1 1 grid [oneSide] 0).map (fun r => r.1) = .ok ((List.range 45).map fun b : ℕ => (b : ℝ) * 4 + 2) ∧
    (baCall [[3]] 1 1 grid [oneSide] 1).map (fun r => r.1) = .ok ((List.range 44).map fun b : ℕ => (b : ℝ) * 4 + 4) ∧
    baCall [[3]] 1 1 grid [oneSide] 45 = .error .indexError := by
  have h45 : ⌊(180 : ℝ) / 4⌋₊ = 45 := by
    have : (180 : ℝ) / 4 = ((45 : ℕ) : ℝ) := by norm_num
    rw [this, Nat.floor_natCast]
  have hsp : ∀ i < 1, ∃ row, ([[3]] : List (List ℝ))[i]? = some row ∧ 1 ≤ row.length := by
    intro i hi
    obtain rfl : i = 0 := by omega
    exact ⟨[3], rfl, by simp⟩
  have hv : ∀ f ∈ Spec.everyNth 1 [oneSide], BaValid [[3]] (fun _ _ => 3) f := by
    rw [everyNth_one]; intro f hf; rw [List.mem_singleton] at hf; rw [hf]; exact oneSide_valid
  have hbuf : ∀ f ∈ Spec.everyNth 1 [oneSide], ∀ i < f.pos0.length, Spec.inRange (fun _ _ => 3) f i ≤ 50 := by
    rw [everyNth_one]; intro f hf i _; rw [List.mem_singleton] at hf; rw [hf]
    exact le_trans List.countP_le_length (by simp [oneSide])
  have hne : ∃ f ∈ Spec.everyNth 1 [oneSide], f.pos0 ≠ [] := by
    rw [everyNth_one]; exact ⟨oneSide, by simp, by simp [oneSide]⟩
  obtain ⟨grid, h1, h2⟩ := C186_counterexample_shift one_pos (w := 4) (by norm_num) [oneSide] hsp hv hbuf hne
  obtain ⟨grid', h3, h4⟩ := C186_counterexample_exhausted one_pos (w := 4) (by norm_num) (by norm_num) [oneSide] hsp hv hbuf hne
  rw [h1] at h3
  cases h3
  rw [h45] at h2 h4
  refine ⟨grid, h1, ?_, ?_, h4 45 (le_refl _)⟩
  · rw [h2 0 (by norm_num)]
    refine congrArg Except.ok (List.map_congr_left fun b _ => ?_)
    norm_num
  · rw [h2 1 (by norm_num)]
    refine congrArg Except.ok (List.map_congr_left fun b _ => ?_)
    norm_num

end PP.Props
