import Verif.Props.BaPartial
import Mathlib.Algebra.Order.Floor.Semifield

/-!
# C193: bond-angle distribution with a spacing twice as large
-/

namespace PP.Props
open PP

variable {d : ℕ}

theorem between_merge {w : ℝ} (hw : 0 < w) (b : ℕ) (l : List ℝ) :
    Spec.between ((b : ℝ) * (2 * w)) (((b : ℝ) + 1) * (2 * w)) l =
      Spec.between (((2 * b : ℕ) : ℝ) * w) ((((2 * b : ℕ) : ℝ) + 1) * w) l +
      Spec.between (((2 * b + 1 : ℕ) : ℝ) * w) ((((2 * b + 1 : ℕ) : ℝ) + 1) * w) l := by
  unfold Spec.between
  induction l with
  | nil => simp
  | cons t l ih =>
    rw [List.countP_cons, List.countP_cons, List.countP_cons, ih]
    have key : ∀ {A B C : Prop} [Decidable A] [Decidable B] [Decidable C], (A ↔ B ∨ C) → ¬ (B ∧ C) →
        (if A then 1 else 0 : ℕ) = (if B then 1 else 0) + (if C then 1 else 0) := by
      intro A B C _ _ _ h h'
      by_cases hB : B <;> by_cases hC : C <;> simp_all
    have := key (A := (b : ℝ) * (2 * w) ≤ t ∧ t < ((b : ℝ) + 1) * (2 * w))
      (B := ((2 * b : ℕ) : ℝ) * w ≤ t ∧ t < (((2 * b : ℕ) : ℝ) + 1) * w)
      (C := ((2 * b + 1 : ℕ) : ℝ) * w ≤ t ∧ t < (((2 * b + 1 : ℕ) : ℝ) + 1) * w) (by
        push_cast
        constructor
        · rintro ⟨h1, h2⟩
          by_cases h : t < (2 * (b : ℝ) + 1) * w
          · exact Or.inl ⟨by linarith, h⟩
          · exact Or.inr ⟨not_lt.1 h, by linarith⟩
        · rintro (⟨h1, h2⟩ | ⟨h1, h2⟩)
          · exact ⟨by linarith, by linarith⟩
          · exact ⟨by linarith, by linarith⟩) (by
        push_cast
        rintro ⟨⟨h1, h2⟩, h3, h4⟩
        linarith)
    simp only [decide_eq_true_eq]
    omega

/-- **C193**: with a spacing twice as large each value is the mean of the two of the same interval, up to a factor that is
the same for all the angles, not smaller than 1, and equal to 1 if the number of intervals is even. -/
theorem C193_spacing {rcut : List (List ℝ)} {rc : ℕ → ℕ → ℝ} {nsp skip : ℕ} (hs : 0 < skip) {w : ℝ} (hw : 0 < w)
    (hw90 : w ≤ 90) (frames : List (BaFrame d)) (hsp : ∀ i < nsp, ∃ row, rcut[i]? = some row ∧ nsp ≤ row.length)
    (hv : ∀ f ∈ Spec.everyNth skip frames, BaValid rcut rc f)
    (hbuf : ∀ f ∈ Spec.everyNth skip frames, ∀ i < f.pos0.length, Spec.inRange rc f i ≤ 50)
    (t : ℝ) (ht : t ∈ (Spec.everyNth skip frames).flatMap (Spec.frameAngles rc))
    (htw : t < ⌊180 / (2 * w)⌋₊ * (2 * w)) :
    ∃ grid grid' x x', ∃ v v' : List ℝ, ∃ q : ℝ, baGrid w = .ok grid ∧ baGrid (2 * w) = .ok grid' ∧
      baCompute rcut nsp skip grid frames = .ok (x, v.map some) ∧
      baCompute rcut nsp skip grid' frames = .ok (x', v'.map some) ∧
      v.length = ⌊180 / w⌋₊ ∧ v'.length = ⌊180 / w⌋₊ / 2 ∧ 1 ≤ q ∧ (Even ⌊180 / w⌋₊ → q = 1) ∧
      ∀ b < v'.length, v'.getD b 0 = q * ((v.getD (2 * b) 0 + v.getD (2 * b + 1) 0) / 2) := by
  have hne : ∃ f ∈ Spec.everyNth skip frames, f.pos0 ≠ [] := by
    rw [List.mem_flatMap] at ht
    obtain ⟨f, hf, h⟩ := ht
    refine ⟨f, hf, fun h0 => ?_⟩
    unfold Spec.frameAngles at h
    rw [h0] at h
    simp at h
  obtain ⟨grid, r, h1, h2, h3, h4⟩ := C70_values (rc := rc) hs hw (by linarith) frames hsp hv hbuf hne
  obtain ⟨grid', r', g1, g2, g3, g4⟩ := C70_values (rc := rc) hs (by linarith : 0 < 2 * w) (by linarith) frames hsp hv hbuf hne
  set m := ⌊180 / w⌋₊ with hm
  have hm' : ⌊180 / (2 * w)⌋₊ = m / 2 := by
    rw [hm, ← Nat.floor_div_natCast]
    congr 1
    push_cast
    field_simp
  rw [hm'] at g3 g4 htw
  set A := (Spec.everyNth skip frames).flatMap (Spec.frameAngles rc) with hA
  set N := Spec.between 0 ((m : ℝ) * w) A with hN
  set N' := Spec.between 0 (((m / 2 : ℕ) : ℝ) * (2 * w)) A with hN'
  have hle : ((m / 2 : ℕ) : ℝ) * (2 * w) ≤ (m : ℝ) * w := by
    have : 2 * (m / 2) ≤ m := by omega
    have : (2 : ℝ) * ((m / 2 : ℕ) : ℝ) ≤ m := by exact_mod_cast this
    nlinarith
  have ht0 : 0 ≤ t := by
    rw [List.mem_flatMap] at ht
    obtain ⟨f, _, h⟩ := ht
    unfold Spec.frameAngles Spec.bondAngles at h
    simp only [List.mem_flatMap, List.mem_map] at h
    obtain ⟨_, _, _, _, _, _, rfl⟩ := h
    exact degrees_nonneg _ _
  have hN'pos : 0 < N' := by
    rw [hN']
    unfold Spec.between
    rw [List.countP_pos_iff]
    exact ⟨t, ht, by simpa using ⟨ht0, htw⟩⟩
  have hNN : N' ≤ N := by
    rw [hN, hN']
    unfold Spec.between
    apply List.countP_mono_left
    intro s _ h
    simp only [decide_eq_true_eq] at h ⊢
    exact ⟨h.1, lt_of_lt_of_le h.2 hle⟩
  have hNpos : 0 < N := by omega
  have c1 : (0 : ℝ) < N := by exact_mod_cast hNpos
  have c2 : (0 : ℝ) < N' := by exact_mod_cast hN'pos
  simp only [if_neg hNpos.ne'] at h4
  simp only [if_neg hN'pos.ne'] at g4
  refine ⟨grid, grid', r.1, r'.1,
    (List.range m).map fun b : ℕ => (Spec.between ((b : ℝ) * w) (((b : ℝ) + 1) * w) A : ℝ) / ((N : ℝ) * w),
    (List.range (m / 2)).map fun b : ℕ =>
      (Spec.between ((b : ℝ) * (2 * w)) (((b : ℝ) + 1) * (2 * w)) A : ℝ) / ((N' : ℝ) * (2 * w)),
    (N : ℝ) / N', h1, g1, ?_, ?_, by simp, by simp, ?_, ?_, ?_⟩
  · rw [h2, List.map_map]
    congr 1
    exact Prod.ext rfl (by rw [h4]; rfl)
  · rw [g2, List.map_map]
    congr 1
    exact Prod.ext rfl (by rw [g4]; rfl)
  · rw [one_le_div c2]
    exact_mod_cast hNN
  · intro he
    have : 2 * (m / 2) = m := Nat.two_mul_div_two_of_even he
    have e : ((m / 2 : ℕ) : ℝ) * (2 * w) = (m : ℝ) * w := by
      have : (2 : ℝ) * ((m / 2 : ℕ) : ℝ) = m := by exact_mod_cast this
      rw [← this]; ring
    rw [hN, hN', e, div_self]
    rw [hN] at c1
    exact c1.ne'
  · intro b hb
    rw [List.length_map, List.length_range] at hb
    have hget : ∀ (F : ℕ → ℝ) (k i : ℕ), i < k → ((List.range k).map F).getD i 0 = F i := by
      intro F k i hi
      rw [List.getD_eq_getElem?_getD, List.getElem?_map, List.getElem?_range hi]
      rfl
    rw [hget _ _ _ hb, hget _ _ _ (by omega), hget _ _ _ (by omega), between_merge hw]
    push_cast
    field_simp

theorem mixed_angle {rc : ℕ → ℕ → ℝ} {f : BaFrame d} {t : ℝ} (h : t ∈ Spec.frameMixed rc f) : t ∈ Spec.frameAngles rc f := by
  unfold Spec.frameMixed Spec.mixedAngles at h
  unfold Spec.frameAngles Spec.bondAngles
  simp only [List.mem_flatMap, List.mem_map, List.mem_filter, decide_eq_true_eq] at h ⊢
  obtain ⟨i, hi, j, hj, k, ⟨hk, hne⟩, he⟩ := h
  exact ⟨i, hi, j, hj, k, ⟨hk, fun hkj => hne (by rw [hkj])⟩, he⟩

/-- Three particles on a line, spacings of 5 and 10 degrees. -/
example : ∃ grid grid' x x', ∃ v v' : List ℝ, ∃ q : ℝ, baGrid 5 = .ok grid ∧ baGrid (2 * 5) = .ok grid' ∧
    baCompute [[3, 3], [3, 3]] 2 1 grid [threeLine] = .ok (x, v.map some) ∧
    baCompute [[3, 3], [3, 3]] 2 1 grid' [threeLine] = .ok (x', v'.map some) ∧
    v.length = ⌊(180 : ℝ) / 5⌋₊ ∧ v'.length = ⌊(180 : ℝ) / 5⌋₊ / 2 ∧ 1 ≤ q ∧ (Even ⌊(180 : ℝ) / 5⌋₊ → q = 1) ∧
    ∀ b < v'.length, v'.getD b 0 = q * ((v.getD (2 * b) 0 + v.getD (2 * b + 1) 0) / 2) := by
  have h18 : ⌊(180 : ℝ) / (2 * 5)⌋₊ = 18 := by
    have : (180 : ℝ) / (2 * 5) = ((18 : ℕ) : ℝ) := by norm_num
    rw [this, Nat.floor_natCast]
  have hev : ∀ f ∈ Spec.everyNth 1 [threeLine], f = threeLine := by rw [everyNth_one]; simp
  exact C193_spacing (rcut := [[3, 3], [3, 3]]) (rc := fun _ _ => 3) one_pos (by norm_num) (by norm_num) [threeLine] (by
      intro i hi
      exact ⟨[3, 3], by rcases (show i = 0 ∨ i = 1 by omega) with rfl | rfl <;> rfl, by simp⟩)
    (fun f hf => by rw [hev f hf]; exact threeLine_valid)
    (fun f hf i _ => by rw [hev f hf]; exact le_trans List.countP_le_length (by simp [threeLine]))
    0 (by rw [everyNth_one, List.mem_flatMap]; exact ⟨threeLine, by simp, mixed_angle threeLine_mixed⟩)
    (by rw [h18]; norm_num)

end PP.Props
