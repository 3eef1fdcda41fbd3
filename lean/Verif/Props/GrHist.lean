import Verif.Lemmas.Pairs
import Mathlib.Tactic.FieldSimp
import Mathlib.Tactic.Linarith
import Mathlib.Tactic.Ring
import Mathlib.Tactic.NormNum
import Mathlib.Tactic.Positivity

/-!
# C34-C36, C40, C41: pair histograms and minimum images
-/

set_option linter.unusedSectionVars false

namespace PP.Props
open PP Classical

section
variable {K : Type} [Field K] [LinearOrder K] [FloorRing K] {V : Type}

theorem countP_inBin (edges : List K) (j : ℕ) (l : List V) (f : V → K) :
    (l.map f).countP (inBin edges j) = l.countP fun v => decide (Spec.InBin edges j (f v)) := by
  rw [List.countP_map]
  congr 1
  funext v
  rw [Bool.eq_iff_iff]
  simp [inBin_iff]

/-! ## C34 -/

/-- **C34**, one group: for any pair function `dist`, any non-decreasing edges and any batch size, the
histogram counts in each bin all the pairs `i < j`, once. -/
theorem C34_newton_any_batch (dist : V → V → K) (x : List V) (edges : List K) (bl : ℕ) (hbl : 0 < bl)
    (he : edges.Pairwise (· ≤ ·)) :
    pairsNewtonHistB (fun xs y => xs.map fun u => dist u y) x x edges bl
      = .ok ((List.range (edges.length - 1)).map fun j =>
          Spec.selfPairs (fun u v => Spec.InBin edges j (dist v u)) x) := by
  unfold pairsNewtonHistB
  rw [histogram_ok he]
  have hr : pyRange 0 (x.length - 1) bl = .ok (rangeList 0 (x.length - 1) bl) := by
    unfold pyRange; rw [if_neg hbl.ne']
  set vals1 : ℕ → List K := fun i =>
    match x[i]? with
    | some a => (x.drop (i + 1)).map fun u => dist u a
    | none => [] with hvals1
  have hbody : ∀ ib ∈ rangeList 0 (x.length - 1) bl,
      (do
        let parts ← (rangeList ib (min (ib + bl) (x.length - 1)) 1).mapM fun i => do
          let yi ← pyGet x i
          return (x.drop (i + 1)).map fun u => dist u yi
        return parts.flatten)
      = (.ok ((rangeList ib (min (ib + bl) (x.length - 1)) 1).flatMap vals1) : Py (List K)) := by
    intro ib _
    have : ∀ l : List ℕ, (∀ i ∈ l, i < x.length) →
        (l.mapM fun i => do
          let yi ← pyGet x i
          return (x.drop (i + 1)).map fun u => dist u yi) = (.ok (l.map vals1) : Py (List (List K))) := by
      intro l
      induction l with
      | nil => intro _; rfl
      | cons i l ih =>
        intro hl
        have hi := hl i (by simp)
        rw [List.mapM_cons, ih (fun j hj => hl j (by simp [hj]))]
        have h1 : pyGet x i = .ok x[i] := by unfold pyGet; rw [List.getElem?_eq_getElem hi]
        have h2 : vals1 i = (x.drop (i + 1)).map fun u => dist u x[i] := by
          simp only [hvals1, List.getElem?_eq_getElem hi]
        rw [h1, List.map_cons, h2]
        rfl
    rw [this _ (fun i hi => by rw [mem_rangeList (by omega)] at hi; omega)]
    simp only [bind, Except.bind, pure, Except.pure, List.flatMap_def]
  have hf := hist_fold edges he (rangeList 0 (x.length - 1) bl) _ _ hbody []
  simp only [bind_assoc, pure_bind] at hf
  rw [hr]
  simp only [bind, Except.bind] at hf ⊢
  rw [hf]
  congr 1
  apply List.map_congr_left
  intro j _
  rw [List.nil_append, ← List.flatMap_assoc, batches_cover hbl, selfPairs_eq_sum]
  rw [List.countP_flatMap]
  -- the last particle has no partner
  have hlast : ∀ m, ((List.range m).map fun i => match x[i]? with
      | some a => (x.drop (i + 1)).countP fun v => decide (Spec.InBin edges j (dist v a))
      | none => 0) = (List.range m).map (List.countP (inBin edges j) ∘ vals1) := by
    intro m
    apply List.map_congr_left
    intro i _
    simp only [Function.comp_apply, hvals1]
    cases x[i]? with
    | none => rfl
    | some a => simp only; rw [countP_inBin]
  refine Eq.trans ?_ (congrArg List.sum (hlast x.length).symm)
  rcases Nat.eq_zero_or_pos x.length with h | h
  · rw [h]
  · obtain ⟨m, hm⟩ : ∃ m, x.length = m + 1 := ⟨x.length - 1, by omega⟩
    rw [hm, Nat.add_sub_cancel, List.range_succ, List.map_append, List.sum_append, List.map_cons,
      List.map_nil, List.sum_singleton]
    have : (List.countP (inBin edges j) ∘ vals1) m = 0 := by
      simp only [Function.comp_apply, hvals1]
      rw [List.drop_eq_nil_of_le (by omega)]
      cases x[m]? <;> rfl
    rw [this, Nat.add_zero]

/-- **C34**, one group, with the batch size chosen by the code. -/
theorem C34_newton (dist : V → V → K) (x : List V) (edges : List K) (hx : x ≠ [])
    (he : edges.Pairwise (· ≤ ·)) :
    pairsNewtonHist (fun xs y => xs.map fun u => dist u y) x x edges
      = .ok ((List.range (edges.length - 1)).map fun j =>
          Spec.selfPairs (fun u v => Spec.InBin edges j (dist v u)) x) := by
  have hl : x.length ≠ 0 := by simpa using hx
  unfold pairsNewtonHist batchSize
  rw [histogram_ok he, if_neg hl]
  exact C34_newton_any_batch dist x edges _ (by omega) he

/-- **C34**, two groups: all pairs (particle of `x`, particle of `y`), once. -/
theorem C34_two_groups (dist : V → V → K) (x y : List V) (edges : List K)
    (he : edges.Pairwise (· ≤ ·)) :
    pairsHist (fun xs y => xs.map fun u => dist u y) x y edges
      = .ok ((List.range (edges.length - 1)).map fun j =>
          Spec.crossPairs (fun u v => Spec.InBin edges j (dist u v)) x y) := by
  unfold pairsHist
  rw [histogram_ok he]
  set vals1 : ℕ → List K := fun i =>
    match y[i]? with
    | some a => x.map fun u => dist u a
    | none => [] with hvals1
  have hbody : ∀ i ∈ List.range y.length,
      (do
        let yi ← pyGet y i
        return (x.map fun u => dist u yi)) = (.ok (vals1 i) : Py (List K)) := by
    intro i hi
    rw [List.mem_range] at hi
    have h1 : pyGet y i = .ok y[i] := by unfold pyGet; rw [List.getElem?_eq_getElem hi]
    rw [h1]
    simp only [hvals1, List.getElem?_eq_getElem hi]
    rfl
  have hf := hist_fold edges he (List.range y.length) _ _ hbody []
  simp only [bind_assoc, pure_bind] at hf
  simp only [bind, Except.bind] at hf ⊢
  rw [hf]
  congr 1
  apply List.map_congr_left
  intro j _
  rw [List.nil_append, List.countP_flatMap, ← crossPairs_swap, crossPairs_eq_sum]
  congr 1
  apply List.ext_getElem
  · simp
  · intro i h1 h2
    have hi : i < y.length := by simpa using h1
    simp only [List.getElem_map, List.getElem_range, Function.comp_apply, hvals1,
      List.getElem?_eq_getElem hi]
    rw [countP_inBin]

/-- Five points on a line, batches of two, distances up to 2. -/
example :
    pairsNewtonHistB (K := ℚ) (fun xs (y : ℚ) => xs.map fun u => |u - y|) [0, 1, 3, 4, 6] [0, 1, 3, 4, 6]
      [0, 1 / 2, 3 / 2, 2] 2 = .ok [0, 2, 2] ∧
    pairsHist (K := ℚ) (fun xs (y : ℚ) => xs.map fun u => |u - y|) [0, 1] [3, 4, 6]
      [0, 1 / 2, 3 / 2, 2] = .ok [0, 0, 1] ∧
    ([0, 1 / 2, 3 / 2, 2] : List ℚ).Pairwise (· ≤ ·) := by
  refine ⟨by decide +kernel, by decide +kernel, by decide +kernel⟩

end

/-! ## C35 -/

section
variable {K : Type} [Field K] [LinearOrder K] [IsStrictOrderedRing K] [FloorRing K] {d : ℕ}

theorem abs_sub_pyRound (x : K) : |x - (pyRound x : K)| ≤ 1 / 2 := by
  unfold pyRound
  have h1 := Int.floor_le x
  have h2 := Int.lt_floor_add_one x
  simp only
  rw [abs_le]
  split_ifs with a b c <;> push_cast <;> constructor <;> linarith

/-- Two images of the same number within half a period have the same square. -/
theorem image_sq {L a b : K} (k : ℤ) (ha : |a| ≤ L / 2) (hb : |b| ≤ L / 2) (h : a - b = k * L) :
    a ^ 2 = b ^ 2 := by
  rw [abs_le] at ha hb
  rcases lt_trichotomy k 0 with hk | hk | hk
  · have : (k : K) ≤ -1 := by exact_mod_cast (by omega : k ≤ -1)
    have hL : 0 ≤ L := by linarith
    have : a - b ≤ -L := by rw [h]; nlinarith
    have e1 : a = -(L / 2) := by linarith
    have e2 : b = L / 2 := by linarith
    rw [e1, e2]; ring
  · subst hk
    have : a = b := by simpa [sub_eq_zero] using h
    rw [this]
  · have : (1 : K) ≤ k := by exact_mod_cast (by omega : 1 ≤ k)
    have hL : 0 ≤ L := by linarith
    have : L ≤ a - b := by rw [h]; nlinarith
    have e1 : a = L / 2 := by linarith
    have e2 : b = -(L / 2) := by linarith
    rw [e1, e2]; ring

theorem minImage_abs {L r : Vec d K} {c : Fin d} (hL : 0 < L c) : |minImage L r c| ≤ L c / 2 := by
  unfold minImage
  have h := abs_sub_pyRound (r c / L c)
  have e : r c - (pyRound (r c / L c) : K) * L c = (r c / L c - (pyRound (r c / L c) : K)) * L c := by
    field_simp
  rw [e, abs_mul, abs_of_pos hL]
  calc _ ≤ 1 / 2 * L c := mul_le_mul_of_nonneg_right h hL.le
    _ = _ := by ring

/-- **C35**, python: the folded separation is an image of the raw one, has components at most `L/2` in
magnitude, and no image is shorter. -/
theorem C35_minimum_image (L r : Vec d K) (hL : ∀ c, 0 < L c) :
    (∃ m : Fin d → ℤ, ∀ c, minImage L r c = r c + m c * L c) ∧
    (∀ c, |minImage L r c| ≤ L c / 2) ∧
    ∀ m : Fin d → ℤ, ∑ c, minImage L r c ^ 2 ≤ ∑ c, (r c + m c * L c) ^ 2 := by
  refine ⟨⟨fun c => -pyRound (r c / L c), fun c => ?_⟩, fun c => minImage_abs (hL c), ?_⟩
  · unfold minImage; push_cast; ring
  · intro m
    apply Finset.sum_le_sum
    intro c _
    have h := minImage_abs (r := r) (hL c)
    set f := minImage L r c with hf
    have e : r c + m c * L c = f + ((m c + pyRound (r c / L c) : ℤ) : K) * L c := by
      rw [hf]; unfold minImage; push_cast; ring
    rw [e]
    generalize m c + pyRound (r c / L c) = k
    have hLc := hL c
    rw [abs_le] at h
    apply sq_le_sq.2
    rcases lt_trichotomy k 0 with hk | hk | hk
    · have h1 : (k : K) ≤ -1 := by exact_mod_cast (by omega : k ≤ -1)
      have h2 : (k : K) * L c ≤ -L c := by nlinarith
      have h3 : f + k * L c ≤ -(L c / 2) := by linarith
      rw [abs_of_nonpos (a := f + k * L c) (by linarith)]
      rw [abs_le]; constructor <;> linarith
    · subst hk; simp
    · have h1 : (1 : K) ≤ k := by exact_mod_cast (by omega : 1 ≤ k)
      have h2 : L c ≤ (k : K) * L c := by nlinarith
      rw [abs_of_nonneg (a := f + k * L c) (by linarith)]
      rw [abs_le]; constructor <;> linarith

theorem fpbc_abs {L r : K} (hL : 0 < L) (hr : |r| ≤ 3 / 2 * L) : |fpbc L r| ≤ L / 2 := by
  unfold fpbc fsign
  rw [abs_of_pos hL]
  split_ifs with h1 h2
  · rw [abs_of_nonneg h2] at h1 hr
    rw [abs_le]; constructor <;> linarith
  · have h2' : r < 0 := lt_of_not_ge h2
    rw [abs_of_neg h2'] at h1 hr
    rw [abs_le]; constructor <;> linarith
  · exact le_of_not_gt h1

theorem fpbc_image {L r : K} (hL : 0 < L) : ∃ k : ℤ, fpbc L r = r + k * L := by
  unfold fpbc fsign
  rw [abs_of_pos hL]
  split_ifs
  · exact ⟨-1, by push_cast; ring⟩
  · exact ⟨1, by push_cast; ring⟩
  · exact ⟨0, by simp⟩

/-- **C35**: `gr_kernel_square` gives the squares of the distances of `gr_kernel`: those of the closest images. -/
theorem C35_square (sq : K → K) (hsq : ∀ x, 0 ≤ x → sq x ^ 2 = x) (L : Vec d K) (hL : ∀ c, 0 < L c)
    (x : List (Vec d K)) (y : Vec d K) :
    (grKernel sq L x y).map (fun r => r ^ 2) = grKernelSquare L x y ∧
    ∀ (i : ℕ) (u : Vec d K), x[i]? = some u → ∃ s, (grKernelSquare L x y)[i]? = some s ∧
      (∃ m : Fin d → ℤ, s = ∑ c, (u c - y c + m c * L c) ^ 2) ∧ ∀ m : Fin d → ℤ, s ≤ ∑ c, (u c - y c + m c * L c) ^ 2 := by
  refine ⟨?_, fun i u hu => ?_⟩
  · unfold grKernel grKernelSquare
    rw [List.map_map]
    exact List.map_congr_left fun u _ => hsq _ (Finset.sum_nonneg fun c _ => sq_nonneg _)
  · obtain ⟨⟨m, h1⟩, -, h3⟩ := C35_minimum_image L (fun c => u c - y c) hL
    refine ⟨∑ c, minImage L (fun c => u c - y c) c ^ 2, ?_, ⟨m, ?_⟩, h3⟩
    · unfold grKernelSquare
      rw [List.getElem?_map, hu]
      rfl
    · exact Finset.sum_congr rfl fun c _ => by rw [h1 c]

example : grKernelSquare (![10, 10] : Vec 2 ℚ) [![4, 0], ![0, 3]] ![-4, 0] = [4, 25] := by decide +kernel

/-- **C35**, Fortran: one component of the fold gives the same square as the python one exactly when the raw
separation is at most `3L/2`. -/
theorem C35_fortran_fold (L r : Vec d K) (c : Fin d) (hL : 0 < L c) :
    fpbc (L c) (r c) ^ 2 = minImage L r c ^ 2 ↔ |r c| ≤ 3 / 2 * L c := by
  constructor
  · intro h
    by_contra hr
    push Not at hr
    have h1 : L c / 2 < |fpbc (L c) (r c)| := by
      unfold fpbc fsign
      rw [abs_of_pos hL, if_pos (by linarith)]
      split_ifs with h2
      · rw [abs_of_nonneg h2] at hr
        rw [abs_of_nonneg (by linarith)]; linarith
      · have h2' : r c < 0 := lt_of_not_ge h2
        rw [abs_of_neg h2'] at hr
        rw [abs_of_neg (by linarith)]; linarith
    have h2 := minImage_abs (r := r) hL
    rw [sq_eq_sq_iff_abs_eq_abs] at h
    rw [h] at h1
    exact absurd h1 (not_lt.2 h2)
  · intro hr
    obtain ⟨k, hk⟩ := fpbc_image (r := r c) hL
    apply image_sq (k + pyRound (r c / L c)) (fpbc_abs hL hr) (minImage_abs hL)
    rw [hk]; unfold minImage; push_cast; ring

/-- **C35**, both backends compute the same distance for particles inside the cell. -/
theorem C35_backends_agree (sq : K → K) (L x y : Vec d K) (hL : ∀ c, 0 < L c)
    (hx : ∀ c, |x c| ≤ L c / 2) (hy : ∀ c, |y c| ≤ L c / 2) : fDist sq L x y = grDist sq L x y := by
  unfold fDist grDist
  congr 1
  apply Finset.sum_congr rfl
  intro c _
  refine (C35_fortran_fold L (fun c => x c - y c) c (hL c)).2 ?_
  have h1 := hx c
  have h2 := hy c
  rw [abs_le] at *
  have := hL c
  constructor <;> linarith

/-- Cell of sides 10 and 8, a pair across the boundaries. -/
example : minImage (K := ℚ) ![10, 8] ![9, -5] = ![-1, 3] ∧
    (fun c => fpbc ((![10, 8] : Vec 2 ℚ) c) ((![9, -5] : Vec 2 ℚ) c)) = ![-1, 3] ∧
    fpbc (10 : ℚ) 21 = 11 := by
  refine ⟨by decide +kernel, by decide +kernel, by decide +kernel⟩

/-! ## C40, C41 -/

theorem grDist_comm (sq : K → K) (L x y : Vec d K) (hL : ∀ c, 0 < L c) :
    grDist sq L x y = grDist sq L y x := by
  unfold grDist
  congr 1
  apply Finset.sum_congr rfl
  intro c _
  rw [← neg_sq (minImage L (fun c => y c - x c) c)]
  apply image_sq (-(pyRound ((x c - y c) / L c)) - pyRound ((y c - x c) / L c)) (minImage_abs (hL c))
    (by rw [abs_neg]; exact minImage_abs (hL c))
  unfold minImage; push_cast; ring

theorem fDist_comm (sq : K → K) (L x y : Vec d K) : fDist sq L x y = fDist sq L y x := by
  unfold fDist
  congr 1
  apply Finset.sum_congr rfl
  intro c _
  have : y c - x c = -(x c - y c) := by ring
  rw [this]
  generalize x c - y c = r
  unfold fpbc fsign
  rw [abs_neg]
  rcases lt_trichotomy r 0 with h | h | h
  · have h' : 0 ≤ -r := by linarith
    simp only [not_le.2 h, h', if_false, if_true]
    split_ifs <;> ring
  · subst h; simp
  · have h' : ¬ 0 ≤ -r := by linarith
    simp only [h.le, h', if_false, if_true]
    split_ifs <;> ring

/-- **C41.** The one-group histogram of the g(r) kernel is unchanged by a permutation of the particles, a
common translation and a refolding of each particle by multiples of the cell sides, all at once. -/
theorem C41_invariance (sq : K → K) (L t : Vec d K) (x : List (Vec d K)) (x' : List (Vec d K))
    (m : Vec d K → Fin d → ℤ) (edges : List K) (hL : ∀ c, 0 < L c) (hx : x ≠ [])
    (he : edges.Pairwise (· ≤ ·))
    (hx' : x'.Perm (x.map fun u c => u c + t c + m u c * L c)) :
    pairsNewtonHist (grKernel sq L) x' x' edges = pairsNewtonHist (grKernel sq L) x x edges := by
  have hne : x' ≠ [] := by
    rintro rfl
    have := hx'.length_eq
    rw [List.length_map, List.length_nil] at this
    exact hx (List.length_eq_zero_iff.1 this.symm)
  have e : grKernel sq L = fun xs y => xs.map fun u => grDist sq L u y := rfl
  rw [e, C34_newton _ _ _ hx he, C34_newton _ _ _ hne he]
  congr 1
  apply List.map_congr_left
  intro j _
  rw [selfPairs_perm (fun a b => by rw [grDist_comm sq L a b hL]) hx', selfPairs_map]
  apply selfPairs_congr
  intro a _ b _
  have : grDist sq L (fun c => b c + t c + m b c * L c) (fun c => a c + t c + m a c * L c)
      = grDist sq L b a := by
    unfold grDist
    congr 1
    apply Finset.sum_congr rfl
    intro c _
    apply image_sq (m b c - m a c - pyRound ((b c + t c + m b c * L c - (a c + t c + m a c * L c)) / L c)
      + pyRound ((b c - a c) / L c)) (minImage_abs (hL c)) (minImage_abs (hL c))
    unfold minImage; push_cast; ring
  rw [this]

/-- **C41**, two groups. -/
theorem C41_invariance_two_groups (sq : K → K) (L t : Vec d K) (x y x' y' : List (Vec d K))
    (m : Vec d K → Fin d → ℤ) (edges : List K) (hL : ∀ c, 0 < L c)
    (he : edges.Pairwise (· ≤ ·))
    (hx' : x'.Perm (x.map fun u c => u c + t c + m u c * L c))
    (hy' : y'.Perm (y.map fun u c => u c + t c + m u c * L c)) :
    pairsHist (grKernel sq L) x' y' edges = pairsHist (grKernel sq L) x y edges := by
  have e : grKernel sq L = fun xs y => xs.map fun u => grDist sq L u y := rfl
  rw [e, C34_two_groups _ _ _ _ he, C34_two_groups _ _ _ _ he]
  congr 1
  apply List.map_congr_left
  intro j _
  rw [crossPairs_perm _ hx' hy', crossPairs_map]
  apply crossPairs_congr
  intro b _ a _
  have : grDist sq L (fun c => b c + t c + m b c * L c) (fun c => a c + t c + m a c * L c)
      = grDist sq L b a := by
    unfold grDist
    congr 1
    apply Finset.sum_congr rfl
    intro c _
    apply image_sq (m b c - m a c - pyRound ((b c + t c + m b c * L c - (a c + t c + m a c * L c)) / L c)
      + pyRound ((b c - a c) / L c)) (minImage_abs (hL c)) (minImage_abs (hL c))
    unfold minImage; push_cast; ring
  rw [this]

/-- Three particles in a square cell, reordered, shifted by (1, 2) and one refolded (squares of the
distances are binned here). -/
example :
    pairsNewtonHist (K := ℚ) (grKernel id ![10, 10]) [![0, 0], ![1, 0], ![4, 4]]
      [![0, 0], ![1, 0], ![4, 4]] [0, 10, 30, 50] = .ok [1, 1, 1] ∧
    pairsNewtonHist (K := ℚ) (grKernel id ![10, 10]) [![5, -4], ![1, 2], ![2, 2]]
      [![5, -4], ![1, 2], ![2, 2]] [0, 10, 30, 50] = .ok [1, 1, 1] := by
  refine ⟨by decide +kernel, by decide +kernel⟩

/-- **C40**, python: exchanging the two groups does not change the histogram. -/
theorem C40_symmetric (sq : K → K) (L : Vec d K) (x y : List (Vec d K)) (edges : List K)
    (hL : ∀ c, 0 < L c) (he : edges.Pairwise (· ≤ ·)) :
    pairsHist (grKernel sq L) x y edges = pairsHist (grKernel sq L) y x edges := by
  have e : grKernel sq L = fun xs y => xs.map fun u => grDist sq L u y := rfl
  rw [e, C34_two_groups _ _ _ _ he, C34_two_groups _ _ _ _ he]
  congr 1
  apply List.map_congr_left
  intro j _
  rw [← crossPairs_swap]
  apply crossPairs_congr
  intro a _ b _
  rw [grDist_comm sq L a b hL]

end

/-! ## C36 -/

section
variable {K : Type} [Field K] [LinearOrder K] [IsStrictOrderedRing K] [FloorRing K] {d : ℕ}

theorem fBinAll_ok {dr : K} (hdr : 0 < dr) (m : ℕ) (f : ℕ → ℕ) (ds : List K)
    (h : ∀ r ∈ ds, 0 ≤ r ∧ r < dr * (m : K)) :
    fBinAll dr ((List.range m).map f) ds = .ok ((List.range m).map fun b : ℕ =>
      f b + ds.countP fun r => decide ((b : K) * dr ≤ r ∧ r < ((b : K) + 1) * dr)) := by
  unfold fBinAll
  induction ds generalizing f with
  | nil => simp [pure, Except.pure]
  | cons r ds ih =>
    obtain ⟨h0, h1⟩ := h r (by simp)
    have hq : 0 ≤ r / dr := div_nonneg h0 hdr.le
    have hf0 : 0 ≤ ⌊r / dr⌋ := Int.floor_nonneg.2 hq
    obtain ⟨b, hb⟩ : ∃ b : ℕ, ⌊r / dr⌋ = b := ⟨_, (Int.toNat_of_nonneg hf0).symm⟩
    have hbm : b < m := by
      have : r / dr < m := by rw [div_lt_iff₀ hdr, mul_comm]; exact h1
      have := Int.floor_lt.2 (show r / dr < ((m : ℤ) : K) by exact_mod_cast this)
      omega
    have hstep : fIncr ((List.range m).map f) (⌊r / dr⌋ + 1)
        = .ok ((List.range m).map fun b' => f b' + if b' = b then 1 else 0) := by
      unfold fIncr
      rw [hb, if_pos (by simp; omega)]
      congr 1
      apply List.ext_getElem
      · simp
      · intro i h1 h2
        simp only [List.length_map, List.length_range] at h2
        rw [List.getElem_modify]
        simp only [List.getElem_map, List.getElem_range]
        have : (((b : ℤ) + 1 - 1).toNat = i) ↔ (i = b) := by omega
        split_ifs <;> simp_all
    rw [List.foldlM_cons, hstep]
    show List.foldlM _ _ ds = _
    rw [ih _ (fun r' hr' => h r' (by simp [hr']))]
    congr 1
    apply List.map_congr_left
    intro b' _
    rw [List.countP_cons]
    have hiff : ((b' : K) * dr ≤ r ∧ r < ((b' : K) + 1) * dr) ↔ b' = b := by
      rw [← le_div_iff₀ hdr, ← div_lt_iff₀ hdr]
      have := Int.floor_eq_iff (a := r / dr) (z := (b' : ℤ))
      push_cast at this
      rw [← this, hb]
      constructor
      · intro h; exact_mod_cast h.symm
      · intro h; exact_mod_cast h.symm
    simp only [hiff, decide_eq_true_eq]
    omega

theorem fCollect_ok (size : ℕ) (rmax : K) (rs : List K) (h : rs.length ≤ size) :
    fCollect size rmax rs = .ok (rs.filter fun r => decide (r < rmax)) := by
  unfold fCollect
  have : ∀ (rs ds : List K), ds.length + rs.length ≤ size →
      rs.foldlM (fun ds r => if r < rmax then fPush size ds r else .ok ds) ds
        = (.ok (ds ++ rs.filter fun r => decide (r < rmax)) : Py (List K)) := by
    intro rs
    induction rs with
    | nil => intro ds _; simp [pure, Except.pure]
    | cons r rs ih =>
      intro ds hl
      rw [List.length_cons] at hl
      rw [List.foldlM_cons]
      by_cases hr : r < rmax
      · rw [if_pos hr]
        have : fPush size ds r = .ok (ds ++ [r]) := by unfold fPush; rw [if_pos (by omega)]
        rw [this]
        show List.foldlM _ _ rs = _
        rw [ih _ (by simp; omega)]
        simp [hr]
      · rw [if_neg hr]
        show List.foldlM _ _ rs = _
        rw [ih _ (by omega)]
        simp [hr]
  simpa using this rs [] (by simpa using h)

theorem sum_map_add (l : List ℕ) (f g : ℕ → ℕ) :
    (l.map fun i => f i + g i).sum = (l.map f).sum + (l.map g).sum := by
  induction l with
  | nil => rfl
  | cons a l ih => simp only [List.map_cons, List.sum_cons, ih]; omega

/-- Fold of a loop whose body bins a list of distances. -/
theorem fLoop_ok {dr : K} (hdr : 0 < dr) (m : ℕ) (l : List ℕ) (body : ℕ → Py (List K))
    (vals : ℕ → List K) (hb : ∀ i ∈ l, body i = .ok (vals i))
    (hv : ∀ i ∈ l, ∀ r ∈ vals i, 0 ≤ r ∧ r < dr * (m : K)) (f : ℕ → ℕ) :
    l.foldlM (fun h i => do let ds ← body i; fBinAll dr h ds) ((List.range m).map f)
      = (.ok ((List.range m).map fun b : ℕ => f b + (l.map fun i =>
          (vals i).countP fun r => decide ((b : K) * dr ≤ r ∧ r < ((b : K) + 1) * dr)).sum) :
          Py (List ℕ)) := by
  induction l generalizing f with
  | nil => simp [pure, Except.pure]
  | cons i l ih =>
    rw [List.foldlM_cons, hb i (by simp)]
    have h1 := fBinAll_ok hdr m f (vals i) (hv i (by simp))
    have h2 : ((do let ds ← (Except.ok (vals i) : Py (List K)); fBinAll dr ((List.range m).map f) ds) :
        Py (List ℕ)) = fBinAll dr ((List.range m).map f) (vals i) := rfl
    rw [h2, h1]
    show List.foldlM _ _ l = _
    rw [ih (fun i hi => hb i (by simp [hi])) (fun i hi => hv i (by simp [hi]))]
    congr 1
    apply List.map_congr_left
    intro b _
    simp only [List.map_cons, List.sum_cons]
    omega

theorem zero_hist (hist : List ℕ) : (hist.map fun _ => 0) = (List.range hist.length).map fun _ => 0 := by
  apply List.ext_getElem <;> simp

theorem countP_filter_bin {V : Type} (l : List V) (g : V → K) (dr : K) (hdr : 0 < dr) (m b : ℕ)
    (hb : b < m) :
    ((l.map g).filter fun r => decide (r < dr * (m : K))).countP
        (fun r => decide ((b : K) * dr ≤ r ∧ r < ((b : K) + 1) * dr))
      = l.countP fun v => decide ((b : K) * dr ≤ g v ∧ g v < ((b : K) + 1) * dr) := by
  rw [List.countP_filter, List.countP_map]
  apply List.countP_congr
  intro v _
  simp only [Function.comp_apply, Bool.and_eq_true, decide_eq_true_eq]
  constructor
  · exact fun h => h.1
  · intro h
    refine ⟨h, lt_of_lt_of_le h.2 ?_⟩
    have : (b : K) + 1 ≤ m := by exact_mod_cast hb
    rw [mul_comm dr]
    exact mul_le_mul_of_nonneg_right this hdr.le

/-- **C36**, one group: for every configuration, box, bin width and histogram the Fortran routine accesses no
memory out of bounds and replaces the histogram by the number of pairs with distance in
`[b dr, (b+1) dr)`. -/
theorem C36_gr_self (sq : K → K) (hsq : ∀ x, 0 ≤ sq x) (pos : List (Vec d K)) (box : Vec d K) (dr : K)
    (hdr : 0 < dr) (hist : List ℕ) (bins : List K) (hlen : bins.length = hist.length) :
    grSelfC sq pos box dr hist bins = .ok
      ((List.range hist.length).map fun b : ℕ => Spec.selfPairs
        (fun u v => (b : K) * dr ≤ fDist sq box v u ∧ fDist sq box v u < ((b : K) + 1) * dr) pos,
       (List.range bins.length).map fun b : ℕ => ((b : K) + 1 / 2) * dr) := by
  set vals : ℕ → List K := fun i =>
    match pos[i]? with
    | some a => ((pos.drop (i + 1)).map fun u => fDist sq box u a).filter
        fun r => decide (r < dr * (hist.length : K))
    | none => [] with hvals
  have hbody : ∀ i ∈ List.range pos.length,
      (do
        let pi ← pyGet pos i
        fCollect pos.length (dr * (bins.length : K)) ((pos.drop (i + 1)).map fun pj => fDist sq box pj pi))
      = (.ok (vals i) : Py (List K)) := by
    intro i hi
    rw [List.mem_range] at hi
    have h1 : pyGet pos i = .ok pos[i] := by unfold pyGet; rw [List.getElem?_eq_getElem hi]
    rw [h1]
    show fCollect _ _ _ = _
    rw [fCollect_ok _ _ _ (by simp), hlen]
    simp only [hvals, List.getElem?_eq_getElem hi]
  have hv : ∀ i ∈ List.range pos.length, ∀ r ∈ vals i, 0 ≤ r ∧ r < dr * (hist.length : K) := by
    intro i _ r hr
    simp only [hvals] at hr
    cases h : pos[i]? with
    | none => simp [h] at hr
    | some a =>
      simp only [h, List.mem_filter, List.mem_map, decide_eq_true_eq] at hr
      obtain ⟨⟨u, -, rfl⟩, h2⟩ := hr
      exact ⟨hsq _, h2⟩
  have hloop := fLoop_ok hdr hist.length (List.range pos.length) _ vals hbody hv (fun _ => 0)
  unfold grSelfC
  simp only [bind_assoc] at hloop
  rw [zero_hist]
  simp only [bind, Except.bind] at hloop ⊢
  rw [hloop]
  simp only [pure, Except.pure]
  congr 2
  · apply List.map_congr_left
    intro b hb
    rw [List.mem_range] at hb
    rw [selfPairs_eq_sum, Nat.zero_add]
    congr 1
    apply List.map_congr_left
    intro i _
    simp only [hvals]
    cases pos[i]? with
    | none => rfl
    | some a =>
      simp only
      rw [countP_filter_bin _ _ _ hdr _ _ hb]
      exact List.countP_congr (by simp)
  · unfold fBins
    apply List.map_congr_left
    intro j _
    ring

/-- **C36**, two groups. -/
theorem C36_gr_distinct (sq : K → K) (hsq : ∀ x, 0 ≤ sq x) (pos1 pos2 : List (Vec d K)) (box : Vec d K)
    (dr : K) (hdr : 0 < dr) (hist : List ℕ) (bins : List K) :
    grDistinctC sq pos1 pos2 box dr hist bins = .ok
      ((List.range hist.length).map fun b : ℕ => Spec.crossPairs
        (fun u v => (b : K) * dr ≤ fDist sq box v u ∧ fDist sq box v u < ((b : K) + 1) * dr) pos1 pos2,
       (List.range bins.length).map fun b : ℕ => ((b : K) + 1 / 2) * dr) := by
  set vals : ℕ → List K := fun i =>
    match pos1[i]? with
    | some a => (pos2.map fun u => fDist sq box u a).filter fun r => decide (r < dr * (hist.length : K))
    | none => [] with hvals
  have hbody : ∀ i ∈ List.range pos1.length,
      (do
        let pi ← pyGet pos1 i
        fCollect pos2.length (dr * (hist.length : K)) (pos2.map fun pj => fDist sq box pj pi))
      = (.ok (vals i) : Py (List K)) := by
    intro i hi
    rw [List.mem_range] at hi
    have h1 : pyGet pos1 i = .ok pos1[i] := by unfold pyGet; rw [List.getElem?_eq_getElem hi]
    rw [h1]
    show fCollect _ _ _ = _
    rw [fCollect_ok _ _ _ (by simp)]
    simp only [hvals, List.getElem?_eq_getElem hi]
  have hv : ∀ i ∈ List.range pos1.length, ∀ r ∈ vals i, 0 ≤ r ∧ r < dr * (hist.length : K) := by
    intro i _ r hr
    simp only [hvals] at hr
    cases h : pos1[i]? with
    | none => simp [h] at hr
    | some a =>
      simp only [h, List.mem_filter, List.mem_map, decide_eq_true_eq] at hr
      obtain ⟨⟨u, -, rfl⟩, h2⟩ := hr
      exact ⟨hsq _, h2⟩
  have hloop := fLoop_ok hdr hist.length (List.range pos1.length) _ vals hbody hv (fun _ => 0)
  unfold grDistinctC
  simp only [bind_assoc] at hloop
  rw [zero_hist]
  simp only [bind, Except.bind] at hloop ⊢
  rw [hloop]
  simp only [pure, Except.pure]
  congr 2
  · apply List.map_congr_left
    intro b hb
    rw [List.mem_range] at hb
    rw [crossPairs_eq_sum, Nat.zero_add]
    congr 1
    apply List.ext_getElem
    · simp
    · intro i h1 h2
      have hi : i < pos1.length := by simpa using h1
      simp only [List.getElem_map, List.getElem_range, hvals, List.getElem?_eq_getElem hi]
      rw [countP_filter_bin _ _ _ hdr _ _ hb]
      exact List.countP_congr (by simp)
  · unfold fBins
    apply List.map_congr_left
    intro j _
    ring

/-- **C40**, Fortran: exchanging the two groups does not change the histogram. -/
theorem C40_symmetric_fortran (sq : K → K) (hsq : ∀ x, 0 ≤ sq x) (pos1 pos2 : List (Vec d K))
    (box : Vec d K) (dr : K) (hdr : 0 < dr) (hist : List ℕ) (bins : List K) :
    grDistinctC sq pos1 pos2 box dr hist bins = grDistinctC sq pos2 pos1 box dr hist bins := by
  rw [C36_gr_distinct sq hsq _ _ _ _ hdr, C36_gr_distinct sq hsq _ _ _ _ hdr]
  congr 2
  apply List.map_congr_left
  intro b _
  rw [← crossPairs_swap]
  apply crossPairs_congr
  intro u _ v _
  rw [fDist_comm sq box u v]

/-- Three particles on a line of length 10; a histogram of two bins with old contents. -/
example :
    grSelfC (K := ℚ) (d := 1) (fun x => |x|) [![0], ![1], ![-4]] ![10] 9 [7, 7] [0, 0]
      = .ok ([1, 1], [9 / 2, 27 / 2]) ∧
    grDistinctC (K := ℚ) (d := 1) (fun x => |x|) [![0], ![1]] [![-4]] ![10] 9 [7, 7, 7] [0, 0, 0]
      = .ok ([0, 1, 1], [9 / 2, 27 / 2, 45 / 2]) := by
  refine ⟨by decide +kernel, by decide +kernel⟩

end
end PP.Props
