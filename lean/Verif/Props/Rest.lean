import Verif.Props.Msd
import Verif.Props.Overlap
import Verif.Props.Chi4
import Verif.Props.Fskt

/-!
# C206: values of the time correlation functions for particles that do not move
-/

set_option linter.unusedSectionVars false

namespace PP.Props
open PP

section
variable {K : Type} [Field K] [LinearOrder K] [IsStrictOrderedRing K] [FloorRing K] {n d : ℕ}

/-- The mean of numbers bounded from above is the bound only if all are. -/
theorem mean_eq_max {l : List K} {c : K} (hl : 0 < l.length) (h : ∀ a ∈ l, a ≤ c) : Spec.mean l = c ↔ ∀ a ∈ l, a = c := by
  refine ⟨fun e => ?_, mean_const hl⟩
  have hL : (0 : K) < l.length := by exact_mod_cast hl
  have hs : (l.map fun a => c - a).sum = 0 := by
    have : (l.map fun a => c - a).sum = l.length * c - l.sum := by
      clear e h hl hL
      induction l with
      | nil => simp
      | cons a l ih => rw [List.map_cons, List.sum_cons, ih, List.length_cons, List.sum_cons]; push_cast; ring
    rw [this, ← e]
    unfold Spec.mean
    field_simp
    ring
  intro a ha
  have h0 : ∀ x ∈ l.map fun a => c - a, 0 ≤ x := by
    intro x hx
    obtain ⟨b, hb, rfl⟩ := List.mem_map.1 hx
    exact sub_nonneg.2 (h b hb)
  have := List.single_le_sum h0 (c - a) (List.mem_map_of_mem ha)
  rw [hs] at this
  linarith [h a ha]

theorem mean_eq_min {l : List K} {c : K} (hl : 0 < l.length) (h : ∀ a ∈ l, c ≤ a) : Spec.mean l = c ↔ ∀ a ∈ l, a = c := by
  have hm : Spec.mean (l.map fun a => -a) = -Spec.mean l := by
    unfold Spec.mean
    rw [List.length_map, ← neg_div]
    congr 1
    clear hl h
    induction l with
    | nil => simp
    | cons a l ih => rw [List.map_cons, List.sum_cons, ih, List.sum_cons]; ring
  have := mean_eq_max (l := l.map fun a => -a) (c := -c) (by simpa using hl) (by
    intro a ha
    obtain ⟨b, hb, rfl⟩ := List.mem_map.1 ha
    exact neg_le_neg (h b hb))
  rw [hm, neg_inj] at this
  rw [this]
  simp only [List.mem_map, forall_exists_index, and_imp, forall_apply_eq_imp_iff₂, neg_inj]

theorem valuesAt_framePairs_rest {X : Type} (g : X → X → K) (skip : ℕ) (dg : List (ℕ × ℕ)) (t : List ℤ) (x : List X) (δ : ℤ) :
    Spec.valuesAt g skip dg t x δ = (Spec.framePairs t skip dg x δ).map fun p => g p.1 p.2 := rfl

theorem sqDisp_eq_zero (x y : Frame n d K) : sqDisp x y = 0 ↔ x = y := by
  unfold sqDisp
  rw [Finset.sum_eq_zero_iff_of_nonneg fun p _ => Finset.sum_nonneg fun c _ => sq_nonneg _]
  constructor
  · intro h
    funext p c
    have := (Finset.sum_eq_zero_iff_of_nonneg fun c _ => sq_nonneg (x p c - y p c)).1 (h p (Finset.mem_univ p)) c (Finset.mem_univ c)
    exact sub_eq_zero.1 (pow_eq_zero_iff two_ne_zero |>.1 this)
  · rintro rfl p _
    simp

/-- **C206**: the mean square displacement at a time is zero exactly if the positions are the same in all the pairs of frames that
are used. -/
theorem C206_msd (tr : Traj K) (skip : ℕ) (grid : Option (List K)) (rmax : K) (tsamples : ℤ) (offset : Bool)
    (pos : List (Frame n d K)) (ts : List K) (vs : List (Option K)) (hn : 0 < n) (hskip : 0 < skip)
    (hlen : pos.length ≤ tr.steps.length) (h : msdCompute tr skip grid rmax tsamples offset pos = .ok (ts, vs)) :
    ∃ g dg, setupTGrid tr.steps tr.blockSize tr.timestep g offset = .ok dg ∧ ts.length = vs.length ∧
    ∀ p ∈ ts.zip vs, ∃ (δ : ℤ) (v : K), p = ((δ : K) * tr.timestep, some v) ∧ Spec.framePairs tr.steps skip dg pos δ ≠ [] ∧
      (v = 0 ↔ ∀ e ∈ Spec.framePairs tr.steps skip dg pos δ, e.1 = e.2) := by
  obtain ⟨g, dg, h1, h2, -⟩ := msdCompute_ok h
  have hnK : (n : K) ≠ 0 := by exact_mod_cast hn.ne'
  obtain ⟨a1, a2⟩ := timeCorr_forall (g := fun x y => sqDisp x y / (n : K)) hskip hlen
    (fun a _ b _ => msdKernel_some hn a b) h2
    (P := fun t v => ∃ (δ : ℤ) (w : K), (t, v) = ((δ : K) * tr.timestep, some w) ∧ Spec.framePairs tr.steps skip dg pos δ ≠ [] ∧
      (w = 0 ↔ ∀ e ∈ Spec.framePairs tr.steps skip dg pos δ, e.1 = e.2)) (by
    intro δ hδ
    rw [valuesAt_framePairs_rest] at hδ ⊢
    refine ⟨δ, _, rfl, ?_, ?_⟩
    · intro e; rw [e] at hδ; simp at hδ
    · rw [mean_eq_min hδ]
      · simp only [List.mem_map, forall_exists_index, and_imp, forall_apply_eq_imp_iff₂, div_eq_zero_iff, hnK, or_false, sqDisp_eq_zero]
      · intro v hv
        obtain ⟨e, -, rfl⟩ := List.mem_map.1 hv
        exact div_nonneg (Finset.sum_nonneg fun p _ => Finset.sum_nonneg fun c _ => sq_nonneg _) (Nat.cast_nonneg _))
  exact ⟨g, dg, h1, a1, a2⟩

/-- **C206**: the self overlap at a time is one exactly if all the particles have moved by less than `a` in all the pairs of frames
that are used, and zero exactly if none has. -/
theorem C206_overlap (tr : Traj K) (dg : List (ℕ × ℕ)) (skip : ℕ) (a : K) (pos : List (Frame n d K)) (ts : List K)
    (vs : List (Option K)) (hn : 0 < n) (hskip : 0 < skip) (hlen : pos.length ≤ tr.steps.length)
    (h : qstCompute tr dg skip a pos = .ok (ts, vs)) :
    ts.length = vs.length ∧
    ∀ p ∈ ts.zip vs, ∃ (δ : ℤ) (v : K), p = ((δ : K) * tr.timestep, some v) ∧ Spec.framePairs tr.steps skip dg pos δ ≠ [] ∧
      (v = 1 ↔ ∀ e ∈ Spec.framePairs tr.steps skip dg pos δ, ∀ q, Spec.disp2 e.1 e.2 q < a ^ 2) ∧
      (v = 0 ↔ ∀ e ∈ Spec.framePairs tr.steps skip dg pos δ, ∀ q, a ^ 2 ≤ Spec.disp2 e.1 e.2 q) := by
  have hnK : (0 : K) < n := by exact_mod_cast hn
  refine timeCorr_forall (g := fun x y => (selfOverlap x y (a ^ 2) : K) / (n : K)) hskip hlen
    (fun x _ y _ => by simp only [perParticle, if_neg hn.ne']) h
    (P := fun t v => ∃ (δ : ℤ) (w : K), (t, v) = ((δ : K) * tr.timestep, some w) ∧ Spec.framePairs tr.steps skip dg pos δ ≠ [] ∧
      (w = 1 ↔ ∀ e ∈ Spec.framePairs tr.steps skip dg pos δ, ∀ q, Spec.disp2 e.1 e.2 q < a ^ 2) ∧
      (w = 0 ↔ ∀ e ∈ Spec.framePairs tr.steps skip dg pos δ, ∀ q, a ^ 2 ≤ Spec.disp2 e.1 e.2 q)) ?_
  intro δ hδ
  rw [valuesAt_framePairs_rest] at hδ ⊢
  refine ⟨δ, _, rfl, ?_, ?_, ?_⟩
  · intro e; rw [e] at hδ; simp at hδ
  · rw [mean_eq_max hδ]
    · simp only [List.mem_map, forall_exists_index, and_imp, forall_apply_eq_imp_iff₂, div_eq_one_iff_eq hnK.ne', Nat.cast_inj]
      refine forall₂_congr fun e _ => ?_
      rw [selfOverlap_card]
      constructor
      · intro hc q
        have : (Finset.univ.filter fun p => Spec.disp2 e.1 e.2 p < a ^ 2) = Finset.univ :=
          Finset.eq_univ_of_card _ (by rw [hc, Fintype.card_fin])
        have hq := Finset.mem_univ q
        rw [← this] at hq
        exact (Finset.mem_filter.1 hq).2
      · intro hq
        rw [Finset.filter_true_of_mem fun q _ => hq q, Finset.card_univ, Fintype.card_fin]
    · intro v hv
      obtain ⟨e, -, rfl⟩ := List.mem_map.1 hv
      rw [div_le_one hnK, selfOverlap_card]
      have := Finset.card_le_univ (Finset.univ.filter fun p => Spec.disp2 e.1 e.2 p < a ^ 2)
      rw [Fintype.card_fin] at this
      exact_mod_cast this
  · rw [mean_eq_min hδ]
    · simp only [List.mem_map, forall_exists_index, and_imp, forall_apply_eq_imp_iff₂, div_eq_zero_iff, hnK.ne', or_false, Nat.cast_eq_zero]
      refine forall₂_congr fun e _ => ?_
      rw [selfOverlap_card, Finset.card_eq_zero, Finset.filter_eq_empty_iff]
      simp
    · intro v hv
      obtain ⟨e, -, rfl⟩ := List.mem_map.1 hv
      exact div_nonneg (Nat.cast_nonneg _) (Nat.cast_nonneg _)

theorem variance_eq_zero {l : List K} : Spec.variance l = 0 ↔ ∀ a ∈ l, ∀ b ∈ l, a = b := by
  constructor
  · intro h
    rcases Nat.eq_zero_or_pos l.length with h0 | h0
    · rw [List.length_eq_zero_iff] at h0; subst h0; simp
    · unfold Spec.variance at h
      rw [mean_eq_min (by simpa using h0)] at h
      · have : ∀ a ∈ l, a = Spec.mean l := fun a ha => by
          have := h _ (List.mem_map_of_mem ha)
          exact sub_eq_zero.1 (pow_eq_zero_iff two_ne_zero |>.1 this)
        intro a ha b hb
        rw [this a ha, this b hb]
      · intro x hx
        obtain ⟨a, -, rfl⟩ := List.mem_map.1 hx
        exact sq_nonneg _
  · intro h
    cases l with
    | nil => simp [Spec.variance, Spec.mean]
    | cons c l => exact variance_const (c := c) fun a ha => h a ha c (by simp)

/-- **C206**: the dynamic susceptibility at a time is zero exactly if the number of particles that have moved by less than `a` is the
same for all the time origins that are used. -/
theorem C206_chi4 (tr : Traj K) (frames : List (Frame n d K)) (skip : ℕ) (a : K) (grid : List K) (dg : List (ℕ × ℕ)) (hn : 0 < n)
    (hskip : 0 < skip) (hfr : 0 < frames.length) (hg : ∀ g ∈ dg, g.1 + g.2 < tr.steps.length) :
    ∃ s' : Chi4State n d K, chi4ComputeFull tr frames skip a dg (.init grid) = .ok s' ∧
      List.Forall₂ (fun g v => v = 0 ↔ ∀ u ∈ Spec.overlaps a frames g.2 (Spec.chi4Origins frames.length skip g),
        ∀ w ∈ Spec.overlaps a frames g.2 (Spec.chi4Origins frames.length skip g), u = w) dg s'.value := by
  obtain ⟨s', h1, -, h2, -⟩ := C31_chi4_variance tr frames skip a grid dg hskip hfr hg
  refine ⟨s', h1, h2.imp fun g v hv => ?_⟩
  have hnK : (n : K) ≠ 0 := by exact_mod_cast hn.ne'
  rw [hv.1, div_eq_zero_iff, or_iff_left hnK, variance_eq_zero]

theorem foldl_nan_none (l : List (Option K)) : l.foldl (Arith.nan K).add none = none := by
  induction l with
  | nil => rfl
  | cons a l ih => exact ih

theorem foldl_nan_eq_none (l : List (Option K)) (a : K) : l.foldl (Arith.nan K).add (some a) = none ↔ none ∈ l := by
  induction l generalizing a with
  | nil => simp
  | cons x l ih =>
    cases x with
    | none =>
      rw [List.foldl_cons]
      have : (Arith.nan K).add (some a) none = none := rfl
      rw [this, foldl_nan_none]
      simp
    | some b =>
      rw [List.foldl_cons]
      have : (Arith.nan K).add (some a) (some b) = some (a + b) := rfl
      rw [this, ih]
      simp

/-- **C206**: the non-Gaussian parameter at a time is not a number exactly if the positions are the same in some pair of distinct
frames that are used. -/
theorem C206_alpha2 (tr : Traj K) (dg : List (ℕ × ℕ)) (skip : ℕ) (pos : List (Frame n d K)) (hn : 0 < n) (hskip : 0 < skip)
    (hlen : pos.length ≤ tr.steps.length) :
    ∃ (lags : List ℤ) (vs : List (Option K)), alpha2Compute tr dg skip pos = .ok (lags.map fun δ : ℤ => (δ : K) * tr.timestep, vs) ∧
      List.Forall₂ (fun δ v => v = none ↔
        ∃ e ∈ Spec.framePairs tr.steps skip dg (pos.zipIdx.map fun e => (e.2, e.1)) δ, e.1.1 ≠ e.2.1 ∧ e.1.2 = e.2.2) lags vs := by
  set x : List (ℕ × Frame n d K) := pos.zipIdx.map fun e => (e.2, e.1) with hx
  have hxl : x.length ≤ tr.steps.length := by rw [hx]; simpa using hlen
  have hnK : (n : K) ≠ 0 := by exact_mod_cast hn.ne'
  obtain ⟨lags, -, -, h3⟩ := C01_gcf_offset_mean (Arith.nan K) (alpha2Kernel (n := n) (d := d) (K := K))
    (fun a b => match alpha2Kernel a b with | .ok v => v | .error _ => none) dg skip tr.steps x hskip hxl (by
      intro a _ b _
      unfold alpha2Kernel
      split <;> rfl)
  refine ⟨lags, _, by unfold alpha2Compute timeCorr; rw [← hx, h3]; rfl, ?_⟩
  rw [List.forall₂_map_right_iff, List.forall₂_same]
  intro δ _
  show ((List.foldl (Arith.nan K).add (some 0) _).map _ = none) ↔ _
  rw [Option.map_eq_none_iff, foldl_nan_eq_none]
  unfold Spec.framePairs
  rw [List.mem_map]
  refine exists_congr fun e => and_congr_right fun _ => ?_
  unfold alpha2Kernel
  by_cases hi : e.1.1 = e.2.1
  · simp [hi]
  · simp only [hi, if_false, perParticle, if_neg hn.ne', ne_eq, not_false_eq_true, true_and]
    rw [← sqDisp_eq_zero]
    by_cases hz : sqDisp e.1.2 e.2.2 = 0
    · simp [hz]
    · simp [hz, hnK]

end

section
variable {d : ℕ}

/-- **C206**: the self intermediate scattering function, before normalisation, is one exactly if `k · r` is a multiple of `2π` for the
displacements `r` of all particles in all the pairs of frames that are used and for all the wave-vectors. -/
theorem C206_fskt (o : FsObj d) {N : ℕ} (h : FsRegular o N) (hn : o.normalize = false) :
    ∃ (lags : List ℤ) (vs : List (List ℝ)), fsLegacy o = .ok (lags.map fun t : ℤ => (t : ℝ) * o.timestep, vs) ∧
      List.Forall₂ (fun kl row => List.Forall₂ (fun δ v => v = 1 ↔ ∀ k ∈ kl, ∀ e ∈ Spec.framePairs o.steps o.skip o.tgrid o.pos δ,
        ∀ x ∈ List.zipWith (fun x y c => x c - y c) e.1 e.2, ∃ j : ℤ, Spec.dot k x = j * (2 * Real.pi)) lags row)
        (kvectorsGet o.ks) vs := by
  obtain ⟨lags, -, h2, h3⟩ := C82_definition o h hn
  refine ⟨lags, _, h3, ?_⟩
  rw [List.forall₂_map_right_iff, List.forall₂_same]
  intro kl hkl
  rw [List.forall₂_map_right_iff, List.forall₂_same]
  intro δ hδ
  have hcos : ∀ x : ℝ, Real.cos x = 1 ↔ ∃ j : ℤ, x = j * (2 * Real.pi) := fun x => by
    rw [Real.cos_eq_one_iff]
    exact exists_congr fun j => eq_comm
  set l := kl.flatMap fun k => (Spec.framePairs o.steps o.skip o.tgrid o.pos δ).flatMap fun ab => Spec.selfTerms k ab.1 ab.2 with hl
  have hmem : ∀ v, v ∈ l ↔ ∃ k ∈ kl, ∃ e ∈ Spec.framePairs o.steps o.skip o.tgrid o.pos δ,
      ∃ x ∈ List.zipWith (fun x y c => x c - y c) e.1 e.2, Real.cos (Spec.dot k x) = v := by
    intro v
    rw [hl]
    simp only [List.mem_flatMap]
    refine exists_congr fun k => and_congr_right fun _ => exists_congr fun e => and_congr_right fun _ => ?_
    unfold Spec.selfTerms
    rw [← List.mem_map (f := fun x => Real.cos (Spec.dot k x)), List.map_zipWith]
  have hpos : 0 < l.length := by
    obtain ⟨kl', hkl', rfl⟩ := List.mem_map.1 hkl
    have := selfList_pos o h hkl' (mem_lagList.2 ((h2 δ).1 hδ))
    rw [hl, List.flatMap_map]
    exact this
  show Spec.mean l = 1 ↔ _
  rw [mean_eq_max hpos]
  · constructor
    · intro hall k hk e he x hx
      exact (hcos _).1 (hall _ ((hmem _).2 ⟨k, hk, e, he, x, hx, rfl⟩))
    · intro hall v hv
      obtain ⟨k, hk, e, he, x, hx, rfl⟩ := (hmem v).1 hv
      exact (hcos _).2 (hall k hk e he x hx)
  · intro v hv
    obtain ⟨k, hk, e, he, x, hx, rfl⟩ := (hmem v).1 hv
    exact Real.cos_le_one _

end

/-! ## Examples -/

/-- One particle in one dimension that moves by one and comes back. -/
def exBack : List (Frame 1 1 ℚ) := [fun _ _ => 0, fun _ _ => 1, fun _ _ => 0]

def exBackTraj : Traj ℚ := ⟨[0, 1, 2], 1, 1, 2, [1, 1, 1]⟩

example : msdCompute exBackTraj 1 (some [0, 1, 2]) (-1) 3 true exBack = .ok ([0, 1, 2], [some 0, some 1, some 0]) ∧
    qstCompute exBackTraj [(0, 0), (0, 1), (0, 2)] 1 (1 / 2) exBack = .ok ([0, 1, 2], [some 1, some 0, some 1]) ∧
    alpha2Compute exBackTraj [(0, 0), (0, 1), (0, 2)] 1 exBack = .ok ([0, 1, 2], [some 0, some (-2 / 5), none]) := by
  decide +kernel

example : ∃ g dg, setupTGrid exBackTraj.steps exBackTraj.blockSize exBackTraj.timestep g true = .ok dg ∧
    ∀ p ∈ [((0 : ℚ), some (0 : ℚ)), (1, some 1), (2, some 0)], ∃ (δ : ℤ) (v : ℚ), p = ((δ : ℚ) * exBackTraj.timestep, some v) ∧
      Spec.framePairs exBackTraj.steps 1 dg exBack δ ≠ [] ∧
      (v = 0 ↔ ∀ e ∈ Spec.framePairs exBackTraj.steps 1 dg exBack δ, e.1 = e.2) := by
  obtain ⟨g, dg, h1, -, h2⟩ := C206_msd exBackTraj 1 (some [0, 1, 2]) (-1) 3 true exBack [0, 1, 2] [some 0, some 1, some 0] one_pos
    one_pos (by decide) (by decide +kernel)
  exact ⟨g, dg, h1, h2⟩

example := C206_overlap exBackTraj [(0, 0), (0, 1), (0, 2)] 1 (1 / 2) exBack [0, 1, 2] [some 1, some 0, some 1] one_pos one_pos
  (by decide) (by decide +kernel)

example := C206_alpha2 exBackTraj [(0, 0), (0, 1), (0, 2)] 1 exBack one_pos one_pos (by decide)

/-- The first move is shorter than the second one. -/
example : ∃ s' : Chi4State 1 1 ℚ, chi4ComputeFull ⟨[0, 1, 2, 3], 1, 1, 3, [1, 1, 1, 1]⟩ [fun _ _ => 0, fun _ _ => 0, fun _ _ => 1, fun _ _ => 1] 1
    (1 / 2) [(0, 0), (0, 1)] (.init []) = .ok s' ∧ s'.value = [0, 1 / 4] := by
  obtain ⟨s', h1, -⟩ := C206_chi4 (⟨[0, 1, 2, 3], 1, 1, 3, [1, 1, 1, 1]⟩ : Traj ℚ)
    [(fun _ _ => 0 : Frame 1 1 ℚ), fun _ _ => 0, fun _ _ => 1, fun _ _ => 1] 1 (1 / 2) [] [(0, 0), (0, 1)] one_pos one_pos (by decide)
    (by decide)
  refine ⟨s', h1, ?_⟩
  have h2 : (chi4ComputeFull ⟨[0, 1, 2, 3], 1, 1, 3, [1, 1, 1, 1]⟩ [(fun _ _ => 0 : Frame 1 1 ℚ), fun _ _ => 0, fun _ _ => 1, fun _ _ => 1] 1
    (1 / 2) [(0, 0), (0, 1)] (.init [])).map (fun s => s.value) = .ok [0, 1 / 4] := by decide +kernel
  rw [h1] at h2
  exact Except.ok.inj h2

example := C206_fskt { exFs with normalize := false } (N := 2) ⟨exFs_regular.1, exFs_regular.2, exFs_regular.3, exFs_regular.4, exFs_regular.5,
  exFs_regular.6, exFs_regular.7, exFs_regular.8, exFs_regular.9⟩ rfl

end PP.Props
