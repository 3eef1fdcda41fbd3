import Verif.Lemmas.GrFull
import Verif.Spec.Volume
import Mathlib.Data.Nat.Factorial.DoubleFactorial
import Mathlib.Data.Rat.Sqrt
import Mathlib.Tactic.FinCases

/-!
# C37-C39: the radial distribution functions
-/

set_option linter.unusedSectionVars false

namespace PP.Props
open PP Classical

section
variable {K : Type} [Field K] [LinearOrder K] [IsStrictOrderedRing K] [FloorRing K] {d : ℕ}

theorem fastFrame_direct (sq : K → K) (hsq : ∀ x, 0 ≤ sq x) (huge : K) (o : GrObj d K) {w : K} {n0 n1 : ℕ}
    {f0 : GrFrame d K} {n : ℕ} (h : GrSystem o w n0 n1 f0) (st : GrFastState d K) (f : GrFrame d K)
    (hf : f ∈ o.frames) (hp : ∀ c, f.periodic c = true) (hc : st.cells = none) (h1 : st.hist.length = n)
    (h2 : st.bins.length = n) :
    grFastFrame sq huge o w st f = .ok
      { cells := none,
        hist := (List.range n).map fun b : ℕ => pairCount o (fDist sq) f
          fun r => (b : K) * w ≤ r ∧ r < ((b : K) + 1) * w,
        bins := fBins w n, n0 := st.n0 ++ [n0], n1 := st.n1 ++ [n1],
        grAll := st.grAll ++ [(List.range n).map fun b : ℕ => pairCount o (fDist sq) f
          fun r => (b : K) * w ≤ r ∧ r < ((b : K) + 1) * w],
        flags := some (!o.same, false), system := f } := by
  have hd : 0 < d := h.dim_pos
  have e0 : f.pos0 ≠ [] := by
    intro hc; have := h.len0 f hf; rw [hc] at this; have := h.n0_pos; simp at *; omega
  have e1 : f.pos1 ≠ [] := by
    intro hc; have := h.len1 f hf; rw [hc] at this; have := h.n1_pos; simp at *; omega
  have hcond : (f.pos0.isEmpty || f.pos1.isEmpty) = false := by simp [e0, e1]
  have hnp : ¬ ∀ c, f.periodic c = false := fun hc => by
    have := hc ⟨0, hd⟩; rw [hp] at this; cases this
  have hcrop : decide ((∀ c, f.periodic c = false) ∧ o.rmax > 0) = false := by simp [hnp]
  have hside : (fun c => if f.periodic c = true then f.side c else huge) = f.side := by
    funext c; rw [if_pos (hp c)]
  have hbins : (List.range n).map (fun b : ℕ => ((b : K) + 1 / 2) * w) = fBins w n := by
    unfold fBins
    apply List.map_congr_left
    intro b _
    ring
  have hc' : grFastCells none f f.pos0 (!o.same) = .ok (none, []) := rfl
  unfold grFastFrame
  rw [hcond]
  simp only [hcrop, Bool.false_eq_true, if_false, Bool.false_or, hc, hc', hside]
  have hass : (¬ ((∀ c, f.periodic c = false) ∨ ∀ c, f.periodic c = true)) = False := by simp [hp]
  simp only [Except.bind, Option.isSome_none, hass, if_false]
  unfold grFastKernel pairCount
  cases hs : o.same with
  | true =>
    have := C36_gr_self sq hsq f.pos0 f.side w h.w_pos st.hist st.bins (by rw [h1, h2])
    rw [h1, h2, hbins] at this
    simp only [Bool.not_true, Bool.false_eq_true, if_false, this, if_true, h.len0 f hf]
    rw [← h.len1 f hf, ← h.len0 f hf, h.same hs f hf]
  | false =>
    have := C36_gr_distinct sq hsq f.pos0 f.pos1 f.side w h.w_pos st.hist st.bins
    rw [h1, h2, hbins] at this
    have e : ∀ b : ℕ, Spec.crossPairs
        (fun u v => (b : K) * w ≤ fDist sq f.side v u ∧ fDist sq f.side v u < ((b : K) + 1) * w) f.pos0 f.pos1
        = Spec.crossPairs
        (fun u v => (b : K) * w ≤ fDist sq f.side u v ∧ fDist sq f.side u v < ((b : K) + 1) * w) f.pos0 f.pos1 := by
      intro b
      apply crossPairs_congr
      intro u _ v _
      rw [fDist_comm sq f.side u v]
    simp only [e] at this
    simp only [Bool.not_false, Bool.false_eq_true, if_false, this, if_true, h.len0 f hf, h.len1 f hf]

theorem grCrop_ok {rmax : K} {side : Vec d K} (hd : 0 < d) : ∃ m, (0 < rmax → m = rmax) ∧
    (¬0 < rmax → ∀ c, m ≤ side c / 2) ∧ (¬0 < rmax → ∃ c, side c / 2 = m) ∧ ∀ t, grCrop rmax side t = .ok (t.filter fun p => p.1 ≤ m) := by
  by_cases h : 0 < rmax
  · exact ⟨rmax, fun _ => rfl, fun h' => absurd h h', fun h' => absurd h h', fun t => by unfold grCrop; rw [if_pos h]⟩
  · obtain ⟨m, hm, hle, c0, hc0⟩ := pyMin_ofFn hd side
    refine ⟨m / 2, fun h' => absurd h' h, fun _ c => div_le_div_of_nonneg_right (hle c) (by norm_num),
      fun _ => ⟨c0, by rw [hc0]⟩, fun t => ?_⟩
    unfold grCrop
    rw [if_neg h, hm]
    rfl

/-- The last frame used. -/
theorem lastFrame_mem {o : GrObj d K} {f0 : GrFrame d K} (h : o.frames[0]? = some f0) (hs : 0 < o.skip) :
    (originFrames o.frames o.skip).getLastD f0 ∈ o.frames := by
  have hne : o.frames ≠ [] := by intro hc; rw [hc] at h; simp at h
  obtain ⟨a, ha⟩ := List.getLast?_isSome.2 (originFrames_ne_nil hne hs) |> Option.isSome_iff_exists.1
  rw [List.getLastD_eq_getLast?, ha]
  exact originFrames_mem (List.mem_of_getLast? ha)

theorem pairCount_congr {o : GrObj d K} {dist dist' : Vec d K → Vec d K → Vec d K → K} {f : GrFrame d K}
    {B B' : K → Prop} (hsame : o.same = true → f.pos0 = f.pos1)
    (h : ∀ u ∈ f.pos0, ∀ v ∈ f.pos1, (B (dist f.side u v) ↔ B' (dist' f.side u v))) :
    pairCount o dist f B = pairCount o dist' f B' := by
  unfold pairCount
  split_ifs with hs
  · apply selfPairs_congr
    intro a ha b hb
    exact h b hb a (by rw [← hsame hs]; exact ha)
  · apply crossPairs_congr
    exact h

/-- **C37.** In a periodic cell, with the particles inside it, a constant number of them and the default grid,
the fast and the legacy calculation return the same table, except that the legacy one may have one more
point at its end. -/
theorem C37_backends (sq : K → K) (hsq : ∀ x, 0 ≤ sq x) {pi : K} (hpi : 0 < pi) (huge : K) (o : GrObj d K)
    {w : K} {n0 n1 : ℕ} {f0 : GrFrame d K} (h : GrRegular sq o w n0 n1 f0)
    (hper : ∀ f ∈ o.frames, ∀ c, f.periodic c = true)
    (hin : ∀ f ∈ o.frames, ∀ x, x ∈ f.pos0 ∨ x ∈ f.pos1 → ∀ c, |x c| ≤ f.side c / 2)
    (hlc : useLinkedCells o f0 = .ok false) :
    ∃ fast legacy, grFast sq pi huge o = .ok fast ∧ grLegacy sq pi o = .ok legacy ∧
      (legacy = fast ∨ ∃ p, legacy = fast ++ [p]) ∧
      ((if 0 < o.rmax then ∃ c, o.rmax + w ≤ f0.side c * sq (d : K)
        else ∀ f ∈ o.frames, ∃ c c0, f.side c / 2 + w ≤ f0.side c0 * sq (d : K)) → legacy = fast) := by
  have hd : 0 < d := by obtain ⟨c, -⟩ := h.fit; exact lt_of_le_of_lt (Nat.zero_le _) c.isLt
  obtain ⟨n, hn, hg, hn2⟩ := grSetupGrid_default sq hsq o f0.side h.w_pos h.rgrid h.dr h.fit
  have hL := grLegacy_closed sq hpi o h.system hn hg
  have hF := grFast_closed sq hpi huge o h.system hn hg false hlc (fun c => c = none) rfl
    (fun f => (List.range n).map fun b : ℕ => pairCount o (fDist sq) f
          fun r => (b : K) * w ≤ r ∧ r < ((b : K) + 1) * w) (by simp)
    (fun st f hf hc h1 h2 => ⟨none, rfl, fastFrame_direct sq hsq huge o h.system st f hf (hper f hf) hc h1 h2⟩)
  have hlast := lastFrame_mem h.first h.skip_pos
  set g := (originFrames o.frames o.skip).getLastD f0 with hgdef
  obtain ⟨m, hm1, hm2, -, hm⟩ := grCrop_ok (rmax := o.rmax) (side := g.side) hd
  rw [hm] at hL hF
  have e : (List.range (n - 1)).map (fun j : ℕ => (((j : K) + 1 / 2) * w,
        some (grVal o pi w n0 n1 (originFrames o.frames o.skip) (cellVolume g.side) j
          fun f => pairCount o (grDist sq) f (Spec.InBin (defaultEdges w n) j))))
      = (List.range (n - 1)).map fun j : ℕ => (((j : K) + 1 / 2) * w,
        some (grVal o pi w n0 n1 (originFrames o.frames o.skip) (cellVolume g.side) j fun f =>
          ((List.range n).map fun b : ℕ => pairCount o (fDist sq) f
          fun r => (b : K) * w ≤ r ∧ r < ((b : K) + 1) * w).getD j 0)) := by
    apply List.map_congr_left
    intro j hj
    rw [List.mem_range] at hj
    congr 2
    unfold grVal meanCount
    congr 3
    apply List.map_congr_left
    intro f hf
    have hf' := originFrames_mem hf
    congr 1
    dsimp only
    rw [List.getD_eq_getElem?_getD, List.getElem?_map, List.getElem?_range (by omega)]
    show _ = pairCount o (fDist sq) f fun r => (j : K) * w ≤ r ∧ r < ((j : K) + 1) * w
    apply pairCount_congr (fun hs => h.same hs f hf')
    intro u hu v hv
    rw [C35_backends_agree sq f.side u v (h.side_pos f hf') (hin f hf' u (Or.inl hu)) (hin f hf' v (Or.inr hv)),
      inBin_default (by omega)]
    constructor
    · rintro ⟨h1, h2 | ⟨h2, -⟩⟩
      · exact ⟨h1, h2⟩
      · omega
    · rintro ⟨h1, h2⟩
      exact ⟨h1, Or.inl h2⟩
  have hr : List.range n = List.range (n - 1) ++ [n - 1] := by
    conv_lhs => rw [show n = (n - 1) + 1 by omega, List.range_succ]
  rw [hr, List.map_append, List.filter_append, e] at hL
  refine ⟨_, _, hF, hL, ?_, ?_⟩
  · rw [List.map_singleton, List.filter_singleton, cond_eq_ite]
    split_ifs
    · exact Or.inr ⟨_, rfl⟩
    · exact Or.inl (by simp)
  · intro hcut
    rw [List.map_singleton, List.filter_singleton, cond_eq_ite, if_neg, List.append_nil]
    rw [decide_eq_true_iff]
    push Not
    have hnn : ((n - 1 : ℕ) : K) = (n : K) - 1 := by
      rw [Nat.cast_sub (by omega)]; simp
    simp only [hnn]
    split_ifs at hcut with hr
    · obtain ⟨c, hc⟩ := hcut
      have := hn2 c
      rw [hm1 hr]
      linarith
    · obtain ⟨c, c0, hc⟩ := hcut g hlast
      have := hn2 c0
      have := hm2 hr c
      linarith

/-- Two frames of four particles in a cell of sides 8 and 6, spacing 1. -/
def grExample : GrObj 2 ℚ :=
  { frames := [⟨![8, 6], fun _ => true, [![0, 0], ![3, 0], ![3, -2], ![-3, 0]],
        [![0, 0], ![3, 0], ![3, -2], ![-3, 0]]⟩,
      ⟨![8, 6], fun _ => true, [![0, 0], ![1, 0], ![-4, 3], ![4, -3]],
        [![0, 0], ![1, 0], ![-4, 3], ![4, -3]]⟩],
    skip := 1, same := true, rgrid := none, dr := .float 1, rmax := -1 }

theorem grExample_regular : GrRegular Rat.sqrt grExample 1 4 4
    ⟨![8, 6], fun _ => true, [![0, 0], ![3, 0], ![3, -2], ![-3, 0]],
        [![0, 0], ![3, 0], ![3, -2], ![-3, 0]]⟩ where
  first := rfl
  skip_pos := by decide
  w_pos := by norm_num
  rgrid := rfl
  dr := rfl
  fit := ⟨0, by decide +kernel⟩
  side_pos := by decide +kernel
  n0_pos := by norm_num
  n1_pos := by norm_num
  len0 := by decide +kernel
  len1 := by decide +kernel
  same := by decide +kernel

/-- The hypotheses hold for it, and the table is not trivial. -/
example : (∀ f ∈ grExample.frames, ∀ c, f.periodic c = true) ∧
    (∀ f ∈ grExample.frames, ∀ x, x ∈ f.pos0 ∨ x ∈ f.pos1 → ∀ c, |x c| ≤ f.side c / 2) ∧
    grFast Rat.sqrt 3 1000 grExample
      = .ok [(1 / 2, some 1), (3 / 2, some (1 / 3)), (5 / 2, some (3 / 5))] ∧
    grLegacy Rat.sqrt 3 grExample
      = .ok [(1 / 2, some 1), (3 / 2, some (1 / 3)), (5 / 2, some (3 / 5))] := by
  refine ⟨by decide +kernel, ?_, by decide +kernel, by decide +kernel⟩
  intro f hf x hx
  simp only [grExample, List.mem_cons, List.not_mem_nil, or_false] at hf
  rcases hf with rfl | rfl <;> simp only [or_self, List.mem_cons, List.not_mem_nil, or_false] at hx <;>
    rcases hx with rfl | rfl | rfl | rfl <;> decide +kernel

/-! ## C38 -/

theorem card_sum_bins {α : Type*} [Fintype α] (Q : ℕ → α → Prop) [∀ j, DecidablePred (Q j)] (l : List ℕ)
    (hl : l.Nodup)
    (hd : ∀ j j' a, Q j a → Q j' a → j = j') :
    (l.map fun j => (Finset.univ.filter (Q j)).card).sum
      = (Finset.univ.filter fun a => ∃ j ∈ l, Q j a).card := by
  induction l with
  | nil => simp
  | cons i l ih =>
    rw [List.nodup_cons] at hl
    rw [List.map_cons, List.sum_cons, ih hl.2, ← Finset.card_union_of_disjoint]
    · congr 1
      ext q
      simp only [Finset.mem_union, Finset.mem_filter, Finset.mem_univ, true_and, List.mem_cons]
      constructor
      · rintro (h | ⟨j, hj, h⟩)
        · exact ⟨i, Or.inl rfl, h⟩
        · exact ⟨j, Or.inr hj, h⟩
      · rintro ⟨j, rfl | hj, h⟩
        · exact Or.inl h
        · exact Or.inr ⟨j, hj, h⟩
    · rw [Finset.disjoint_left]
      intro q hq hq'
      simp only [Finset.mem_filter, Finset.mem_univ, true_and] at hq hq'
      obtain ⟨j, hj, hB⟩ := hq'
      have := hd _ _ _ hq hB
      subst this
      exact hl.1 hj

theorem pairCount_sum_bins (o : GrObj d K) (dist : Vec d K → Vec d K → Vec d K → K) (f : GrFrame d K)
    (B : ℕ → K → Prop) (l : List ℕ) (hl : l.Nodup) (hd : ∀ j j' r, B j r → B j' r → j = j') :
    (l.map fun j => pairCount o dist f (B j)).sum = pairCount o dist f fun r => ∃ j ∈ l, B j r := by
  unfold pairCount
  split_ifs
  · unfold Spec.selfPairs
    refine Eq.trans (card_sum_bins (fun j (q : Fin f.pos0.length × Fin f.pos0.length) =>
      q.1 < q.2 ∧ B j (dist f.side f.pos0[q.2] f.pos0[q.1])) l hl fun j j' a h h' => hd _ _ _ h.2 h'.2) ?_
    congr 1
    ext q
    simp only [Finset.mem_filter, Finset.mem_univ, true_and]
    constructor
    · rintro ⟨j, hj, h, h'⟩; exact ⟨h, j, hj, h'⟩
    · rintro ⟨h, j, hj, h'⟩; exact ⟨j, hj, h, h'⟩
  · unfold Spec.crossPairs
    refine Eq.trans (card_sum_bins (fun j (q : Fin f.pos0.length × Fin f.pos1.length) =>
      B j (dist f.side f.pos0[q.1] f.pos1[q.2])) l hl fun j j' a h h' => hd _ _ _ h h') ?_
    congr 1
    ext q
    simp only [Finset.mem_filter, Finset.mem_univ, true_and]

theorem pairCount_mono (o : GrObj d K) (dist : Vec d K → Vec d K → Vec d K → K) (f : GrFrame d K)
    {B B' : K → Prop} (h : ∀ r, B r → B' r) : pairCount o dist f B ≤ pairCount o dist f B' := by
  unfold pairCount
  split_ifs
  · exact Finset.card_le_card fun q hq => by
      simp only [Finset.mem_filter, Finset.mem_univ, true_and] at hq ⊢
      exact ⟨hq.1, h _ hq.2⟩
  · exact Finset.card_le_card fun q hq => by
      simp only [Finset.mem_filter, Finset.mem_univ, true_and] at hq ⊢
      exact h _ hq

/-- The number of all the pairs, in the normalisation of the code. -/
theorem pairCount_true {o : GrObj d K} {n0 n1 : ℕ} {f : GrFrame d K} (h0 : f.pos0.length = n0)
    (h1 : f.pos1.length = n1) (hn0 : 0 < n0) (dist : Vec d K → Vec d K → Vec d K → K) :
    (pairCount o dist f (fun _ => True) : K) =
      (n0 : K) * (if o.same then 1 / 2 else 1) * (if o.same then (n0 : K) - 1 else n1) := by
  unfold pairCount
  split_ifs
  · have := selfPairs_true f.pos0
    rw [h0] at this
    have : (2 : K) * (Spec.selfPairs (fun _ _ => True) f.pos0 : ℕ) = n0 * ((n0 - 1 : ℕ) : K) := by
      exact_mod_cast this
    rw [Nat.cast_sub (by omega)] at this
    push_cast at this
    linarith
  · have : Spec.crossPairs (fun _ _ => True) f.pos0 f.pos1 = n0 * n1 := by
      unfold Spec.crossPairs
      have e : (Finset.univ.filter fun q : Fin f.pos0.length × Fin f.pos1.length =>
          (fun _ _ => True) f.pos0[q.1] f.pos1[q.2]) = Finset.univ := by ext q; simp
      refine Eq.trans (Eq.trans (by congr) (congrArg _ e)) ?_
      rw [Finset.card_univ, Fintype.card_prod, Fintype.card_fin,
        Fintype.card_fin, h0, h1]
    rw [this]
    push_cast
    ring

theorem meanCount_sum (F : List (GrFrame d K)) (H : ℕ → GrFrame d K → ℕ) (l : List ℕ) :
    (l.map fun j => meanCount F (H j)).sum = meanCount F fun f => (l.map fun j => H j f).sum := by
  unfold meanCount
  induction l with
  | nil => simp
  | cons i l ih =>
    simp only [List.map_cons, List.sum_cons, ih, ← add_div]
    congr 1
    simp only [Nat.cast_add]
    rw [← List.sum_map_add]

theorem meanCount_le {F : List (GrFrame d K)} (hF : F ≠ []) {H : GrFrame d K → ℕ} {c : K}
    (h : ∀ f ∈ F, (H f : K) ≤ c) : meanCount F H ≤ c := by
  unfold meanCount
  have hl : (0 : K) < F.length := by exact_mod_cast List.length_pos_iff.2 hF
  rw [div_le_iff₀ hl]
  clear hF hl
  induction F with
  | nil => simp
  | cons f F ih =>
    have h1 := h f (by simp)
    have h2 := ih fun f hf => h f (by simp [hf])
    simp only [List.map_cons, List.sum_cons, List.length_cons, Nat.cast_add, Nat.cast_one]
    linarith

theorem meanCount_eq {F : List (GrFrame d K)} (hF : F ≠ []) {H : GrFrame d K → ℕ} {c : K}
    (h : ∀ f ∈ F, (H f : K) = c) : meanCount F H = c := by
  unfold meanCount
  have hl : (0 : K) < F.length := by exact_mod_cast List.length_pos_iff.2 hF
  rw [div_eq_iff hl.ne']
  clear hF hl
  induction F with
  | nil => simp
  | cons f F ih =>
    have h1 := h f (by simp)
    have h2 := ih fun f hf => h f (by simp [hf])
    simp only [List.map_cons, List.sum_cons, List.length_cons, Nat.cast_add, Nat.cast_one, h1, h2]
    ring

theorem meanCount_nonneg (F : List (GrFrame d K)) (H : GrFrame d K → ℕ) : 0 ≤ meanCount F H := by
  unfold meanCount
  refine div_nonneg (List.sum_nonneg ?_) (Nat.cast_nonneg _)
  simp

theorem odd_factorial (k : ℕ) : (2 * k + 1).factorial ≠ 2 * k.factorial ^ 2 * 4 ^ k := by
  have h1 : (2 * k + 1).factorial = (2 * k + 1).doubleFactorial * (2 ^ k * k.factorial) := by
    rw [Nat.factorial_eq_mul_doubleFactorial, Nat.doubleFactorial_two_mul]
  have h2 : ∀ k, Odd (2 * k + 1).doubleFactorial := by
    intro k
    induction k with
    | zero => decide
    | succ k ih =>
      rw [show 2 * (k + 1) + 1 = (2 * k + 1) + 2 by ring, Nat.doubleFactorial_add_two]
      exact Odd.mul (by exact ⟨k + 1, by ring⟩) ih
  rw [h1]
  intro h
  have e : 2 * k.factorial ^ 2 * 4 ^ k = 2 * (2 ^ k * k.factorial) * (2 ^ k * k.factorial) := by
    rw [show (4 : ℕ) = 2 * 2 by norm_num, mul_pow]; ring
  rw [e] at h
  have h3 : (2 * k + 1).doubleFactorial = 2 * (2 ^ k * k.factorial) :=
    Nat.eq_of_mul_eq_mul_right (by have := Nat.factorial_pos k; positivity) h
  have := h2 k
  rw [h3] at this
  exact absurd this (by rw [Nat.not_odd_iff_even]; exact even_two_mul _)

/-- **C74.** The volume of the shell between `a` and `b` that normalizes g(r) is right in even dimension and in
three dimensions, and wrong in every other dimension. -/
theorem C74_shell_volume {pi a b : K} (hpi : 0 < pi) (hd : 0 < d) (ha : 0 ≤ a) (hab : a < b) :
    shellVol pi d a b = Spec.ballVolume pi d b - Spec.ballVolume pi d a ↔ Even d ∨ d = 3 := by
  unfold shellVol Spec.ballVolume
  have hp : 0 < b ^ d - a ^ d := sub_pos.2 (pow_lt_pow_left₀ hab ha hd.ne')
  by_cases h2 : d = 2
  · subst h2
    simp only [even_two, if_true, true_or, iff_true, Nat.div_self (by norm_num : 0 < 2), pow_one,
      Nat.factorial_one, Nat.cast_one]
    ring
  by_cases h3 : d = 3
  · subst h3
    have : ¬Even 3 := by decide
    simp only [this, if_false, or_true, iff_true, show ¬(3 = 2) by decide, if_true,
      show 3 / 2 = 1 by norm_num, pow_one, Nat.factorial_one, Nat.cast_one, show Nat.factorial 3 = 6 by rfl]
    push_cast
    ring
  rw [if_neg h2, if_neg h3]
  by_cases he : Even d
  · simp only [he, if_true, true_or, iff_true]
    ring
  · simp only [he, if_false, h3, or_self, iff_false]
    obtain ⟨k, rfl⟩ := Nat.not_even_iff_odd.1 he
    have hk : (2 * k + 1) / 2 = k := by omega
    rw [hk, ← mul_sub]
    intro h
    have h4 : pi ^ k / (k.factorial : K)
        = 2 * (k.factorial : K) * (4 * pi) ^ k / ((2 * k + 1).factorial : K) := by
      apply mul_right_cancel₀ hp.ne'
      rw [← h]; ring
    have p1 : ((2 * k + 1).factorial : K) ≠ 0 := by exact_mod_cast Nat.factorial_ne_zero _
    have p2 : (k.factorial : K) ≠ 0 := by exact_mod_cast Nat.factorial_ne_zero _
    rw [div_eq_div_iff p2 p1, mul_pow] at h4
    have h5 : ((2 * k + 1).factorial : K) = 2 * (k.factorial : K) ^ 2 * 4 ^ k := by
      apply mul_left_cancel₀ (pow_pos hpi k).ne'
      rw [h4]; ring
    exact odd_factorial k (by exact_mod_cast h5)

theorem table_neighbours {pi w k : K} (hpi : 0 < pi) (hk : ∀ a b, 0 ≤ a → a < b →
      Spec.ballVolume pi d b - Spec.ballVolume pi d a = k * shellVol pi d a b) (o : GrObj d K) {n0 n1 : ℕ} {f0 : GrFrame d K} {sq : K → K}
    (h : GrRegular sq o w n0 n1 f0) {volume : K} (hv : 0 < volume) (F : List (GrFrame d K)) (l : List ℕ) (m : K)
    (H : ℕ → GrFrame d K → ℕ) :
    Spec.neighbours pi w ((n1 : K) / volume) d ((l.map fun j : ℕ => (((j : K) + 1 / 2) * w,
        some (grVal o pi w n0 n1 F volume j (H j)))).filter fun p => p.1 ≤ m)
      = k * meanCount F (fun f => ((l.filter fun j : ℕ => ((j : K) + 1 / 2) * w ≤ m).map fun j => H j f).sum)
        / ((n0 : K) * (if o.same then 1 / 2 else 1)) := by
  have hd : 0 < d := by obtain ⟨c, -⟩ := h.fit; exact lt_of_le_of_lt (Nat.zero_le _) c.isLt
  rw [← meanCount_sum]
  unfold Spec.neighbours
  rw [List.filter_map, List.map_map]
  have : ((fun p : K × Option K => decide (p.1 ≤ m)) ∘ fun j : ℕ => (((j : K) + 1 / 2) * w,
        some (grVal o pi w n0 n1 F volume j (H j)))) = fun j : ℕ => decide (((j : K) + 1 / 2) * w ≤ m) := rfl
  rw [this]
  generalize (l.filter fun j : ℕ => decide (((j : K) + 1 / 2) * w ≤ m)) = l'
  induction l' with
  | nil => simp
  | cons j l' ih =>
    rw [List.map_cons, List.map_cons, List.sum_cons, List.sum_cons, ih, mul_add, add_div]
    congr 1
    have h1 : 0 < shellVol pi d ((j : K) * w) (((j : K) + 1) * w) := by
      have := h.w_pos
      exact shellVol_pos hpi hd (by positivity) (by nlinarith)
    have h0' : (n0 : K) ≠ 0 := by exact_mod_cast h.n0_pos.ne'
    have h1' : (n1 : K) ≠ 0 := by exact_mod_cast h.n1_pos.ne'
    have e : ((j : K) + 1 / 2) * w - w / 2 = (j : K) * w := by ring
    have e' : ((j : K) + 1 / 2) * w + w / 2 = ((j : K) + 1) * w := by ring
    have h2 : (if o.same = true then (1 / 2 : K) else 1) ≠ 0 := by split_ifs <;> norm_num
    have hs := hk ((j : K) * w) (((j : K) + 1) * w) (by have := h.w_pos; positivity)
      (by have := h.w_pos; nlinarith)
    simp only [Function.comp_apply, Option.getD_some, e, e', hs]
    unfold grVal
    generalize shellVol pi d ((j : K) * w) (((j : K) + 1) * w) = s at *
    generalize (if o.same = true then (1 / 2 : K) else 1) = q at *
    have := h1.ne'
    have := hv.ne'
    field_simp

theorem grVal_nonneg {pi w : K} (hpi : 0 < pi) (o : GrObj d K) {n0 n1 : ℕ} {f0 : GrFrame d K} {sq : K → K}
    (h : GrRegular sq o w n0 n1 f0) {volume : K} (hv : 0 < volume) (F : List (GrFrame d K)) (j : ℕ)
    (H : GrFrame d K → ℕ) : 0 ≤ grVal o pi w n0 n1 F volume j H := by
  have hd : 0 < d := by obtain ⟨c, -⟩ := h.fit; exact lt_of_le_of_lt (Nat.zero_le _) c.isLt
  exact div_nonneg (meanCount_nonneg F H) (grNorm_pos hpi hd h.w_pos hv h.n0_pos h.n1_pos o.same).le

theorem bin_unique {w : K} (hw : 0 < w) {j j' : ℕ} {r : K} (h : (j : K) * w ≤ r ∧ r < ((j : K) + 1) * w)
    (h' : (j' : K) * w ≤ r ∧ r < ((j' : K) + 1) * w) : j = j' := by
  have h1 : (j : K) < (j' : K) + 1 := lt_of_mul_lt_mul_right (lt_of_le_of_lt h.1 h'.2) hw.le
  have h2 : (j' : K) < (j : K) + 1 := lt_of_mul_lt_mul_right (lt_of_le_of_lt h'.1 h.2) hw.le
  have h1' : j < j' + 1 := by exact_mod_cast h1
  have h2' : j' < j + 1 := by exact_mod_cast h2
  omega

theorem bin_exists {w r : K} (hw : 0 < w) (hr : 0 ≤ r) : ∃ j : ℕ, (j : K) * w ≤ r ∧ r < ((j : K) + 1) * w := by
  refine ⟨⌊r / w⌋.toNat, ?_⟩
  have h0 : 0 ≤ ⌊r / w⌋ := Int.floor_nonneg.2 (div_nonneg hr hw.le)
  have e : ((⌊r / w⌋.toNat : ℕ) : K) = (⌊r / w⌋ : K) := by
    have := Int.toNat_of_nonneg h0
    exact_mod_cast congrArg (Int.cast : ℤ → K) this
  rw [e]
  exact ⟨(le_div_iff₀ hw).1 (Int.floor_le _), (div_lt_iff₀ hw).1 (Int.lt_floor_add_one _)⟩

theorem inBin_unique {w : K} (hw : 0 < w) {n j j' : ℕ} {r : K} (h : Spec.InBin (defaultEdges w n) j r)
    (h' : Spec.InBin (defaultEdges w n) j' r) : j = j' := by
  have hj : j < n := by
    obtain ⟨_, b, _, hb, _⟩ := h
    have := (List.getElem?_eq_some_iff.1 hb).1
    simp [defaultEdges] at this; omega
  have hj' : j' < n := by
    obtain ⟨_, b, _, hb, _⟩ := h'
    have := (List.getElem?_eq_some_iff.1 hb).1
    simp [defaultEdges] at this; omega
  rw [inBin_default hj] at h
  rw [inBin_default hj'] at h'
  obtain ⟨a1, a2⟩ := h
  obtain ⟨b1, b2⟩ := h'
  rcases a2 with a2 | ⟨a2, a3⟩
  · rcases b2 with b2 | ⟨b2, b3⟩
    · exact bin_unique hw ⟨a1, a2⟩ ⟨b1, b2⟩
    · rw [b3] at a2
      have h1 : (j' : K) + 1 < (j : K) + 1 := lt_of_mul_lt_mul_right a2 hw.le
      have : j' + 1 < j + 1 := by exact_mod_cast h1
      omega
  · rcases b2 with b2 | ⟨b2, b3⟩
    · rw [a3] at b2
      have h1 : (j : K) + 1 < (j' : K) + 1 := lt_of_mul_lt_mul_right b2 hw.le
      have : j + 1 < j' + 1 := by exact_mod_cast h1
      omega
    · omega

theorem shell_right {pi : K} (hpi : 0 < pi) (hd : 0 < d) (hdim : Even d ∨ d = 3) (a b : K) (ha : 0 ≤ a)
    (hab : a < b) : Spec.ballVolume pi d b - Spec.ballVolume pi d a = 1 * shellVol pi d a b := by
  rw [one_mul, (C74_shell_volume hpi hd ha hab).2 hdim]

theorem sum_rule {pi w k : K} (hpi : 0 < pi) (hk0 : 0 < k) (hk : ∀ a b, 0 ≤ a → a < b →
      Spec.ballVolume pi d b - Spec.ballVolume pi d a = k * shellVol pi d a b) (o : GrObj d K) {n0 n1 : ℕ}
    {f0 : GrFrame d K} {sq : K → K} (h : GrRegular sq o w n0 n1 f0) {volume : K} (hv : 0 < volume)
    (N : ℕ) (m : K) (dist : Vec d K → Vec d K → Vec d K → K) (B : ℕ → K → Prop)
    (hB : ∀ j j' r, B j r → B j' r → j = j') (H : ℕ → GrFrame d K → ℕ)
    (hH : ∀ j < N, ∀ f, H j f = pairCount o dist f (B j)) (t : List (K × Option K))
    (ht : t = ((List.range N).map fun j : ℕ => (((j : K) + 1 / 2) * w,
      some (grVal o pi w n0 n1 (originFrames o.frames o.skip) volume j (H j)))).filter fun p => p.1 ≤ m) :
    (∀ p ∈ t, ∃ g, p.2 = some g ∧ 0 ≤ g) ∧
    Spec.neighbours pi w ((n1 : K) / volume) d t ≤ k * (if o.same then (n0 : K) - 1 else n1) ∧
    ((∀ f ∈ o.frames, ∀ u ∈ f.pos0, ∀ v ∈ f.pos1, ∃ j < N, ((j : K) + 1 / 2) * w ≤ m ∧ B j (dist f.side u v)) →
      Spec.neighbours pi w ((n1 : K) / volume) d t = k * if o.same then (n0 : K) - 1 else n1) := by
  have hne : o.frames ≠ [] := by intro hc; have := h.first; rw [hc] at this; simp at this
  have hF := originFrames_ne_nil hne h.skip_pos
  have h0 : (0 : K) < n0 := by exact_mod_cast h.n0_pos
  have hq : (0 : K) < (n0 : K) * (if o.same then 1 / 2 else 1) := by
    apply mul_pos h0; split_ifs <;> norm_num
  refine ⟨?_, ?_⟩
  · intro p hp
    rw [ht, List.mem_filter, List.mem_map] at hp
    obtain ⟨⟨j, -, rfl⟩, -⟩ := hp
    exact ⟨_, rfl, grVal_nonneg hpi o h hv _ _ _⟩
  set l := (List.range N).filter fun j : ℕ => ((j : K) + 1 / 2) * w ≤ m with hl
  have hlm : ∀ j, j ∈ l ↔ j < N ∧ ((j : K) + 1 / 2) * w ≤ m := by
    intro j; rw [hl, List.mem_filter, List.mem_range, decide_eq_true_iff]
  have hlN : l.Nodup := List.nodup_range.filter _
  have hc : ∀ f, (l.map fun j => H j f).sum = pairCount o dist f fun r => ∃ j ∈ l, B j r := by
    intro f
    rw [← pairCount_sum_bins o dist f B l hlN hB]
    congr 1
    apply List.map_congr_left
    intro j hj
    exact hH j ((hlm j).1 hj).1 f
  rw [ht, table_neighbours hpi hk o h hv]
  simp only [hc, ← hl]
  constructor
  · rw [mul_div_assoc]
    refine mul_le_mul_of_nonneg_left ?_ hk0.le
    rw [div_le_iff₀ hq]
    apply meanCount_le hF
    intro f hf
    have hf' := originFrames_mem hf
    have h1 := pairCount_true (o := o) (h.len0 f hf') (h.len1 f hf') h.n0_pos dist
    have h2 := pairCount_mono o dist f (B := fun r => ∃ j ∈ l, B j r) (B' := fun _ => True) fun _ _ => trivial
    have h3 : (pairCount o dist f (fun r => ∃ j ∈ l, B j r) : K) ≤ pairCount o dist f (fun _ => True) := by
      exact_mod_cast h2
    rw [h1] at h3
    linarith
  · intro hcov
    rw [mul_div_assoc]
    congr 1
    rw [div_eq_iff hq.ne']
    apply meanCount_eq hF
    intro f hf
    have hf' := originFrames_mem hf
    have h1 := pairCount_true (o := o) (h.len0 f hf') (h.len1 f hf') h.n0_pos dist
    have h2 : pairCount o dist f (fun r => ∃ j ∈ l, B j r) = pairCount o dist f fun _ => True := by
      apply pairCount_congr (fun hs => h.same hs f hf')
      intro u hu v hv
      rw [iff_true]
      obtain ⟨j, hj, hjm, hb⟩ := hcov f hf' u hu v hv
      exact ⟨j, (hlm j).2 ⟨hj, hjm⟩, hb⟩
    rw [h2, h1]
    ring

/-- **C38.** The values are not negative and, in even dimension and in three dimensions, the number of neighbours
per particle obtained by summing them does not exceed `N-1` (or the number of particles of the other
group), and is equal to it when the grid covers all the distances. `V` is the volume of the last frame
used, and the grid is the default one. -/
theorem C38_legacy_partial (sq : K → K) (hsq : ∀ x, 0 ≤ sq x) {pi : K} (hpi : 0 < pi) (hdim : Even d ∨ d = 3)
    (o : GrObj d K) {w : K} {n0 n1 : ℕ} {f0 : GrFrame d K} (h : GrRegular sq o w n0 n1 f0) :
    ∃ t, grLegacy sq pi o = .ok t ∧ (∀ p ∈ t, ∃ g, p.2 = some g ∧ 0 ≤ g) ∧
      Spec.neighbours pi w ((n1 : K) / ∏ c, ((originFrames o.frames o.skip).getLastD f0).side c) d t
        ≤ (if o.same then (n0 : K) - 1 else n1) ∧
      ((∀ f ∈ o.frames, ∀ u ∈ f.pos0, ∀ v ∈ f.pos1,
        (if 0 < o.rmax then grDist sq f.side u v + w / 2 ≤ o.rmax
          else ∀ g ∈ o.frames, ∀ c, grDist sq f.side u v + w / 2 ≤ g.side c / 2) ∧
        ∃ c, grDist sq f.side u v + w / 2 ≤ f0.side c * sq (d : K)) →
        Spec.neighbours pi w ((n1 : K) / ∏ c, ((originFrames o.frames o.skip).getLastD f0).side c) d t
          = if o.same then (n0 : K) - 1 else n1) := by
  have hd : 0 < d := by obtain ⟨c, -⟩ := h.fit; exact lt_of_le_of_lt (Nat.zero_le _) c.isLt
  obtain ⟨n, hn, hg, hn2⟩ := grSetupGrid_default sq hsq o f0.side h.w_pos h.rgrid h.dr h.fit
  have hL := grLegacy_closed sq hpi o h.system hn hg
  have hlast := lastFrame_mem h.first h.skip_pos
  set g := (originFrames o.frames o.skip).getLastD f0 with hgdef
  obtain ⟨m, hm1, -, hm2, hm⟩ := grCrop_ok (rmax := o.rmax) (side := g.side) hd
  rw [hm] at hL
  obtain ⟨r1, r2, r3⟩ := sum_rule hpi one_pos (shell_right hpi hd hdim) o h (cellVolume_pos (h.side_pos g hlast)) n m (grDist sq)
    (fun j => Spec.InBin (defaultEdges w n) j) (fun j j' r => inBin_unique h.w_pos) _ (fun j _ f => rfl) _ rfl
  rw [one_mul] at r2 r3
  refine ⟨_, hL, r1, r2, fun hcov => r3 ?_⟩
  intro f hf u hu v hv
  obtain ⟨c1, c, c2⟩ := hcov f hf u hu v hv
  have hr0 : 0 ≤ grDist sq f.side u v := hsq _
  generalize grDist sq f.side u v = r at *
  obtain ⟨j, hj1, hj2⟩ := bin_exists h.w_pos hr0
  have := hn2 c
  have hjn : j < n := by
    have : (j : K) < n := lt_of_mul_lt_mul_right (by linarith : (j : K) * w < n * w) h.w_pos.le
    exact_mod_cast this
  refine ⟨j, hjn, ?_, (inBin_default hjn r).2 ⟨hj1, Or.inl hj2⟩⟩
  have : r + w / 2 ≤ m := by
    split_ifs at c1 with hr
    · rw [hm1 hr]; exact c1
    · obtain ⟨c', hc'⟩ := hm2 hr
      rw [← hc']; exact c1 g hlast c'
  linarith

/-- **C38** for the fast calculation, without linked cells. -/
theorem C38_fast_partial (sq : K → K) (hsq : ∀ x, 0 ≤ sq x) {pi : K} (hpi : 0 < pi) (hdim : Even d ∨ d = 3)
    (huge : K) (o : GrObj d K) {w : K} {n0 n1 : ℕ} {f0 : GrFrame d K} (h : GrRegular sq o w n0 n1 f0)
    (hper : ∀ f ∈ o.frames, ∀ c, f.periodic c = true) (hlc : useLinkedCells o f0 = .ok false) :
    ∃ t, grFast sq pi huge o = .ok t ∧ (∀ p ∈ t, ∃ g, p.2 = some g ∧ 0 ≤ g) ∧
      Spec.neighbours pi w ((n1 : K) / ∏ c, ((originFrames o.frames o.skip).getLastD f0).side c) d t
        ≤ (if o.same then (n0 : K) - 1 else n1) ∧
      ((∀ f ∈ o.frames, ∀ u ∈ f.pos0, ∀ v ∈ f.pos1,
        (if 0 < o.rmax then fDist sq f.side u v + w / 2 ≤ o.rmax
          else ∀ g ∈ o.frames, ∀ c, fDist sq f.side u v + w / 2 ≤ g.side c / 2) ∧
        ∃ c, fDist sq f.side u v + 3 / 2 * w ≤ f0.side c * sq (d : K)) →
        Spec.neighbours pi w ((n1 : K) / ∏ c, ((originFrames o.frames o.skip).getLastD f0).side c) d t
          = if o.same then (n0 : K) - 1 else n1) := by
  have hd : 0 < d := by obtain ⟨c, -⟩ := h.fit; exact lt_of_le_of_lt (Nat.zero_le _) c.isLt
  obtain ⟨n, hn, hg, hn2⟩ := grSetupGrid_default sq hsq o f0.side h.w_pos h.rgrid h.dr h.fit
  have hF := grFast_closed sq hpi huge o h.system hn hg false hlc (fun c => c = none) rfl
    (fun f => (List.range n).map fun b : ℕ => pairCount o (fDist sq) f
          fun r => (b : K) * w ≤ r ∧ r < ((b : K) + 1) * w) (by simp)
    (fun st f hf hc h1 h2 => ⟨none, rfl, fastFrame_direct sq hsq huge o h.system st f hf (hper f hf) hc h1 h2⟩)
  have hlast := lastFrame_mem h.first h.skip_pos
  set g := (originFrames o.frames o.skip).getLastD f0 with hgdef
  obtain ⟨m, hm1, -, hm2, hm⟩ := grCrop_ok (rmax := o.rmax) (side := g.side) hd
  rw [hm] at hF
  obtain ⟨r1, r2, r3⟩ := sum_rule hpi one_pos (shell_right hpi hd hdim) o h (cellVolume_pos (h.side_pos g hlast)) (n - 1) m (fDist sq)
    (fun j r => (j : K) * w ≤ r ∧ r < ((j : K) + 1) * w) (fun j j' r => bin_unique h.w_pos)
    (fun j f => ((List.range n).map fun b : ℕ => pairCount o (fDist sq) f
          fun r => (b : K) * w ≤ r ∧ r < ((b : K) + 1) * w).getD j 0)
    (fun j hj f => by
      rw [List.getD_eq_getElem?_getD, List.getElem?_map, List.getElem?_range (by omega)]
      rfl) _ rfl
  rw [one_mul] at r2 r3
  refine ⟨_, hF, r1, r2, fun hcov => r3 ?_⟩
  intro f hf u hu v hv
  obtain ⟨c1, c, c2⟩ := hcov f hf u hu v hv
  have hr0 : 0 ≤ fDist sq f.side u v := hsq _
  generalize fDist sq f.side u v = r at *
  obtain ⟨j, hj1, hj2⟩ := bin_exists h.w_pos hr0
  have := hn2 c
  have hjn : j < n - 1 := by
    have : (j : K) + 1 < n := lt_of_mul_lt_mul_right (by linarith : ((j : K) + 1) * w < n * w) h.w_pos.le
    have : j + 1 < n := by exact_mod_cast this
    omega
  refine ⟨j, hjn, ?_, hj1, hj2⟩
  have : r + w / 2 ≤ m := by
    split_ifs at c1 with hr
    · rw [hm1 hr]; exact c1
    · obtain ⟨c', hc'⟩ := hm2 hr
      rw [← hc']; exact c1 g hlast c'
  linarith


/-- **C38 fails in odd dimension other than three**: when the grid covers all the distances the number of
neighbours is `N-1` times `2 k!² 4^k / d!`, with `d = 2k+1`, which is not 1. -/
theorem C38_counterexample_odd (sq : K → K) (hsq : ∀ x, 0 ≤ sq x) {pi : K} (hpi : 0 < pi) (hdim : Odd d)
    (h3 : d ≠ 3) (o : GrObj d K) {w : K} {n0 n1 : ℕ} {f0 : GrFrame d K} (h : GrRegular sq o w n0 n1 f0)
    (hcov : ∀ f ∈ o.frames, ∀ u ∈ f.pos0, ∀ v ∈ f.pos1,
        (if 0 < o.rmax then grDist sq f.side u v + w / 2 ≤ o.rmax
          else ∀ g ∈ o.frames, ∀ c, grDist sq f.side u v + w / 2 ≤ g.side c / 2) ∧
        ∃ c, grDist sq f.side u v + w / 2 ≤ f0.side c * sq (d : K)) :
    ∃ t, grLegacy sq pi o = .ok t ∧
      Spec.neighbours pi w ((n1 : K) / ∏ c, ((originFrames o.frames o.skip).getLastD f0).side c) d t
          = 2 * ((d / 2).factorial : K) ^ 2 * 4 ^ (d / 2) / (d.factorial : K)
            * (if o.same then (n0 : K) - 1 else n1) ∧
      2 * ((d / 2).factorial : K) ^ 2 * 4 ^ (d / 2) / (d.factorial : K) ≠ 1 := by
  have hd : 0 < d := by obtain ⟨c, -⟩ := h.fit; exact lt_of_le_of_lt (Nat.zero_le _) c.isLt
  have p1 : (d.factorial : K) ≠ 0 := by exact_mod_cast Nat.factorial_ne_zero _
  have p2 : (0 : K) < ((d / 2).factorial : K) := by exact_mod_cast Nat.factorial_pos _
  have p3 : (0 : K) < (d.factorial : K) := by exact_mod_cast Nat.factorial_pos _
  obtain ⟨n, hn, hg, hn2⟩ := grSetupGrid_default sq hsq o f0.side h.w_pos h.rgrid h.dr h.fit
  have hL := grLegacy_closed sq hpi o h.system hn hg
  have hlast := lastFrame_mem h.first h.skip_pos
  set g := (originFrames o.frames o.skip).getLastD f0 with hgdef
  obtain ⟨m, hm1, -, hm2, hm⟩ := grCrop_ok (rmax := o.rmax) (side := g.side) hd
  rw [hm] at hL
  have hk : ∀ a b : K, 0 ≤ a → a < b → Spec.ballVolume pi d b - Spec.ballVolume pi d a
      = 2 * ((d / 2).factorial : K) ^ 2 * 4 ^ (d / 2) / (d.factorial : K) * shellVol pi d a b := by
    intro a b _ _
    unfold Spec.ballVolume shellVol
    have he : ¬Even d := Nat.not_even_iff_odd.2 hdim
    rw [if_neg he, if_neg he, if_neg (by rintro rfl; exact he even_two), if_neg h3, mul_pow]
    field_simp
  obtain ⟨-, -, r3⟩ := sum_rule hpi (k := 2 * ((d / 2).factorial : K) ^ 2 * 4 ^ (d / 2) / (d.factorial : K))
    (by positivity) hk o h (cellVolume_pos (h.side_pos g hlast)) n m (grDist sq)
    (fun j => Spec.InBin (defaultEdges w n) j) (fun j j' r => inBin_unique h.w_pos) _ (fun j _ f => rfl) _ rfl
  refine ⟨_, hL, r3 ?_, ?_⟩
  · intro f hf u hu v hv
    obtain ⟨c1, c, c2⟩ := hcov f hf u hu v hv
    have hr0 : 0 ≤ grDist sq f.side u v := hsq _
    generalize grDist sq f.side u v = r at *
    obtain ⟨j, hj1, hj2⟩ := bin_exists h.w_pos hr0
    have := hn2 c
    have hjn : j < n := by
      have : (j : K) < n := lt_of_mul_lt_mul_right (by linarith : (j : K) * w < n * w) h.w_pos.le
      exact_mod_cast this
    refine ⟨j, hjn, ?_, (inBin_default hjn r).2 ⟨hj1, Or.inl hj2⟩⟩
    have : r + w / 2 ≤ m := by
      split_ifs at c1 with hr
      · rw [hm1 hr]; exact c1
      · obtain ⟨c', hc'⟩ := hm2 hr
        rw [← hc']; exact c1 g hlast c'
    linarith
  · rw [Ne, div_eq_iff p1, one_mul]
    obtain ⟨k, rfl⟩ := hdim
    rw [show (2 * k + 1) / 2 = k by omega]
    intro hc
    exact odd_factorial k (by exact_mod_cast hc.symm)

/-- Three particles on a line. -/
def grExample1 : GrObj 1 ℚ :=
  { frames := [⟨![8], fun _ => true, [![0], ![1], ![3]], [![0], ![1], ![3]]⟩]
    skip := 1, same := true, rgrid := none, dr := .float 1, rmax := -1 }

/-- The example above with a cut-off covering all the distances: three neighbours per particle out of three. In one
dimension the sum gives four instead of two. -/
example :
    (do
      let t ← grLegacy Rat.sqrt 3 { grExample with rmax := 6 }
      return Spec.neighbours 3 1 (4 / 48) 2 t) = (.ok 3 : Py ℚ) ∧
    (do
      let t ← grFast Rat.sqrt 3 1000 { grExample with rmax := 6 }
      return Spec.neighbours 3 1 (4 / 48) 2 t) = (.ok 3 : Py ℚ) ∧
    (do
      let t ← grLegacy Rat.sqrt 3 grExample1
      return Spec.neighbours 3 1 (3 / 8) 1 t) = (.ok 4 : Py ℚ) := by
  refine ⟨by decide +kernel, by decide +kernel, by decide +kernel⟩

end
end PP.Props
