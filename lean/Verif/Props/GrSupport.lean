import Verif.Props.GrCells

/-!
# C191: where the radial distribution function is zero
-/

set_option linter.unusedSectionVars false

namespace PP.Spec

/-- There are two different particles of the list `x` (`same`), or one of `x` and one of `y`, whose relation is `P`. -/
def HasPair {V : Type*} (same : Bool) (P : V → V → Prop) (x y : List V) : Prop :=
  if same then ∃ (i j : ℕ) (u v : V), i < j ∧ x[i]? = some u ∧ x[j]? = some v ∧ P u v
  else ∃ u ∈ x, ∃ v ∈ y, P u v

end PP.Spec

namespace PP.Props
open PP Classical

section
variable {K : Type} [Field K] [LinearOrder K] [IsStrictOrderedRing K] [FloorRing K] {d : ℕ}

theorem pairCount_ne_zero (o : GrObj d K) (dist : Vec d K → Vec d K → Vec d K → K) (f : GrFrame d K) (B : K → Prop)
    (hsymm : ∀ u v, dist f.side u v = dist f.side v u) :
    pairCount o dist f B ≠ 0 ↔ Spec.HasPair o.same (fun u v => B (dist f.side u v)) f.pos0 f.pos1 := by
  unfold pairCount Spec.HasPair
  split_ifs
  · unfold Spec.selfPairs
    rw [Finset.card_ne_zero]
    constructor
    · rintro ⟨q, hq⟩
      simp only [Finset.mem_filter, Finset.mem_univ, true_and] at hq
      exact ⟨q.1, q.2, f.pos0[q.1], f.pos0[q.2], hq.1, by simp, by simp, by show B _; rw [hsymm]; exact hq.2⟩
    · rintro ⟨i, j, u, v, hij, hu, hv, hB⟩
      obtain ⟨hi, rfl⟩ := List.getElem?_eq_some_iff.1 hu
      obtain ⟨hj, rfl⟩ := List.getElem?_eq_some_iff.1 hv
      refine ⟨(⟨i, hi⟩, ⟨j, hj⟩), ?_⟩
      simp only [Finset.mem_filter, Finset.mem_univ, true_and]
      exact ⟨hij, by rw [hsymm]; exact hB⟩
  · unfold Spec.crossPairs
    rw [Finset.card_ne_zero]
    constructor
    · rintro ⟨q, hq⟩
      simp only [Finset.mem_filter, Finset.mem_univ, true_and] at hq
      exact ⟨f.pos0[q.1], List.getElem_mem _, f.pos1[q.2], List.getElem_mem _, hq⟩
    · rintro ⟨u, hu, v, hv, hB⟩
      obtain ⟨i, hi, rfl⟩ := List.mem_iff_getElem.1 hu
      obtain ⟨j, hj, rfl⟩ := List.mem_iff_getElem.1 hv
      refine ⟨(⟨i, hi⟩, ⟨j, hj⟩), ?_⟩
      simp only [Finset.mem_filter, Finset.mem_univ, true_and]
      exact hB

theorem meanCount_ne_zero {F : List (GrFrame d K)} {H : GrFrame d K → ℕ} :
    meanCount F H ≠ 0 ↔ ∃ f ∈ F, H f ≠ 0 := by
  have e : (F.map fun f => (H f : K)).sum = (((F.map H).sum : ℕ) : K) := by
    induction F with
    | nil => simp
    | cons a F ih => simp only [List.map_cons, List.sum_cons, ih]; push_cast; rfl
  unfold meanCount
  rw [e]
  constructor
  · intro h
    by_contra hc
    push Not at hc
    apply h
    rw [List.sum_eq_zero (by simpa using hc)]
    simp
  · rintro ⟨f, hf, hne⟩
    have h1 : H f ≤ (F.map H).sum := List.le_sum_of_mem (List.mem_map_of_mem hf)
    have h2 : 0 < F.length := List.length_pos_of_mem hf
    have h3 : ((F.map H).sum : K) ≠ 0 := by
      have : (F.map H).sum ≠ 0 := by omega
      exact_mod_cast this
    have h4 : (F.length : K) ≠ 0 := by exact_mod_cast h2.ne'
    exact div_ne_zero h3 h4

theorem grVal_ne_zero {pi w : K} (hpi : 0 < pi) (o : GrObj d K) {n0 n1 : ℕ} {f0 : GrFrame d K}
    (h : GrSystem o w n0 n1 f0) {volume : K} (hv : 0 < volume) (F : List (GrFrame d K)) (j : ℕ)
    (H : GrFrame d K → ℕ) : grVal o pi w n0 n1 F volume j H ≠ 0 ↔ ∃ f ∈ F, H f ≠ 0 := by
  unfold grVal
  rw [← meanCount_ne_zero (K := K)]
  have := (grNorm_pos (j := j) hpi h.dim_pos h.w_pos hv h.n0_pos h.n1_pos o.same).ne'
  exact ⟨fun h hc => h (by rw [hc, zero_div]), fun h => div_ne_zero h this⟩

/-- **C191** for the plain calculation: the value at `r` differs from zero if, in one of the frames used, there are two
particles whose distance is in the bin of centre `r`, and only then (up to the upper edge of the bin). -/
theorem C191_legacy (sq : K → K) (hsq : ∀ x, 0 ≤ sq x) {pi : K} (hpi : 0 < pi) (o : GrObj d K) {w : K} {n0 n1 : ℕ}
    {f0 : GrFrame d K} (h : GrRegular sq o w n0 n1 f0) :
    ∃ t, grLegacy sq pi o = .ok t ∧ ∀ p ∈ t, ∃ g, p.2 = some g ∧
      ((∃ f ∈ originFrames o.frames o.skip, Spec.HasPair o.same (fun u v => p.1 - w / 2 ≤ grDist sq f.side u v ∧
        grDist sq f.side u v < p.1 + w / 2) f.pos0 f.pos1) → g ≠ 0) ∧
      (g ≠ 0 → ∃ f ∈ originFrames o.frames o.skip, Spec.HasPair o.same (fun u v => p.1 - w / 2 ≤ grDist sq f.side u v ∧
        grDist sq f.side u v ≤ p.1 + w / 2) f.pos0 f.pos1) := by
  have hd : 0 < d := h.system.dim_pos
  obtain ⟨n, hn, hg, hn2⟩ := grSetupGrid_default sq hsq o f0.side h.w_pos h.rgrid h.dr h.fit
  have hL := grLegacy_closed sq hpi o h.system hn hg
  have hlast := lastFrame_mem h.first h.skip_pos
  set g := (originFrames o.frames o.skip).getLastD f0 with hgdef
  obtain ⟨m, -, -, -, hm⟩ := grCrop_ok (rmax := o.rmax) (side := g.side) hd
  rw [hm] at hL
  refine ⟨_, hL, fun p hp => ?_⟩
  rw [List.mem_filter, List.mem_map] at hp
  obtain ⟨⟨j, hj, rfl⟩, -⟩ := hp
  rw [List.mem_range] at hj
  refine ⟨_, rfl, ?_⟩
  rw [grVal_ne_zero hpi o h.system (cellVolume_pos (h.side_pos g hlast))]
  have hs : ∀ f ∈ o.frames, ∀ u v, grDist sq f.side u v = grDist sq f.side v u :=
    fun f hf u v => grDist_comm sq f.side u v (h.side_pos f hf)
  have mono : ∀ (P Q : Vec d K → Vec d K → Prop) (x y : List (Vec d K)), (∀ u v, P u v → Q u v) →
      Spec.HasPair o.same P x y → Spec.HasPair o.same Q x y := by
    intro P Q x y hPQ
    unfold Spec.HasPair
    split_ifs
    · rintro ⟨i, j, u, v, a, b, c, e⟩; exact ⟨i, j, u, v, a, b, c, hPQ _ _ e⟩
    · rintro ⟨u, a, v, b, e⟩; exact ⟨u, a, v, b, hPQ _ _ e⟩
  constructor
  · rintro ⟨f, hf, hP⟩
    refine ⟨f, hf, (pairCount_ne_zero o _ f _ (hs f (originFrames_mem hf))).2 (mono _ _ _ _ ?_ hP)⟩
    intro u v huv
    rw [inBin_default hj]
    refine ⟨by linarith [huv.1], Or.inl (by linarith [huv.2])⟩
  · rintro ⟨f, hf, hP⟩
    refine ⟨f, hf, mono _ _ _ _ ?_ ((pairCount_ne_zero o _ f _ (hs f (originFrames_mem hf))).1 hP)⟩
    intro u v huv
    rw [inBin_default hj] at huv
    obtain ⟨a, b | b⟩ := huv
    · exact ⟨by linarith, by linarith⟩
    · exact ⟨by linarith, by linarith [b.2]⟩

/-- **C191** for the fast calculation without linked cells: if and only if. -/
theorem C191_fast (sq : K → K) (hsq : ∀ x, 0 ≤ sq x) {pi : K} (hpi : 0 < pi) (huge : K) (o : GrObj d K) {w : K}
    {n0 n1 : ℕ} {f0 : GrFrame d K} (h : GrRegular sq o w n0 n1 f0)
    (hper : ∀ f ∈ o.frames, ∀ c, f.periodic c = true) (hlc : useLinkedCells o f0 = .ok false) :
    ∃ t, grFast sq pi huge o = .ok t ∧ ∀ p ∈ t, ∃ g, p.2 = some g ∧
      (g ≠ 0 ↔ ∃ f ∈ originFrames o.frames o.skip, Spec.HasPair o.same (fun u v => p.1 - w / 2 ≤ fDist sq f.side u v ∧
        fDist sq f.side u v < p.1 + w / 2) f.pos0 f.pos1) := by
  have hd : 0 < d := h.system.dim_pos
  obtain ⟨n, hn, hg, hn2⟩ := grSetupGrid_default sq hsq o f0.side h.w_pos h.rgrid h.dr h.fit
  have hF := grFast_closed sq hpi huge o h.system hn hg false hlc (fun c => c = none) rfl
    (fun f => (List.range n).map fun b : ℕ => pairCount o (fDist sq) f
          fun r => (b : K) * w ≤ r ∧ r < ((b : K) + 1) * w) (by simp)
    (fun st f hf hc h1 h2 => ⟨none, rfl, fastFrame_direct sq hsq huge o h.system st f hf (hper f hf) hc h1 h2⟩)
  have hlast := lastFrame_mem h.first h.skip_pos
  set g := (originFrames o.frames o.skip).getLastD f0 with hgdef
  obtain ⟨m, -, -, -, hm⟩ := grCrop_ok (rmax := o.rmax) (side := g.side) hd
  rw [hm] at hF
  refine ⟨_, hF, fun p hp => ?_⟩
  rw [List.mem_filter, List.mem_map] at hp
  obtain ⟨⟨j, hj, rfl⟩, -⟩ := hp
  rw [List.mem_range] at hj
  refine ⟨_, rfl, ?_⟩
  rw [grVal_ne_zero hpi o h.system (cellVolume_pos (h.side_pos g hlast))]
  refine exists_congr fun f => and_congr_right fun hf => ?_
  have e : ((List.range n).map fun b : ℕ => pairCount o (fDist sq) f
      fun r => (b : K) * w ≤ r ∧ r < ((b : K) + 1) * w).getD j 0 =
      pairCount o (fDist sq) f fun r => (j : K) * w ≤ r ∧ r < ((j : K) + 1) * w := by
    rw [List.getD_eq_getElem?_getD, List.getElem?_map, List.getElem?_range (by omega)]
    rfl
  rw [e, pairCount_ne_zero o _ f _ fun u v => fDist_comm sq f.side u v]
  have e1 : ((j : K) + 1 / 2) * w - w / 2 = (j : K) * w := by ring
  have e2 : ((j : K) + 1 / 2) * w + w / 2 = ((j : K) + 1) * w := by ring
  simp only [e1, e2]

/-- **C191** with linked cells, for the points whose bin does not extend beyond the cut-off. -/
theorem C191_linked_cells (sq : K → K) (hsq : ∀ x, 0 ≤ sq x) (hsq2 : ∀ x, 0 ≤ x → sq x * sq x = x) {pi : K}
    (hpi : 0 < pi) (huge : K) (o : GrObj d K) {w : K} {n0 n1 : ℕ} {f0 : GrFrame d K}
    (h : GrRegular sq o w n0 n1 f0) (hd : d = 2 ∨ d = 3) (hper : ∀ f ∈ o.frames, ∀ c, f.periodic c = true)
    (hcell : ∀ f ∈ o.frames, f.side = f0.side)
    (hin : ∀ f ∈ o.frames, ∀ x, x ∈ f.pos0 ∨ x ∈ f.pos1 → Spec.Inside f0.side x)
    (hlc : useLinkedCells o f0 = .ok true) :
    ∃ t, grFast sq pi huge o = .ok t ∧ ∀ p ∈ t, p.1 + w / 2 ≤ o.rmax → ∃ g, p.2 = some g ∧
      ((∃ f ∈ originFrames o.frames o.skip, Spec.HasPair o.same (fun u v => p.1 - w / 2 ≤ grDist sq f.side u v ∧
        grDist sq f.side u v < p.1 + w / 2) f.pos0 f.pos1) → g ≠ 0) ∧
      (g ≠ 0 → ∃ f ∈ originFrames o.frames o.skip, Spec.HasPair o.same (fun u v => p.1 - w / 2 ≤ grDist sq f.side u v ∧
        grDist sq f.side u v ≤ p.1 + w / 2) f.pos0 f.pos1) := by
  obtain ⟨fast, legacy, h1, h2, -, h4⟩ := C44_linked_cells sq hsq hsq2 hpi huge o h hd hper hcell hin hlc
  obtain ⟨t, e1, e2⟩ := C191_legacy sq hsq hpi o h
  rw [h2] at e1
  obtain rfl := Except.ok.inj e1
  refine ⟨fast, h1, fun p hp hm => e2 p ?_⟩
  have : p ∈ fast.filter fun p => p.1 + w / 2 ≤ o.rmax := List.mem_filter.2 ⟨hp, by simpa using hm⟩
  rw [h4] at this
  exact (List.mem_filter.1 this).1

end

/-- Four particles, two frames: no pair is closer than 2 in the first frame alone, the first two points are zero. -/
example : grLegacy Rat.sqrt 3 { grExample with skip := 2 } = .ok [(1 / 2, some 0), (3 / 2, some 0), (5 / 2, some (6 / 5))] ∧
    GrRegular Rat.sqrt { grExample with skip := 2 } 1 4 4 ⟨![8, 6], fun _ => true, [![0, 0], ![3, 0], ![3, -2], ![-3, 0]],
        [![0, 0], ![3, 0], ![3, -2], ![-3, 0]]⟩ := by
  refine ⟨by decide +kernel, ?_⟩
  exact { grExample_regular with skip_pos := by decide }

example : ∃ t, grFast Rat.sqrt 3 1000 grExample = .ok t ∧ ∀ p ∈ t, ∃ g, p.2 = some g ∧
      (g ≠ 0 ↔ ∃ f ∈ originFrames grExample.frames 1, Spec.HasPair true (fun u v => p.1 - 1 / 2 ≤ fDist Rat.sqrt f.side u v ∧
        fDist Rat.sqrt f.side u v < p.1 + 1 / 2) f.pos0 f.pos1) :=
  C191_fast Rat.sqrt (fun x => Rat.sqrt_nonneg x) (by norm_num) 1000 grExample grExample_regular (by decide +kernel)
    (by decide +kernel)

end PP.Props
