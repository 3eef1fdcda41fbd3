import Verif.Props.SkOrder

/-!
# C157: a trajectory and its parts

The average over a trajectory is the average over its parts, weighted by their numbers of frames: the structure factor and
the radial distribution function.
-/

namespace PP.Props

open PP

variable {K : Type} [Field K] [LinearOrder K] [IsStrictOrderedRing K] [FloorRing K] {d : ℕ}

/-! ### Radial distribution function -/

theorem meanCount_append {A B : List (GrFrame d K)} (hA : A ≠ []) (hB : B ≠ []) (H : GrFrame d K → ℕ) :
    meanCount (A ++ B) H =
      ((A.length : K) * meanCount A H + (B.length : K) * meanCount B H) / ((A.length : K) + (B.length : K)) := by
  unfold meanCount
  have h1 : (A.length : K) ≠ 0 := by
    have := List.length_pos_iff.2 hA; exact_mod_cast this.ne'
  have h2 : (B.length : K) ≠ 0 := by
    have := List.length_pos_iff.2 hB; exact_mod_cast this.ne'
  rw [mul_div_cancel₀ _ h1, mul_div_cancel₀ _ h2, List.map_append, List.sum_append, List.length_append, Nat.cast_add]

/-- The value of g(r) in one bin for a trajectory made of two parts; `vA` is the volume of the last frame of the first
part, `vB` that of the second one. -/
theorem grVal_append (o oA oB : GrObj d K) (hsA : oA.same = o.same) (hsB : oB.same = o.same) (pi w : K) (n0 n1 : ℕ)
    {A B : List (GrFrame d K)} (hA : A ≠ []) (hB : B ≠ []) {vA : K} (hv : vA ≠ 0) (vB : K) (j : ℕ)
    (H : GrFrame d K → ℕ) :
    grVal o pi w n0 n1 (A ++ B) vB j H =
      ((A.length : K) * (grVal oA pi w n0 n1 A vA j H * (vB / vA)) + (B.length : K) * grVal oB pi w n0 n1 B vB j H) /
        ((A.length : K) + (B.length : K)) := by
  rw [← grVal_volume oA pi w n0 n1 A hv j H]
  unfold grVal
  rw [meanCount_append hA hB, hsA, hsB]
  ring

theorem grSystem_part {o : GrObj d K} {w : K} {n0 n1 : ℕ} {f0 f0' : GrFrame d K} (h : GrSystem o w n0 n1 f0)
    {F : List (GrFrame d K)} (hF : ∀ f ∈ F, f ∈ o.frames) (hf : F[0]? = some f0') :
    GrSystem { o with frames := F } w n0 n1 f0' :=
  ⟨hf, h.skip_pos, h.w_pos, h.dim_pos, fun f hf => h.side_pos f (hF f hf), h.n0_pos, h.n1_pos,
    fun f hf => h.len0 f (hF f hf), fun f hf => h.len1 f (hF f hf), fun hs f hf => h.same hs f (hF f hf)⟩

theorem filter_map_zip {α β : Type} (l : List α) (f : α → K × β) (m : K) :
    (l.map f).filter (fun p => decide (p.1 ≤ m)) = (l.filter fun a => decide ((f a).1 ≤ m)).map f := by
  rw [List.filter_map]
  rfl

/-- **C157** (part that holds), legacy version of g(r): in a cell that does not change, with all the frames as time
origins, each value is the mean of those of the two parts of the trajectory, weighted by their numbers of frames. -/
theorem C157_gr_legacy_partial (sq : K → K) (hsq : ∀ x, 0 ≤ sq x) {pi : K} (hpi : 0 < pi) (o : GrObj d K)
    {w : K} {n0 n1 : ℕ} {f0 : GrFrame d K} (h : GrRegular sq o w n0 n1 f0) (hskip : o.skip = 1)
    (hcell : ∀ f ∈ o.frames, f.side = f0.side) (A B : List (GrFrame d K)) (hAB : o.frames = A ++ B) (hA : A ≠ [])
    (hB : B ≠ []) :
    ∃ t : List (K × K × K),
      grLegacy sq pi { o with frames := A } = .ok (t.map fun p => (p.1, some p.2.1)) ∧
      grLegacy sq pi { o with frames := B } = .ok (t.map fun p => (p.1, some p.2.2)) ∧
      grLegacy sq pi o = .ok (t.map fun p =>
        (p.1, some (((A.length : K) * p.2.1 + (B.length : K) * p.2.2) / ((A.length : K) + (B.length : K))))) := by
  obtain ⟨n, hn, hg, -⟩ := grSetupGrid_default sq hsq o f0.side h.w_pos h.rgrid h.dr h.fit
  have hmA : ∀ f ∈ A, f ∈ o.frames := fun f hf => by rw [hAB]; exact List.mem_append_left _ hf
  have hmB : ∀ f ∈ B, f ∈ o.frames := fun f hf => by rw [hAB]; exact List.mem_append_right _ hf
  obtain ⟨a0, A', rfl⟩ := List.exists_cons_of_ne_nil hA
  obtain ⟨b0, B', rfl⟩ := List.exists_cons_of_ne_nil hB
  have sA := grSystem_part h.system hmA (f0' := a0) rfl
  have sB := grSystem_part h.system hmB (f0' := b0) rfl
  have hv : cellVolume f0.side ≠ 0 := (Finset.prod_pos fun c _ => h.side_pos f0 (List.mem_of_getElem? h.first) c).ne'
  have key : ∀ (F : List (GrFrame d K)) (g0 : GrFrame d K), GrSystem { o with frames := F } w n0 n1 g0 →
      (∀ f ∈ F, f ∈ o.frames) → ∃ m, grLegacy sq pi { o with frames := F } = m ∧ m =
        grCrop o.rmax f0.side ((List.range n).map fun j : ℕ => (((j : K) + 1 / 2) * w,
        some (grVal o pi w n0 n1 F (cellVolume f0.side) j
          fun f => pairCount o (grDist sq) f (Spec.InBin (defaultEdges w n) j)))) := by
    intro F g0 hs hm
    refine ⟨_, rfl, ?_⟩
    have hg0 : g0.side = f0.side := hcell g0 (hm g0 (List.mem_of_getElem? hs.first))
    have hL := grLegacy_closed sq hpi { o with frames := F } hs hn (by rw [hg0]; exact hg)
    have hl := lastFrame_mem (o := { o with frames := F }) hs.first h.skip_pos
    rw [hcell _ (hm _ hl)] at hL
    rw [hL]
    simp only [hskip, originFrames_one]
    rfl
  obtain ⟨_, eA, rfl⟩ := key _ a0 sA hmA
  obtain ⟨_, eB, rfl⟩ := key _ b0 sB hmB
  obtain ⟨_, eO, rfl⟩ := key o.frames f0 h.system (fun f hf => hf)
  obtain ⟨m, -, -, -, hm⟩ := grCrop_ok (rmax := o.rmax) (side := f0.side) h.system.dim_pos
  rw [hm, filter_map_zip] at eA eB eO
  refine ⟨((List.range n).filter fun j : ℕ => decide (((j : K) + 1 / 2) * w ≤ m)).map fun j : ℕ => (((j : K) + 1 / 2) * w,
    grVal o pi w n0 n1 (a0 :: A') (cellVolume f0.side) j
      (fun f => pairCount o (grDist sq) f (Spec.InBin (defaultEdges w n) j)),
    grVal o pi w n0 n1 (b0 :: B') (cellVolume f0.side) j
      (fun f => pairCount o (grDist sq) f (Spec.InBin (defaultEdges w n) j))), ?_, ?_, ?_⟩
  · rw [eA, List.map_map]; rfl
  · rw [eB, List.map_map]; rfl
  · rw [show grLegacy sq pi o = grLegacy sq pi { o with frames := o.frames } from rfl, eO, List.map_map]
    congr 1
    apply List.map_congr_left
    intro j _
    refine Prod.ext rfl (congrArg some ?_)
    show grVal o pi w n0 n1 o.frames _ j _ = _
    rw [hAB, grVal_append o o o rfl rfl pi w n0 n1 hA hB hv _ j, div_self hv, mul_one]

/-- **C157** (part that holds), fast version of g(r) without linked cells. -/
theorem C157_gr_fast_partial (sq : K → K) (hsq : ∀ x, 0 ≤ sq x) {pi : K} (hpi : 0 < pi) (huge : K) (o : GrObj d K)
    {w : K} {n0 n1 : ℕ} {f0 : GrFrame d K} (h : GrRegular sq o w n0 n1 f0) (hskip : o.skip = 1)
    (hper : ∀ f ∈ o.frames, ∀ c, f.periodic c = true) (hlc : useLinkedCells o f0 = .ok false)
    (hcell : ∀ f ∈ o.frames, f.side = f0.side) (A B : List (GrFrame d K)) (hAB : o.frames = A ++ B) (hA : A ≠ [])
    (hB : B ≠ []) :
    ∃ t : List (K × K × K),
      grFast sq pi huge { o with frames := A } = .ok (t.map fun p => (p.1, some p.2.1)) ∧
      grFast sq pi huge { o with frames := B } = .ok (t.map fun p => (p.1, some p.2.2)) ∧
      grFast sq pi huge o = .ok (t.map fun p =>
        (p.1, some (((A.length : K) * p.2.1 + (B.length : K) * p.2.2) / ((A.length : K) + (B.length : K))))) := by
  obtain ⟨n, hn, hg, -⟩ := grSetupGrid_default sq hsq o f0.side h.w_pos h.rgrid h.dr h.fit
  have hmA : ∀ f ∈ A, f ∈ o.frames := fun f hf => by rw [hAB]; exact List.mem_append_left _ hf
  have hmB : ∀ f ∈ B, f ∈ o.frames := fun f hf => by rw [hAB]; exact List.mem_append_right _ hf
  obtain ⟨a0, A', rfl⟩ := List.exists_cons_of_ne_nil hA
  obtain ⟨b0, B', rfl⟩ := List.exists_cons_of_ne_nil hB
  have sA := grSystem_part h.system hmA (f0' := a0) rfl
  have sB := grSystem_part h.system hmB (f0' := b0) rfl
  have hm0 : f0 ∈ o.frames := List.mem_of_getElem? h.first
  have hv : cellVolume f0.side ≠ 0 := (Finset.prod_pos fun c _ => h.side_pos f0 hm0 c).ne'
  have key : ∀ (F : List (GrFrame d K)) (g0 : GrFrame d K), GrSystem { o with frames := F } w n0 n1 g0 →
      (∀ f ∈ F, f ∈ o.frames) → ∃ m, grFast sq pi huge { o with frames := F } = m ∧ m =
        grCrop o.rmax f0.side ((List.range (n - 1)).map fun j : ℕ => (((j : K) + 1 / 2) * w,
        some (grVal o pi w n0 n1 F (cellVolume f0.side) j
          fun f => ((List.range n).map fun b : ℕ => pairCount o (fDist sq) f
          fun r => (b : K) * w ≤ r ∧ r < ((b : K) + 1) * w).getD j 0))) := by
    intro F g0 hs hm
    refine ⟨_, rfl, ?_⟩
    have hmg : g0 ∈ o.frames := hm g0 (List.mem_of_getElem? hs.first)
    have hg0 : g0.side = f0.side := hcell g0 hmg
    have hlc' : useLinkedCells { o with frames := F } g0 = .ok false := by
      rw [← hlc]
      unfold useLinkedCells
      rw [hg0, h.len0 _ hmg, h.len1 _ hmg, h.len0 _ hm0, h.len1 _ hm0]
    have hL := grFast_closed sq hpi huge { o with frames := F } hs hn (by rw [hg0]; exact hg) false hlc'
      (fun c => c = none) rfl
      (fun f => (List.range n).map fun b : ℕ => pairCount o (fDist sq) f
            fun r => (b : K) * w ≤ r ∧ r < ((b : K) + 1) * w) (by simp)
      (fun st f hf hc h1 h2 => ⟨none, rfl, fastFrame_direct sq hsq huge { o with frames := F } hs st f hf
        (hper f (hm f hf)) hc h1 h2⟩)
    have hl := lastFrame_mem (o := { o with frames := F }) hs.first h.skip_pos
    rw [hcell _ (hm _ hl)] at hL
    rw [hL]
    simp only [hskip, originFrames_one]
    rfl
  obtain ⟨_, eA, rfl⟩ := key _ a0 sA hmA
  obtain ⟨_, eB, rfl⟩ := key _ b0 sB hmB
  obtain ⟨_, eO, rfl⟩ := key o.frames f0 h.system (fun f hf => hf)
  obtain ⟨m, -, -, -, hm⟩ := grCrop_ok (rmax := o.rmax) (side := f0.side) h.system.dim_pos
  rw [hm, filter_map_zip] at eA eB eO
  set H : ℕ → GrFrame d K → ℕ := fun j f => ((List.range n).map fun b : ℕ => pairCount o (fDist sq) f
          fun r => (b : K) * w ≤ r ∧ r < ((b : K) + 1) * w).getD j 0
  refine ⟨((List.range (n - 1)).filter fun j : ℕ => decide (((j : K) + 1 / 2) * w ≤ m)).map fun j : ℕ =>
    (((j : K) + 1 / 2) * w, grVal o pi w n0 n1 (a0 :: A') (cellVolume f0.side) j (H j),
    grVal o pi w n0 n1 (b0 :: B') (cellVolume f0.side) j (H j)), ?_, ?_, ?_⟩
  · rw [eA, List.map_map]; rfl
  · rw [eB, List.map_map]; rfl
  · rw [show grFast sq pi huge o = grFast sq pi huge { o with frames := o.frames } from rfl, eO, List.map_map]
    congr 1
    apply List.map_congr_left
    intro j _
    refine Prod.ext rfl (congrArg some ?_)
    show grVal o pi w n0 n1 o.frames _ j (H j) = _
    rw [hAB, grVal_append o o o rfl rfl pi w n0 n1 hA hB hv _ j, div_self hv, mul_one]

/-- **C157 does not hold** for g(r) if the cell changes: the values of the first part are multiplied by the ratio of the
volume of the last frame of the second part to that of the first. -/
theorem C157_counterexample_cell (sq : K → K) {pi : K} (hpi : 0 < pi) (o : GrObj d K)
    {w : K} {n0 n1 n : ℕ} {f0 : GrFrame d K} (h : GrSystem o w n0 n1 f0) (hskip : o.skip = 1) (hn : 2 ≤ n)
    (hgrid : o.rgrid = some ((List.range n).map fun j : ℕ => w / 2 + (j : K) * w)) (hr : 0 < o.rmax)
    (A B : List (GrFrame d K)) (hAB : o.frames = A ++ B) (hA : A ≠ []) (hB : B ≠ []) :
    ∃ t : List (K × K × K),
      grLegacy sq pi { o with frames := A } = .ok (t.map fun p => (p.1, some p.2.1)) ∧
      grLegacy sq pi { o with frames := B } = .ok (t.map fun p => (p.1, some p.2.2)) ∧
      grLegacy sq pi o = .ok (t.map fun p =>
        (p.1, some (((A.length : K) * (p.2.1 * ((∏ c, (B.getLast hB).side c) / ∏ c, (A.getLast hA).side c))
          + (B.length : K) * p.2.2) / ((A.length : K) + (B.length : K))))) := by
  have hmA : ∀ f ∈ A, f ∈ o.frames := fun f hf => by rw [hAB]; exact List.mem_append_left _ hf
  have hmB : ∀ f ∈ B, f ∈ o.frames := fun f hf => by rw [hAB]; exact List.mem_append_right _ hf
  have hgr : ∀ (o' : GrObj d K) (s : Vec d K), o'.rgrid = o.rgrid →
      grSetupGrid sq o' s = .ok (defaultGrid w n) := by
    intro o' s ho
    unfold grSetupGrid
    rw [ho, hgrid]
    simp only [bind, Except.bind, pure, Except.pure]
    rw [if_neg (by
      rw [List.isEmpty_iff, List.map_eq_nil_iff, List.range_eq_nil]; omega)]
    rfl
  have hcrop : ∀ (s : Vec d K) t, grCrop o.rmax s t = .ok (t.filter fun p => p.1 ≤ o.rmax) := by
    intro s t; unfold grCrop; rw [if_pos hr]
  have key : ∀ (F : List (GrFrame d K)) (hF : F ≠ []), (∀ f ∈ F, f ∈ o.frames) →
      grLegacy sq pi { o with frames := F } = .ok (((List.range n).filter fun j : ℕ =>
        decide (((j : K) + 1 / 2) * w ≤ o.rmax)).map fun j : ℕ => (((j : K) + 1 / 2) * w,
        some (grVal o pi w n0 n1 F (cellVolume (F.getLast hF).side) j
          fun f => pairCount o (grDist sq) f (Spec.InBin (defaultEdges w n) j)))) := by
    intro F hF hm
    obtain ⟨g0, F', rfl⟩ := List.exists_cons_of_ne_nil hF
    have hs := grSystem_part h hm (f0' := g0) rfl
    have hL := grLegacy_closed sq hpi { o with frames := g0 :: F' } hs hn (hgr _ _ rfl)
    simp only [hskip, originFrames_one] at hL
    rw [hcrop, filter_map_zip, List.getLastD_eq_getLast?, List.getLast?_eq_some_getLast hF] at hL
    simp only [hskip]
    exact hL
  have hO := key o.frames (by rw [hAB]; simp [hA]) (fun f hf => hf)
  have hlast : o.frames.getLast (by rw [hAB]; simp [hA]) = B.getLast hB := by
    simp only [hAB]
    exact List.getLast_append_of_ne_nil _ hB
  rw [hlast] at hO
  have hv : cellVolume (A.getLast hA).side ≠ 0 := (Finset.prod_pos fun c _ =>
    h.side_pos _ (hmA _ (List.getLast_mem hA)) c).ne'
  set H : ℕ → GrFrame d K → ℕ := fun j f => pairCount o (grDist sq) f (Spec.InBin (defaultEdges w n) j)
  refine ⟨((List.range n).filter fun j : ℕ => decide (((j : K) + 1 / 2) * w ≤ o.rmax)).map fun j : ℕ =>
    (((j : K) + 1 / 2) * w, grVal o pi w n0 n1 A (cellVolume (A.getLast hA).side) j (H j),
    grVal o pi w n0 n1 B (cellVolume (B.getLast hB).side) j (H j)), ?_, ?_, ?_⟩
  · rw [key A hA hmA, List.map_map]; rfl
  · rw [key B hB hmB, List.map_map]; rfl
  · rw [show grLegacy sq pi o = grLegacy sq pi { o with frames := o.frames } from rfl, hO, List.map_map]
    congr 1
    apply List.map_congr_left
    intro j _
    refine Prod.ext rfl (congrArg some ?_)
    show grVal o pi w n0 n1 o.frames _ j (H j) = _
    rw [hAB, grVal_append o o o rfl rfl pi w n0 n1 hA hB hv _ j]
    rfl

/-! ### Structure factor -/

theorem modesValue_append {l l' : List (ℂ × ℂ)} (h : l ≠ []) (h' : l' ≠ []) :
    modesValue false (l ++ l') = (l.length * modesValue false l + l'.length * modesValue false l') / (l.length + l'.length) := by
  have h1 : (l.length : ℝ) ≠ 0 := by
    have := List.length_pos_iff.2 h; exact_mod_cast this.ne'
  have h2 : (l'.length : ℝ) ≠ 0 := by
    have := List.length_pos_iff.2 h'; exact_mod_cast this.ne'
  rw [sum_div_re, sum_div_re, sum_div_re, mul_div_cancel₀ _ h1, mul_div_cancel₀ _ h2, List.map_append, List.sum_append,
    List.length_append, Nat.cast_add]

theorem gridModes_length (o : SkObj d) (hskip : o.skip = 1) {m n : ℕ}
    (hm : ∀ f ∈ o.frames, (f.ks.kvectors.getD n []).length = m) : (gridModes o n).length = o.frames.length * m := by
  unfold gridModes
  rw [hskip, originFrames_one, List.length_flatMap, List.map_congr_left (g := fun _ => m) (fun f hf => by
    rw [List.length_map, hm f hf]), List.map_const', List.sum_replicate, smul_eq_mul]

theorem skN_const (F : List (SkFrame d)) (hF : F ≠ []) (p : SkFrame d → List (Vec d ℝ)) {n : ℕ}
    (h : ∀ f ∈ F, (p f).length = n) : ((((F.map fun f => (p f).length).sum : ℕ) : ℝ) / F.length) = n := by
  have hl : (F.length : ℝ) ≠ 0 := by
    have := List.length_pos_iff.2 hF; exact_mod_cast this.ne'
  rw [List.map_congr_left (g := fun _ => n) h, List.map_const', List.sum_replicate, smul_eq_mul]
  push_cast
  field_simp

/-- **C157** (part that holds), structure factor without weights: with a constant number of particles and the same
wave-vectors in all frames, each value is the mean of those of the two parts of the trajectory, weighted by their numbers
of frames. -/
theorem C157_sk_partial (o : SkObj d) (h : SkRegular o) (hw : o.weighted = false) (hskip : o.skip = 1) {ks : KState d ℝ}
    (hks : ∀ f ∈ o.frames, f.ks = ks) {n0 n1 : ℕ} (h0 : ∀ f ∈ o.frames, f.pos0.length = n0)
    (h1 : ∀ f ∈ o.frames, f.pos1.length = n1) (A B : List (SkFrame d)) (hAB : o.frames = A ++ B) (hA : A ≠ [])
    (hB : B ≠ []) :
    ∃ vA xA vB xB v x, skLegacy { o with frames := A } = .ok (vA, xA) ∧ skLegacy { o with frames := B } = .ok (vB, xB) ∧
      skLegacy o = .ok (v, x) ∧
      vA.length = o.nk ∧ xA.length = o.nk ∧ vB.length = o.nk ∧ xB.length = o.nk ∧ v.length = o.nk ∧ x.length = o.nk ∧
      ∀ n < o.nk,
        v.getD n 0 = (A.length * vA.getD n 0 + B.length * vB.getD n 0) / (A.length + B.length) ∧
        x.getD n 0 = (A.length * xA.getD n 0 + B.length * xB.getD n 0) / (A.length + B.length) := by
  have hmA : ∀ f ∈ A, f ∈ o.frames := fun f hf => by rw [hAB]; exact List.mem_append_left _ hf
  have hmB : ∀ f ∈ B, f ∈ o.frames := fun f hf => by rw [hAB]; exact List.mem_append_right _ hf
  have rA : SkRegular { o with frames := A } := skRegular_frames o h A hA o.skip h.skip_pos hmA
  have rB : SkRegular { o with frames := B } := skRegular_frames o h B hB o.skip h.skip_pos hmB
  refine ⟨_, _, _, _, _, _, skLegacy_eq _ rA, skLegacy_eq _ rB, skLegacy_eq o h, by simp, by simp, by simp, by simp, by simp,
    by simp, ?_⟩
  intro n hn
  have hget : ∀ g : ℕ → ℝ, ((List.range o.nk).map g).getD n 0 = g n := by
    intro g
    rw [List.getD_eq_getElem?_getD, List.getElem?_map, List.getElem?_range hn]
    rfl
  simp only [hget]
  have eN : ∀ (F : List (SkFrame d)), F ≠ [] → (∀ f ∈ F, f ∈ o.frames) →
      skN0 { o with frames := F } = n0 ∧ skN1 { o with frames := F } = n1 := fun F hF hm =>
    ⟨skN_const F hF _ fun f hf => h0 f (hm f hf), skN_const F hF _ fun f hf => h1 f (hm f hf)⟩
  obtain ⟨a0, a1⟩ := eN A hA hmA
  obtain ⟨b0, b1⟩ := eN B hB hmB
  obtain ⟨c0, c1⟩ := eN o.frames h.frames_ne (fun f hf => hf)
  have c0' : skN0 o = n0 := c0
  have c1' : skN1 o = n1 := c1
  rw [a0, a1, b0, b1, c0', c1', hw]
  have hlen : ∀ f ∈ o.frames, (f.ks.kvectors.getD n []).length = (ks.kvectors.getD n []).length := fun f hf => by rw [hks f hf]
  have gA := gridModes_length { o with frames := A } hskip (n := n) (fun f hf => hlen f (hmA f hf))
  have gB := gridModes_length { o with frames := B } hskip (n := n) (fun f hf => hlen f (hmB f hf))
  simp only at gA gB
  set m := (ks.kvectors.getD n []).length with hm
  have hmpos : 0 < m := by
    obtain ⟨f, hf⟩ := List.exists_mem_of_ne_nil _ h.frames_ne
    obtain ⟨s1, s2⟩ := h.shells f hf
    rw [hm, ← hks f hf, List.getD_eq_getElem _ _ (by omega)]
    exact List.length_pos_iff.2 (s2 _ (List.getElem_mem _))
  have hgO : gridModes o n = gridModes { o with frames := A } n ++ gridModes { o with frames := B } n := by
    unfold gridModes
    simp only [hskip, originFrames_one, hAB, List.flatMap_append]
  have pA := List.length_pos_iff.2 hA
  have pB := List.length_pos_iff.2 hB
  have key : modesValue false (gridModes o n) =
      (A.length * modesValue false (gridModes { o with frames := A } n) +
        B.length * modesValue false (gridModes { o with frames := B } n)) / (A.length + B.length) := by
    rw [hgO, modesValue_append (by
      rw [← List.length_pos_iff, gA]; positivity) (by rw [← List.length_pos_iff, gB]; positivity), gA, gB]
    have q1 : (0 : ℝ) < A.length := by exact_mod_cast pA
    have q2 : (0 : ℝ) < B.length := by exact_mod_cast pB
    have q3 : (0 : ℝ) < m := by exact_mod_cast hmpos
    push_cast
    field_simp
  rw [hw] at key
  refine ⟨?_, key⟩
  rw [key]
  ring

/-- **C157 does not hold** for the structure factor with weights: at a point of the grid with one wave-vector the value of
each of two frames is zero, the one of the two frames together is a quarter of the square of the difference between their
modes (before the normalisation). -/
theorem C157_counterexample_weights (o : SkObj d) (h : SkRegular o) (hw : o.weighted = true) (hs : o.same = true)
    (hskip : o.skip = 1) (f g : SkFrame d) (hf : o.frames = [f, g]) (hks : g.ks = f.ks) {n : ℕ} {v : KVec d}
    (hn : f.ks.kvectors[n]? = some [v]) :
    ∃ vA xA vB xB vO xO, skLegacy { o with frames := [f] } = .ok (vA, xA) ∧
      skLegacy { o with frames := [g] } = .ok (vB, xB) ∧ skLegacy o = .ok (vO, xO) ∧
      xA.getD n 0 = 0 ∧ xB.getD n 0 = 0 ∧
      xO.getD n 0 = ‖Spec.fieldMode (kvecOf f.ks v) (fun p => f.w0.getD p 0) f.pos0
        - Spec.fieldMode (kvecOf f.ks v) (fun p => g.w0.getD p 0) g.pos0‖ ^ 2 / 4 := by
  have mf : f ∈ o.frames := by rw [hf]; simp
  have mg : g ∈ o.frames := by rw [hf]; simp
  have rA : SkRegular { o with frames := [f] } := skRegular_frames o h [f] (by simp) o.skip h.skip_pos (by
    intro a ha; rw [List.mem_singleton.1 ha]; exact mf)
  have rB : SkRegular { o with frames := [g] } := skRegular_frames o h [g] (by simp) o.skip h.skip_pos (by
    intro a ha; rw [List.mem_singleton.1 ha]; exact mg)
  refine ⟨_, _, _, _, _, _, skLegacy_eq _ rA, skLegacy_eq _ rB, skLegacy_eq o h, ?_⟩
  have hnk : n < o.nk := by
    rw [← (h.shells f mf).1]
    by_contra hc
    rw [List.getElem?_eq_none (by omega)] at hn
    cases hn
  have hget : ∀ g : ℕ → ℝ, ((List.range o.nk).map g).getD n 0 = g n := by
    intro g
    rw [List.getD_eq_getElem?_getD, List.getElem?_map, List.getElem?_range hnk]
    rfl
  have kf : f.ks.kvectors.getD n [] = [v] := by rw [List.getD_eq_getElem?_getD, hn]; rfl
  obtain ⟨s1, s2⟩ := h.same hs f mf
  obtain ⟨t1, t2⟩ := h.same hs g mg
  simp only [hget]
  have one : ∀ r : ℂ, modesValue true [(r, r)] = 0 := by
    intro r
    unfold modesValue
    simp
  have ew : ∀ w : List ℝ, realWeight true w = fun p => w.getD p 0 := fun w => by funext p; rfl
  unfold gridModes
  simp only [hskip, originFrames_one, hf, List.flatMap_cons, List.flatMap_nil, List.append_nil, hks, kf, List.map_cons,
    List.map_nil, skModes, s1, s2, t1, t2, hw, one, true_and, List.cons_append, List.nil_append]
  rw [modesValue_pair, ew, ew]

/-! ### Examples -/

/-- g(r) of the two frames of the example, in both versions, and of the whole trajectory. -/
example : grLegacy Rat.sqrt 3 { grExample with frames := grExample.frames.take 1 }
      = .ok [(1 / 2, some 0), (3 / 2, some 0), (5 / 2, some (6 / 5))] ∧
    grLegacy Rat.sqrt 3 { grExample with frames := grExample.frames.drop 1 }
      = .ok [(1 / 2, some 2), (3 / 2, some (2 / 3)), (5 / 2, some 0)] ∧
    grLegacy Rat.sqrt 3 grExample = .ok [(1 / 2, some 1), (3 / 2, some (1 / 3)), (5 / 2, some (3 / 5))] ∧
    grFast Rat.sqrt 3 1000 grExample = .ok [(1 / 2, some 1), (3 / 2, some (1 / 3)), (5 / 2, some (3 / 5))] ∧
    useLinkedCells grExample ⟨![8, 6], fun _ => true, [![0, 0], ![3, 0], ![3, -2], ![-3, 0]],
        [![0, 0], ![3, 0], ![3, -2], ![-3, 0]]⟩ = .ok false := by
  refine ⟨?_, ?_, ?_, ?_, ?_⟩ <;> decide +kernel

/-- In the cell that shrinks by half the values of the first frame are halved. -/
example : ∃ t : List (ℚ × ℚ × ℚ),
      grLegacy Rat.sqrt 3 { cellExample with frames := cellExample.frames.take 1 } = .ok (t.map fun p => (p.1, some p.2.1)) ∧
      grLegacy Rat.sqrt 3 { cellExample with frames := cellExample.frames.drop 1 } = .ok (t.map fun p => (p.1, some p.2.2)) ∧
      grLegacy Rat.sqrt 3 cellExample = .ok (t.map fun p => (p.1, some ((p.2.1 / 2 + p.2.2) / 2))) ∧
      ∃ p ∈ t, p.2.1 ≠ 0 :=
  ⟨[(1 / 2, 0, 0), (3 / 2, 0, 2 / 3), (5 / 2, 6 / 5, 1 / 5)], by decide +kernel, by decide +kernel, by decide +kernel,
    by decide +kernel⟩

/-- The hypotheses for the structure factor: two frames of three particles. -/
example : ∃ vA xA vB xB v x, skLegacy { exSk with frames := exSk.frames.take 1 } = .ok (vA, xA) ∧
    skLegacy { exSk with frames := exSk.frames.drop 1 } = .ok (vB, xB) ∧ skLegacy exSk = .ok (v, x) ∧
    v.length = 2 ∧ v.getD 1 0 = (vA.getD 1 0 + vB.getD 1 0) / 2 := by
  obtain ⟨vA, xA, vB, xB, v, x, h1, h2, h3, -, -, -, -, h4, -, h5⟩ := C157_sk_partial exSk exSk_regular rfl rfl (ks := exKs)
    (by simp [exSk]) (n0 := 3) (by simp [exSk]) (n1 := 3) (by simp [exSk]) (exSk.frames.take 1) (exSk.frames.drop 1) rfl
    (by simp [exSk]) (by simp [exSk])
  refine ⟨vA, xA, vB, xB, v, x, h1, h2, h3, h4, ?_⟩
  rw [(h5 1 (by simp [exSk])).1]
  norm_num [exSk]

/-- Two frames that differ by the sign of a weight. -/
noncomputable def exSkSigns : SkObj 3 :=
  { same := true, weighted := true, skip := 1, nk := 2,
    frames := [⟨[![0, 0, 0], ![1, 2, 3]], [![0, 0, 0], ![1, 2, 3]], [1, 0], [1, 0], exKs⟩,
      ⟨[![0, 0, 0], ![1, 2, 3]], [![0, 0, 0], ![1, 2, 3]], [-1, 0], [-1, 0], exKs⟩] }

theorem exSkSigns_regular : SkRegular exSkSigns := by
  refine ⟨by simp [exSkSigns], by simp [exSkSigns], Or.inl rfl, ?_, ?_, ?_, ?_, ?_⟩
  all_goals simp [exSkSigns, exKs_allowed]
  simp [exKs]

example : ∃ vA xA vB xB v x, skLegacy { exSkSigns with frames := exSkSigns.frames.take 1 } = .ok (vA, xA) ∧
    skLegacy { exSkSigns with frames := exSkSigns.frames.drop 1 } = .ok (vB, xB) ∧ skLegacy exSkSigns = .ok (v, x) ∧
    xA.getD 0 0 = 0 ∧ xB.getD 0 0 = 0 ∧ x.getD 0 0 = 1 := by
  obtain ⟨vA, xA, vB, xB, v, x, h1, h2, h3, h4, h5, h6⟩ := C157_counterexample_weights exSkSigns exSkSigns_regular rfl rfl rfl
    _ _ rfl rfl (n := 0) (v := ![3, 2, 2]) rfl
  refine ⟨vA, xA, vB, xB, v, x, h1, h2, h3, h4, h5, ?_⟩
  rw [h6]
  simp [Spec.fieldMode, Spec.dot, Fin.sum_univ_three]
  norm_num

end PP.Props
