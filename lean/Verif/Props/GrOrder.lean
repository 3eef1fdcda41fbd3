import Verif.Props.Gr

/-!
# C132, C133: order of the frames and stride in g(r)
-/

set_option linter.unusedSectionVars false

namespace PP.Props
open PP

section
variable {K : Type} [Field K] [LinearOrder K] [IsStrictOrderedRing K] [FloorRing K] {d : ℕ}

theorem rangeList_one (n : ℕ) : rangeList 0 n 1 = List.range n := by
  unfold rangeList
  apply List.ext_getElem
  · simp
  · intro i h1 h2; simp

theorem filterMap_range_getElem? {α : Type} (l : List α) : (List.range l.length).filterMap (fun i => l[i]?) = l := by
  induction l with
  | nil => rfl
  | cons a l ih =>
    rw [List.length_cons, List.range_succ_eq_map, List.filterMap_cons_some (f := fun i => (a :: l)[i]?) (b := a) rfl, List.filterMap_map]
    exact congrArg (a :: ·) ih

theorem originFrames_one {α : Type} (frames : List α) : originFrames frames 1 = frames := by
  unfold originFrames
  rw [rangeList_one, filterMap_range_getElem?]

theorem meanCount_perm {F F' : List (GrFrame d K)} (h : F.Perm F') (H : GrFrame d K → ℕ) :
    meanCount F H = meanCount F' H := by
  unfold meanCount
  rw [(h.map _).sum_eq, h.length_eq]

theorem grVal_perm (o o' : GrObj d K) (hs : o'.same = o.same) (pi w : K) (n0 n1 : ℕ) {F F' : List (GrFrame d K)}
    (h : F.Perm F') (v : K) (j : ℕ) (H : GrFrame d K → ℕ) :
    grVal o' pi w n0 n1 F v j H = grVal o pi w n0 n1 F' v j H := by
  unfold grVal
  rw [meanCount_perm h, hs]

theorem grSystem_permute {o : GrObj d K} {w : K} {n0 n1 : ℕ} {f0 f0' : GrFrame d K} (h : GrSystem o w n0 n1 f0)
    {F : List (GrFrame d K)} (hF : F.Perm o.frames) (hf : F[0]? = some f0') :
    GrSystem { o with frames := F } w n0 n1 f0' :=
  ⟨hf, h.skip_pos, h.w_pos, h.dim_pos, fun f hf => h.side_pos f (hF.mem_iff.1 hf), h.n0_pos, h.n1_pos,
    fun f hf => h.len0 f (hF.mem_iff.1 hf), fun f hf => h.len1 f (hF.mem_iff.1 hf),
    fun hs f hf => h.same hs f (hF.mem_iff.1 hf)⟩

theorem perm_first {α : Type} {F G : List α} {a : α} (hF : F.Perm G) (h : G[0]? = some a) :
    ∃ b ∈ G, F[0]? = some b := by
  cases F with
  | nil => rw [hF.symm.eq_nil] at h; simp at h
  | cons b F => exact ⟨b, hF.mem_iff.1 (by simp), rfl⟩

/-! ## C132 -/

/-- **C132** (part that holds), legacy version. In a cell that does not change and with all the frames as time
origins, g(r) does not depend on the order of the frames. -/
theorem C132_legacy_partial (sq : K → K) (hsq : ∀ x, 0 ≤ sq x) {pi : K} (hpi : 0 < pi) (o : GrObj d K)
    {w : K} {n0 n1 : ℕ} {f0 : GrFrame d K} (h : GrRegular sq o w n0 n1 f0) (hskip : o.skip = 1)
    (hcell : ∀ f ∈ o.frames, f.side = f0.side) (F : List (GrFrame d K)) (hF : F.Perm o.frames) :
    ∃ t, grLegacy sq pi o = .ok t ∧ grLegacy sq pi { o with frames := F } = .ok t := by
  obtain ⟨n, hn, hg, -⟩ := grSetupGrid_default sq hsq o f0.side h.w_pos h.rgrid h.dr h.fit
  obtain ⟨f0', hm0, hf0'⟩ := perm_first hF h.first
  have hs' : f0'.side = f0.side := hcell f0' hm0
  have h' := grSystem_permute h.system hF hf0'
  have hL := grLegacy_closed sq hpi o h.system hn hg
  have hL' := grLegacy_closed sq hpi { o with frames := F } h' hn (by rw [hs']; exact hg)
  have hl := lastFrame_mem h.first h.skip_pos
  have hl' := lastFrame_mem (o := { o with frames := F }) hf0' h.skip_pos
  obtain ⟨m, -, -, -, hm⟩ := grCrop_ok (rmax := o.rmax) (side := f0.side) h.system.dim_pos
  rw [hcell _ hl, hm] at hL
  rw [hcell _ (hF.mem_iff.1 hl'), hm] at hL'
  refine ⟨_, hL, ?_⟩
  rw [hL']
  simp only [hskip, originFrames_one]
  congr 2
  apply List.map_congr_left
  intro j _
  exact Prod.ext rfl (congrArg some (grVal_perm o _ rfl pi w n0 n1 hF _ j _))

/-- **C132** (part that holds), fast version without linked cells. -/
theorem C132_fast_partial (sq : K → K) (hsq : ∀ x, 0 ≤ sq x) {pi : K} (hpi : 0 < pi) (huge : K) (o : GrObj d K)
    {w : K} {n0 n1 : ℕ} {f0 : GrFrame d K} (h : GrRegular sq o w n0 n1 f0) (hskip : o.skip = 1)
    (hper : ∀ f ∈ o.frames, ∀ c, f.periodic c = true) (hlc : useLinkedCells o f0 = .ok false)
    (hcell : ∀ f ∈ o.frames, f.side = f0.side) (F : List (GrFrame d K)) (hF : F.Perm o.frames) :
    ∃ t, grFast sq pi huge o = .ok t ∧ grFast sq pi huge { o with frames := F } = .ok t := by
  obtain ⟨n, hn, hg, -⟩ := grSetupGrid_default sq hsq o f0.side h.w_pos h.rgrid h.dr h.fit
  obtain ⟨f0', hm0, hf0'⟩ := perm_first hF h.first
  have hs' : f0'.side = f0.side := hcell f0' hm0
  have h' := grSystem_permute h.system hF hf0'
  have hm0' : f0 ∈ o.frames := List.mem_of_getElem? h.first
  have hlc' : useLinkedCells { o with frames := F } f0' = .ok false := by
    rw [← hlc]
    unfold useLinkedCells
    rw [hs', h.len0 _ hm0, h.len1 _ hm0, h.len0 _ hm0', h.len1 _ hm0']
  have hL := grFast_closed sq hpi huge o h.system hn hg false hlc (fun c => c = none) rfl
    (fun f => (List.range n).map fun b : ℕ => pairCount o (fDist sq) f
          fun r => (b : K) * w ≤ r ∧ r < ((b : K) + 1) * w) (by simp)
    (fun st f hf hc h1 h2 => ⟨none, rfl, fastFrame_direct sq hsq huge o h.system st f hf (hper f hf) hc h1 h2⟩)
  have hL' := grFast_closed sq hpi huge { o with frames := F } h' hn (by rw [hs']; exact hg) false hlc'
    (fun c => c = none) rfl
    (fun f => (List.range n).map fun b : ℕ => pairCount o (fDist sq) f
          fun r => (b : K) * w ≤ r ∧ r < ((b : K) + 1) * w) (by simp)
    (fun st f hf hc h1 h2 => ⟨none, rfl, fastFrame_direct sq hsq huge { o with frames := F } h' st f hf
      (hper f (hF.mem_iff.1 hf)) hc h1 h2⟩)
  have hl := lastFrame_mem h.first h.skip_pos
  have hl' := lastFrame_mem (o := { o with frames := F }) hf0' h.skip_pos
  obtain ⟨m, -, -, -, hm⟩ := grCrop_ok (rmax := o.rmax) (side := f0.side) h.system.dim_pos
  rw [hcell _ hl, hm] at hL
  rw [hcell _ (hF.mem_iff.1 hl'), hm] at hL'
  refine ⟨_, hL, ?_⟩
  rw [hL']
  simp only [hskip, originFrames_one]
  congr 2
  apply List.map_congr_left
  intro j _
  exact Prod.ext rfl (congrArg some (grVal_perm o _ rfl pi w n0 n1 hF _ j _))

theorem grVal_volume (o : GrObj d K) (pi w : K) (n0 n1 : ℕ) (F : List (GrFrame d K)) {v v' : K} (hv : v ≠ 0)
    (j : ℕ) (H : GrFrame d K → ℕ) :
    grVal o pi w n0 n1 F v' j H = grVal o pi w n0 n1 F v j H * (v' / v) := by
  unfold grVal
  rw [show (n1 : K) / v * shellVol pi d ((j : K) * w) (((j : K) + 1) * w) * (n0 : K)
      * (if o.same then 1 / 2 else 1)
      = ((n1 : K) * shellVol pi d ((j : K) * w) (((j : K) + 1) * w) * (n0 : K)
      * (if o.same then 1 / 2 else 1)) / v by ring,
    show (n1 : K) / v' * shellVol pi d ((j : K) * w) (((j : K) + 1) * w) * (n0 : K)
      * (if o.same then 1 / 2 else 1)
      = ((n1 : K) * shellVol pi d ((j : K) * w) (((j : K) + 1) * w) * (n0 : K)
      * (if o.same then 1 / 2 else 1)) / v' by ring, div_div_eq_mul_div, div_div_eq_mul_div]
  field_simp

theorem filter_map_snd {β γ : Type} (t : List (K × β)) (g : β → γ) (m : K) :
    (t.map fun p => (p.1, g p.2)).filter (fun p => p.1 ≤ m) = (t.filter fun p => p.1 ≤ m).map fun p => (p.1, g p.2) := by
  rw [List.filter_map]
  rfl

/-- **C132 does not hold** for a fluctuating cell. With distances given by the user, the table computed after
exchanging the frames is the original one multiplied by the ratio of the volumes of the cells that come
last, whatever the positions of the particles. -/
theorem C132_counterexample_cell (sq : K → K) {pi : K} (hpi : 0 < pi) (o : GrObj d K)
    {w : K} {n0 n1 n : ℕ} {f0 : GrFrame d K} (h : GrSystem o w n0 n1 f0) (hskip : o.skip = 1) (hn : 2 ≤ n)
    (hgrid : o.rgrid = some ((List.range n).map fun j : ℕ => w / 2 + (j : K) * w)) (hr : 0 < o.rmax)
    (F : List (GrFrame d K)) (hF : F.Perm o.frames) :
    ∃ t, grLegacy sq pi o = .ok t ∧
      grLegacy sq pi { o with frames := F } = .ok (t.map fun p => (p.1, p.2.map fun v =>
        v * ((∏ c, (F.getLastD f0).side c) / ∏ c, (o.frames.getLastD f0).side c))) := by
  obtain ⟨f0', hm0, hf0'⟩ := perm_first hF h.first
  have h' := grSystem_permute h hF hf0'
  have hgr : ∀ (o' : GrObj d K) (s : Vec d K), o'.rgrid = o.rgrid →
      grSetupGrid sq o' s = .ok (defaultGrid w n) := by
    intro o' s ho
    unfold grSetupGrid
    rw [ho, hgrid]
    simp only [bind, Except.bind, pure, Except.pure]
    rw [if_neg (by
      rw [List.isEmpty_iff, List.map_eq_nil_iff, List.range_eq_nil]; omega)]
    rfl
  have hL := grLegacy_closed sq hpi o h hn (hgr o _ rfl)
  have hL' := grLegacy_closed sq hpi { o with frames := F } h' hn (hgr _ _ rfl)
  have hl := lastFrame_mem h.first h.skip_pos
  simp only [hskip, originFrames_one] at hL hL' hl
  have hFne : F ≠ [] := by rintro rfl; simp at hf0'
  have hlast : F.getLastD f0' = F.getLastD f0 := by
    rw [List.getLastD_eq_getLast?, List.getLastD_eq_getLast?, List.getLast?_eq_some_getLast hFne]; rfl
  have hcrop : ∀ (s : Vec d K) t, grCrop o.rmax s t = .ok (t.filter fun p => p.1 ≤ o.rmax) := by
    intro s t; unfold grCrop; rw [if_pos hr]
  rw [hcrop] at hL hL'
  refine ⟨_, hL, ?_⟩
  rw [hskip, hL', hlast]
  congr 1
  rw [← filter_map_snd _ (fun v : Option K => v.map fun v =>
        v * ((∏ c, (F.getLastD f0).side c) / ∏ c, (o.frames.getLastD f0).side c)), List.map_map]
  congr 1
  apply List.map_congr_left
  intro j _
  simp only [Function.comp_apply, Option.map_some]
  exact Prod.ext rfl (congrArg some ((grVal_perm o _ rfl pi w n0 n1 hF _ j _).trans
    (grVal_volume o pi w n0 n1 o.frames (cellVolume_pos (h.side_pos _ hl)).ne' j _)))

/-- Four particles in a cell of sides 8 and 6 that shrinks to one of sides 8 and 3. -/
def cellExample : GrObj 2 ℚ :=
  ⟨[⟨![8, 6], fun _ => true, [![0, 0], ![3, 0], ![3, -2], ![-3, 0]], [![0, 0], ![3, 0], ![3, -2], ![-3, 0]]⟩,
      ⟨![8, 3], fun _ => true, [![0, 0], ![1, 0], ![-4, 1], ![3, -1]], [![0, 0], ![1, 0], ![-4, 1], ![3, -1]]⟩],
    true, 1, some [1 / 2, 3 / 2, 5 / 2, 7 / 2], .float 1, 3⟩

example : GrSystem cellExample 1 4 4
    ⟨![8, 6], fun _ => true, [![0, 0], ![3, 0], ![3, -2], ![-3, 0]], [![0, 0], ![3, 0], ![3, -2], ![-3, 0]]⟩ ∧
    cellExample.rgrid = some ((List.range 4).map fun j : ℕ => 1 / 2 + (j : ℚ) * 1) :=
  ⟨⟨rfl, by decide, by norm_num, by decide, by decide +kernel, by decide, by decide, by decide +kernel,
    by decide +kernel, by decide +kernel⟩, by decide +kernel⟩

example : grLegacy Rat.sqrt 3 cellExample ≠ grLegacy Rat.sqrt 3 { cellExample with frames := cellExample.frames.reverse }
    ∧ (grLegacy Rat.sqrt 3 cellExample).map (List.map fun p => (p.1, p.2.map (· * 2)))
      = grLegacy Rat.sqrt 3 { cellExample with frames := cellExample.frames.reverse } := by
  constructor <;> decide +kernel

/-- The hypotheses of the first two theorems, with the frames exchanged. -/
example : (∀ f ∈ grExample.frames, f.side = ![8, 6]) ∧ grExample.skip = 1 ∧
    grLegacy Rat.sqrt 3 { grExample with frames := grExample.frames.reverse }
      = .ok [(1 / 2, some 1), (3 / 2, some (1 / 3)), (5 / 2, some (3 / 5))] := by
  refine ⟨by decide +kernel, rfl, by decide +kernel⟩

/-! ## C133 -/

/-- The frames with indices 0, `skip`, 2 `skip`, ... are those used as time origins. -/
theorem originFrames_of {α : Type} {frames F : List α} {skip : ℕ} (hs : 0 < skip)
    (h : ∀ i, F[i]? = frames[i * skip]?) : originFrames frames skip = F := by
  have hl : ∀ i, i < F.length ↔ i * skip < frames.length := by
    intro i
    constructor
    · intro hi
      by_contra hc
      have := h i
      rw [List.getElem?_eq_getElem hi, List.getElem?_eq_none (by omega)] at this
      cases this
    · intro hi
      by_contra hc
      have := h i
      rw [List.getElem?_eq_none (by omega), List.getElem?_eq_getElem hi] at this
      cases this
  have hr : rangeList 0 frames.length skip = (List.range F.length).map fun i => i * skip := by
    unfold rangeList
    have : (frames.length - 0 + (skip - 1)) / skip = F.length := by
      apply Nat.eq_of_le_of_lt_succ
      · rw [Nat.le_div_iff_mul_le hs]
        rcases Nat.eq_zero_or_pos F.length with h0 | h0
        · rw [h0]; omega
        · have := (hl (F.length - 1)).1 (by omega)
          have e : F.length * skip = (F.length - 1) * skip + skip := by
            conv_lhs => rw [show F.length = (F.length - 1) + 1 by omega, Nat.add_mul, Nat.one_mul]
          omega
      · rw [Nat.div_lt_iff_lt_mul hs]
        have := (hl F.length).not.1 (by omega)
        rw [Nat.succ_mul]
        omega
    rw [this]
    simp
  unfold originFrames
  rw [hr, List.filterMap_map]
  conv_rhs => rw [← filterMap_range_getElem? F]
  congr 1
  funext i
  exact (h i).symm

/-- **C133** (part that holds), fast version: the stride selects the frames. The table is that of the
trajectory made of the frames 0, `skip`, 2 `skip`, ..., for all systems with a cell, with any number of
particles in each frame. -/
theorem C133_fast_partial (sq : K → K) (pi huge : K) (o : GrObj d K) (hs : 0 < o.skip) (F : List (GrFrame d K))
    (hF : ∀ i, F[i]? = o.frames[i * o.skip]?) :
    grFast sq pi huge o = grFast sq pi huge { o with frames := F, skip := 1 } := by
  have h0 : pyGet F 0 = pyGet o.frames 0 := by
    have := hF 0
    rw [Nat.zero_mul] at this
    unfold pyGet; rw [this]
  unfold grFast
  dsimp only
  rw [h0]
  simp only [pyRange, if_neg hs.ne', if_neg Nat.one_ne_zero, bind, Except.bind]
  have h1 : ∀ dr st, (rangeList 0 o.frames.length o.skip).foldlM (fun st i => do
      let f ← pyGet o.frames i
      grFastFrame sq huge o dr st f) st = F.foldlM (grFastFrame sq huge o dr) st := by
    intro dr st
    rw [foldlM_pyGet o.frames _ (fun i hi => by rw [mem_rangeList hs] at hi; omega) (grFastFrame sq huge o dr) st]
    congr 1
    exact originFrames_of hs hF
  have h2 : ∀ dr st, (rangeList 0 F.length 1).foldlM (fun st i => do
      let f ← pyGet F i
      grFastFrame sq huge { o with frames := F, skip := 1 } dr st f) st = F.foldlM (grFastFrame sq huge o dr) st := by
    intro dr st
    rw [foldlM_pyGet F _ (fun i hi => by rw [mem_rangeList one_pos] at hi; omega)
      (grFastFrame sq huge { o with frames := F, skip := 1 } dr) st]
    congr 1
    exact originFrames_one F
  simp only [bind, Except.bind] at h1 h2
  simp only [h1, h2]
  rfl

/-- The legacy version divides by the numbers of particles averaged over lists of numbers; it depends on them
only through this factor. -/
theorem grLegacyArrays_scale (sq : K → K) (pi : K) (o : GrObj d K) (l0 l1 m0 m1 : List ℕ) {a0 a1 b0 b1 : K}
    (hl0 : npAverage (K := K) l0 = some a0) (hl1 : npAverage (K := K) l1 = some a1)
    (hm0 : npAverage (K := K) m0 = some b0) (hm1 : npAverage (K := K) m1 = some b1)
    (ha0 : a0 ≠ 0) (ha1 : a1 ≠ 0) (hb0 : b0 ≠ 0) (hb1 : b1 ≠ 0) :
    grLegacyArrays sq pi o l0 l1 = (grLegacyArrays sq pi o m0 m1).map
      (List.map fun p => (p.1, p.2.map (· * (b0 * b1 / (a0 * a1))))) := by
  have hdiv : ∀ (x : Option K) (V v : K), npDiv x (grNorm (some a0) (some a1) V v o.same)
      = (npDiv x (grNorm (some b0) (some b1) V v o.same)).map (· * (b0 * b1 / (a0 * a1))) := by
    intro x V v
    have e : ∀ p q : K, q / V * v * p * (if o.same then 1 / 2 else 1)
        = (p * q) * (v / V * (if o.same then 1 / 2 else 1)) := by intro p q; ring
    unfold grNorm
    simp only [e]
    generalize v / V * (if o.same then 1 / 2 else 1) = k
    cases x with
    | none => rfl
    | some x =>
      unfold npDiv
      by_cases hk : k = 0
      · simp [hk]
      · have p1 : a0 * a1 * k ≠ 0 := mul_ne_zero (mul_ne_zero ha0 ha1) hk
        have p2 : b0 * b1 * k ≠ 0 := mul_ne_zero (mul_ne_zero hb0 hb1) hk
        simp only [if_neg p1, if_neg p2, Option.map_some]
        congr 1
        field_simp
  have hcrop : ∀ (s : Vec d K) (t : List (K × Option K)) (g : Option K → Option K),
      grCrop o.rmax s (t.map fun p => (p.1, g p.2))
        = (grCrop o.rmax s t).map (List.map fun p => (p.1, g p.2)) := by
    intro s t g
    unfold grCrop
    split_ifs
    · rw [filter_map_snd]; rfl
    · cases pyMin (List.ofFn s) with
      | error e => rfl
      | ok m => simp only [bind, Except.bind, pure, Except.pure]; rw [filter_map_snd]; rfl
  unfold grLegacyArrays
  rw [hl0, hl1, hm0, hm1]
  simp only [bind, Except.bind]
  cases pyGet o.frames 0 with
  | error e => rfl
  | ok f0 =>
  dsimp only
  cases grSetupGrid sq o f0.side with
  | error e => rfl
  | ok grid =>
  dsimp only
  cases grEdges grid with
  | error e => rfl
  | ok r =>
  dsimp only
  cases histogram r [] with
  | error e => rfl
  | ok h =>
  dsimp only
  cases pyRange 0 o.frames.length o.skip with
  | error e => rfl
  | ok origins =>
  dsimp only
  split
  · rfl
  · rename_i st _
    rw [← hcrop, List.map_map]
    congr 1
    apply List.map_congr_left
    intro j _
    exact Prod.ext rfl (hdiv _ _ _)

/-- The stride selects the frames read in the loop. -/
theorem grLegacyArrays_stride (sq : K → K) (pi : K) (o : GrObj d K) (hs : 0 < o.skip) (F : List (GrFrame d K))
    (hF : ∀ i, F[i]? = o.frames[i * o.skip]?) (l0 l1 : List ℕ) :
    grLegacyArrays sq pi o l0 l1 = grLegacyArrays sq pi { o with frames := F, skip := 1 } l0 l1 := by
  have h0 : pyGet F 0 = pyGet o.frames 0 := by
    have := hF 0
    rw [Nat.zero_mul] at this
    unfold pyGet; rw [this]
  unfold grLegacyArrays
  dsimp only
  rw [h0]
  simp only [pyRange, if_neg hs.ne', if_neg Nat.one_ne_zero]
  have h1 : ∀ (body : List (List ℕ) × GrFrame d K → GrFrame d K → Py (List (List ℕ) × GrFrame d K)) st,
      (rangeList 0 o.frames.length o.skip).foldlM (fun st i => do
      let f ← pyGet o.frames i
      body st f) st = (rangeList 0 F.length 1).foldlM (fun st i => do
      let f ← pyGet F i
      body st f) st := by
    intro body st
    rw [foldlM_pyGet o.frames _ (fun i hi => by rw [mem_rangeList hs] at hi; omega),
      foldlM_pyGet F _ (fun i hi => by rw [mem_rangeList one_pos] at hi; omega)]
    congr 1
    exact (originFrames_of hs hF).trans (originFrames_one F).symm
  cases pyGet o.frames 0 with
  | error e => rfl
  | ok f0 =>
  simp only [bind, Except.bind]
  have e : grSetupGrid sq { o with frames := F, skip := 1 } f0.side = grSetupGrid sq o f0.side := rfl
  rw [e]
  cases grSetupGrid sq o f0.side with
  | error e => rfl
  | ok grid =>
  dsimp only
  cases grEdges grid with
  | error e => rfl
  | ok r =>
  dsimp only
  cases histogram r [] with
  | error e => rfl
  | ok h =>
  dsimp only
  have h2 := h1 (fun st f => do
    if f.pos0.isEmpty || f.pos1.isEmpty then return (st.1, f)
    else
      let gr ← if o.same then pairsNewtonHist (grKernel sq f.side) f.pos0 f.pos1 r
        else pairsHist (grKernel sq f.side) f.pos0 f.pos1 r
      return (st.1 ++ [gr], f)) ([], f0)
  simp only [bind, Except.bind] at h2
  rw [h2]

/-- **C133** (part that holds), legacy version, with a constant number of particles. -/
theorem C133_legacy_partial (sq : K → K) (pi : K) (o : GrObj d K) (hs : 0 < o.skip) (F : List (GrFrame d K))
    (hF : ∀ i, F[i]? = o.frames[i * o.skip]?) {n0 n1 : ℕ} (h0 : ∀ f ∈ o.frames, f.pos0.length = n0)
    (h1 : ∀ f ∈ o.frames, f.pos1.length = n1) :
    grLegacy sq pi o = grLegacy sq pi { o with frames := F, skip := 1 } := by
  unfold grLegacy
  rw [grLegacyArrays_stride sq pi o hs F hF]
  have hmem : ∀ f ∈ F, f ∈ o.frames := by
    intro f hf
    obtain ⟨i, hi⟩ := List.mem_iff_getElem?.1 hf
    rw [hF i] at hi
    exact List.mem_of_getElem? hi
  by_cases hne : o.frames = []
  · have : F = [] := by
      cases F with
      | nil => rfl
      | cons a F => have := hmem a (by simp); rw [hne] at this; simp at this
    rw [hne, this]
  · have hFne : F ≠ [] := by
      rintro rfl
      have := hF 0
      rw [Nat.zero_mul, List.getElem?_nil] at this
      exact hne (by cases hf : o.frames with
        | nil => rfl
        | cons a l => rw [hf] at this; simp at this)
    have a0 : ∀ (g : GrFrame d K → ℕ) (n : ℕ), (∀ f ∈ o.frames, g f = n) →
        npAverage (K := K) (o.frames.map g) = npAverage (K := K) (F.map g) := by
      intro g n hg
      rw [npAverage_const (n := n) (by simpa using hne), npAverage_const (n := n) (by simpa using hFne)]
      · intro a ha; obtain ⟨f, hf, rfl⟩ := List.mem_map.1 ha; exact hg f (hmem f hf)
      · intro a ha; obtain ⟨f, hf, rfl⟩ := List.mem_map.1 ha; exact hg f hf
    unfold grLegacyArrays
    rw [a0 _ n0 h0, a0 _ n1 h1]

/-- **C133 does not hold** for the legacy version when the number of particles fluctuates: the numbers of
particles are averaged over all the frames, also those that are not used. The table is that of the selected
frames multiplied by the ratio of the products of the mean numbers of particles. -/
theorem C133_counterexample_number (sq : K → K) (pi : K) (o : GrObj d K) (hs : 0 < o.skip) (F : List (GrFrame d K))
    (hF : ∀ i, F[i]? = o.frames[i * o.skip]?)
    (h0 : ∃ f ∈ F, f.pos0 ≠ []) (h1 : ∃ f ∈ F, f.pos1 ≠ []) :
    grLegacy sq pi o = (grLegacy sq pi { o with frames := F, skip := 1 }).map (List.map fun p => (p.1, p.2.map
      (· * (((F.map fun f => (f.pos0.length : K)).sum / (F.length : K))
          * ((F.map fun f => (f.pos1.length : K)).sum / (F.length : K))
        / (((o.frames.map fun f => (f.pos0.length : K)).sum / (o.frames.length : K))
          * ((o.frames.map fun f => (f.pos1.length : K)).sum / (o.frames.length : K))))))) := by
  unfold grLegacy
  rw [grLegacyArrays_stride sq pi o hs F hF]
  have hmem : ∀ f ∈ F, f ∈ o.frames := by
    intro f hf
    obtain ⟨i, hi⟩ := List.mem_iff_getElem?.1 hf
    rw [hF i] at hi
    exact List.mem_of_getElem? hi
  have hav : ∀ (G : List (GrFrame d K)) (g : GrFrame d K → List (Vec d K)), (∃ f ∈ G, g f ≠ []) →
      npAverage (K := K) (G.map fun f => (g f).length)
        = some ((G.map fun f => ((g f).length : K)).sum / (G.length : K)) ∧
      (G.map fun f => ((g f).length : K)).sum / (G.length : K) ≠ 0 := by
    rintro G g ⟨f, hf, hg⟩
    have hne : G ≠ [] := List.ne_nil_of_mem hf
    constructor
    · unfold npAverage
      rw [if_neg (by simpa using hne), List.map_map, List.length_map]
      rfl
    · have hp : (0 : K) < (G.length : K) := by exact_mod_cast List.length_pos_iff.2 hne
      have hsum : (0 : K) < (G.map fun f => ((g f).length : K)).sum := by
        apply lt_of_lt_of_le (b := ((g f).length : K))
        · exact_mod_cast List.length_pos_iff.2 hg
        · exact List.single_le_sum (by
            intro x hx; obtain ⟨y, -, rfl⟩ := List.mem_map.1 hx; exact Nat.cast_nonneg _) _ (List.mem_map.2 ⟨f, hf, rfl⟩)
      positivity
  obtain ⟨p1, q1⟩ := hav o.frames GrFrame.pos0 (by obtain ⟨f, hf, h⟩ := h0; exact ⟨f, hmem f hf, h⟩)
  obtain ⟨p2, q2⟩ := hav o.frames GrFrame.pos1 (by obtain ⟨f, hf, h⟩ := h1; exact ⟨f, hmem f hf, h⟩)
  obtain ⟨p3, q3⟩ := hav F GrFrame.pos0 h0
  obtain ⟨p4, q4⟩ := hav F GrFrame.pos1 h1
  exact grLegacyArrays_scale sq pi _ _ _ _ _ p1 p2 p3 p4 q1 q2 q3 q4

/-- Four particles in the first frame, three of them in the second, which is not used: every value of the
legacy version is multiplied by (8/7)². -/
def strideExample : GrObj 2 ℚ :=
  ⟨[⟨![8, 6], fun _ => true, [![0, 0], ![3, 0], ![3, -2], ![-3, 0]], [![0, 0], ![3, 0], ![3, -2], ![-3, 0]]⟩,
      ⟨![8, 6], fun _ => true, [![0, 0], ![1, 0], ![-4, 3]], [![0, 0], ![1, 0], ![-4, 3]]⟩],
    true, 2, none, .float 1, -1⟩

example : (∀ i, (strideExample.frames.take 1)[i]? = strideExample.frames[i * strideExample.skip]?) ∧
    grFast Rat.sqrt 3 1000 strideExample = .ok [(1 / 2, some 0), (3 / 2, some 0), (5 / 2, some (6 / 5))] ∧
    grLegacy Rat.sqrt 3 { strideExample with frames := strideExample.frames.take 1, skip := 1 }
      = .ok [(1 / 2, some 0), (3 / 2, some 0), (5 / 2, some (6 / 5))] ∧
    grLegacy Rat.sqrt 3 strideExample = .ok [(1 / 2, some 0), (3 / 2, some 0), (5 / 2, some (384 / 245))] := by
  refine ⟨?_, by decide +kernel, by decide +kernel, by decide +kernel⟩
  intro i
  rcases i with _ | i
  · rfl
  · show _ = strideExample.frames[(i + 1) * 2]?
    rw [List.getElem?_eq_none (by show 1 ≤ i + 1; omega), List.getElem?_eq_none (by show 2 ≤ (i + 1) * 2; omega)]

end
end PP.Props
