import Verif.Props.GrOpen
import Verif.Props.GrLimits
import Verif.Lemmas.BondAngle
import Mathlib.Analysis.SpecialFunctions.Sqrt

/-!
# The unit of length in g(r) (C151)
-/

set_option linter.unusedSectionVars false

namespace PP.Props
open PP

variable {d : ℕ} {c : ℝ}

/-- A vector in another unit of length. -/
def scaleVec (c : ℝ) (x : Vec d ℝ) : Vec d ℝ := fun i => c * x i

/-- A frame in another unit of length. -/
def scaleFrame (c : ℝ) (f : GrFrame d ℝ) : GrFrame d ℝ :=
  ⟨scaleVec c f.side, f.periodic, f.pos0.map (scaleVec c), f.pos1.map (scaleVec c)⟩

/-- A spacing in another unit of length. -/
noncomputable def scaleStep (c : ℝ) (s : GridStep ℝ) : GridStep ℝ := .float (c * s.val)

/-- The object with frames, grid, spacing and cut-off in another unit of length. -/
noncomputable def scaleGr (c : ℝ) (o : GrObj d ℝ) : GrObj d ℝ :=
  ⟨o.frames.map (scaleFrame c), o.same, o.skip, o.rgrid.map (List.map (c * ·)), scaleStep c o.dr, c * o.rmax⟩

/-- A table of g(r) in another unit of length. -/
def scaleTable (c : ℝ) (t : List (ℝ × Option ℝ)) : List (ℝ × Option ℝ) := t.map fun p => (c * p.1, p.2)

/-! ### Distances -/

theorem sqrt_scale (hc : 0 < c) (v : Vec d ℝ) : √(∑ i, (c * v i) ^ 2) = c * √(∑ i, v i ^ 2) := by
  have : ∑ i, (c * v i) ^ 2 = c ^ 2 * ∑ i, v i ^ 2 := by
    rw [Finset.mul_sum]
    exact Finset.sum_congr rfl fun i _ => by ring
  rw [this, Real.sqrt_mul (by positivity), Real.sqrt_sq hc.le]

theorem minImage_scale (hc : 0 < c) (L r : Vec d ℝ) (i : Fin d) :
    minImage (scaleVec c L) (scaleVec c r) i = c * minImage L r i := by
  unfold minImage scaleVec
  rw [mul_div_mul_left _ _ hc.ne']
  ring

theorem grDist_scale (hc : 0 < c) (L x y : Vec d ℝ) :
    grDist Real.sqrt (scaleVec c L) (scaleVec c x) (scaleVec c y) = c * grDist Real.sqrt L x y := by
  unfold grDist
  rw [← sqrt_scale hc]
  congr 1
  refine Finset.sum_congr rfl fun i _ => ?_
  have e : (fun i => scaleVec c x i - scaleVec c y i) = scaleVec c fun i => x i - y i := by
    funext i; unfold scaleVec; ring
  rw [e, minImage_scale hc]

theorem fpbc_scale (hc : 0 < c) (L r : ℝ) : fpbc (c * L) (c * r) = c * fpbc L r := by
  unfold fpbc fsign
  rw [abs_mul, abs_of_pos hc, abs_mul, abs_of_pos hc]
  have e1 : (c * |r| > c * L / 2) ↔ (|r| > L / 2) := by
    rw [mul_div_assoc]; exact mul_lt_mul_iff_right₀ hc
  have e2 : (0 ≤ c * r) ↔ (0 ≤ r) := by rw [mul_nonneg_iff_of_pos_left hc]
  simp only [e1, e2]
  split_ifs <;> ring

theorem fDist_scale (hc : 0 < c) (L x y : Vec d ℝ) :
    fDist Real.sqrt (scaleVec c L) (scaleVec c x) (scaleVec c y) = c * fDist Real.sqrt L x y := by
  unfold fDist
  rw [← sqrt_scale hc]
  congr 1
  refine Finset.sum_congr rfl fun i _ => ?_
  unfold scaleVec
  rw [← mul_sub, fpbc_scale hc]

/-! ### Grid, edges and histograms -/

theorem foldl_max_scale (hc : 0 < c) (l : List ℝ) (a : ℝ) :
    (l.map (c * ·)).foldl max (c * a) = c * l.foldl max a := by
  induction l generalizing a with
  | nil => rfl
  | cons b l ih => rw [List.map_cons, List.foldl_cons, List.foldl_cons, ← mul_max_of_nonneg _ _ hc.le, ih]

theorem foldl_min_scale (hc : 0 < c) (l : List ℝ) (a : ℝ) :
    (l.map (c * ·)).foldl min (c * a) = c * l.foldl min a := by
  induction l generalizing a with
  | nil => rfl
  | cons b l ih => rw [List.map_cons, List.foldl_cons, List.foldl_cons, ← mul_min_of_nonneg _ _ hc.le, ih]

theorem pyMax_scale (hc : 0 < c) (l : List ℝ) : pyMax (l.map (c * ·)) = (pyMax l).map (c * ·) := by
  cases l with
  | nil => rfl
  | cons a l => rw [List.map_cons, pyMax, pyMax, foldl_max_scale hc]; rfl

theorem pyMin_scale (hc : 0 < c) (l : List ℝ) : pyMin (l.map (c * ·)) = (pyMin l).map (c * ·) := by
  cases l with
  | nil => rfl
  | cons a l => rw [List.map_cons, pyMin, pyMin, foldl_min_scale hc]; rfl

theorem ofFn_scale (v : Vec d ℝ) : List.ofFn (scaleVec c v) = (List.ofFn v).map (c * ·) := by
  rw [List.map_ofFn]; rfl

theorem linearGrid_length_unit (hc : 0 < c) (a b w : ℝ) :
    linearGrid (c * a) (c * b) (.float (c * w)) = (linearGrid a b (.float w)).map (List.map (c * ·)) := by
  simp only [linearGrid]
  by_cases hw : w = 0
  · rw [if_pos hw, if_pos (by rw [hw, mul_zero])]; rfl
  · rw [if_neg hw, if_neg (mul_ne_zero hc.ne' hw)]
    have : (c * b - c * a) / (c * w) = (b - a) / w := by rw [← mul_sub, mul_div_mul_left _ _ hc.ne']
    simp only [this, Except.map, List.map_map]
    congr 1
    refine List.map_congr_left fun i _ => ?_
    simp only [Function.comp]
    ring

theorem grSetupGrid_scale (hc : 0 < c) (o : GrObj d ℝ) (hdr : o.rgrid.isSome ∨ ∃ w, o.dr = .float w)
    (side : Vec d ℝ) :
    grSetupGrid Real.sqrt (scaleGr c o) (scaleVec c side) =
      (grSetupGrid Real.sqrt o side).map (List.map (c * ·)) := by
  have tail : ∀ g : List ℝ, (if (g.map (c * ·)).isEmpty then (.error .indexError : Py (List ℝ)) else pure (g.map (c * ·)))
      = (if g.isEmpty then (.error .indexError : Py (List ℝ)) else pure g).map (List.map (c * ·)) := by
    intro g; cases g <;> rfl
  unfold grSetupGrid
  cases hr : o.rgrid with
  | some g =>
    simp only [scaleGr, hr, Option.map_some, bind, Except.bind]
    exact tail g
  | none =>
    obtain ⟨w, hw⟩ := hdr.resolve_left (by rw [hr]; simp)
    simp only [scaleGr, hr, Option.map_none, hw, scaleStep, GridStep.val, ofFn_scale, pyMax_scale hc]
    cases pyMax (List.ofFn side) with
    | error e => rfl
    | ok m =>
      simp only [Except.map, bind, Except.bind]
      have := linearGrid_length_unit hc (w / 2) (m * √(d : ℝ)) w
      rw [show c * w / 2 = c * (w / 2) by ring, mul_assoc c m, this]
      cases linearGrid (w / 2) (m * √(d : ℝ)) (.float w) with
      | error e => rfl
      | ok g => exact tail g

theorem grEdges_scale (g : List ℝ) : grEdges (g.map (c * ·)) = (grEdges g).map (List.map (c * ·)) := by
  match g with
  | [] => rfl
  | [a] => rfl
  | a :: b :: r =>
    simp only [List.map_cons, grEdges, Except.map]
    congr 1
    have hlast : (c * b :: r.map (c * ·)).getLast (by simp) = c * (b :: r).getLast (by simp) := by
      have := List.getLast_map (f := (c * ·)) (l := b :: r) (by simp)
      simpa using this
    rw [hlast]
    simp only [List.map_append, List.map_cons, List.map_nil, List.map_map]
    congr 1
    · congr 1
      · ring
      · congr 1
        · ring
        · refine List.map_congr_left fun x _ => ?_
          simp only [Function.comp]
          ring
    · congr 1
      ring

theorem inBin_scale (hc : 0 < c) (edges : List ℝ) (j : ℕ) (v : ℝ) :
    inBin (edges.map (c * ·)) j (c * v) = inBin edges j v := by
  unfold inBin
  rw [List.getElem?_map, List.getElem?_map, List.length_map]
  cases edges[j]? with
  | none => rfl
  | some a =>
    cases edges[j + 1]? with
    | none => rfl
    | some b =>
      simp only [Option.map_some]
      congr 1
      rw [mul_le_mul_iff_right₀ hc, mul_lt_mul_iff_right₀ hc, mul_right_inj' hc.ne']

theorem histogram_scale (hc : 0 < c) (edges vals : List ℝ) :
    histogram (edges.map (c * ·)) (vals.map (c * ·)) = histogram edges vals := by
  unfold histogram
  have hp : (edges.map (c * ·)).Pairwise (· ≤ ·) ↔ edges.Pairwise (· ≤ ·) := by
    rw [List.pairwise_map]
    simp only [mul_le_mul_iff_right₀ hc]
  simp only [hp, List.length_map, List.countP_map]
  congr 2
  refine List.map_congr_left fun j _ => ?_
  refine List.countP_congr fun v _ => ?_
  simp only [Function.comp, inBin_scale hc]

theorem pyGet_mapL {α β : Type} (f : α → β) (l : List α) (i : ℕ) : pyGet (l.map f) i = (pyGet l i).map f := by
  unfold pyGet
  rw [List.getElem?_map]
  cases l[i]? <;> rfl

theorem pairsHist_scale (hc : 0 < c) (L : Vec d ℝ) (x y : List (Vec d ℝ)) (bins : List ℝ) :
    pairsHist (grKernel Real.sqrt (scaleVec c L)) (x.map (scaleVec c)) (y.map (scaleVec c)) (bins.map (c * ·)) =
      pairsHist (grKernel Real.sqrt L) x y bins := by
  have hk : ∀ x : List (Vec d ℝ), ∀ y, grKernel Real.sqrt (scaleVec c L) (x.map (scaleVec c)) (scaleVec c y) =
      (grKernel Real.sqrt L x y).map (c * ·) := by
    intro x y
    unfold grKernel
    rw [List.map_map, List.map_map]
    exact List.map_congr_left fun u _ => grDist_scale hc L u y
  unfold pairsHist
  have h0 := histogram_scale hc bins []
  rw [List.map_nil] at h0
  rw [h0, List.length_map]
  congr 1
  funext hist
  refine foldlM_congr_mem (fun h i _ => ?_) hist
  rw [pyGet_mapL]
  cases pyGet y i with
  | error e => rfl
  | ok yi => simp only [Except.map, bind, Except.bind, hk, histogram_scale hc]

theorem pairsNewtonHist_scale (hc : 0 < c) (L : Vec d ℝ) (x y : List (Vec d ℝ)) (bins : List ℝ) :
    pairsNewtonHist (grKernel Real.sqrt (scaleVec c L)) (x.map (scaleVec c)) (y.map (scaleVec c)) (bins.map (c * ·)) =
      pairsNewtonHist (grKernel Real.sqrt L) x y bins := by
  have hk : ∀ x : List (Vec d ℝ), ∀ y, grKernel Real.sqrt (scaleVec c L) (x.map (scaleVec c)) (scaleVec c y) =
      (grKernel Real.sqrt L x y).map (c * ·) := by
    intro x y
    unfold grKernel
    rw [List.map_map, List.map_map]
    exact List.map_congr_left fun u _ => grDist_scale hc L u y
  have hm : ∀ l : List ℕ, (l.mapM fun i => do
        let yi ← pyGet (y.map (scaleVec c)) i
        return grKernel Real.sqrt (scaleVec c L) ((x.map (scaleVec c)).drop (i + 1)) yi) =
      (l.mapM fun i => do
        let yi ← pyGet y i
        return grKernel Real.sqrt L (x.drop (i + 1)) yi).map (List.map (List.map (c * ·))) := by
    intro l
    induction l with
    | nil => rfl
    | cons i l ih =>
      rw [List.mapM_cons, List.mapM_cons, ih, pyGet_mapL, ← List.map_drop]
      cases pyGet y i with
      | error e => rfl
      | ok yi =>
        simp only [Except.map, bind, Except.bind, pure, Except.pure, hk]
        generalize List.mapM (m := Py) _ l = z
        cases z <;> rfl
  unfold pairsNewtonHist pairsNewtonHistB
  have h0 := histogram_scale hc bins []
  rw [List.map_nil] at h0
  rw [h0, List.length_map]
  congr 1
  funext _
  congr 1
  funext bl
  congr 1
  funext hist
  congr 1
  funext r
  refine foldlM_congr_mem (fun h ib _ => ?_) hist
  rw [hm]
  generalize List.mapM (m := Py) _ (rangeList ib _ 1) = z
  cases z with
  | error e => rfl
  | ok parts =>
    simp only [Except.map, bind, Except.bind]
    rw [← List.map_flatten, histogram_scale hc]

/-! ### Normalisation -/

theorem shellVol_scale (c a b : ℝ) : shellVol Real.pi d (c * a) (c * b) = c ^ d * shellVol Real.pi d a b := by
  unfold shellVol
  split_ifs with h2 h3
  · subst h2; ring
  · subst h3; ring
  · ring

theorem cellVolume_scale (c : ℝ) (L : Vec d ℝ) : cellVolume (scaleVec c L) = c ^ d * cellVolume L := by
  unfold cellVolume scaleVec
  rw [Finset.prod_mul_distrib, Finset.prod_const, Finset.card_univ, Fintype.card_fin]

theorem grNorm_scale (hc : 0 < c) (n0 n1 : Option ℝ) (V v : ℝ) (same : Bool) :
    grNorm n0 n1 (c ^ d * V) (c ^ d * v) same = grNorm n0 n1 V v same := by
  unfold grNorm
  have hd : c ^ d ≠ 0 := pow_ne_zero _ hc.ne'
  cases n0 <;> cases n1 <;> simp only
  congr 3
  by_cases hV : V = 0
  · rw [hV]; simp
  · field_simp

theorem grCrop_scale (hc : 0 < c) (rmax : ℝ) (L : Vec d ℝ) (t : List (ℝ × Option ℝ)) :
    grCrop (c * rmax) (scaleVec c L) (scaleTable c t) = (grCrop rmax L t).map (scaleTable c) := by
  have hf : ∀ x, (scaleTable c t).filter (fun p => p.1 ≤ c * x) = scaleTable c (t.filter fun p => p.1 ≤ x) := by
    intro x
    unfold scaleTable
    rw [List.filter_map]
    congr 1
    refine List.filter_congr fun p _ => ?_
    simp only [Function.comp, mul_le_mul_iff_right₀ hc]
  unfold grCrop
  have h : (c * rmax > 0) ↔ rmax > 0 := mul_pos_iff_of_pos_left hc
  by_cases hr : rmax > 0
  · rw [if_pos hr, if_pos (h.2 hr), hf]; rfl
  · rw [if_neg hr, if_neg fun hh => hr (h.1 hh), ofFn_scale, pyMin_scale hc]
    cases pyMin (List.ofFn L) with
    | error e => rfl
    | ok m =>
      simp only [Except.map, bind, Except.bind, pure, Except.pure]
      rw [mul_div_assoc, hf]

theorem getD_scale (l : List ℝ) (j : ℕ) : (l.map (c * ·)).getD j 0 = c * l.getD j 0 := by
  rw [List.getD_eq_getElem?_getD, List.getD_eq_getElem?_getD, List.getElem?_map]
  cases l[j]? <;> simp

/-! ### C151 -/

/-- **C151** for `RadialDistributionFunctionLegacy`: in another unit of length the distances change and the values do
not, for all trajectories, grids, spacings and cut-offs, also if an exception is raised. -/
theorem C151_legacy_partial (hc : 0 < c) (o : GrObj d ℝ) (hdr : o.rgrid.isSome ∨ ∃ w, o.dr = .float w) :
    grLegacy Real.sqrt Real.pi (scaleGr c o) = (grLegacy Real.sqrt Real.pi o).map (scaleTable c) := by
  unfold grLegacy grLegacyArrays
  have e0 : (scaleGr c o).frames = o.frames.map (scaleFrame c) := rfl
  have l0 : ((scaleGr c o).frames.map fun f => f.pos0.length) = o.frames.map fun f => f.pos0.length := by
    rw [e0, List.map_map]
    exact List.map_congr_left fun f _ => List.length_map _
  have l1 : ((scaleGr c o).frames.map fun f => f.pos1.length) = o.frames.map fun f => f.pos1.length := by
    rw [e0, List.map_map]
    exact List.map_congr_left fun f _ => List.length_map _
  rw [l0, l1, e0, pyGet_mapL, List.length_map]
  cases pyGet o.frames 0 with
  | error e => rfl
  | ok f0 =>
  simp only [Except.map, bind, Except.bind]
  rw [show (scaleFrame c f0).side = scaleVec c f0.side from rfl, grSetupGrid_scale hc o hdr]
  cases grSetupGrid Real.sqrt o f0.side with
  | error e => rfl
  | ok grid =>
  simp only [Except.map]
  rw [grEdges_scale]
  cases grEdges grid with
  | error e => rfl
  | ok r =>
  simp only [Except.map]
  have h0 := histogram_scale hc r []
  rw [List.map_nil] at h0
  rw [h0]
  cases histogram r [] with
  | error e => rfl
  | ok _ =>
  simp only
  rw [show (scaleGr c o).skip = o.skip from rfl]
  cases pyRange 0 o.frames.length o.skip with
  | error e => rfl
  | ok origins =>
  simp only
  generalize hx : origins.foldlM (m := Py) _ (([] : List (List ℕ)), scaleFrame c f0) = x
  generalize hy : origins.foldlM (m := Py) _ (([] : List (List ℕ)), f0) = y
  have key : x = y.map fun st => (st.1, scaleFrame c st.2) := by
    rw [← hx, ← hy]
    refine foldlM_map_state (fun st : List (List ℕ) × GrFrame d ℝ => (st.1, scaleFrame c st.2)) ?_ origins ([], f0)
    intro st i
    rw [pyGet_mapL]
    cases pyGet o.frames i with
    | error e => rfl
    | ok f =>
      simp only [Except.map]
      have i0 : (scaleFrame c f).pos0.isEmpty = f.pos0.isEmpty := by
        show (f.pos0.map _).isEmpty = _
        cases f.pos0 <;> rfl
      have i1 : (scaleFrame c f).pos1.isEmpty = f.pos1.isEmpty := by
        show (f.pos1.map _).isEmpty = _
        cases f.pos1 <;> rfl
      rw [i0, i1]
      by_cases hem : (f.pos0.isEmpty || f.pos1.isEmpty) = true
      · rw [if_pos hem, if_pos hem]; rfl
      · rw [if_neg hem, if_neg hem]
        have hsame : (scaleGr c o).same = o.same := rfl
        have hn : pairsNewtonHist (grKernel Real.sqrt (scaleFrame c f).side) (scaleFrame c f).pos0 (scaleFrame c f).pos1
            (r.map (c * ·)) = pairsNewtonHist (grKernel Real.sqrt f.side) f.pos0 f.pos1 r :=
          pairsNewtonHist_scale hc _ _ _ _
        have hp : pairsHist (grKernel Real.sqrt (scaleFrame c f).side) (scaleFrame c f).pos0 (scaleFrame c f).pos1
            (r.map (c * ·)) = pairsHist (grKernel Real.sqrt f.side) f.pos0 f.pos1 r := pairsHist_scale hc _ _ _ _
        rw [hsame, hn, hp]
        by_cases hs : o.same = true
        · rw [if_pos hs, if_pos hs]
          cases pairsNewtonHist (grKernel Real.sqrt f.side) f.pos0 f.pos1 r <;> rfl
        · rw [if_neg hs, if_neg hs]
          cases pairsHist (grKernel Real.sqrt f.side) f.pos0 f.pos1 r <;> rfl
  rw [key]
  cases y with
  | error e => rfl
  | ok st =>
    simp only [Except.map, List.length_map]
    have ht : ((List.range (r.length - 1)).map fun j =>
        (((r.map (c * ·)).getD j 0 + (r.map (c * ·)).getD (j + 1) 0) / 2,
          npDiv (npAverageAt st.1 j) (grNorm (npAverage (o.frames.map fun f => f.pos0.length))
            (npAverage (o.frames.map fun f => f.pos1.length)) (cellVolume (scaleFrame c st.2).side)
            (shellVol Real.pi d ((r.map (c * ·)).getD j 0) ((r.map (c * ·)).getD (j + 1) 0)) (scaleGr c o).same))) =
      scaleTable c ((List.range (r.length - 1)).map fun j =>
        ((r.getD j 0 + r.getD (j + 1) 0) / 2,
          npDiv (npAverageAt st.1 j) (grNorm (npAverage (o.frames.map fun f => f.pos0.length))
            (npAverage (o.frames.map fun f => f.pos1.length)) (cellVolume st.2.side)
            (shellVol Real.pi d (r.getD j 0) (r.getD (j + 1) 0)) o.same))) := by
      unfold scaleTable
      rw [List.map_map]
      refine List.map_congr_left fun j _ => ?_
      simp only [Function.comp, getD_scale]
      rw [show (scaleFrame c st.2).side = scaleVec c st.2.side from rfl, cellVolume_scale, shellVol_scale,
        grNorm_scale hc, show (scaleGr c o).same = o.same from rfl]
      congr 1
      ring
    rw [ht]
    exact grCrop_scale hc _ _ _

/-! ### The Fortran kernels -/

/-- The distances between the particles are those of the scaled ones, in the other unit. -/
def DistScale (c : ℝ) (box box' : Vec d ℝ) (l l' : List (Vec d ℝ)) : Prop :=
  ∀ x ∈ l, ∀ y ∈ l', fDist Real.sqrt box' (scaleVec c x) (scaleVec c y) = c * fDist Real.sqrt box x y

theorem fCollect_scale (hc : 0 < c) (size : ℕ) (rmax : ℝ) (rs : List ℝ) :
    fCollect size (c * rmax) (rs.map (c * ·)) = (fCollect size rmax rs).map (List.map (c * ·)) := by
  unfold fCollect
  have : ∀ ds : List ℝ, (rs.map (c * ·)).foldlM (m := Py)
        (fun ds r => if r < c * rmax then fPush size ds r else .ok ds) (ds.map (c * ·)) =
      (rs.foldlM (m := Py) (fun ds r => if r < rmax then fPush size ds r else .ok ds) ds).map (List.map (c * ·)) := by
    induction rs with
    | nil => intro ds; rfl
    | cons r rs ih =>
      intro ds
      rw [List.map_cons, List.foldlM_cons, List.foldlM_cons]
      simp only [mul_lt_mul_iff_right₀ hc]
      by_cases h : r < rmax
      · rw [if_pos h, if_pos h]
        unfold fPush
        rw [List.length_map]
        by_cases hs : ds.length + 1 ≤ size
        · rw [if_pos hs, if_pos hs]
          have := ih (ds ++ [r])
          rw [List.map_append] at this
          exact this
        · rw [if_neg hs, if_neg hs]; rfl
      · rw [if_neg h, if_neg h]
        exact ih ds
  exact this []

theorem fBinAll_scale (hc : 0 < c) (dr : ℝ) (hist : List ℕ) (ds : List ℝ) :
    fBinAll (c * dr) hist (ds.map (c * ·)) = fBinAll dr hist ds := by
  unfold fBinAll
  induction ds generalizing hist with
  | nil => rfl
  | cons r ds ih =>
    rw [List.map_cons, List.foldlM_cons, List.foldlM_cons, mul_div_mul_left _ _ hc.ne']
    congr 1
    funext h
    exact ih h

theorem fBins_scale (dr : ℝ) (n : ℕ) : fBins (c * dr) n = (fBins dr n).map (c * ·) := by
  unfold fBins
  rw [List.map_map]
  refine List.map_congr_left fun j _ => ?_
  simp only [Function.comp]
  ring

theorem pyGet_mem {α : Type} {l : List α} {i : ℕ} {a : α} (h : pyGet l i = .ok a) : a ∈ l := by
  unfold pyGet at h
  cases h' : l[i]? with
  | none => rw [h'] at h; cases h
  | some b => rw [h'] at h; cases h; exact List.mem_of_getElem? h'

theorem grSelfC_scale (hc : 0 < c) {pos : List (Vec d ℝ)} {box box' : Vec d ℝ} (hD : DistScale c box box' pos pos)
    (dr : ℝ) (hist : List ℕ) (bins : List ℝ) :
    grSelfC Real.sqrt (pos.map (scaleVec c)) box' (c * dr) hist (bins.map (c * ·)) =
      (grSelfC Real.sqrt pos box dr hist bins).map fun r => (r.1, r.2.map (c * ·)) := by
  unfold grSelfC
  simp only [List.length_map, fBins_scale]
  generalize hx : (List.range pos.length).foldlM (m := Py) _ (hist.map fun _ => 0) = x
  generalize hy : (List.range pos.length).foldlM (m := Py) _ (hist.map fun _ => 0) = y
  have : x = y := by
    rw [← hx, ← hy]
    refine foldlM_congr_mem (fun h i _ => ?_) _
    rw [pyGet_mapL]
    cases hi : pyGet pos i with
    | error e => rfl
    | ok pi =>
      simp only [Except.map, bind, Except.bind]
      have e : ((pos.map (scaleVec c)).drop (i + 1)).map (fun pj => fDist Real.sqrt box' pj (scaleVec c pi)) =
          ((pos.drop (i + 1)).map fun pj => fDist Real.sqrt box pj pi).map (c * ·) := by
        rw [← List.map_drop, List.map_map, List.map_map]
        exact List.map_congr_left fun u hu => hD u (List.mem_of_mem_drop hu) pi (pyGet_mem hi)
      rw [e, mul_assoc, fCollect_scale hc]
      cases fCollect pos.length (dr * (bins.length : ℝ)) ((pos.drop (i + 1)).map fun pj => fDist Real.sqrt box pj pi) with
      | error e => rfl
      | ok ds => exact fBinAll_scale hc dr h ds
  rw [this]
  cases y <;> rfl

theorem grDistinctC_scale (hc : 0 < c) {pos1 pos2 : List (Vec d ℝ)} {box box' : Vec d ℝ}
    (hD : DistScale c box box' pos2 pos1) (dr : ℝ) (hist : List ℕ) (bins : List ℝ) :
    grDistinctC Real.sqrt (pos1.map (scaleVec c)) (pos2.map (scaleVec c)) box' (c * dr) hist (bins.map (c * ·)) =
      (grDistinctC Real.sqrt pos1 pos2 box dr hist bins).map fun r => (r.1, r.2.map (c * ·)) := by
  unfold grDistinctC
  simp only [List.length_map, fBins_scale]
  generalize hx : (List.range pos1.length).foldlM (m := Py) _ (hist.map fun _ => 0) = x
  generalize hy : (List.range pos1.length).foldlM (m := Py) _ (hist.map fun _ => 0) = y
  have : x = y := by
    rw [← hx, ← hy]
    refine foldlM_congr_mem (fun h i _ => ?_) _
    rw [pyGet_mapL]
    cases hi : pyGet pos1 i with
    | error e => rfl
    | ok pi =>
      simp only [Except.map, bind, Except.bind]
      have e : (pos2.map (scaleVec c)).map (fun pj => fDist Real.sqrt box' pj (scaleVec c pi)) =
          (pos2.map fun pj => fDist Real.sqrt box pj pi).map (c * ·) := by
        rw [List.map_map, List.map_map]
        exact List.map_congr_left fun u hu => hD u hu pi (pyGet_mem hi)
      rw [e, mul_assoc, fCollect_scale hc]
      cases fCollect pos2.length (dr * (hist.length : ℝ)) (pos2.map fun pj => fDist Real.sqrt box pj pi) with
      | error e => rfl
      | ok ds => exact fBinAll_scale hc dr h ds
  rw [this]
  cases y <;> rfl

theorem grNeighborsC_scale (hc : 0 < c) {pos other : List (Vec d ℝ)} {box box' : Vec d ℝ}
    (hD : DistScale c box box' other pos) (nb : List (List ℕ)) (dr : ℝ) (hist : List ℕ) (bins : List ℝ) :
    grNeighborsC Real.sqrt (pos.map (scaleVec c)) (other.map (scaleVec c)) nb box' (c * dr) hist (bins.map (c * ·)) =
      (grNeighborsC Real.sqrt pos other nb box dr hist bins).map fun r => (r.1, r.2.map (c * ·)) := by
  unfold grNeighborsC
  simp only [List.length_map, fBins_scale]
  generalize hx : (List.range pos.length).foldlM (m := Py) _ (hist.map fun _ => 0) = x
  generalize hy : (List.range pos.length).foldlM (m := Py) _ (hist.map fun _ => 0) = y
  have : x = y := by
    rw [← hx, ← hy]
    refine foldlM_congr_mem (fun h i _ => ?_) _
    rw [pyGet_mapL]
    cases hi : pyGet pos i with
    | error e => rfl
    | ok pi =>
      simp only [Except.map, bind, Except.bind]
      cases nb[i]? with
      | none => rfl
      | some l =>
        simp only
        generalize hu : l.foldlM (m := Py) _ ([] : List ℝ) = u
        generalize hv : l.foldlM (m := Py) _ ([] : List ℝ) = v
        have : u = v.map (List.map (c * ·)) := by
          rw [← hu, ← hv]
          refine foldlM_map_state (List.map (c * ·)) ?_ l []
          intro ds j
          rw [List.getElem?_map]
          cases hj : other[j]? with
          | none => rfl
          | some pj =>
            simp only [Option.map_some]
            unfold fPush
            rw [List.length_map, hD pj (List.mem_of_getElem? hj) pi (pyGet_mem hi)]
            by_cases hs : ds.length + 1 ≤ other.length
            · rw [if_pos hs, if_pos hs]; simp [Except.map]
            · rw [if_neg hs, if_neg hs]; rfl
        rw [this]
        cases v with
        | error e => rfl
        | ok ds => exact fBinAll_scale hc dr h ds
  rw [this]
  cases y <;> rfl

/-! ### Linked cells -/

def scaleMap (c : ℝ) (m : CellMap d ℝ) : CellMap d ℝ := ⟨scaleVec c m.box, m.nCell, m.offsets, m.periodic⟩

def scaleCells (c : ℝ) (lc : LinkedCells d ℝ) : LinkedCells d ℝ := ⟨c * lc.rcut, lc.map.map (scaleMap c)⟩

theorem index_scale (hc : 0 < c) (m : CellMap d ℝ) (x : Vec d ℝ) : (scaleMap c m).index (scaleVec c x) = m.index x := by
  funext i
  unfold CellMap.index scaleMap scaleVec
  simp only
  congr 1
  rw [mul_div_assoc c (m.box i) 2, ← mul_add, mul_div_assoc c (m.box i), mul_div_mul_left _ _ hc.ne']

theorem neighbors_scale (hc : 0 < c) (m : CellMap d ℝ) (pos : List (Vec d ℝ)) (other : Option (List (Vec d ℝ))) :
    (scaleMap c m).neighbors (pos.map (scaleVec c)) (other.map (List.map (scaleVec c))) = m.neighbors pos other := by
  have h : ∀ l : List (Vec d ℝ), (l.map (scaleVec c)).map (scaleMap c m).index = l.map m.index := by
    intro l
    rw [List.map_map]
    exact List.map_congr_left fun x _ => index_scale hc m x
  unfold CellMap.neighbors
  cases other with
  | none =>
    simp only [Option.map_none, h, List.length_map]
    rfl
  | some o =>
    simp only [Option.map_some, h, List.length_map]
    rfl

theorem adjust_scale (hc : 0 < c) (rcut : ℝ) (box : Vec d ℝ) (newton : Bool) (periodic : Fin d → Bool) :
    adjust (c * rcut) (scaleVec c box) newton periodic = (adjust rcut box newton periodic).map (scaleMap c) := by
  unfold adjust
  have e : (fun i => pyInt (scaleVec c box i / (c * rcut))) = fun i => pyInt (box i / rcut) := by
    funext i
    unfold scaleVec
    rw [mul_div_mul_left _ _ hc.ne']
  rw [e]
  cases newton with
  | true =>
    simp only [if_true]
    cases newtonOffsets d <;> rfl
  | false =>
    simp only [Bool.false_eq_true, if_false]
    cases allOffsets d <;> rfl

theorem compute_scale (hc : 0 < c) (lc : LinkedCells d ℝ) (box : Vec d ℝ) (pos : List (Vec d ℝ))
    (other : Option (List (Vec d ℝ))) (newton : Bool) (periodic : Fin d → Bool) (asArray : Bool) :
    (scaleCells c lc).compute (scaleVec c box) (pos.map (scaleVec c)) (other.map (List.map (scaleVec c))) newton periodic
      asArray = (lc.compute box pos other newton periodic asArray).map fun r => (scaleCells c r.1, r.2) := by
  unfold LinkedCells.compute
  have hem : (pos.map (scaleVec c)).isEmpty = pos.isEmpty := by cases pos <;> rfl
  have hno : (other.map (List.map (scaleVec c))).isNone = other.isNone := by cases other <;> rfl
  rw [hem, hno]
  have key : ∀ m : CellMap d ℝ, ((scaleMap c m).neighbors (pos.map (scaleVec c)) (other.map (List.map (scaleVec c))) >>=
      fun nb => if (asArray && pos.isEmpty) = true then (.error .valueError : Py (LinkedCells d ℝ × List (List ℕ)))
        else pure (⟨(scaleCells c lc).rcut, some (scaleMap c m)⟩, nb)) =
      (m.neighbors pos other >>= fun nb => if (asArray && pos.isEmpty) = true then
        (.error .valueError : Py (LinkedCells d ℝ × List (List ℕ)))
        else pure (⟨lc.rcut, some m⟩, nb)).map fun r => (scaleCells c r.1, r.2) := by
    intro m
    rw [neighbors_scale hc]
    cases m.neighbors pos other with
    | error e => rfl
    | ok nb =>
      show (if _ then _ else _) = Except.map _ (if _ then _ else _)
      split_ifs <;> rfl
  cases hm : lc.map with
  | none =>
    have : (scaleCells c lc).map = none := by unfold scaleCells; rw [hm]; rfl
    rw [this]
    simp only
    rw [show (scaleCells c lc).rcut = c * lc.rcut from rfl, adjust_scale hc]
    cases adjust lc.rcut box (other.isNone && newton) periodic with
    | error e => rfl
    | ok m => exact key m
  | some m =>
    have : (scaleCells c lc).map = some (scaleMap c m) := by unfold scaleCells; rw [hm]; rfl
    rw [this]
    exact key m

/-! ### The fast version -/

theorem onSurface_scale (hc : 0 < c) (L : Vec d ℝ) (delta : ℝ) (x : Vec d ℝ) :
    onSurface (scaleVec c L) (c * delta) (scaleVec c x) = onSurface L delta x := by
  unfold onSurface
  congr 1
  apply propext
  refine exists_congr fun i => ?_
  unfold scaleVec
  rw [abs_mul, abs_of_pos hc, mul_div_assoc, ← mul_sub]
  exact mul_lt_mul_iff_right₀ hc

theorem useLinkedCells_scale (hc : 0 < c) (o : GrObj d ℝ) (f0 : GrFrame d ℝ) :
    useLinkedCells (scaleGr c o) (scaleFrame c f0) = useLinkedCells o f0 := by
  unfold useLinkedCells
  have h : ((scaleGr c o).rmax > 0) ↔ o.rmax > 0 := mul_pos_iff_of_pos_left hc
  have e : (List.ofFn fun i => (scaleFrame c f0).side i / (scaleGr c o).rmax) = List.ofFn fun i => f0.side i / o.rmax := by
    congr 1
    funext i
    exact mul_div_mul_left _ _ hc.ne'
  have l0 : (scaleFrame c f0).pos0.length = f0.pos0.length := List.length_map _
  have l1 : (scaleFrame c f0).pos1.length = f0.pos1.length := List.length_map _
  have hn : (scaleGr c o).rmax ^ d * ((f0.pos1.length : ℝ) / cellVolume (scaleFrame c f0).side) =
      o.rmax ^ d * ((f0.pos1.length : ℝ) / cellVolume f0.side) := by
    rw [show (scaleFrame c f0).side = scaleVec c f0.side from rfl, cellVolume_scale,
      show (scaleGr c o).rmax = c * o.rmax from rfl, mul_pow]
    have hd : c ^ d ≠ 0 := pow_ne_zero _ hc.ne'
    by_cases hV : cellVolume f0.side = 0
    · rw [hV]; simp
    · field_simp
  simp only [h, e, l0, l1, hn]

/-- Local variables of the fast version in another unit of length. -/
def scaleState (c : ℝ) (st : GrFastState d ℝ) : GrFastState d ℝ :=
  ⟨st.cells.map (scaleCells c), st.hist, st.bins.map (c * ·), st.n0, st.n1, st.grAll, st.flags, scaleFrame c st.system⟩

/-- The system is periodic, or so small that the largest floating point number exceeds twice all differences of
coordinates in both units. -/
def UnitsFit (c huge : ℝ) (f : GrFrame d ℝ) : Prop :=
  ∀ i, f.periodic i = false → ∀ x ∈ f.pos0 ++ f.pos1, ∀ y ∈ f.pos0 ++ f.pos1,
    |x i - y i| ≤ huge / 2 ∧ c * |x i - y i| ≤ huge / 2

/-- The sides given to the kernels. -/
def kernelSide (huge : ℝ) (f : GrFrame d ℝ) : Vec d ℝ := fun i => if f.periodic i then f.side i else huge

theorem distScale_kernel (hc : 0 < c) {huge : ℝ} {f : GrFrame d ℝ} (h : UnitsFit c huge f) {l l' : List (Vec d ℝ)}
    (hl : ∀ x ∈ l, x ∈ f.pos0 ++ f.pos1) (hl' : ∀ x ∈ l', x ∈ f.pos0 ++ f.pos1) :
    DistScale c (kernelSide huge f) (kernelSide huge (scaleFrame c f)) l l' := by
  intro x hx y hy
  unfold fDist
  rw [← sqrt_scale hc]
  congr 1
  refine Finset.sum_congr rfl fun i _ => ?_
  congr 1
  show fpbc (kernelSide huge (scaleFrame c f) i) (c * x i - c * y i) = c * fpbc (kernelSide huge f i) (x i - y i)
  unfold kernelSide
  rw [show (scaleFrame c f).periodic = f.periodic from rfl, ← mul_sub]
  cases hp : f.periodic i with
  | true =>
    simp only [if_true]
    exact fpbc_scale hc _ _
  | false =>
    obtain ⟨h1, h2⟩ := h i hp x (hl x hx) y (hl' y hy)
    simp only [Bool.false_eq_true, if_false]
    unfold fpbc
    rw [abs_mul, abs_of_pos hc, if_neg (not_lt.2 h2), if_neg (not_lt.2 h1)]

theorem grFastKernel_scale (hc : 0 < c) {pos0 pos1 : List (Vec d ℝ)} {box box' : Vec d ℝ}
    (h01 : DistScale c box box' pos1 pos0) (h00 : DistScale c box box' pos0 pos0) (dr : ℝ) (lc distinct : Bool)
    (nb : List (List ℕ)) (hist : List ℕ) (bins : List ℝ) :
    grFastKernel Real.sqrt (c * dr) lc distinct nb box' (pos0.map (scaleVec c)) (pos1.map (scaleVec c)) hist
      (bins.map (c * ·)) =
      (grFastKernel Real.sqrt dr lc distinct nb box pos0 pos1 hist bins).map fun r => (r.1, r.2.map (c * ·)) := by
  unfold grFastKernel
  split_ifs
  · exact grNeighborsC_scale hc h01 _ _ _ _
  · exact grDistinctC_scale hc h01 _ _ _
  · exact grNeighborsC_scale hc h00 _ _ _ _
  · exact grSelfC_scale hc h00 _ _ _

theorem grFastFrame_scale (hc : 0 < c) {huge : ℝ} (o : GrObj d ℝ) (dr : ℝ) (st : GrFastState d ℝ) {f : GrFrame d ℝ}
    (h : UnitsFit c huge f) :
    grFastFrame Real.sqrt huge (scaleGr c o) (c * dr) (scaleState c st) (scaleFrame c f) =
      (grFastFrame Real.sqrt huge o dr st f).map (scaleState c) := by
  unfold grFastFrame
  have i0 : (scaleFrame c f).pos0.isEmpty = f.pos0.isEmpty := by
    show (f.pos0.map _).isEmpty = _
    cases f.pos0 <;> rfl
  have i1 : (scaleFrame c f).pos1.isEmpty = f.pos1.isEmpty := by
    show (f.pos1.map _).isEmpty = _
    cases f.pos1 <;> rfl
  rw [i0, i1]
  by_cases hem : (f.pos0.isEmpty || f.pos1.isEmpty) = true
  · rw [if_pos hem, if_pos hem]; rfl
  rw [if_neg hem, if_neg hem]
  dsimp only
  have hcrop : (decide ((∀ i, (scaleFrame c f).periodic i = false) ∧ (scaleGr c o).rmax > 0)) =
      decide ((∀ i, f.periodic i = false) ∧ o.rmax > 0) := by
    congr 1
    have : ((scaleGr c o).rmax > 0) ↔ o.rmax > 0 := mul_pos_iff_of_pos_left hc
    simp only [this]
    rfl
  rw [hcrop]
  generalize decide ((∀ i, f.periodic i = false) ∧ o.rmax > 0) = crop
  have hpos : (if crop = true then (scaleFrame c f).pos0.filter fun x => !onSurface (scaleFrame c f).side (scaleGr c o).rmax x
      else (scaleFrame c f).pos0) =
      (if crop = true then f.pos0.filter fun x => !onSurface f.side o.rmax x else f.pos0).map (scaleVec c) := by
    cases crop with
    | false => rfl
    | true =>
      simp only [if_true]
      show (f.pos0.map (scaleVec c)).filter _ = _
      rw [List.filter_map]
      congr 1
      refine List.filter_congr fun x _ => ?_
      show (!onSurface (scaleVec c f.side) (c * o.rmax) (scaleVec c x)) = _
      rw [onSurface_scale hc]
  rw [hpos]
  have hsub : ∀ x ∈ (if crop = true then f.pos0.filter fun x => !onSurface f.side o.rmax x else f.pos0),
      x ∈ f.pos0 ++ f.pos1 := by
    intro x hx
    rw [List.mem_append]
    left
    cases crop with
    | false => exact hx
    | true => exact (List.mem_filter.1 hx).1
  generalize (if crop = true then f.pos0.filter fun x => !onSurface f.side o.rmax x else f.pos0) = pos0 at hsub ⊢
  rw [show (scaleGr c o).same = o.same from rfl]
  generalize (crop || !o.same) = distinct
  have hcell : grFastCells (scaleState c st).cells (scaleFrame c f) (pos0.map (scaleVec c)) distinct =
      (grFastCells st.cells f pos0 distinct).map fun r => (r.1.map (scaleCells c), r.2) := by
    unfold grFastCells scaleState
    simp only
    cases st.cells with
    | none => rfl
    | some lc =>
      simp only [Option.map_some]
      have e : (if distinct = true then some (scaleFrame c f).pos1 else none) =
          (if distinct = true then some f.pos1 else none).map (List.map (scaleVec c)) := by
        cases distinct <;> rfl
      rw [e, show (scaleFrame c f).side = scaleVec c f.side from rfl, show (scaleFrame c f).periodic = f.periodic from rfl,
        compute_scale hc]
      cases lc.compute f.side pos0 (if distinct = true then some f.pos1 else none) true f.periodic true <;> rfl
  rw [hcell]
  cases grFastCells st.cells f pos0 distinct with
  | error e => rfl
  | ok r =>
    simp only [Except.map, Except.bind]
    rw [show (scaleFrame c f).periodic = f.periodic from rfl]
    by_cases hp : (∀ i, f.periodic i = false) ∨ ∀ i, f.periodic i = true
    · rw [if_neg (not_not.2 hp), if_neg (not_not.2 hp)]
      have hk := grFastKernel_scale hc (pos0 := pos0) (pos1 := f.pos1)
        (distScale_kernel hc h (fun x hx => List.mem_append_right _ hx) hsub)
        (distScale_kernel hc h hsub hsub) dr r.1.isSome distinct r.2 st.hist st.bins
      have hs : (r.1.map (scaleCells c)).isSome = r.1.isSome := by cases r.1 <;> rfl
      rw [hs]
      have hk' : grFastKernel Real.sqrt (c * dr) r.1.isSome distinct r.2
          (fun i => if f.periodic i = true then (scaleFrame c f).side i else huge) (pos0.map (scaleVec c))
          (scaleFrame c f).pos1 (scaleState c st).hist (scaleState c st).bins = _ := hk
      rw [hk']
      have e2 : kernelSide huge f = fun i => if f.periodic i = true then f.side i else huge := rfl
      rw [e2]
      cases grFastKernel Real.sqrt dr r.1.isSome distinct r.2
          (fun i => if f.periodic i = true then f.side i else huge) pos0 f.pos1 st.hist st.bins with
      | error e => rfl
      | ok hb =>
        simp only [Except.map, scaleState]
        have q : (scaleFrame c f).pos1.length = f.pos1.length := List.length_map _
        rw [q, List.length_map]
    · rw [if_pos hp, if_pos hp]

/-- **C151** for `RadialDistributionFunctionFast`, with and without linked cells: in another unit of length the
distances change and the values do not, also if an exception is raised. If the system is not periodic, twice the
differences of coordinates must not exceed the largest floating point number `huge`. -/
theorem C151_fast_partial (hc : 0 < c) {huge : ℝ} (o : GrObj d ℝ) (hdr : o.rgrid.isSome ∨ ∃ w, o.dr = .float w)
    (hfit : ∀ f ∈ o.frames, UnitsFit c huge f) :
    grFast Real.sqrt Real.pi huge (scaleGr c o) = (grFast Real.sqrt Real.pi huge o).map (scaleTable c) := by
  unfold grFast
  have e0 : (scaleGr c o).frames = o.frames.map (scaleFrame c) := rfl
  rw [e0, pyGet_mapL, List.length_map]
  cases pyGet o.frames 0 with
  | error e => rfl
  | ok f0 =>
  simp only [Except.map, bind, Except.bind]
  rw [show (scaleFrame c f0).side = scaleVec c f0.side from rfl, grSetupGrid_scale hc o hdr]
  cases grSetupGrid Real.sqrt o f0.side with
  | error e => rfl
  | ok grid =>
  simp only [Except.map]
  rw [pyGet_mapL _ grid 0, pyGet_mapL _ grid 1]
  cases pyGet grid 0 with
  | error e => rfl
  | ok g0 =>
  simp only [Except.map]
  cases pyGet grid 1 with
  | error e => rfl
  | ok g1 =>
  simp only [Except.map]
  rw [useLinkedCells_scale hc, ← mul_sub]
  cases useLinkedCells o f0 with
  | error e => rfl
  | ok useLc =>
  simp only
  rw [show (scaleGr c o).skip = o.skip from rfl]
  cases pyRange 0 o.frames.length o.skip with
  | error e => rfl
  | ok origins =>
  simp only
  generalize hx : origins.foldlM (m := Py) _ _ = x
  generalize hy : origins.foldlM (m := Py) _ _ = y
  have key : x = y.map (scaleState c) := by
    rw [← hx, ← hy]
    have hinit : (⟨if useLc = true then some (LinkedCells.new (scaleGr c o).rmax) else none,
        (grid.map (c * ·)).map fun _ => 0, grid.map (c * ·), [], [], [], none, scaleFrame c f0⟩ : GrFastState d ℝ) =
        scaleState c ⟨if useLc = true then some (LinkedCells.new o.rmax) else none, grid.map fun _ => 0, grid,
          [], [], [], none, f0⟩ := by
      unfold scaleState
      simp only [List.map_map]
      congr 1
      cases useLc <;> rfl
    rw [hinit]
    refine foldlM_map_state (scaleState c) ?_ origins _
    intro st i
    rw [pyGet_mapL]
    cases hi : pyGet o.frames i with
    | error e => rfl
    | ok f => exact grFastFrame_scale hc o (g1 - g0) st (hfit f (pyGet_mem hi))
  rw [key]
  cases y with
  | error e => rfl
  | ok st =>
  simp only [Except.map]
  rw [show (scaleState c st).bins = st.bins.map (c * ·) from rfl]
  rw [pyGet_mapL _ st.bins 0, pyGet_mapL _ st.bins 1]
  cases pyGet st.bins 0 with
  | error e => rfl
  | ok b0 =>
  simp only [Except.map]
  cases pyGet st.bins 1 with
  | error e => rfl
  | ok b1 =>
  simp only [Except.map]
  rw [show (scaleState c st).flags = st.flags from rfl]
  cases st.flags with
  | none => rfl
  | some fl =>
  obtain ⟨distinct, removeSelf⟩ := fl
  simp only [List.length_map]
  have hv : ((List.range (st.bins.length - 1)).map fun j =>
      npDiv (npAverageAt (scaleState c st).grAll j) (grNorm (npAverage (scaleState c st).n0)
        (npAverage (scaleState c st).n1) (cellVolume (scaleState c st).system.side)
        (shellVol Real.pi d ((st.bins.map (c * ·)).getD j 0 - (c * b1 - c * b0) / 2)
          ((st.bins.map (c * ·)).getD (j + 1) 0 - (c * b1 - c * b0) / 2)) (!distinct))) =
      (List.range (st.bins.length - 1)).map fun j =>
      npDiv (npAverageAt st.grAll j) (grNorm (npAverage st.n0) (npAverage st.n1) (cellVolume st.system.side)
        (shellVol Real.pi d (st.bins.getD j 0 - (b1 - b0) / 2) (st.bins.getD (j + 1) 0 - (b1 - b0) / 2)) (!distinct)) := by
    refine List.map_congr_left fun j _ => ?_
    simp only [getD_scale]
    have s1 : ∀ u, c * u - (c * b1 - c * b0) / 2 = c * (u - (b1 - b0) / 2) := fun u => by ring
    rw [s1, s1, shellVol_scale, show (scaleState c st).system.side = scaleVec c st.system.side from rfl, cellVolume_scale,
      grNorm_scale hc]
    rfl
  rw [hv]
  generalize ((List.range (st.bins.length - 1)).map fun j =>
      npDiv (npAverageAt st.grAll j) (grNorm (npAverage st.n0) (npAverage st.n1) (cellVolume st.system.side)
        (shellVol Real.pi d (st.bins.getD j 0 - (b1 - b0) / 2) (st.bins.getD (j + 1) 0 - (b1 - b0) / 2))
        (!distinct))) = values
  have hz : ∀ v : List (Option ℝ), (st.bins.map (c * ·)).dropLast.zip v = scaleTable c (st.bins.dropLast.zip v) := by
    intro v
    unfold scaleTable
    rw [← List.map_dropLast, List.zip_map_left]
    rfl
  have hcr := fun v => grCrop_scale hc o.rmax st.system.side (st.bins.dropLast.zip v)
  cases removeSelf with
  | false =>
    simp only [Bool.false_eq_true, if_false]
    rw [hz]
    exact hcr values
  | true =>
    simp only [if_true]
    cases pyGet values 1 with
    | error e => rfl
    | ok v1 =>
      simp only [pure, Except.pure]
      rw [hz]
      exact hcr _

/-- **C151** is false if the spacing is the python integer 1: in the given unit both calculations raise `IndexError`,
in any other unit, where the spacing is the float `c`, both give a table. -/
theorem C151_counterexample_integer (hc : 0 < c) {huge : ℝ} (o : GrObj d ℝ) {n0 n1 : ℕ} {f0 : GrFrame d ℝ}
    (h : GrRegular Real.sqrt o 1 n0 n1 f0) (hper : ∀ f ∈ o.frames, ∀ i, f.periodic i = true)
    (hin : ∀ f ∈ o.frames, ∀ x, x ∈ f.pos0 ∨ x ∈ f.pos1 → ∀ i, |x i| ≤ f.side i / 2)
    (hlc : useLinkedCells o f0 = .ok false) :
    let o' : GrObj d ℝ := ⟨o.frames, o.same, o.skip, o.rgrid, .int 1, o.rmax⟩
    (grFast Real.sqrt Real.pi huge o' = .error .indexError ∧ grLegacy Real.sqrt Real.pi o' = .error .indexError) ∧
    ∃ fast legacy, grFast Real.sqrt Real.pi huge (scaleGr c o') = .ok fast ∧
      grLegacy Real.sqrt Real.pi (scaleGr c o') = .ok legacy := by
  intro o'
  have hd := h.system.dim_pos
  have hne : o.frames ≠ [] := by intro hc; have := h.first; rw [hc] at this; simp at this
  refine ⟨C79_counterexample_integer Real.sqrt Real.pi huge o' hd hne h.rgrid rfl, ?_⟩
  obtain ⟨fast, legacy, h1, h2, -⟩ := C37_backends Real.sqrt Real.sqrt_nonneg Real.pi_pos huge o h hper hin hlc
  have e : scaleGr c o' = scaleGr c o := by
    unfold scaleGr scaleStep
    rw [h.dr]
    congr 2
    show c * ((1 : ℤ) : ℝ) = c * 1
    norm_num
  rw [e]
  refine ⟨scaleTable c fast, scaleTable c legacy, ?_, ?_⟩
  · rw [C151_fast_partial hc o (.inr ⟨1, h.dr⟩) fun f hf i hi => absurd (hper f hf i) (by rw [hi]; decide), h1]
    rfl
  · rw [C151_legacy_partial hc o (.inr ⟨1, h.dr⟩), h2]
    rfl

/-- Two frames of three particles on a line in a periodic cell. -/
noncomputable def unitsExample : GrObj 1 ℝ :=
  ⟨[⟨fun _ => 8, fun _ => true, [fun _ => 0, fun _ => 1, fun _ => 3], [fun _ => 0, fun _ => 1, fun _ => 3]⟩,
    ⟨fun _ => 8, fun _ => true, [fun _ => 0, fun _ => 2, fun _ => 3], [fun _ => 0, fun _ => 2, fun _ => 3]⟩],
    true, 1, none, .float 1, -1⟩

theorem unitsExample_regular : GrRegular Real.sqrt unitsExample 1 3 3
    ⟨fun _ => 8, fun _ => true, [fun _ => 0, fun _ => 1, fun _ => 3], [fun _ => 0, fun _ => 1, fun _ => 3]⟩ where
  first := rfl
  skip_pos := by unfold unitsExample; norm_num
  w_pos := by norm_num
  rgrid := rfl
  dr := rfl
  fit := ⟨0, by norm_num⟩
  side_pos := by
    intro f hf i
    simp only [unitsExample, List.mem_cons, List.not_mem_nil, or_false] at hf
    rcases hf with rfl | rfl <;> norm_num
  n0_pos := by norm_num
  n1_pos := by norm_num
  len0 := by
    intro f hf
    simp only [unitsExample, List.mem_cons, List.not_mem_nil, or_false] at hf
    rcases hf with rfl | rfl <;> rfl
  len1 := by
    intro f hf
    simp only [unitsExample, List.mem_cons, List.not_mem_nil, or_false] at hf
    rcases hf with rfl | rfl <;> rfl
  same := by
    intro _ f hf
    simp only [unitsExample, List.mem_cons, List.not_mem_nil, or_false] at hf
    rcases hf with rfl | rfl <;> rfl

theorem unitsExample_inside : (∀ f ∈ unitsExample.frames, ∀ i, f.periodic i = true) ∧
    (∀ f ∈ unitsExample.frames, ∀ x, x ∈ f.pos0 ∨ x ∈ f.pos1 → ∀ i, |x i| ≤ f.side i / 2) := by
  constructor
  · intro f hf i
    simp only [unitsExample, List.mem_cons, List.not_mem_nil, or_false] at hf
    rcases hf with rfl | rfl <;> rfl
  · intro f hf x hx i
    simp only [unitsExample, List.mem_cons, List.not_mem_nil, or_false] at hf
    rcases hf with rfl | rfl <;> simp only [or_self, List.mem_cons, List.not_mem_nil, or_false] at hx <;>
      rcases hx with rfl | rfl | rfl <;> norm_num

theorem unitsExample_cells (f0 : GrFrame 1 ℝ) : useLinkedCells unitsExample f0 = .ok false := by
  unfold useLinkedCells
  rw [if_neg (by unfold unitsExample; norm_num)]

/-- The same trajectory with all lengths doubled has a table, the one of the trajectory at twice the distances. -/
example : ∃ fast legacy,
    grFast Real.sqrt Real.pi 1000 unitsExample = .ok fast ∧
    grFast Real.sqrt Real.pi 1000 (scaleGr 2 unitsExample) = .ok (scaleTable 2 fast) ∧
    grLegacy Real.sqrt Real.pi unitsExample = .ok legacy ∧
    grLegacy Real.sqrt Real.pi (scaleGr 2 unitsExample) = .ok (scaleTable 2 legacy) := by
  obtain ⟨fast, legacy, h1, h2, -⟩ := C37_backends Real.sqrt Real.sqrt_nonneg Real.pi_pos 1000 unitsExample
    unitsExample_regular unitsExample_inside.1 unitsExample_inside.2 (unitsExample_cells _)
  refine ⟨fast, legacy, h1, ?_, h2, ?_⟩
  · rw [C151_fast_partial (by norm_num) unitsExample (.inr ⟨1, rfl⟩) fun f hf i hi =>
      absurd (unitsExample_inside.1 f hf i) (by rw [hi]; decide), h1]
    rfl
  · rw [C151_legacy_partial (by norm_num) unitsExample (.inr ⟨1, rfl⟩), h2]
    rfl

example : let o' : GrObj 1 ℝ := ⟨unitsExample.frames, true, 1, none, .int 1, -1⟩
    (grFast Real.sqrt Real.pi 1000 o' = .error .indexError ∧ grLegacy Real.sqrt Real.pi o' = .error .indexError) ∧
    ∃ fast legacy, grFast Real.sqrt Real.pi 1000 (scaleGr 2 o') = .ok fast ∧
      grLegacy Real.sqrt Real.pi (scaleGr 2 o') = .ok legacy :=
  C151_counterexample_integer (by norm_num) unitsExample unitsExample_regular unitsExample_inside.1
    unitsExample_inside.2 (unitsExample_cells _)

end PP.Props
