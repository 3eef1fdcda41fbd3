import Verif.Props.GrUnits
import Verif.Props.GrCells
import Mathlib.Data.List.FinRange

/-!
# The coordinate axes in g(r) (C153)
-/

set_option linter.unusedSectionVars false

namespace PP.Props
open PP

variable {K : Type} [Field K] [LinearOrder K] [IsStrictOrderedRing K] [FloorRing K] {d : ℕ}

/-- Sides or flags with the axes in another order. -/
def axesOf {α : Type} (σ : Equiv.Perm (Fin d)) (v : Fin d → α) : Fin d → α := fun i => v (σ i)

/-- A position with the axes in another order, some of them inverted. -/
def axesVec (σ : Equiv.Perm (Fin d)) (inv : Fin d → Bool) (x : Vec d K) : Vec d K :=
  fun i => if inv i then -x (σ i) else x (σ i)

/-- A frame with the axes in another order, some of them inverted. -/
def axesFrame (σ : Equiv.Perm (Fin d)) (inv : Fin d → Bool) (f : GrFrame d K) : GrFrame d K :=
  ⟨axesOf σ f.side, axesOf σ f.periodic, f.pos0.map (axesVec σ inv), f.pos1.map (axesVec σ inv)⟩

/-- The object with the axes in another order, some of them inverted. -/
def axesGr (σ : Equiv.Perm (Fin d)) (inv : Fin d → Bool) (o : GrObj d K) : GrObj d K :=
  ⟨o.frames.map (axesFrame σ inv), o.same, o.skip, o.rgrid, o.dr, o.rmax⟩

/-! ### Distances -/

theorem pyRound_opposite (x : K) : pyRound (-x) = -pyRound x := by
  unfold pyRound
  simp only
  set n := ⌊x⌋ with hn
  have h1 : (n : K) ≤ x := Int.floor_le x
  have h2 : x < n + 1 := Int.lt_floor_add_one x
  by_cases hx : x = n
  · have hf : ⌊-x⌋ = -n := by rw [hx, ← Int.cast_neg, Int.floor_intCast]
    rw [hf]
    have e1 : -x - ((-n : ℤ) : K) = 0 := by push_cast; rw [hx]; ring
    have e2 : x - (n : K) = 0 := by rw [hx]; ring
    rw [e1, e2, if_pos (by norm_num), if_pos (by norm_num)]
  · have hlt : (n : K) < x := lt_of_le_of_ne h1 (Ne.symm hx)
    have hf : ⌊-x⌋ = -n - 1 := by
      rw [Int.floor_eq_iff]
      push_cast
      constructor <;> linarith
    rw [hf]
    have e1 : -x - ((-n - 1 : ℤ) : K) = 1 - (x - n) := by push_cast; ring
    rw [e1]
    set t := x - (n : K) with ht
    rcases lt_trichotomy t (1 / 2) with h | h | h
    · rw [if_neg (by linarith), if_pos (by linarith), if_pos h]; ring
    · have g1 : ¬ (1 - t < 1 / 2) := by linarith
      have g2 : ¬ (1 / 2 < 1 - t) := by linarith
      have g3 : ¬ (t < 1 / 2) := by linarith
      have g4 : ¬ (1 / 2 < t) := by linarith
      rw [if_neg g1, if_neg g2, if_neg g3, if_neg g4]
      rcases Int.emod_two_eq_zero_or_one n with h0 | h0
      · have h3 : ¬ ((-n - 1) % 2 = 0) := by omega
        rw [if_pos h0, if_neg h3]; ring
      · have h3 : (-n - 1) % 2 = 0 := by omega
        have h4 : ¬ (n % 2 = 0) := by omega
        rw [if_neg h4, if_pos h3]; ring
    · rw [if_pos (by linarith), if_neg (by linarith), if_pos h]; ring

theorem axesVec_sub (σ : Equiv.Perm (Fin d)) (inv : Fin d → Bool) (x y : Vec d K) (i : Fin d) :
    axesVec σ inv x i - axesVec σ inv y i = if inv i then -(x (σ i) - y (σ i)) else x (σ i) - y (σ i) := by
  unfold axesVec
  cases inv i <;> simp only [Bool.false_eq_true, if_false, if_true]
  ring

theorem grDist_axes (σ : Equiv.Perm (Fin d)) (inv : Fin d → Bool) (sq : K → K) (L x y : Vec d K) :
    grDist sq (axesOf σ L) (axesVec σ inv x) (axesVec σ inv y) = grDist sq L x y := by
  unfold grDist
  congr 1
  refine Eq.trans ?_ (Equiv.sum_comp σ _)
  refine Finset.sum_congr rfl fun i _ => ?_
  unfold minImage
  dsimp only
  rw [axesVec_sub]
  unfold axesOf
  cases inv i with
  | false => rfl
  | true =>
    simp only [if_true]
    rw [neg_div, pyRound_opposite]
    push_cast
    ring

theorem fpbc_opposite (L r : K) : fpbc L (-r) ^ 2 = fpbc L r ^ 2 := by
  unfold fpbc fsign
  rw [abs_neg]
  split_ifs with h1 h2 h3 h3
  · have : r = 0 := le_antisymm (by linarith) h3
    rw [this]; ring
  · ring
  · ring
  · exfalso; linarith
  · ring

theorem fDist_axes (σ : Equiv.Perm (Fin d)) (inv : Fin d → Bool) (sq : K → K) (L x y : Vec d K) :
    fDist sq (axesOf σ L) (axesVec σ inv x) (axesVec σ inv y) = fDist sq L x y := by
  unfold fDist
  congr 1
  refine Eq.trans ?_ (Equiv.sum_comp σ _)
  refine Finset.sum_congr rfl fun i _ => ?_
  rw [axesVec_sub]
  unfold axesOf
  cases inv i with
  | false => rfl
  | true => exact fpbc_opposite _ _

/-! ### Grid, volume and cut-off -/

theorem pyMax_axes (σ : Equiv.Perm (Fin d)) (v : Vec d K) : pyMax (List.ofFn (axesOf σ v)) = pyMax (List.ofFn v) := by
  rcases Nat.eq_zero_or_pos d with rfl | hd
  · simp
  · obtain ⟨m, h1, h2, i, hi⟩ := pyMax_ofFn hd v
    obtain ⟨m', h1', h2', j, hj⟩ := pyMax_ofFn hd (axesOf σ v)
    rw [h1, h1']
    congr 1
    refine le_antisymm (hj ▸ h2 _) ?_
    have := h2' (σ.symm i)
    rw [axesOf, Equiv.apply_symm_apply, hi] at this
    exact this

theorem pyMin_axes (σ : Equiv.Perm (Fin d)) (v : Vec d K) : pyMin (List.ofFn (axesOf σ v)) = pyMin (List.ofFn v) := by
  rcases Nat.eq_zero_or_pos d with rfl | hd
  · simp
  · obtain ⟨m, h1, h2, i, hi⟩ := pyMin_ofFn hd v
    obtain ⟨m', h1', h2', j, hj⟩ := pyMin_ofFn hd (axesOf σ v)
    rw [h1, h1']
    congr 1
    refine le_antisymm ?_ (hj ▸ h2 _)
    have := h2' (σ.symm i)
    rw [axesOf, Equiv.apply_symm_apply, hi] at this
    exact this

theorem cellVolume_axes (σ : Equiv.Perm (Fin d)) (v : Vec d K) : cellVolume (axesOf σ v) = cellVolume v := by
  unfold cellVolume axesOf
  exact Equiv.prod_comp σ v

theorem grSetupGrid_axes (σ : Equiv.Perm (Fin d)) (inv : Fin d → Bool) (sq : K → K) (o : GrObj d K) (side : Vec d K) :
    grSetupGrid sq (axesGr σ inv o) (axesOf σ side) = grSetupGrid sq o side := by
  unfold grSetupGrid
  rw [pyMax_axes]
  rfl

theorem grCrop_axes (σ : Equiv.Perm (Fin d)) (rmax : K) (side : Vec d K) (t : List (K × Option K)) :
    grCrop rmax (axesOf σ side) t = grCrop rmax side t := by
  unfold grCrop
  rw [pyMin_axes]

theorem onSurface_axes (σ : Equiv.Perm (Fin d)) (inv : Fin d → Bool) (L : Vec d K) (delta : K) (x : Vec d K) :
    onSurface (axesOf σ L) delta (axesVec σ inv x) = onSurface L delta x := by
  unfold onSurface
  congr 1
  apply propext
  have h : ∀ i, |axesVec σ inv x i| = |x (σ i)| := by
    intro i
    unfold axesVec
    cases inv i with
    | false => rfl
    | true => exact abs_neg _
  constructor
  · rintro ⟨i, hi⟩
    rw [h] at hi
    exact ⟨σ i, hi⟩
  · rintro ⟨i, hi⟩
    refine ⟨σ.symm i, ?_⟩
    rw [h, axesOf, Equiv.apply_symm_apply]
    exact hi

theorem useLinkedCells_axes (σ : Equiv.Perm (Fin d)) (inv : Fin d → Bool) (o : GrObj d K) (f : GrFrame d K) :
    useLinkedCells (axesGr σ inv o) (axesFrame σ inv f) = useLinkedCells o f := by
  unfold useLinkedCells
  have e : (List.ofFn fun i => (axesFrame σ inv f).side i / (axesGr σ inv o).rmax) =
      List.ofFn (axesOf σ fun i => f.side i / o.rmax) := rfl
  have l0 : (axesFrame σ inv f).pos0.length = f.pos0.length := List.length_map _
  have l1 : (axesFrame σ inv f).pos1.length = f.pos1.length := List.length_map _
  have v : cellVolume (axesFrame σ inv f).side = cellVolume f.side := cellVolume_axes σ f.side
  rw [e, pyMin_axes, l0, l1, v]
  rfl

/-! ### Histograms -/

theorem pairsHist_axes (σ : Equiv.Perm (Fin d)) (inv : Fin d → Bool) (sq : K → K) (L : Vec d K) (x y : List (Vec d K))
    (bins : List K) :
    pairsHist (grKernel sq (axesOf σ L)) (x.map (axesVec σ inv)) (y.map (axesVec σ inv)) bins =
      pairsHist (grKernel sq L) x y bins := by
  have hk : ∀ x : List (Vec d K), ∀ y, grKernel sq (axesOf σ L) (x.map (axesVec σ inv)) (axesVec σ inv y) =
      grKernel sq L x y := by
    intro x y
    unfold grKernel
    rw [List.map_map]
    exact List.map_congr_left fun u _ => grDist_axes σ inv sq L u y
  unfold pairsHist
  rw [List.length_map]
  congr 1
  funext hist
  refine foldlM_congr_mem (fun h i _ => ?_) hist
  rw [pyGet_mapL]
  cases pyGet y i with
  | error e => rfl
  | ok yi => simp only [Except.map, bind, Except.bind, hk]

theorem pairsNewtonHist_axes (σ : Equiv.Perm (Fin d)) (inv : Fin d → Bool) (sq : K → K) (L : Vec d K)
    (x y : List (Vec d K)) (bins : List K) :
    pairsNewtonHist (grKernel sq (axesOf σ L)) (x.map (axesVec σ inv)) (y.map (axesVec σ inv)) bins =
      pairsNewtonHist (grKernel sq L) x y bins := by
  have hk : ∀ x : List (Vec d K), ∀ y, grKernel sq (axesOf σ L) (x.map (axesVec σ inv)) (axesVec σ inv y) =
      grKernel sq L x y := by
    intro x y
    unfold grKernel
    rw [List.map_map]
    exact List.map_congr_left fun u _ => grDist_axes σ inv sq L u y
  have hm : (fun i : ℕ => (do
        let yi ← pyGet (y.map (axesVec σ inv)) i
        return grKernel sq (axesOf σ L) ((x.map (axesVec σ inv)).drop (i + 1)) yi : Py (List K))) =
      fun i => (do
        let yi ← pyGet y i
        return grKernel sq L (x.drop (i + 1)) yi) := by
    funext i
    rw [pyGet_mapL, ← List.map_drop]
    cases pyGet y i with
    | error e => rfl
    | ok yi => simp only [Except.map, bind, Except.bind, hk]
  unfold pairsNewtonHist pairsNewtonHistB
  simp only [hm, List.length_map]

theorem grSelfC_axes (σ : Equiv.Perm (Fin d)) (inv : Fin d → Bool) (sq : K → K) (pos : List (Vec d K)) (box : Vec d K)
    (dr : K) (hist : List ℕ) (bins : List K) :
    grSelfC sq (pos.map (axesVec σ inv)) (axesOf σ box) dr hist bins = grSelfC sq pos box dr hist bins := by
  unfold grSelfC
  simp only [List.length_map]
  congr 1
  refine foldlM_congr_mem (fun h i _ => ?_) _
  rw [pyGet_mapL]
  cases pyGet pos i with
  | error e => rfl
  | ok pi =>
    simp only [Except.map, bind, Except.bind]
    rw [← List.map_drop, List.map_map]
    simp only [Function.comp_def, fDist_axes]

theorem grDistinctC_axes (σ : Equiv.Perm (Fin d)) (inv : Fin d → Bool) (sq : K → K) (pos1 pos2 : List (Vec d K))
    (box : Vec d K) (dr : K) (hist : List ℕ) (bins : List K) :
    grDistinctC sq (pos1.map (axesVec σ inv)) (pos2.map (axesVec σ inv)) (axesOf σ box) dr hist bins =
      grDistinctC sq pos1 pos2 box dr hist bins := by
  unfold grDistinctC
  simp only [List.length_map]
  congr 1
  refine foldlM_congr_mem (fun h i _ => ?_) _
  rw [pyGet_mapL]
  cases pyGet pos1 i with
  | error e => rfl
  | ok pi =>
    simp only [Except.map, bind, Except.bind]
    rw [List.map_map]
    simp only [Function.comp_def, fDist_axes]

theorem isEmpty_mapL {α β : Type} (f : α → β) (l : List α) : (l.map f).isEmpty = l.isEmpty := by cases l <;> rfl

/-! ### C153 -/

/-- **C153** for `RadialDistributionFunctionLegacy`: the table does not change if the axes are permuted and inverted,
also if an exception is raised. -/
theorem C153_legacy_partial (σ : Equiv.Perm (Fin d)) (inv : Fin d → Bool) (sq : K → K) (pi : K) (o : GrObj d K) :
    grLegacy sq pi (axesGr σ inv o) = grLegacy sq pi o := by
  unfold grLegacy grLegacyArrays
  have e0 : (axesGr σ inv o).frames = o.frames.map (axesFrame σ inv) := rfl
  have l0 : ((axesGr σ inv o).frames.map fun f => f.pos0.length) = o.frames.map fun f => f.pos0.length := by
    rw [e0, List.map_map]
    exact List.map_congr_left fun f _ => List.length_map _
  have l1 : ((axesGr σ inv o).frames.map fun f => f.pos1.length) = o.frames.map fun f => f.pos1.length := by
    rw [e0, List.map_map]
    exact List.map_congr_left fun f _ => List.length_map _
  rw [l0, l1, e0, pyGet_mapL, List.length_map]
  cases pyGet o.frames 0 with
  | error e => rfl
  | ok f0 =>
  simp only [Except.map, bind, Except.bind]
  rw [show (axesFrame σ inv f0).side = axesOf σ f0.side from rfl, grSetupGrid_axes]
  cases grSetupGrid sq o f0.side with
  | error e => rfl
  | ok grid =>
  simp only
  cases grEdges grid with
  | error e => rfl
  | ok r =>
  simp only
  cases histogram r [] with
  | error e => rfl
  | ok _ =>
  simp only
  rw [show (axesGr σ inv o).skip = o.skip from rfl]
  cases pyRange 0 o.frames.length o.skip with
  | error e => rfl
  | ok origins =>
  simp only
  generalize hx : origins.foldlM (m := Py) _ (([] : List (List ℕ)), axesFrame σ inv f0) = x
  generalize hy : origins.foldlM (m := Py) _ (([] : List (List ℕ)), f0) = y
  have key : x = y.map fun st => (st.1, axesFrame σ inv st.2) := by
    rw [← hx, ← hy]
    refine foldlM_map_state (fun st : List (List ℕ) × GrFrame d K => (st.1, axesFrame σ inv st.2)) ?_ origins ([], f0)
    intro st i
    rw [pyGet_mapL]
    cases pyGet o.frames i with
    | error e => rfl
    | ok f =>
      simp only [Except.map]
      have i0 : (axesFrame σ inv f).pos0.isEmpty = f.pos0.isEmpty := isEmpty_mapL _ _
      have i1 : (axesFrame σ inv f).pos1.isEmpty = f.pos1.isEmpty := isEmpty_mapL _ _
      rw [i0, i1]
      by_cases hem : (f.pos0.isEmpty || f.pos1.isEmpty) = true
      · rw [if_pos hem, if_pos hem]; rfl
      · rw [if_neg hem, if_neg hem]
        have hn : pairsNewtonHist (grKernel sq (axesFrame σ inv f).side) (axesFrame σ inv f).pos0 (axesFrame σ inv f).pos1 r =
            pairsNewtonHist (grKernel sq f.side) f.pos0 f.pos1 r := pairsNewtonHist_axes σ inv sq _ _ _ _
        have hp : pairsHist (grKernel sq (axesFrame σ inv f).side) (axesFrame σ inv f).pos0 (axesFrame σ inv f).pos1 r =
            pairsHist (grKernel sq f.side) f.pos0 f.pos1 r := pairsHist_axes σ inv sq _ _ _ _
        rw [show (axesGr σ inv o).same = o.same from rfl, hn, hp]
        by_cases hs : o.same = true
        · rw [if_pos hs, if_pos hs]
          cases pairsNewtonHist (grKernel sq f.side) f.pos0 f.pos1 r <;> rfl
        · rw [if_neg hs, if_neg hs]
          cases pairsHist (grKernel sq f.side) f.pos0 f.pos1 r <;> rfl
  rw [key]
  cases y with
  | error e => rfl
  | ok st =>
    simp only [Except.map]
    rw [show (axesFrame σ inv st.2).side = axesOf σ st.2.side from rfl, cellVolume_axes]
    exact grCrop_axes σ _ _ _

/-- Local variables of the fast version without linked cells, with the axes in another order. -/
def axesState (σ : Equiv.Perm (Fin d)) (inv : Fin d → Bool) (st : GrFastState d K) : GrFastState d K :=
  ⟨none, st.hist, st.bins, st.n0, st.n1, st.grAll, st.flags, axesFrame σ inv st.system⟩

theorem grFastFrame_axes (σ : Equiv.Perm (Fin d)) (inv : Fin d → Bool) (sq : K → K) (huge : K) (o : GrObj d K) (dr : K)
    (st : GrFastState d K) (hst : st.cells = none) (f : GrFrame d K) :
    grFastFrame sq huge (axesGr σ inv o) dr (axesState σ inv st) (axesFrame σ inv f) =
      (grFastFrame sq huge o dr st f).map (axesState σ inv) := by
  unfold grFastFrame
  have i0 : (axesFrame σ inv f).pos0.isEmpty = f.pos0.isEmpty := isEmpty_mapL _ _
  have i1 : (axesFrame σ inv f).pos1.isEmpty = f.pos1.isEmpty := isEmpty_mapL _ _
  rw [i0, i1]
  by_cases hem : (f.pos0.isEmpty || f.pos1.isEmpty) = true
  · rw [if_pos hem, if_pos hem]; rfl
  rw [if_neg hem, if_neg hem]
  dsimp only
  have hper : ∀ b, (∀ i, (axesFrame σ inv f).periodic i = b) ↔ ∀ i, f.periodic i = b := fun b =>
    ⟨fun h i => by have := h (σ.symm i); rwa [show (axesFrame σ inv f).periodic (σ.symm i) = f.periodic (σ (σ.symm i))
      from rfl, Equiv.apply_symm_apply] at this, fun h i => h (σ i)⟩
  simp only [hper]
  rw [show (axesGr σ inv o).rmax = o.rmax from rfl]
  generalize decide ((∀ i, f.periodic i = false) ∧ o.rmax > 0) = crop
  have hpos : (if crop = true then (axesFrame σ inv f).pos0.filter fun x => !onSurface (axesFrame σ inv f).side o.rmax x
      else (axesFrame σ inv f).pos0) =
      (if crop = true then f.pos0.filter fun x => !onSurface f.side o.rmax x else f.pos0).map (axesVec σ inv) := by
    cases crop with
    | false => rfl
    | true =>
      simp only [if_true]
      show (f.pos0.map (axesVec σ inv)).filter _ = _
      rw [List.filter_map]
      congr 1
      refine List.filter_congr fun x _ => ?_
      show (!onSurface (axesOf σ f.side) o.rmax (axesVec σ inv x)) = _
      rw [onSurface_axes]
  rw [hpos]
  generalize (if crop = true then f.pos0.filter fun x => !onSurface f.side o.rmax x else f.pos0) = pos0
  rw [show (axesGr σ inv o).same = o.same from rfl]
  generalize (crop || !o.same) = distinct
  rw [show (axesState σ inv st).cells = none from rfl, hst]
  simp only [grFastCells, Except.bind, Option.isSome_none]
  by_cases hp : (∀ i, f.periodic i = false) ∨ ∀ i, f.periodic i = true
  · rw [if_neg (not_not.2 hp), if_neg (not_not.2 hp)]
    have hside : (fun i => if (axesFrame σ inv f).periodic i = true then (axesFrame σ inv f).side i else huge) =
        axesOf σ fun i => if f.periodic i = true then f.side i else huge := rfl
    have hk : grFastKernel sq dr false distinct [] (axesOf σ fun i => if f.periodic i = true then f.side i else huge)
        (pos0.map (axesVec σ inv)) (axesFrame σ inv f).pos1 (axesState σ inv st).hist (axesState σ inv st).bins =
        grFastKernel sq dr false distinct [] (fun i => if f.periodic i = true then f.side i else huge) pos0 f.pos1
          st.hist st.bins := by
      unfold grFastKernel
      simp only [Bool.false_eq_true, if_false]
      split_ifs
      · exact grDistinctC_axes σ inv sq _ _ _ _ _ _
      · exact grSelfC_axes σ inv sq _ _ _ _ _
    rw [hside, hk]
    cases grFastKernel sq dr false distinct [] (fun i => if f.periodic i = true then f.side i else huge) pos0 f.pos1
        st.hist st.bins with
    | error e => rfl
    | ok hb =>
      simp only [Except.map, axesState]
      have q : (axesFrame σ inv f).pos1.length = f.pos1.length := List.length_map _
      rw [q, List.length_map]
  · rw [if_pos hp, if_pos hp]; rfl

theorem grFastFrame_none {sq : K → K} {huge : K} {o : GrObj d K} {dr : K} {st st' : GrFastState d K} {f : GrFrame d K}
    (hst : st.cells = none) (h : grFastFrame sq huge o dr st f = .ok st') : st'.cells = none := by
  unfold grFastFrame at h
  by_cases h1 : (f.pos0.isEmpty || f.pos1.isEmpty) = true
  · rw [if_pos h1] at h; cases h; exact hst
  rw [if_neg h1] at h
  simp only [hst, grFastCells, Except.bind] at h
  by_cases h2 : (∀ i, f.periodic i = false) ∨ ∀ i, f.periodic i = true
  · rw [if_neg (not_not.2 h2)] at h
    generalize hk : grFastKernel sq dr _ _ _ _ _ _ _ _ = k at h
    cases k with
    | error e => cases h
    | ok hb => cases h; rfl
  · rw [if_pos h2] at h; cases h

theorem foldlM_map_inv {α β γ : Type} (P : β → Prop) (g : β → γ) {f : β → α → Py β} {f' : γ → α → Py γ}
    (hP : ∀ s x s', P s → f s x = .ok s' → P s') (h : ∀ s x, P s → f' (g s) x = (f s x).map g) :
    ∀ (l : List α) (s : β), P s → l.foldlM f' (g s) = (l.foldlM f s).map g := by
  intro l
  induction l with
  | nil => intro s _; rfl
  | cons x l ih =>
    intro s hs
    simp only [List.foldlM_cons]
    rw [h s x hs]
    cases hf : f s x with
    | error e => rfl
    | ok s' => exact ih s' (hP s x s' hs hf)

/-- **C153** for `RadialDistributionFunctionFast` without linked cells, periodic or not, also if an exception is
raised. -/
theorem C153_fast_partial (σ : Equiv.Perm (Fin d)) (inv : Fin d → Bool) (sq : K → K) (pi huge : K) (o : GrObj d K)
    (hlc : ∀ f0 ∈ o.frames, useLinkedCells o f0 ≠ .ok true) :
    grFast sq pi huge (axesGr σ inv o) = grFast sq pi huge o := by
  unfold grFast
  have e0 : (axesGr σ inv o).frames = o.frames.map (axesFrame σ inv) := rfl
  rw [e0, pyGet_mapL, List.length_map]
  cases hf0 : pyGet o.frames 0 with
  | error e => rfl
  | ok f0 =>
  have hl0 := hlc f0 (pyGet_mem hf0)
  simp only [Except.map, bind, Except.bind]
  rw [show (axesFrame σ inv f0).side = axesOf σ f0.side from rfl, grSetupGrid_axes]
  cases grSetupGrid sq o f0.side with
  | error e => rfl
  | ok grid =>
  simp only
  cases pyGet grid 0 with
  | error e => rfl
  | ok g0 =>
  simp only
  cases pyGet grid 1 with
  | error e => rfl
  | ok g1 =>
  simp only
  rw [useLinkedCells_axes]
  cases hu : useLinkedCells o f0 with
  | error e => rfl
  | ok useLc =>
  cases useLc with
  | true => exact absurd hu hl0
  | false =>
  simp only
  rw [show (axesGr σ inv o).skip = o.skip from rfl]
  cases pyRange 0 o.frames.length o.skip with
  | error e => rfl
  | ok origins =>
  simp only
  generalize hx : origins.foldlM (m := Py) _ _ = x
  generalize hy : origins.foldlM (m := Py) _ _ = y
  have key : x = y.map (axesState σ inv) := by
    rw [← hx, ← hy]
    refine foldlM_map_inv (fun st : GrFastState d K => st.cells = none) (axesState σ inv) ?_ ?_ origins
      ⟨none, grid.map fun _ => 0, grid, [], [], [], none, f0⟩ rfl
    · intro st i st' hst h
      cases hf : pyGet o.frames i with
      | error e => rw [hf] at h; cases h
      | ok f => rw [hf] at h; exact grFastFrame_none hst h
    · intro st i hst
      rw [pyGet_mapL]
      cases pyGet o.frames i with
      | error e => rfl
      | ok f => exact grFastFrame_axes σ inv sq huge o _ st hst f
  rw [key]
  cases y with
  | error e => rfl
  | ok st =>
    simp only [Except.map]
    have v : cellVolume (axesState σ inv st).system.side = cellVolume st.system.side := cellVolume_axes σ _
    have cr : ∀ t, grCrop (axesGr σ inv o).rmax (axesState σ inv st).system.side t = grCrop o.rmax st.system.side t :=
      fun t => grCrop_axes σ _ _ t
    simp only [v, cr]
    rfl

/-- **C153** for `RadialDistributionFunctionFast` with linked cells: all the points whose bins lie below `rmax` are
the same, if the particles are inside the cell before and after the change of the axes. -/
theorem C153_cells_partial (σ : Equiv.Perm (Fin d)) (inv : Fin d → Bool) (sq : K → K) (hsq : ∀ x, 0 ≤ sq x)
    (hsq2 : ∀ x, 0 ≤ x → sq x * sq x = x) {pi : K} (hpi : 0 < pi) (huge : K) (o : GrObj d K) {w : K} {n0 n1 : ℕ}
    {f0 : GrFrame d K} (h : GrRegular sq o w n0 n1 f0) (hd : d = 2 ∨ d = 3)
    (hper : ∀ f ∈ o.frames, ∀ c, f.periodic c = true) (hcell : ∀ f ∈ o.frames, f.side = f0.side)
    (hin : ∀ f ∈ o.frames, ∀ x, x ∈ f.pos0 ∨ x ∈ f.pos1 → ∀ c, -(f0.side c / 2) < x c ∧ x c < f0.side c / 2)
    (hlc : useLinkedCells o f0 = .ok true) :
    ∃ t t', grFast sq pi huge o = .ok t ∧ grFast sq pi huge (axesGr σ inv o) = .ok t' ∧
      (t.filter fun p => p.1 + w / 2 ≤ o.rmax) = t'.filter fun p => p.1 + w / 2 ≤ o.rmax := by
  have hfr : (axesGr σ inv o).frames = o.frames.map (axesFrame σ inv) := rfl
  obtain ⟨t, l, h1, h2, -, h4⟩ := C44_linked_cells sq hsq hsq2 hpi huge o h hd hper hcell
    (fun f hf x hx c => ⟨(hin f hf x hx c).1.le, (hin f hf x hx c).2⟩) hlc
  have hreg : GrRegular sq (axesGr σ inv o) w n0 n1 (axesFrame σ inv f0) := by
    refine ⟨?_, h.skip_pos, h.w_pos, h.rgrid, h.dr, ?_, ?_, h.n0_pos, h.n1_pos, ?_, ?_, ?_⟩
    · rw [hfr, List.getElem?_map, h.first]; rfl
    · obtain ⟨c, hc⟩ := h.fit
      refine ⟨σ.symm c, ?_⟩
      show 3 / 2 * w ≤ f0.side (σ (σ.symm c)) * sq (d : K)
      rwa [Equiv.apply_symm_apply]
    · intro f hf c
      rw [hfr, List.mem_map] at hf
      obtain ⟨g, hg, rfl⟩ := hf
      exact h.side_pos g hg (σ c)
    · intro f hf
      rw [hfr, List.mem_map] at hf
      obtain ⟨g, hg, rfl⟩ := hf
      exact (List.length_map _).trans (h.len0 g hg)
    · intro f hf
      rw [hfr, List.mem_map] at hf
      obtain ⟨g, hg, rfl⟩ := hf
      exact (List.length_map _).trans (h.len1 g hg)
    · intro hs f hf
      rw [hfr, List.mem_map] at hf
      obtain ⟨g, hg, rfl⟩ := hf
      show g.pos0.map _ = g.pos1.map _
      rw [h.same hs g hg]
  obtain ⟨t', l', h1', h2', -, h4'⟩ := C44_linked_cells sq hsq hsq2 hpi huge (axesGr σ inv o) hreg hd
    (by intro f hf c
        rw [hfr, List.mem_map] at hf
        obtain ⟨g, hg, rfl⟩ := hf
        exact hper g hg (σ c))
    (by intro f hf
        rw [hfr, List.mem_map] at hf
        obtain ⟨g, hg, rfl⟩ := hf
        show axesOf σ g.side = axesOf σ f0.side
        rw [hcell g hg])
    (by intro f hf x hx c
        rw [hfr, List.mem_map] at hf
        obtain ⟨g, hg, rfl⟩ := hf
        have : ∃ y, (y ∈ g.pos0 ∨ y ∈ g.pos1) ∧ axesVec σ inv y = x := by
          rcases hx with hx | hx
          · obtain ⟨y, hy, e⟩ := List.mem_map.1 hx; exact ⟨y, Or.inl hy, e⟩
          · obtain ⟨y, hy, e⟩ := List.mem_map.1 hx; exact ⟨y, Or.inr hy, e⟩
        obtain ⟨y, hy, rfl⟩ := this
        have hh := hin g hg y hy (σ c)
        show -(f0.side (σ c) / 2) ≤ axesVec σ inv y c ∧ axesVec σ inv y c < f0.side (σ c) / 2
        unfold axesVec
        cases inv c with
        | false => exact ⟨hh.1.le, hh.2⟩
        | true =>
          simp only [if_true]
          constructor <;> linarith [hh.1, hh.2])
    (by rw [useLinkedCells_axes]; exact hlc)
  refine ⟨t, t', h1, h1', ?_⟩
  rw [C153_legacy_partial, h2] at h2'
  cases h2'
  rw [h4]
  exact h4'.symm

/-- Two frames in a rectangular cell. -/
def axesExample : GrObj 2 ℚ :=
  ⟨[⟨![4, 6], fun _ => true, [![-1, 0], ![0, 2], ![1, 1]], [![-1, 0], ![0, 2], ![1, 1]]⟩,
    ⟨![4, 6], fun _ => true, [![-1, 0], ![0, 1], ![1, 1]], [![-1, 0], ![0, 1], ![1, 1]]⟩], true, 1, none, .float (1 / 2), -1⟩

/-- The two axes are exchanged and one of them is inverted. -/
example :
    (grLegacy Rat.sqrt 3 (axesGr (Equiv.swap 0 1) ![true, false] axesExample)).toOption =
      some [(1 / 4, some 0), (3 / 4, some 0), (5 / 4, some (32 / 15)), (7 / 4, some 0)] ∧
    (grFast Rat.sqrt 3 1000000 (axesGr (Equiv.swap 0 1) ![true, false] axesExample)).toOption =
      some [(1 / 4, some 0), (3 / 4, some 0), (5 / 4, some (32 / 15)), (7 / 4, some 0)] := by
  constructor
  · rw [C153_legacy_partial]
    decide +kernel
  · rw [C153_fast_partial]
    · decide +kernel
    · decide +kernel

/-- A pair at a distance larger than `rmax`, but inside the last bin of the table, with a particle at the border of a
cell of the list of cells. -/
def axesCells : GrObj 2 ℚ :=
  ⟨[⟨![16, 16], fun _ => true, [![-21 / 5, 0], ![0, 0], ![-21 / 5, 1]],
    [![-21 / 5, 0], ![0, 0], ![-21 / 5, 1]]⟩], true, 1, none, .float (3 / 2), 4⟩

/-- **C153** is false for the last point of the table with linked cells: when the axes are inverted, the value at
distance 15/4 changes from 0 to 4096/1215. -/
theorem C153_counterexample_cells :
    (grFast Rat.sqrt 3 1000000 axesCells).toOption =
      some [(3 / 4, some (2048 / 243)), (9 / 4, some 0), (15 / 4, some 0)] ∧
    (grFast Rat.sqrt 3 1000000 (axesGr (Equiv.refl _) (fun _ => true) axesCells)).toOption =
      some [(3 / 4, some (2048 / 243)), (9 / 4, some 0), (15 / 4, some (4096 / 1215))] := by
  decide +kernel

/-- The hypotheses of `C153_cells_partial` hold for a trajectory with linked cells and real numbers, with the axes
exchanged and inverted. -/
example : ∃ t t', grFast Real.sqrt 3 1000000 (cellsExample ℝ) = .ok t ∧
    grFast Real.sqrt 3 1000000 (axesGr (Equiv.swap 0 1) (fun _ => true) (cellsExample ℝ)) = .ok t' ∧
    (t.filter fun p => p.1 + (3 / 2) / 2 ≤ (4 : ℝ)) = t'.filter fun p => p.1 + (3 / 2) / 2 ≤ (4 : ℝ) := by
  have hs : (1 : ℝ) ≤ Real.sqrt ((2 : ℕ) : ℝ) := by
    rw [Real.one_le_sqrt]; norm_num
  refine C153_cells_partial (Equiv.swap 0 1) (fun _ => true) Real.sqrt Real.sqrt_nonneg
    (fun x hx => Real.mul_self_sqrt hx) (by norm_num) _
    (cellsExample ℝ) (n0 := 3) (n1 := 3) (f0 := ⟨![16, 16], fun _ => true, [![-41 / 10, 0], ![1 / 10, 0], ![-41 / 10, 1]],
        [![-41 / 10, 0], ![1 / 10, 0], ![-41 / 10, 1]]⟩) ?_ (Or.inl rfl) ?_ ?_ ?_ ?_
  · refine ⟨rfl, by decide, by norm_num, rfl, rfl, ⟨0, ?_⟩, ?_, by norm_num, by norm_num, ?_, ?_, ?_⟩
    · show 3 / 2 * (3 / 2 : ℝ) ≤ 16 * Real.sqrt ((2 : ℕ) : ℝ)
      exact le_trans (by norm_num) (mul_le_mul_of_nonneg_left hs (by norm_num : (0 : ℝ) ≤ 16))
    · intro f hf c
      simp only [cellsExample, List.mem_cons, List.not_mem_nil, or_false] at hf
      rcases hf with rfl | rfl <;> fin_cases c <;> norm_num
    · intro f hf
      simp only [cellsExample, List.mem_cons, List.not_mem_nil, or_false] at hf
      rcases hf with rfl | rfl <;> rfl
    · intro f hf
      simp only [cellsExample, List.mem_cons, List.not_mem_nil, or_false] at hf
      rcases hf with rfl | rfl <;> rfl
    · intro _ f hf
      simp only [cellsExample, List.mem_cons, List.not_mem_nil, or_false] at hf
      rcases hf with rfl | rfl <;> rfl
  · intro f hf
    simp only [cellsExample, List.mem_cons, List.not_mem_nil, or_false] at hf
    rcases hf with rfl | rfl <;> simp
  · intro f hf
    simp only [cellsExample, List.mem_cons, List.not_mem_nil, or_false] at hf
    rcases hf with rfl | rfl <;> rfl
  · intro f hf x hx
    simp only [cellsExample, List.mem_cons, List.not_mem_nil, or_false] at hf
    rcases hf with rfl | rfl <;> simp only [List.mem_cons, List.not_mem_nil, or_false, or_self] at hx <;>
      rcases hx with rfl | rfl | rfl <;> intro c <;> fin_cases c <;> norm_num
  · have hm : pyMin (List.ofFn fun c => (![16, 16] : Vec 2 ℝ) c / 4) = .ok 4 := by
      norm_num [pyMin, List.ofFn_succ]
    unfold useLinkedCells
    rw [if_pos (by norm_num [cellsExample])]
    simp only [cellsExample] at hm ⊢
    rw [hm]
    have hp : pyInt (4 : ℝ) = 4 := by unfold pyInt; rw [if_pos (by norm_num)]; exact_mod_cast Int.floor_natCast 4
    simp only [bind, Except.bind, pure, Except.pure, hp, cellVolume]
    norm_num [Fin.prod_univ_two]

end PP.Props
