import Verif.Props.GrUnits
import Verif.Props.KReport

/-!
# The unit of length in the structure factor and the intermediate scattering functions (C152)

Lengths are multiplied by `c`, wave-numbers by `c⁻¹`.
-/

set_option linter.unusedSectionVars false

namespace PP.Props
open PP

variable {d : ℕ} {c : ℝ}

/-- The parameters with wave-numbers multiplied by `c`. -/
noncomputable def scaleParams (c : ℝ) (p : KParams ℝ) : KParams ℝ := ⟨p.nk, c * p.dk, c * p.kmin, c * p.kmax, p.ksamples⟩

/-- The result of the set-up with wave-numbers multiplied by `c`. -/
def scaleK (c : ℝ) (s : KState d ℝ) : KState d ℝ := ⟨scaleVec c s.k0, s.kgrid.map (c * ·), s.kvectors, s.koffset⟩

/-- The attributes with wave-numbers multiplied by `c`. -/
def scaleAttrs (c : ℝ) (a : KAttrs d ℝ) : KAttrs d ℝ :=
  ⟨a.grid.map (List.map (c * ·)), a.kgrid.map (List.map (c * ·)), a.aliased, a.k0.map (c * ·), a.kvectors, a.koffset⟩

/-- A frame in another unit of length. -/
def scaleCellFrame (c : ℝ) (f : CellFrame d) : CellFrame d :=
  ⟨scaleVec c f.side, f.pos0.map (scaleVec c), f.pos1.map (scaleVec c), f.w0, f.w1⟩

/-- The choices with wave-numbers multiplied by `c`. -/
noncomputable def scaleChoices (c : ℝ) (o : SkChoices d) : SkChoices d :=
  ⟨o.depth, o.pick, scaleParams c o.params, o.same, o.weighted, o.skip⟩

/-! ### Set-up of the wave-vectors -/

theorem smallestK_unit (c pi : ℝ) (side : Vec d ℝ) : smallestK pi (scaleVec c side) = scaleVec c⁻¹ (smallestK pi side) := by
  funext i
  unfold smallestK scaleVec
  rw [mul_comm c, ← div_div, div_eq_inv_mul]

theorem kSq_unit (c : ℝ) (k0 : Vec d ℝ) (v : KVec d) : kSq (scaleVec c k0) v = c ^ 2 * kSq k0 v := by
  unfold kSq scaleVec
  rw [Finset.mul_sum]
  exact Finset.sum_congr rfl fun i _ => by ring

theorem sqrt_unit (hc : 0 < c) (x : ℝ) : √(c ^ 2 * x) = c * √x := by
  rw [Real.sqrt_mul (by positivity), Real.sqrt_sq hc.le]

theorem kNorm_unit (hc : 0 < c) (k0 : Vec d ℝ) (off : ℤ) (v : KVec d) :
    kNorm Real.sqrt (scaleVec c k0) off v = c * kNorm Real.sqrt k0 off v := by
  unfold kNorm
  rw [kSq_unit, sqrt_unit hc]

theorem npMean_unit (c : ℝ) (l : List ℝ) : npMean (l.map (c * ·)) = c * npMean l := by
  unfold npMean
  rw [List.length_map, List.sum_map_mul_left, List.map_id', mul_div_assoc]

theorem linearGrid_int_unit (c a b : ℝ) (n : ℤ) :
    linearGrid (c * a) (c * b) (.int n) = (linearGrid a b (.int n)).map (List.map (c * ·)) := by
  simp only [linearGrid, Except.map, List.map_map]
  congr 2
  funext i
  simp only [Function.comp]
  split_ifs <;> ring

theorem pySorted_unit (hc : 0 < c) (l : List ℝ) : pySorted (l.map (c * ·)) = (pySorted l).map (c * ·) := by
  unfold pySorted
  refine (List.map_insertionSort (r := (· ≤ ·)) (s := (· ≤ ·)) _ _ ?_).symm
  intro a _ b _
  exact (mul_le_mul_iff_right₀ hc).symm

theorem initialGrid_unit (hc : 0 < c) (p : KParams ℝ) (k0 : Vec d ℝ) (grid : Option (List ℝ)) :
    initialGrid (scaleParams c p) (scaleVec c k0) (grid.map (List.map (c * ·))) =
      (initialGrid p k0 grid).map (List.map (c * ·)) := by
  cases grid with
  | none =>
    simp only [Option.map_none, initialGrid]
    have h : ((scaleParams c p).kmin > 0) ↔ p.kmin > 0 := mul_pos_iff_of_pos_left hc
    simp only [h]
    split_ifs
    · exact linearGrid_int_unit _ _ _ _
    · rw [ofFn_scale, pyMin_scale hc]
      cases pyMin (List.ofFn k0) with
      | error e => rfl
      | ok m => exact linearGrid_int_unit _ _ _ _
  | some g =>
    simp only [Option.map_some, initialGrid]
    rw [pySorted_unit hc]
    cases pySorted g with
    | nil => rfl
    | cons a r =>
      simp only [List.map_cons]
      have h : (c * a < 0) ↔ a < 0 := by
        rw [← not_le, ← not_le, mul_nonneg_iff_of_pos_left hc]
      simp only [h]
      split_ifs
      · rw [ofFn_scale, pyMin_scale hc]
        cases pyMin (List.ofFn k0) <;> rfl
      · rfl

theorem shellOf_unit (hc : 0 < c) (dk kgrid : List ℝ) (k : ℝ) :
    shellOf (dk.map (c * ·)) (kgrid.map (c * ·)) (c * k) = shellOf dk kgrid k := by
  unfold shellOf
  rw [List.length_map]
  congr 1
  funext i
  rw [getD_scale, getD_scale, ← mul_sub, abs_mul, abs_of_pos hc]
  simp only [mul_lt_mul_iff_right₀ hc]

theorem addToShell_unit (hc : 0 < c) (dk kgrid : List ℝ) (k0 : Vec d ℝ) (kmax : ℝ) (kbin : ℤ) :
    addToShell Real.sqrt (dk.map (c * ·)) (kgrid.map (c * ·)) (scaleVec c k0) ((c * kmax) ^ 2) kbin =
      addToShell Real.sqrt dk kgrid k0 (kmax ^ 2) kbin := by
  funext kvec ik
  unfold addToShell
  rw [kSq_unit, sqrt_unit hc, shellOf_unit hc]
  have h : (c ^ 2 * kSq k0 ik > (c * kmax) ^ 2) ↔ kSq k0 ik > kmax ^ 2 := by
    rw [mul_pow]; exact mul_lt_mul_iff_right₀ (by positivity)
  simp only [h]

theorem fillShells_unit (hc : 0 < c) (k0 : Vec d ℝ) (kgrid dk : List ℝ) :
    fillShells Real.sqrt (scaleVec c k0) (kgrid.map (c * ·)) (dk.map (c * ·)) = fillShells Real.sqrt k0 kgrid dk := by
  unfold fillShells
  rw [List.length_map, List.length_map, pyGet_mapL, pyGet_mapL, ofFn_scale, pyMin_scale hc]
  cases pyGet kgrid (kgrid.length - 1) with
  | error e => rfl
  | ok kl =>
  cases pyGet dk (dk.length - 1) with
  | error e => rfl
  | ok dl =>
  cases pyMin (List.ofFn k0) with
  | error e => rfl
  | ok m =>
  simp only [Except.map, bind, Except.bind]
  rw [← mul_add, mul_div_mul_left _ _ hc.ne', addToShell_unit hc]

theorem widen_unit (c : ℝ) (dk : List ℝ) (kvec : List (List (KVec d))) :
    widen (dk.map (c * ·)) kvec = (widen dk kvec).map (c * ·) := by
  unfold widen
  rw [List.zipWith_map_left, List.map_zipWith]
  congr 1
  funext w s
  split_ifs <;> ring

theorem setupGridSphere_unit (hc : 0 < c) (k0 : Vec d ℝ) (kgrid : List ℝ) (depth : ℕ) (dk : List ℝ) :
    setupGridSphere Real.sqrt (scaleVec c k0) (kgrid.map (c * ·)) depth (dk.map (c * ·)) =
      (setupGridSphere Real.sqrt k0 kgrid depth dk).map fun r => (r.1, r.2.1, r.2.2.map (c * ·)) := by
  induction depth generalizing dk with
  | zero => rfl
  | succ n ih =>
    simp only [setupGridSphere]
    rw [fillShells_unit hc]
    cases fillShells Real.sqrt k0 kgrid dk with
    | error e => rfl
    | ok r =>
      simp only [bind, Except.bind]
      split_ifs
      · rfl
      · rw [widen_unit, ih]

theorem kSetup_unit (hc : 0 < c) (depth : ℕ) (pick : ℕ → List (KVec d) → ℕ → List (KVec d)) (p : KParams ℝ)
    (side : Vec d ℝ) (grid : Option (List ℝ)) :
    kSetup Real.sqrt Real.pi depth pick (scaleParams c⁻¹ p) (scaleVec c side) (grid.map (List.map (c⁻¹ * ·))) =
      (kSetup Real.sqrt Real.pi depth pick p side grid).map (scaleK c⁻¹) := by
  have hi : 0 < c⁻¹ := inv_pos.2 hc
  unfold kSetup
  simp only [smallestK_unit, initialGrid_unit hi]
  cases initialGrid p (smallestK Real.pi side) grid with
  | error e => rfl
  | ok g =>
  simp only [Except.map, bind, Except.bind]
  have e : List.replicate (g.map (c⁻¹ * ·)).length (scaleParams c⁻¹ p).dk = (List.replicate g.length p.dk).map (c⁻¹ * ·) := by
    rw [List.length_map, List.map_replicate]; rfl
  rw [e, setupGridSphere_unit hi]
  cases setupGridSphere Real.sqrt (smallestK Real.pi side) g depth (List.replicate g.length p.dk) with
  | error e => rfl
  | ok r =>
  simp only [Except.map]
  rw [show (scaleParams c⁻¹ p).nk = p.nk from rfl]
  cases r.1.zipIdx.mapM fun e => decimate pick p.nk e.2 e.1 with
  | error e => rfl
  | ok kv =>
  simp only [pure, Except.pure, scaleK]
  congr 2
  rw [List.map_map]
  refine List.map_congr_left fun l _ => ?_
  show npMean _ = c⁻¹ * npMean _
  rw [← npMean_unit, List.map_map]
  congr 1
  refine List.map_congr_left fun v _ => ?_
  exact kNorm_unit hi _ _ _

theorem setup_unit (hc : 0 < c) (depth : ℕ) (pick : ℕ → List (KVec d) → ℕ → List (KVec d)) (p : KParams ℝ)
    (sample : ℕ) (side : Vec d ℝ) (a : KAttrs d ℝ) :
    (scaleAttrs c⁻¹ a).setup Real.sqrt Real.pi depth pick (scaleParams c⁻¹ p) sample (scaleVec c side) =
      (a.setup Real.sqrt Real.pi depth pick p sample side).map (scaleAttrs c⁻¹) := by
  unfold KAttrs.setup
  have h : (scaleAttrs c⁻¹ a).kgrid.isSome = a.kgrid.isSome := by
    unfold scaleAttrs; cases a.kgrid <;> rfl
  rw [h]
  split_ifs
  · rfl
  · rw [show (scaleAttrs c⁻¹ a).grid = a.grid.map (List.map (c⁻¹ * ·)) from rfl, kSetup_unit hc]
    cases kSetup Real.sqrt Real.pi depth pick p side a.grid with
    | error e => rfl
    | ok s =>
      simp only [Except.map, bind, Except.bind, pure, Except.pure, scaleAttrs, scaleK]
      rw [ofFn_scale]
      cases a.grid <;> rfl

theorem setKvectors_unit (hc : 0 < c) (side : Vec d ℝ) (kv : List (List (Vec d ℝ))) (a : KAttrs d ℝ) :
    (scaleAttrs c⁻¹ a).setKvectors Real.sqrt Real.pi (scaleVec c side) (kv.map (List.map (scaleVec c⁻¹))) =
      scaleAttrs c⁻¹ (a.setKvectors Real.sqrt Real.pi side kv) := by
  have hi : 0 < c⁻¹ := inv_pos.2 hc
  have hr : ((kv.map (List.map (scaleVec c⁻¹))).map fun l => l.map fun v i =>
      pyRound (v i / smallestK Real.pi (scaleVec c side) i)) =
      kv.map fun l => l.map fun v i => pyRound (v i / smallestK Real.pi side i) := by
    rw [List.map_map]
    refine List.map_congr_left fun l _ => ?_
    simp only [Function.comp, List.map_map]
    refine List.map_congr_left fun v _ => ?_
    funext i
    simp only [Function.comp, smallestK_unit]
    unfold scaleVec
    rw [mul_div_mul_left _ _ hi.ne']
  unfold KAttrs.setKvectors kvectorsSet
  simp only [hr]
  simp only [scaleAttrs, smallestK_unit, ofFn_scale]
  congr 1
  simp only [Option.map_some, List.map_map]
  congr 1
  refine List.map_congr_left fun l _ => ?_
  simp only [Function.comp, List.map_map]
  rw [← npMean_unit, List.map_map]
  congr 1
  refine List.map_congr_left fun v _ => ?_
  exact kNorm_unit hi _ _ _

theorem getKvectors_unit (c : ℝ) (a : KAttrs d ℝ) :
    (scaleAttrs c a).getKvectors = a.getKvectors.map (List.map (scaleVec c)) := by
  unfold KAttrs.getKvectors scaleAttrs
  rw [List.map_map]
  refine List.map_congr_left fun l _ => ?_
  simp only [Function.comp, List.map_map]
  refine List.map_congr_left fun v _ => ?_
  funext i
  simp only [Function.comp, getD_scale, scaleVec]
  ring

theorem read_unit (c : ℝ) (a : KAttrs d ℝ) : (scaleAttrs c a).read = a.read.map (scaleK c) := by
  unfold KAttrs.read
  have e : (fun j : Fin d => pyGet (scaleAttrs c a).k0 (j : ℕ)) = fun j : Fin d => (pyGet a.k0 (j : ℕ)).map (c * ·) := by
    funext j
    exact pyGet_mapL _ _ _
  have e2 : ∀ l : List (Fin d), (l.mapM fun j : Fin d => (pyGet a.k0 (j : ℕ)).map (c * ·)) =
      (l.mapM fun j : Fin d => pyGet a.k0 (j : ℕ)).map (List.map (c * ·)) := by
    intro l
    induction l with
    | nil => rfl
    | cons j l ih =>
      rw [List.mapM_cons, List.mapM_cons, ih]
      cases pyGet a.k0 (j : ℕ) with
      | error e => rfl
      | ok x =>
        cases l.mapM fun j : Fin d => pyGet a.k0 (j : ℕ) <;> rfl
  rw [e, e2]
  cases (List.finRange d).mapM fun j : Fin d => pyGet a.k0 (j : ℕ) with
  | error e => rfl
  | ok l =>
    simp only [Except.map, bind, Except.bind, pure, Except.pure, scaleK]
    congr 2
    · funext i
      exact getD_scale _ _
    · unfold scaleAttrs
      cases a.kgrid <;> rfl

/-! ### Calculations -/

theorem phase_unit (hc : 0 < c) (k0 r : Vec d ℝ) (j : Fin d) : scaleVec c⁻¹ k0 j * scaleVec c r j = k0 j * r j := by
  unfold scaleVec
  rw [mul_mul_mul_comm, inv_mul_cancel₀ hc.ne', one_mul]

theorem expoSphere_unit (hc : 0 < c) (k0 : Vec d ℝ) (nk : ℕ) (pos : List (Vec d ℝ)) :
    expoSphere ccis (fun _ => 0) (scaleVec c⁻¹ k0) nk (pos.map (scaleVec c)) = expoSphere ccis (fun _ => 0) k0 nk pos := by
  unfold expoSphere
  simp only [List.map_eq_nil_iff, List.mapM_map, Function.comp_def, phase_unit hc]

theorem expoFrames_unit (hc : 0 < c) (k0 : Vec d ℝ) (nk : ℕ) (pos : List (List (Vec d ℝ))) :
    expoFrames ccis (fun _ => 0) (scaleVec c⁻¹ k0) nk (pos.map (List.map (scaleVec c))) =
      expoFrames ccis (fun _ => 0) k0 nk pos := by
  unfold expoFrames
  simp only [List.map_eq_nil_iff, List.mapM_map, Function.comp_def, phase_unit hc]

/-- A frame of the structure factor in another unit of length. -/
noncomputable def scaleSkFrame (c : ℝ) (f : SkFrame d) : SkFrame d :=
  ⟨f.pos0.map (scaleVec c), f.pos1.map (scaleVec c), f.w0, f.w1, scaleK c⁻¹ f.ks⟩

theorem skFrame_unit (hc : 0 < c) (o : SkObj d) (acc : List SkAcc) (f : SkFrame d) :
    skFrame o acc (scaleSkFrame c f) = skFrame o acc f := by
  unfold skFrame secondTable scaleSkFrame scaleK
  simp only [expoSphere_unit hc]

theorem skFastFrame_unit (hc : 0 < c) (o : SkObj d) (acc : List SkAcc) (f : SkFrame d) :
    skFastFrame o acc (scaleSkFrame c f) = skFastFrame o acc f := by
  unfold skFastFrame secondTable scaleSkFrame scaleK
  simp only [expoSphere_unit hc]

theorem skStep_unit (hc : 0 < c) (o : SkChoices d) (fr : List (CellFrame d)) (v : Bool) (st : List SkAcc × KAttrs d ℝ)
    (i : ℕ) :
    skStep (scaleChoices c⁻¹ o) (fr.map (scaleCellFrame c)) v (st.1, scaleAttrs c⁻¹ st.2) i =
      (skStep o fr v st i).map fun st => (st.1, scaleAttrs c⁻¹ st.2) := by
  unfold skStep
  rw [pyGet_mapL]
  cases pyGet fr i with
  | error e => rfl
  | ok f =>
  simp only [Except.map, bind, Except.bind]
  have hfr : ∀ ks, skFrame ⟨(scaleChoices c⁻¹ o).same, (scaleChoices c⁻¹ o).weighted, (scaleChoices c⁻¹ o).skip,
      st.1.length, []⟩ st.1 ⟨(scaleCellFrame c f).pos0, (scaleCellFrame c f).pos1, (scaleCellFrame c f).w0,
        (scaleCellFrame c f).w1, scaleK c⁻¹ ks⟩ =
      skFrame ⟨o.same, o.weighted, o.skip, st.1.length, []⟩ st.1 ⟨f.pos0, f.pos1, f.w0, f.w1, ks⟩ := fun ks =>
    skFrame_unit hc ⟨o.same, o.weighted, o.skip, st.1.length, []⟩ st.1 ⟨f.pos0, f.pos1, f.w0, f.w1, ks⟩
  cases v with
  | false =>
    simp only [Bool.false_eq_true, if_false]
    rw [read_unit]
    cases st.2.read with
    | error e => rfl
    | ok ks =>
      simp only [Except.map]
      rw [hfr]
      cases skFrame ⟨o.same, o.weighted, o.skip, st.1.length, []⟩ st.1 ⟨f.pos0, f.pos1, f.w0, f.w1, ks⟩ <;> rfl
  | true =>
    simp only [if_true]
    have := setup_unit hc o.depth o.pick o.params i f.side st.2
    rw [show (scaleAttrs c⁻¹ st.2).setup Real.sqrt Real.pi (scaleChoices c⁻¹ o).depth (scaleChoices c⁻¹ o).pick
      (scaleChoices c⁻¹ o).params i (scaleCellFrame c f).side = _ from this]
    cases st.2.setup Real.sqrt Real.pi o.depth o.pick o.params i f.side with
    | error e => rfl
    | ok a =>
      simp only [Except.map]
      rw [read_unit]
      cases a.read with
      | error e => rfl
      | ok ks =>
        simp only [Except.map]
        rw [hfr]
        cases skFrame ⟨o.same, o.weighted, o.skip, st.1.length, []⟩ st.1 ⟨f.pos0, f.pos1, f.w0, f.w1, ks⟩ <;> rfl

open Classical in
theorem isCellVariable_unit (hc : 0 < c) (sides : List (Vec d ℝ)) (tests : ℤ) :
    isCellVariable (sides.map (scaleVec c)) tests = isCellVariable sides tests := by
  have inj : ∀ a b : Vec d ℝ, (scaleVec c a ≠ scaleVec c b) ↔ a ≠ b := by
    intro a b
    rw [not_iff_not]
    constructor
    · intro h
      funext i
      exact mul_left_cancel₀ hc.ne' (congrFun h i)
    · rintro rfl; rfl
  unfold isCellVariable
  cases sides with
  | nil => rfl
  | cons a r =>
    simp only [List.map_cons, List.length_cons, List.length_map]
    congr 2
    funext j
    rw [← List.map_cons (f := scaleVec c), List.getElem?_map]
    cases (a :: r)[j]? with
    | none => rfl
    | some b => simp only [Option.map_some, inj]

/-- **C152** for `StructureFactorLegacy`: with positions and cell in another unit of length and the wave-numbers (grid,
`dk`, `kmin`, `kmax`, attributes assigned by the user) in the inverse unit, the grid and the attributes change by the
inverse factor and the values do not. The cell may change, weights may be set, and exceptions are the same. -/
theorem C152_structure_factor (hc : 0 < c) (o : SkChoices d) (fr : List (CellFrame d)) (a : KAttrs d ℝ) :
    skComputeA (scaleChoices c⁻¹ o) (fr.map (scaleCellFrame c)) (scaleAttrs c⁻¹ a) =
      (skComputeA o fr a).map fun r => (r.1.map (c⁻¹ * ·), r.2.1, scaleAttrs c⁻¹ r.2.2) := by
  classical
  unfold skComputeA
  rw [pyGet_mapL, List.length_map]
  cases pyGet fr 0 with
  | error e => rfl
  | ok f0 =>
  simp only [Except.map, bind, Except.bind]
  have h0 := setup_unit hc o.depth o.pick o.params 0 f0.side a
  rw [show (scaleAttrs c⁻¹ a).setup Real.sqrt Real.pi (scaleChoices c⁻¹ o).depth (scaleChoices c⁻¹ o).pick
      (scaleChoices c⁻¹ o).params 0 (scaleCellFrame c f0).side = _ from h0]
  cases a.setup Real.sqrt Real.pi o.depth o.pick o.params 0 f0.side with
  | error e => rfl
  | ok a =>
  simp only [Except.map]
  have hside : (fr.map (scaleCellFrame c)).map CellFrame.side = (fr.map CellFrame.side).map (scaleVec c) := by
    rw [List.map_map, List.map_map]; rfl
  rw [hside]
  have hv := isCellVariable_unit hc (fr.map CellFrame.side) 1
  rw [hv]
  cases isCellVariable (fr.map CellFrame.side) 1 with
  | error e => rfl
  | ok v =>
  simp only
  rw [show (scaleChoices c⁻¹ o).skip = o.skip from rfl]
  cases pyRange 0 fr.length o.skip with
  | error e => rfl
  | ok is =>
  simp only
  have hk : (scaleAttrs c⁻¹ a).kgrid.getD [] = (a.kgrid.getD []).map (c⁻¹ * ·) := by
    unfold scaleAttrs; cases a.kgrid <;> rfl
  rw [hk, List.length_map]
  have hf : is.foldlM (skStep (scaleChoices c⁻¹ o) (fr.map (scaleCellFrame c)) v)
      (List.replicate (a.kgrid.getD []).length (⟨0, 0, 0, 0⟩ : SkAcc), scaleAttrs c⁻¹ a) =
      (is.foldlM (skStep o fr v) (List.replicate (a.kgrid.getD []).length (⟨0, 0, 0, 0⟩ : SkAcc), a)).map
        fun st => (st.1, scaleAttrs c⁻¹ st.2) :=
    foldlM_map_state (fun st : List SkAcc × KAttrs d ℝ => (st.1, scaleAttrs c⁻¹ st.2))
      (fun st i => skStep_unit hc o fr v st i) is (List.replicate (a.kgrid.getD []).length (⟨0, 0, 0, 0⟩ : SkAcc), a)
  rw [hf]
  cases is.foldlM (skStep o fr v) (List.replicate (a.kgrid.getD []).length (⟨0, 0, 0, 0⟩ : SkAcc), a) with
  | error e => rfl
  | ok st =>
  simp only [Except.map]
  have hn0 : ((fr.map (scaleCellFrame c)).map fun f => f.pos0.length) = fr.map fun f => f.pos0.length := by
    rw [List.map_map]
    exact List.map_congr_left fun f _ => List.length_map _
  have hn1 : ((fr.map (scaleCellFrame c)).map fun f => if (scaleChoices c⁻¹ o).same = true then f.pos0.length
      else f.pos1.length) = fr.map fun f => if o.same = true then f.pos0.length else f.pos1.length := by
    rw [List.map_map]
    refine List.map_congr_left fun f _ => ?_
    simp only [Function.comp, scaleCellFrame, List.length_map]
    rfl
  rw [hn0, hn1]
  cases meanNumber (fr.map fun f => f.pos0.length) with
  | error e => rfl
  | ok n0 =>
  simp only
  cases meanNumber (fr.map fun f => if o.same = true then f.pos0.length else f.pos1.length) with
  | error e => rfl
  | ok n1 =>
  simp only
  rw [show (scaleChoices c⁻¹ o).weighted = o.weighted from rfl]
  cases st.1.mapM (skNonorm o.weighted) with
  | error e => rfl
  | ok vs =>
  simp only [pure, Except.pure]
  rw [show (scaleAttrs c⁻¹ a).aliased = a.aliased from rfl]
  have hk2 : (scaleAttrs c⁻¹ st.2).kgrid.getD [] = (st.2.kgrid.getD []).map (c⁻¹ * ·) := by
    unfold scaleAttrs; cases st.2.kgrid <;> rfl
  rw [hk2]
  cases a.aliased <;> rfl

/-- **C152** for `StructureFactorFast` and `StructureFactorLegacy` with the wave-vectors in force in each frame. -/
theorem C152_fast (hc : 0 < c) (o : SkObj d) :
    skFast ⟨o.same, o.weighted, o.skip, o.nk, o.frames.map (scaleSkFrame c)⟩ = skFast o ∧
    skLegacy ⟨o.same, o.weighted, o.skip, o.nk, o.frames.map (scaleSkFrame c)⟩ = skLegacy o := by
  have hn0 : ((o.frames.map (scaleSkFrame c)).map fun f => f.pos0.length) = o.frames.map fun f => f.pos0.length := by
    rw [List.map_map]
    exact List.map_congr_left fun f _ => List.length_map _
  have hn1 : ((o.frames.map (scaleSkFrame c)).map fun f => if o.same = true then f.pos0.length
      else f.pos1.length) = o.frames.map fun f => if o.same = true then f.pos0.length else f.pos1.length := by
    rw [List.map_map]
    refine List.map_congr_left fun f _ => ?_
    simp only [Function.comp, scaleSkFrame, List.length_map]
  constructor
  · unfold skFast
    simp only [hn0, hn1, List.length_map]
    have e : (fun (acc : List SkAcc) (i : ℕ) => (do
        let f ← pyGet (o.frames.map (scaleSkFrame c)) i
        skFastFrame ⟨o.same, o.weighted, o.skip, o.nk, o.frames.map (scaleSkFrame c)⟩ acc f : Py (List SkAcc))) =
        fun acc i => (do
        let f ← pyGet o.frames i
        skFastFrame o acc f) := by
      funext acc i
      rw [pyGet_mapL]
      cases pyGet o.frames i with
      | error e => rfl
      | ok f => exact skFastFrame_unit hc o acc f
    rw [e]
  · unfold skLegacy
    simp only [hn0, hn1, List.length_map]
    have e : (fun (acc : List SkAcc) (i : ℕ) => (do
        let f ← pyGet (o.frames.map (scaleSkFrame c)) i
        skFrame ⟨o.same, o.weighted, o.skip, o.nk, o.frames.map (scaleSkFrame c)⟩ acc f : Py (List SkAcc))) =
        fun acc i => (do
        let f ← pyGet o.frames i
        skFrame o acc f) := by
      funext acc i
      rw [pyGet_mapL]
      cases pyGet o.frames i with
      | error e => rfl
      | ok f => exact skFrame_unit hc o acc f
    rw [e]

/-- The self intermediate scattering function in another unit of length. -/
noncomputable def scaleFs (c : ℝ) (o : FsObj d) : FsObj d :=
  ⟨o.steps, o.timestep, o.skip, o.tgrid, o.pos.map (List.map (scaleVec c)), scaleK c⁻¹ o.ks, o.lookupMb, o.normalize⟩

/-- The intermediate scattering function in another unit of length. -/
noncomputable def scaleFk (c : ℝ) (o : FkObj d) : FkObj d :=
  ⟨o.steps, o.timestep, o.skip, o.tgrid, o.same, o.pos0.map (List.map (scaleVec c)), o.pos1.map (List.map (scaleVec c)),
    scaleK c⁻¹ o.ks, o.normalize⟩

theorem fsNumber_unit (c : ℝ) (pos : List (List (Vec d ℝ))) : fsNumber (pos.map (List.map (scaleVec c))) = fsNumber pos := by
  unfold fsNumber
  cases pos with
  | nil => rfl
  | cons f r =>
    simp only [List.map_cons, List.all_map, List.length_map]
    have : ((fun g : List (Vec d ℝ) => decide (g.length = f.length)) ∘ List.map (scaleVec c)) =
        fun g => decide (g.length = f.length) := by
      funext g
      simp only [Function.comp, List.length_map]
    rw [this]

theorem fsCompute_unit (hc : 0 < c) (o : FsObj d) (kernel : List (List (List (List ℂ))) → ℕ → ℕ → KVec d → Py ℝ)
    (N block : ℕ) : fsCompute (scaleFs c o) kernel N block = fsCompute o kernel N block := by
  unfold fsCompute
  have hx : ∀ j, expoFrames ccis (fun _ => 0) (scaleFs c o).ks.k0 (scaleFs c o).ks.koffset.toNat
      ((scaleFs c o).pos.map fun f => (f.drop j).take block) =
      expoFrames ccis (fun _ => 0) o.ks.k0 o.ks.koffset.toNat (o.pos.map fun f => (f.drop j).take block) := by
    intro j
    rw [← expoFrames_unit hc o.ks.k0]
    show expoFrames ccis _ (scaleVec c⁻¹ o.ks.k0) _ ((o.pos.map _).map _) = _
    rw [List.map_map, List.map_map]
    show expoFrames _ _ _ o.ks.koffset.toNat _ = _
    congr 1
    refine List.map_congr_left fun f _ => ?_
    simp only [Function.comp, List.map_drop, List.map_take]
  simp only [hx]
  have hp : (scaleFs c o).pos.length = o.pos.length := List.length_map _
  have hg : (scaleFs c o).ks.kgrid.length = o.ks.kgrid.length := List.length_map _
  rw [hp, hg]
  rfl

theorem fs_unit (hc : 0 < c) (o : FsObj d) : fsLegacy (scaleFs c o) = fsLegacy o ∧ fsFast (scaleFs c o) = fsFast o := by
  have hN : fsNumber (scaleFs c o).pos = fsNumber o.pos := fsNumber_unit c o.pos
  have hb : ∀ N, fsBlockFast (scaleFs c o) N = fsBlockFast o N := by
    intro N
    unfold fsBlockFast scaleFs scaleK
    simp only [List.length_map]
  unfold fsLegacy fsFast
  rw [hN]
  simp only [fsCompute_unit hc, hb, and_self]

theorem fk_unit (hc : 0 < c) (o : FkObj d) : fkCompute (scaleFk c o) = fkCompute o := by
  have hf : ∀ f : List (Vec d ℝ), fkFrame (scaleFk c o).ks (f.map (scaleVec c)) = fkFrame o.ks f := by
    intro f
    unfold fkFrame
    have := expoSphere_unit hc o.ks.k0 o.ks.koffset.toNat f
    rw [show expoSphere ccis (fun _ => 0) (scaleFk c o).ks.k0 (scaleFk c o).ks.koffset.toNat (f.map (scaleVec c)) = _
      from this]
    rfl
  have h0 : (scaleFk c o).pos0.mapM (fkFrame (scaleFk c o).ks) = o.pos0.mapM (fkFrame o.ks) := by
    show (o.pos0.map _).mapM _ = _
    rw [List.mapM_map]
    congr 1
    funext f
    exact hf f
  have h1 : ∀ rho, fkSecond (scaleFk c o) rho = fkSecond o rho := by
    intro rho
    unfold fkSecond
    have hp : (scaleFk c o).pos0.length = o.pos0.length := List.length_map _
    rw [hp, show (scaleFk c o).same = o.same from rfl]
    have e : (fun it : ℕ => (do
        let f ← pyGet (scaleFk c o).pos1 it
        fkFrame (scaleFk c o).ks f : Py (List (KVec d × ℂ)))) = fun it => (do
        let f ← pyGet o.pos1 it
        fkFrame o.ks f) := by
      funext it
      rw [show (scaleFk c o).pos1 = o.pos1.map (List.map (scaleVec c)) from rfl, pyGet_mapL]
      cases pyGet o.pos1 it with
      | error e => rfl
      | ok f => exact hf f
    rw [e]
  unfold fkCompute
  have hg : (scaleFk c o).ks.kgrid.length = o.ks.kgrid.length := List.length_map _
  simp only [h0, h1, hg]
  rfl

/-- **C152** for the intermediate scattering functions with the wave-vectors set up by the user or by the code: the
values do not change, with the same exceptions. -/
theorem C152_scattering (hc : 0 < c) (o : FsObj d) (o' : FkObj d) (depth : ℕ)
    (pick : ℕ → List (KVec d) → ℕ → List (KVec d)) (p : KParams ℝ) (side : Vec d ℝ) (a : KAttrs d ℝ) :
    fsComputeA (scaleFs c o) depth pick (scaleParams c⁻¹ p) (scaleVec c side) (scaleAttrs c⁻¹ a) =
      fsComputeA o depth pick p side a ∧
    fkComputeA (scaleFk c o') depth pick (scaleParams c⁻¹ p) (scaleVec c side) (scaleAttrs c⁻¹ a) =
      fkComputeA o' depth pick p side a ∧
    (∀ ks, fsFast (scaleFs c { o with ks := ks }) = fsFast { o with ks := ks }) := by
  have hk : ∀ a : KAttrs d ℝ, (scaleAttrs c⁻¹ a).kgrid.getD [] = (a.kgrid.getD []).map (c⁻¹ * ·) := by
    intro a
    unfold scaleAttrs; cases a.kgrid <;> rfl
  refine ⟨?_, ?_, fun ks => (fs_unit hc _).2⟩
  · unfold fsComputeA
    rw [setup_unit hc]
    cases a.setup Real.sqrt Real.pi depth pick p 0 side with
    | error e => rfl
    | ok a =>
    simp only [Except.map, bind, Except.bind]
    rw [show fsNumber (scaleFs c o).pos = fsNumber o.pos from fsNumber_unit c o.pos]
    cases fsNumber o.pos with
    | error e => rfl
    | ok N =>
    simp only [read_unit, hk]
    by_cases hN : N = 0
    · simp only [if_pos hN]
      exact (fs_unit hc ⟨o.steps, o.timestep, o.skip, o.tgrid, o.pos, ⟨o.ks.k0, a.kgrid.getD [], a.kvectors, a.koffset⟩,
        o.lookupMb, o.normalize⟩).1
    · simp only [if_neg hN]
      cases a.read with
      | error e => rfl
      | ok ks =>
        exact (fs_unit hc ⟨o.steps, o.timestep, o.skip, o.tgrid, o.pos, ⟨ks.k0, a.kgrid.getD [], a.kvectors, a.koffset⟩,
          o.lookupMb, o.normalize⟩).1
  · unfold fkComputeA
    rw [setup_unit hc]
    cases a.setup Real.sqrt Real.pi depth pick p 0 side with
    | error e => rfl
    | ok a =>
    simp only [Except.map, bind, Except.bind]
    have he : ((scaleFk c o').pos0 = []) ↔ o'.pos0 = [] := List.map_eq_nil_iff
    simp only [read_unit, hk, he]
    by_cases hN : o'.pos0 = []
    · simp only [if_pos hN]
      exact fk_unit hc ⟨o'.steps, o'.timestep, o'.skip, o'.tgrid, o'.same, o'.pos0, o'.pos1,
        ⟨o'.ks.k0, a.kgrid.getD [], a.kvectors, a.koffset⟩, o'.normalize⟩
    · simp only [if_neg hN]
      cases a.read with
      | error e => rfl
      | ok ks =>
        exact fk_unit hc ⟨o'.steps, o'.timestep, o'.skip, o'.tgrid, o'.same, o'.pos0, o'.pos1,
          ⟨ks.k0, a.kgrid.getD [], a.kvectors, a.koffset⟩, o'.normalize⟩

/-- **C152** for wave-vectors assigned to `kvectors` and read from it: in the inverse unit, they give the attributes in the
inverse unit. -/
theorem C152_assigned (hc : 0 < c) (side : Vec d ℝ) (kv : List (List (Vec d ℝ))) (a : KAttrs d ℝ) :
    (scaleAttrs c⁻¹ a).setKvectors Real.sqrt Real.pi (scaleVec c side) (kv.map (List.map (scaleVec c⁻¹))) =
      scaleAttrs c⁻¹ (a.setKvectors Real.sqrt Real.pi side kv) ∧
    (scaleAttrs c⁻¹ a).getKvectors = a.getKvectors.map (List.map (scaleVec c⁻¹)) :=
  ⟨setKvectors_unit hc side kv a, getKvectors_unit c⁻¹ a⟩

/-- A square cell that changes, with a grid given by the user, and all lengths doubled. -/
example : ∃ depth v s,
    skComputeA ⟨depth, fun _ l n => l.take n, ⟨4, 1 / 4, 1, 2, 1⟩, true, false, 1⟩ [squareFrame 1, squareFrame (11 / 10)]
      (KAttrs.new 2 (some [1])) = .ok ([11 / 10], v, s) ∧
    skComputeA ⟨depth, fun _ l n => l.take n, ⟨4, 2⁻¹ * (1 / 4), 2⁻¹ * 1, 2⁻¹ * 2, 1⟩, true, false, 1⟩
      [scaleCellFrame 2 (squareFrame 1), scaleCellFrame 2 (squareFrame (11 / 10))]
      (KAttrs.new 2 (some [2⁻¹ * 1])) = .ok ([2⁻¹ * (11 / 10)], v, scaleAttrs 2⁻¹ s) := by
  obtain ⟨s, v, -, -, -, h⟩ := square_compute isSample_take 0
  refine ⟨0 + 1, v, attrsOf (some [1]) s, h, ?_⟩
  have := C152_structure_factor (c := 2) (by norm_num) ⟨0 + 1, fun _ l n => l.take n, ⟨4, 1 / 4, 1, 2, 1⟩, true, false, 1⟩
    [squareFrame 1, squareFrame (11 / 10)] (KAttrs.new 2 (some [1]))
  rw [h] at this
  exact this

/-- Two frames of three particles. -/
example : ∃ r, skLegacy exSk = .ok r ∧
    skLegacy ⟨true, false, 1, 2, exSk.frames.map (scaleSkFrame 3)⟩ = .ok r := by
  refine ⟨_, skLegacy_eq exSk exSk_regular, ?_⟩
  rw [← skLegacy_eq exSk exSk_regular]
  exact (C152_fast (by norm_num) exSk).2

/-- Three frames, with lengths divided by four. -/
example : ∃ r, fsComputeA exFs 0 (fun _ l n => l.take n) ⟨4, 1 / 4, 1, 2, 1⟩ ![5, 6, 7] (attrsOf none exFs.ks) = .ok r ∧
    fsComputeA (scaleFs (1 / 4) exFs) 0 (fun _ l n => l.take n) (scaleParams (1 / 4)⁻¹ ⟨4, 1 / 4, 1, 2, 1⟩)
      (scaleVec (1 / 4) ![5, 6, 7]) (scaleAttrs (1 / 4)⁻¹ (attrsOf none exFs.ks)) = .ok r := by
  have h : fsComputeA exFs 0 (fun _ l n => l.take n) ⟨4, 1 / 4, 1, 2, 1⟩ ![5, 6, 7] (attrsOf none exFs.ks) =
      fsLegacy exFs := by
    unfold fsComputeA
    rw [setup_returns rfl]
    simp only [bind, Except.bind]
    rw [fsNumber_eq exFs exFs_regular]
    simp only
    rw [read_ok (k0 := exFs.ks.k0) rfl]
    rfl
  refine ⟨_, h.trans (fsLegacy_eq exFs exFs_regular), ?_⟩
  rw [(C152_scattering (by norm_num) exFs exFk 0 _ _ _ _).1, h, fsLegacy_eq exFs exFs_regular]

/-- Assigned wave-vectors. -/
example : ((KAttrs.new 1 none).setKvectors Real.sqrt Real.pi (scaleVec 2 fun _ => 8)
      ([[fun _ => Real.pi / 4]].map (List.map (scaleVec 2⁻¹)))) =
    scaleAttrs 2⁻¹ ((KAttrs.new 1 none).setKvectors Real.sqrt Real.pi (fun _ => 8) [[fun _ => Real.pi / 4]]) :=
  (C152_assigned (by norm_num) (fun _ => 8) [[fun _ => Real.pi / 4]] (KAttrs.new 1 none)).1

end PP.Props
