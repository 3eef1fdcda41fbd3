import Verif.Props.KObject

/-!
# The tables printed by `report()`, and a k grid given explicitly (C149, C150)
-/

namespace PP.Props

open PP

set_option linter.unusedSectionVars false

variable {d : ℕ}

/-! ### Preliminaries -/

/-- At most `nk` wave-vectors are selected. -/
theorem kSetup_count {depth : ℕ} {pick : ℕ → List (KVec d) → ℕ → List (KVec d)} (hpick : IsSample pick) {p : KParams ℝ}
    {side : Vec d ℝ} {grid : Option (List ℝ)} {s : KState d ℝ}
    (h : kSetup Real.sqrt Real.pi depth pick p side grid = .ok s) : ∀ l ∈ s.kvectors, (l.length : ℤ) ≤ p.nk := by
  unfold kSetup at h
  simp only [bind, Except.bind] at h
  cases hi : initialGrid p (smallestK Real.pi side) grid with
  | error e => rw [hi] at h; cases h
  | ok g =>
  rw [hi] at h
  simp only at h
  cases hg : setupGridSphere Real.sqrt (smallestK Real.pi side) g depth (List.replicate g.length p.dk) with
  | error e => rw [hg] at h; cases h
  | ok r =>
  rw [hg] at h
  simp only at h
  cases hm : r.1.zipIdx.mapM fun e => decimate pick p.nk e.2 e.1 with
  | error e => rw [hm] at h; cases h
  | ok kv =>
  rw [hm] at h
  cases h
  intro l hl
  change l ∈ kv at hl
  obtain ⟨i, hi, rfl⟩ := List.getElem_of_mem hl
  obtain ⟨h1, h2⟩ := mapM_ok_get hm
  have h3 := h2 i (by omega) hi
  have hlen : i < r.1.length := by simpa using (show i < r.1.zipIdx.length by omega)
  simp only [List.getElem_zipIdx, Nat.zero_add, decimate] at h3
  by_cases hn : min p.nk (r.1[i].length : ℤ) < 0
  · rw [if_pos hn] at h3; cases h3
  · rw [if_neg hn] at h3
    rw [← Except.ok.inj h3, (hpick i r.1[i] (min p.nk r.1[i].length).toNat (by omega)).1]
    omega

/-- The attributes after `compute()` for a constant cell. -/
theorem skComputeA_attrs (o : SkChoices d) {fr : List (CellFrame d)} {f0 : CellFrame d} (h0 : fr[0]? = some f0)
    (hc : ∀ f ∈ fr, f.side = f0.side) {a : KAttrs d ℝ} (ha : Prepared f0.side a)
    {g v : List ℝ} {a' : KAttrs d ℝ} (h : skComputeA o fr a = .ok (g, v, a')) :
    a.setup Real.sqrt Real.pi o.depth o.pick o.params 0 f0.side = .ok a' ∧ a'.kgrid = some g := by
  have hf : pyGet fr 0 = .ok f0 := by unfold pyGet; rw [h0]
  cases hs : a.setup Real.sqrt Real.pi o.depth o.pick o.params 0 f0.side with
  | error e =>
    unfold skComputeA at h
    simp only [hf, hs, bind, Except.bind] at h
    cases h
  | ok b =>
    obtain ⟨hb1, hb2⟩ := prepared_setup ha hs
    have hread := read_ok hb1
    rw [skComputeA_const o h0 (constant_cell h0 hc) hs hread rfl] at h
    cases hl : skLegacy (constSk o fr ⟨fun c => 2 * Real.pi / f0.side c, b.kgrid.getD [], b.kvectors, b.koffset⟩) with
    | error e => rw [hl] at h; cases h
    | ok r =>
      rw [hl] at h
      cases h
      refine ⟨rfl, ?_⟩
      show a'.kgrid = some (a'.kgrid.getD [])
      rw [hb2]
      rfl

/-- Standard deviation of the norms of a group of wave-vectors. -/
noncomputable def stdNorm (l : List (Vec d ℝ)) : ℝ :=
  √((l.map fun v => (√(∑ c, v c ^ 2) - meanNorm l) ^ 2).sum / l.length)

theorem npStd_norm (l : List (Vec d ℝ)) : npStd Real.sqrt (l.map fun v => √(∑ c, v c * v c)) = stdNorm l := by
  have e : npMean (l.map fun v => √(∑ c, v c * v c)) = meanNorm l := by
    unfold npMean meanNorm
    rw [List.length_map]
    congr 2
    refine List.map_congr_left fun v _ => ?_
    congr 1
    exact Finset.sum_congr rfl fun c _ => by ring
  unfold npStd stdNorm
  rw [e, npMean, List.length_map, List.length_map, List.map_map]
  congr 3
  refine List.map_congr_left fun v _ => ?_
  simp only [Function.comp]
  congr 2
  congr 1
  exact Finset.sum_congr rfl fun c _ => by ring

theorem npMean_norm (l : List (Vec d ℝ)) : npMean (l.map fun v => √(∑ c, v c * v c)) = meanNorm l := by
  unfold npMean meanNorm
  rw [List.length_map]
  congr 2
  refine List.map_congr_left fun v _ => ?_
  congr 1
  exact Finset.sum_congr rfl fun c _ => by ring

theorem stdNorm_zero (l : List (Vec d ℝ)) : stdNorm l = 0 ↔ ∀ v ∈ l, √(∑ c, v c ^ 2) = meanNorm l := by
  unfold stdNorm
  by_cases hl : l = []
  · subst hl; simp
  have hpos : (0 : ℝ) < l.length := by exact_mod_cast List.length_pos_iff.2 hl
  have hnn : ∀ x ∈ l.map (fun v => (√(∑ c, v c ^ 2) - meanNorm l) ^ 2), 0 ≤ x := by
    intro x hx
    obtain ⟨v, -, rfl⟩ := List.mem_map.1 hx
    positivity
  rw [Real.sqrt_eq_zero (div_nonneg (List.sum_nonneg hnn) hpos.le), div_eq_zero_iff]
  constructor
  · rintro (h | h)
    · intro v hv
      have := List.all_zero_of_le_zero_le_of_sum_eq_zero hnn h (List.mem_map_of_mem hv)
      have := pow_eq_zero_iff (two_ne_zero) |>.1 this
      linarith
    · exact absurd h hpos.ne'
  · intro h
    left
    refine List.sum_eq_zero fun x hx => ?_
    obtain ⟨v, hv, rfl⟩ := List.mem_map.1 hx
    simp only [h v hv]
    ring

/-! ### C149 -/

/-- The tables for attributes that fit together. -/
theorem report_fits {a : KAttrs d ℝ} {g : List ℝ} (hg : a.kgrid = some g) (hm : g = a.getKvectors.map meanNorm) :
    a.report Real.sqrt = .ok (a.getKvectors.map fun l => (meanNorm l, meanNorm l, stdNorm l, l.length)) ∧
    a.reportVectors = .ok (a.getKvectors.flatMap fun l => l.map fun v => (meanNorm l, v)) := by
  have hk : ∀ e ∈ a.getKvectors.zipIdx, a.kAt e.2 = .ok (meanNorm e.1) := by
    rintro ⟨l, i⟩ he
    rw [List.mem_zipIdx_iff_getElem?] at he
    simp only at he ⊢
    unfold KAttrs.kAt
    rw [hg]
    show pyGet g i = _
    unfold pyGet
    rw [hm, List.getElem?_map, he]
    rfl
  constructor
  · unfold KAttrs.report
    rw [mapM_ok_map (g := fun e : List (Vec d ℝ) × ℕ => (meanNorm e.1, meanNorm e.1, stdNorm e.1, e.1.length))]
    · congr 1
      conv_rhs => rw [← List.zipIdx_map_fst 0 a.getKvectors, List.map_map]
      rfl
    · intro e he
      simp only [hk e he, bind, Except.bind, npStd_norm, npMean_norm]
      rfl
  · unfold KAttrs.reportVectors
    rw [mapM_ok_map (g := fun e : List (Vec d ℝ) × ℕ => e.1.map fun v => (meanNorm e.1, v))]
    · show Except.ok (List.flatten _) = _
      congr 1
      conv_rhs => rw [← List.zipIdx_map_fst 0 a.getKvectors]
      rw [List.flatMap_map, List.flatMap_def]
    · intro e he
      refine mapM_ok_map fun v _ => ?_
      simp only [hk e he, bind, Except.bind]
      rfl

/-- **C149**, the part that holds: after `compute()` of the structure factor of a trajectory whose cell does not change,
the table printed by `report()` has one row per value of `grid`: k and the mean norm are both this value, then come the
standard deviation of the norms and the number of wave-vectors used, at least one. -/
theorem C149_report_partial (o : SkChoices d) {fr : List (CellFrame d)} {f0 : CellFrame d} (h0 : fr[0]? = some f0)
    (hc : ∀ f ∈ fr, f.side = f0.side) (hside : ∀ c, 0 < f0.side c) {a : KAttrs d ℝ} (ha : Prepared f0.side a)
    {g v : List ℝ} {a' : KAttrs d ℝ} (h : skComputeA o fr a = .ok (g, v, a')) :
    (∃ rows, a'.report Real.sqrt = .ok rows ∧ rows.map (fun r => r.1) = g ∧ rows.map (fun r => r.2.1) = g ∧
      rows.map (fun r => r.2.2.1) = a'.getKvectors.map stdNorm ∧
      rows.map (fun r => r.2.2.2) = a'.getKvectors.map List.length ∧ ∀ r ∈ rows, 1 ≤ r.2.2.2) ∧
    (∀ l ∈ a'.getKvectors, stdNorm l = 0 ↔ ∀ k ∈ l, √(∑ c, k c ^ 2) = meanNorm l) ∧
    a'.reportVectors = .ok ((g.zip a'.getKvectors).flatMap fun e => e.2.map fun v => (e.1, v)) := by
  obtain ⟨h1, -, h3, -⟩ := C147_wave_vectors_partial o h0 hc hside ha h
  obtain ⟨r1, r2⟩ := report_fits (skComputeA_attrs o h0 hc ha h).2 h1
  refine ⟨⟨_, r1, ?_, ?_, ?_, ?_, ?_⟩, fun l _ => stdNorm_zero l, ?_⟩
  · rw [List.map_map, h1]; rfl
  · rw [List.map_map, h1]; rfl
  · rw [List.map_map]; rfl
  · rw [List.map_map]; rfl
  · intro r hr
    obtain ⟨l, hl, rfl⟩ := List.mem_map.1 hr
    exact List.length_pos_iff.2 (h3 l hl)
  · rw [r2, h1]
    congr 1
    generalize a'.getKvectors = L
    induction L with
    | nil => rfl
    | cons l L ih => rw [List.flatMap_cons, List.map_cons, List.zip_cons_cons, List.flatMap_cons, ih]

/-- A non-trivial case: two frames of two particles in three dimensions, a k grid of three points. -/
example : ∃ depth r rows, skComputeA ⟨depth, fun _ l n => l.take n, ⟨2, 1 / 10, -1, 10, 20⟩, true, false, 1⟩
      [⟨![5, 6, 7], [![0, 1, 2], ![1, 1, 1]], [![0, 1, 2], ![1, 1, 1]], [], []⟩,
       ⟨![5, 6, 7], [![0, 2, 2], ![1, 3, 1]], [![0, 2, 2], ![1, 3, 1]], [], []⟩]
      (KAttrs.new 3 (some [3, 2, 3])) = .ok r ∧ r.2.2.report Real.sqrt = .ok rows ∧ rows.length = 3 := by
  have hside : ∀ c, 0 < (![5, 6, 7] : Vec 3 ℝ) c := by intro c; fin_cases c <;> norm_num
  obtain ⟨depth, r, h, h1, -⟩ := C147_constructor_partial isSample_take (Or.inr rfl) (p := ⟨2, 1 / 10, -1, 10, 20⟩)
    (by norm_num) (by norm_num) (skip := 1) one_pos
    (fr := [⟨![5, 6, 7], [![0, 1, 2], ![1, 1, 1]], [![0, 1, 2], ![1, 1, 1]], [], []⟩,
       ⟨![5, 6, 7], [![0, 2, 2], ![1, 3, 1]], [![0, 2, 2], ![1, 3, 1]], [], []⟩])
    (f0 := ⟨![5, 6, 7], [![0, 1, 2], ![1, 1, 1]], [![0, 1, 2], ![1, 1, 1]], [], []⟩) rfl (by simp) hside (by simp)
    (g := [3, 2, 3]) (by intro x hx; simp at hx; rcases hx with rfl | rfl | rfl <;> norm_num) (by simp) false
  obtain ⟨g, v, a'⟩ := r
  obtain ⟨⟨rows, e1, e2, -⟩, -⟩ := C149_report_partial _ rfl (by simp) hside ⟨_, Or.inl rfl⟩ h
  refine ⟨depth, _, rows, h, e1, ?_⟩
  have := congrArg List.length e2
  rw [List.length_map] at this
  rw [this]
  exact h1

/-- **C149**: no row counts more than `nk` wave-vectors, unless the wave-vectors were set by the user. -/
theorem C149_nk_partial (o : SkChoices d) (hpick : IsSample o.pick) {fr : List (CellFrame d)} {f0 : CellFrame d}
    (h0 : fr[0]? = some f0) (hc : ∀ f ∈ fr, f.side = f0.side) {grid : Option (List ℝ)}
    {g v : List ℝ} {a' : KAttrs d ℝ} (h : skComputeA o fr (KAttrs.new d grid) = .ok (g, v, a')) :
    ∃ rows, a'.report Real.sqrt = .ok rows ∧ ∀ r ∈ rows, (r.2.2.2 : ℤ) ≤ o.params.nk := by
  obtain ⟨hs, hg⟩ := skComputeA_attrs o h0 hc ⟨_, Or.inl rfl⟩ h
  have hfit := setup_fits (fun _ => rfl) hs
  have hm : g = a'.getKvectors.map meanNorm := by
    have := hfit.2
    rw [hg] at this
    exact Option.some.inj this
  refine ⟨_, (report_fits hg hm).1, ?_⟩
  obtain ⟨s, hk, rfl⟩ := setup_new (fun _ => rfl) hs
  intro r hr
  obtain ⟨l, hl, rfl⟩ := List.mem_map.1 hr
  obtain ⟨l', hl', rfl⟩ := List.mem_map.1 hl
  simp only [List.length_map]
  exact kSetup_count hpick hk l' hl'

/-- **C149** is false for partial correlations: the one of species `(b, a)` is a copy of the one of `(a, b)`, of which
only grid, value and analysis are copied (atooms/postprocessing/partial.py:77-84). Its attributes are those after
construction and `report()` prints no row, whatever its grid. The same holds if `kgrid` is assigned. -/
theorem C149_counterexample_copy (grid : Option (List ℝ)) (g : List ℝ) :
    (KAttrs.new d grid).report Real.sqrt = .ok [] ∧ ((KAttrs.new d grid).setKgrid g).report Real.sqrt = .ok [] :=
  ⟨rfl, rfl⟩

/-! ### Two frames with different cells -/

theorem kSetup_initial {depth : ℕ} {pick : ℕ → List (KVec d) → ℕ → List (KVec d)} {p : KParams ℝ} {side : Vec d ℝ}
    {grid grid' : Option (List ℝ)}
    (h : initialGrid p (smallestK Real.pi side) grid = initialGrid p (smallestK Real.pi side) grid') :
    kSetup Real.sqrt Real.pi depth pick p side grid = kSetup Real.sqrt Real.pi depth pick p side grid' := by
  unfold kSetup
  simp only [h]

theorem setup_eq {depth : ℕ} {pick : ℕ → List (KVec d) → ℕ → List (KVec d)} {p : KParams ℝ} {side : Vec d ℝ} {i : ℕ}
    {a : KAttrs d ℝ} (hi : i = 0 → a.kgrid = none) {s : KState d ℝ}
    (hs : kSetup Real.sqrt Real.pi depth pick p side a.grid = .ok s) :
    a.setup Real.sqrt Real.pi depth pick p i side = .ok (attrsOf a.grid s) := by
  unfold KAttrs.setup
  have hn : ¬ (i = 0 ∧ a.kgrid.isSome = true) := by
    rintro ⟨h0, h1⟩
    rw [hi h0] at h1
    cases h1
  rw [if_neg hn, hs]
  rfl

/-- The object for two frames with their own wave-vectors. -/
def twoSk (o : SkChoices d) (f0 f1 : CellFrame d) (s0 s1 : KState d ℝ) : SkObj d :=
  ⟨o.same, o.weighted, 1, s0.kgrid.length, [addKs s0 f0, addKs s1 f1]⟩

open Classical in
/-- `compute()` for two frames with different cells: the wave-vectors are those of each frame; `grid` has the mean norms
of the first frame, or of the second one if the k grid was given by the user. -/
theorem skComputeA_two (o : SkChoices d) (hskip : o.skip = 1) {f0 f1 : CellFrame d} (hc : f1.side ≠ f0.side)
    {grid : Option (List ℝ)} {s0 s1 : KState d ℝ}
    (h0 : kSetup Real.sqrt Real.pi o.depth o.pick o.params f0.side grid = .ok s0)
    (h1 : kSetup Real.sqrt Real.pi o.depth o.pick o.params f1.side (grid.map fun _ => s0.kgrid) = .ok s1) :
    skComputeA o [f0, f1] (KAttrs.new d grid) = (skLegacy (twoSk o f0 f1 s0 s1)).map fun r =>
      (if grid.isSome then s1.kgrid else s0.kgrid, r.1, attrsOf (grid.map fun _ => s0.kgrid) s1) := by
  have hv : isCellVariable ([f0, f1].map CellFrame.side) 1 = .ok true := by
    obtain ⟨b, hb, hiff⟩ := C59_counterexample_default (sides := [f0, f1].map CellFrame.side) (by simp)
    rw [hb]
    congr 1
    rw [hiff]
    simpa using hc
  have hr : pyRange 0 ([f0, f1] : List (CellFrame d)).length o.skip = .ok [0, 1] := by
    rw [hskip]; show pyRange 0 2 1 = _; decide +kernel
  have hr' : pyRange 0 (twoSk o f0 f1 s0 s1).frames.length (twoSk o f0 f1 s0 s1).skip = .ok [0, 1] := by
    show pyRange 0 2 1 = _; decide +kernel
  have e0 : (KAttrs.new d grid).setup Real.sqrt Real.pi o.depth o.pick o.params 0 f0.side = .ok (attrsOf grid s0) :=
    setup_eq (a := KAttrs.new d grid) (fun _ => rfl) h0
  have e1 : (attrsOf grid s0).setup Real.sqrt Real.pi o.depth o.pick o.params 0 f0.side = .ok (attrsOf grid s0) :=
    setup_returns rfl
  have e2 : (attrsOf grid s0).setup Real.sqrt Real.pi o.depth o.pick o.params 1 f1.side =
      .ok (attrsOf (grid.map fun _ => s0.kgrid) s1) := setup_eq (a := attrsOf grid s0) (by simp) h1
  have r0 : (attrsOf grid s0).read = .ok s0 := read_ok (a := attrsOf grid s0) (k0 := s0.k0) rfl
  have r1 : (attrsOf (grid.map fun _ => s0.kgrid) s1).read = .ok s1 :=
    read_ok (a := attrsOf (grid.map fun _ => s0.kgrid) s1) (k0 := s1.k0) rfl
  have e : ∀ m F, skFrame ⟨o.same, o.weighted, o.skip, m, F⟩ = skFrame (twoSk o f0 f1 s0 s1) := fun _ _ => rfl
  have p0 : pyGet [f0, f1] 0 = .ok f0 := rfl
  have p1 : pyGet [f0, f1] 1 = .ok f1 := rfl
  have q0 : pyGet (twoSk o f0 f1 s0 s1).frames 0 = .ok (addKs s0 f0) := rfl
  have q1 : pyGet (twoSk o f0 f1 s0 s1).frames 1 = .ok (addKs s1 f1) := rfl
  unfold skComputeA skLegacy
  rw [hr, hr', p0]
  simp only [bind, Except.bind, e0]
  rw [hv]
  simp only [List.foldlM_cons, List.foldlM_nil, skStep, p0, p1, q0, q1, e1, bind, Except.bind, if_true, r0, e]
  show _ = Except.map _ _
  have hn : (twoSk o f0 f1 s0 s1).nk = ((attrsOf grid s0).kgrid.getD []).length := rfl
  have a0 : (⟨f0.pos0, f0.pos1, f0.w0, f0.w1, s0⟩ : SkFrame d) = addKs s0 f0 := rfl
  have a1 : (⟨f1.pos0, f1.pos1, f1.w0, f1.w1, s1⟩ : SkFrame d) = addKs s1 f1 := rfl
  rw [hn, a0]
  cases x0 : skFrame (twoSk o f0 f1 s0 s1) (List.replicate ((attrsOf grid s0).kgrid.getD []).length ⟨0, 0, 0, 0⟩)
      (addKs s0 f0) with
  | error err => rfl
  | ok acc =>
    simp only [pure, Except.pure, e2, r1, a1]
    cases x1 : skFrame (twoSk o f0 f1 s0 s1) acc (addKs s1 f1) with
    | error err => rfl
    | ok acc' =>
      simp only
      have m0 : ([f0, f1].map fun f => f.pos0.length) = (twoSk o f0 f1 s0 s1).frames.map fun f => f.pos0.length := rfl
      have m1 : ([f0, f1].map fun f => if o.same then f.pos0.length else f.pos1.length) =
        (twoSk o f0 f1 s0 s1).frames.map fun f =>
          if (twoSk o f0 f1 s0 s1).same then f.pos0.length else f.pos1.length := rfl
      rw [m0, m1]
      cases y0 : meanNumber ((twoSk o f0 f1 s0 s1).frames.map fun f => f.pos0.length) with
      | error err => rfl
      | ok n0 =>
      simp only
      cases y1 : meanNumber ((twoSk o f0 f1 s0 s1).frames.map fun f =>
          if (twoSk o f0 f1 s0 s1).same then f.pos0.length else f.pos1.length) with
      | error err => rfl
      | ok n1 =>
        have w : o.weighted = (twoSk o f0 f1 s0 s1).weighted := rfl
        simp only [w]
        cases z : acc'.mapM (skNonorm (twoSk o f0 f1 s0 s1).weighted) with
        | error err => rfl
        | ok v =>
          show Except.ok (_, _, _) = Except.ok (_, _, _)
          cases grid <;> rfl

/-- The four wave-vectors of smallest norm in a square cell. -/
def ring1 : List (Fin 2 → ℤ) := [![1, 0], ![-1, 0], ![0, 1], ![0, -1]]

/-- A square cell with smallest wave-vector `a`. -/
noncomputable def squareCell (a : ℝ) : Vec 2 ℝ := fun _ => 2 * Real.pi / a

theorem squareCell_k0 {a : ℝ} (ha : 0 < a) : (fun c => 2 * Real.pi / squareCell a c) = fun _ => a := by
  have := Real.pi_pos
  funext c
  unfold squareCell
  field_simp

theorem squareCell_pos {a : ℝ} (ha : 0 < a) (c : Fin 2) : 0 < squareCell a c := by
  have := Real.pi_pos
  unfold squareCell
  positivity

theorem knorm_square {a : ℝ} (ha : 0 < a) (v : Fin 2 → ℤ) :
    Spec.knorm (fun _ => a) v = a * √((v 0 ^ 2 + v 1 ^ 2 : ℤ) : ℝ) := by
  unfold Spec.knorm
  rw [Fin.sum_univ_two]
  have : (a * (v 0 : ℝ)) ^ 2 + (a * (v 1 : ℝ)) ^ 2 = a ^ 2 * ((v 0 ^ 2 + v 1 ^ 2 : ℤ) : ℝ) := by push_cast; ring
  rw [this, Real.sqrt_mul (by positivity), Real.sqrt_sq ha.le]

theorem mem_ring1 {a : ℝ} (h1 : 1 ≤ a) (h2 : a < 5 / 4) (v : Fin 2 → ℤ) :
    |Spec.knorm (fun _ => a) v - 1| < 1 / 4 ↔ v ∈ ring1 := by
  have ha : 0 < a := by linarith
  rw [knorm_square ha]
  constructor
  · intro h
    rw [abs_lt] at h
    have hn : (0 : ℝ) ≤ ((v 0 ^ 2 + v 1 ^ 2 : ℤ) : ℝ) := by push_cast; positivity
    have hs : √((v 0 ^ 2 + v 1 ^ 2 : ℤ) : ℝ) ^ 2 = ((v 0 ^ 2 + v 1 ^ 2 : ℤ) : ℝ) := Real.sq_sqrt hn
    have hs0 := Real.sqrt_nonneg ((v 0 ^ 2 + v 1 ^ 2 : ℤ) : ℝ)
    generalize √((v 0 ^ 2 + v 1 ^ 2 : ℤ) : ℝ) = x at *
    have hx : x < 5 / 4 := by nlinarith
    have hx' : 0 < x := by
      rcases hs0.lt_or_eq with h0 | h0
      · exact h0
      · rw [← h0] at h; linarith [h.1, mul_zero a]
    have h2 : ((v 0 ^ 2 + v 1 ^ 2 : ℤ) : ℝ) < 2 := by rw [← hs]; nlinarith
    have h3 : (0 : ℝ) < ((v 0 ^ 2 + v 1 ^ 2 : ℤ) : ℝ) := by rw [← hs]; positivity
    have h2' : v 0 ^ 2 + v 1 ^ 2 < 2 := by exact_mod_cast h2
    have h3' : 0 < v 0 ^ 2 + v 1 ^ 2 := by exact_mod_cast h3
    have a1 : v 0 ≤ 1 := by nlinarith [sq_nonneg (v 1)]
    have a2 : -1 ≤ v 0 := by nlinarith [sq_nonneg (v 1)]
    have b1 : v 1 ≤ 1 := by nlinarith [sq_nonneg (v 0)]
    have b2 : -1 ≤ v 1 := by nlinarith [sq_nonneg (v 0)]
    have hv : v = ![v 0, v 1] := by funext c; fin_cases c <;> rfl
    rw [hv]
    clear hs h h2 h3 hn hv
    generalize v 0 = a at *
    generalize v 1 = b at *
    interval_cases a <;> interval_cases b <;> simp [ring1] at h2' h3' ⊢
  · intro h
    simp only [ring1, List.mem_cons, List.not_mem_nil, or_false] at h
    rcases h with rfl | rfl | rfl | rfl <;>
      (simp [abs_lt]; constructor <;> linarith)

/-- `_setup` for a square cell with smallest wave-vector `a`, k grid `[1]` and `dk = 1/4`. -/
theorem square_setup {pick : ℕ → List (KVec 2) → ℕ → List (KVec 2)} (hpick : IsSample pick) {p : KParams ℝ}
    (hnk : 4 ≤ p.nk) (hdk : p.dk = 1 / 4) {a : ℝ} (h1 : 1 ≤ a) (h2 : a < 5 / 4) (depth : ℕ) :
    ∃ s, kSetup Real.sqrt Real.pi (depth + 1) pick p (squareCell a) (some [1]) = .ok s ∧ s.kgrid = [a] := by
  have ha : 0 < a := by linarith
  obtain ⟨s, kv, hs, -, -, -, hk⟩ := kSetup_single hpick (Or.inl rfl) (p := p) (by rw [hdk]; norm_num)
    (squareCell_pos ha) (x := 1) zero_le_one (L := ring1) (by decide) (by simp [ring1]) (by simpa [ring1] using hnk)
    (by intro v; rw [squareCell_k0 ha, hdk]; exact mem_ring1 h1 h2 v) depth
  refine ⟨s, hs, ?_⟩
  rw [hk, squareCell_k0 ha]
  congr 1
  simp only [ring1, List.map_cons, List.map_nil, knorm_square ha]
  simp
  ring

/-- The object for two frames is regular. -/
theorem twoSk_regular {pick : ℕ → List (KVec d) → ℕ → List (KVec d)} (hpick : IsSample pick) {p : KParams ℝ}
    (hnk : 1 ≤ p.nk) (hdk : 0 ≤ p.dk) {depth : ℕ} (weighted : Bool) {f0 f1 : CellFrame d}
    (hside0 : ∀ c, 0 < f0.side c) (hside1 : ∀ c, 0 < f1.side c)
    (hpos : ∀ f ∈ [f0, f1], f.pos0 ≠ [] ∧ f.pos1 = f.pos0 ∧ f.w1 = f.w0) {grid : Option (List ℝ)} {s0 s1 : KState d ℝ}
    {req0 req1 : List ℝ} (hr0 : initialGrid p (smallestK Real.pi f0.side) grid = .ok req0) (hne0 : req0 ≠ [])
    (hn0 : ∀ i < req0.length, 0 ≤ req0.getD i 0)
    {grid1 : Option (List ℝ)}
    (hr1 : initialGrid p (smallestK Real.pi f1.side) grid1 = .ok req1) (hlen : req1.length = req0.length)
    (hn1 : ∀ i < req1.length, 0 ≤ req1.getD i 0)
    (h0 : kSetup Real.sqrt Real.pi depth pick p f0.side grid = .ok s0)
    (h1 : kSetup Real.sqrt Real.pi depth pick p f1.side grid1 = .ok s1) :
    SkRegular (twoSk (⟨depth, pick, p, true, weighted, 1⟩ : SkChoices d) f0 f1 s0 s1) := by
  have key : ∀ {f : CellFrame d} {grid : Option (List ℝ)} {s : KState d ℝ} {req : List ℝ},
      (∀ c, 0 < f.side c) → initialGrid p (smallestK Real.pi f.side) grid = .ok req → req ≠ [] →
      (∀ i < req.length, 0 ≤ req.getD i 0) → kSetup Real.sqrt Real.pi depth pick p f.side grid = .ok s →
      Allowed s ∧ s.kgrid.length = req.length ∧ s.kvectors.length = req.length ∧ ∀ l ∈ s.kvectors, l ≠ [] := by
    intro f grid s req hside hr hne hnn h
    obtain ⟨hk0, hl1, hl2, dk, -, hsel⟩ := setup_selection hpick hnk hdk hside h hr hnn
    have hp0 : 0 < req.length := List.length_pos_iff.2 hne
    refine ⟨⟨(hsel 0 hp0).2.2.2.2.2.2.2.2, ?_⟩, hl1, hl2, kSetup_ne hpick hnk h⟩
    intro l hl v hv c
    obtain ⟨i, hi, rfl⟩ := List.getElem_of_mem hl
    have hi' : i < req.length := by rw [← hl2]; exact hi
    have := (hsel i hi').2.2.2.2.2.2.2.1 v (by rw [List.getD_eq_getElem _ _ hi]; exact hv) c
    omega
  have hne1 : req1 ≠ [] := by
    rw [← List.length_pos_iff, hlen]; exact List.length_pos_iff.2 hne0
  obtain ⟨a0, b0, c0, d0⟩ := key hside0 hr0 hne0 hn0 h0
  obtain ⟨a1, b1, c1, d1⟩ := key hside1 hr1 hne1 hn1 h1
  have hfr : ∀ f ∈ (twoSk (⟨depth, pick, p, true, weighted, 1⟩ : SkChoices d) f0 f1 s0 s1).frames,
      f = addKs s0 f0 ∨ f = addKs s1 f1 := by
    intro f hf
    simpa [twoSk] using hf
  have q0 := hpos f0 (by simp)
  have q1 := hpos f1 (by simp)
  refine ⟨by simp [twoSk], one_pos, Or.inl rfl, ?_, ?_, ?_, ?_, ?_⟩
  · rintro - f hf
    rcases hfr f hf with rfl | rfl
    · exact q0.2
    · exact q1.2
  · intro f hf
    rcases hfr f hf with rfl | rfl
    · exact q0.1
    · exact q1.1
  · intro f hf
    rcases hfr f hf with rfl | rfl
    · show f0.pos1 ≠ []; rw [q0.2.1]; exact q0.1
    · show f1.pos1 ≠ []; rw [q1.2.1]; exact q1.1
  · intro f hf
    rcases hfr f hf with rfl | rfl
    · exact a0
    · exact a1
  · intro f hf
    rcases hfr f hf with rfl | rfl
    · exact ⟨by show s0.kvectors.length = s0.kgrid.length; omega, d0⟩
    · exact ⟨by show s1.kvectors.length = s0.kgrid.length; omega, d1⟩

/-- A frame with one particle at the origin of a square cell. -/
noncomputable def squareFrame (a : ℝ) : CellFrame 2 := ⟨squareCell a, [![0, 0]], [![0, 0]], [], []⟩

theorem squareCell_ne : (squareFrame (11 / 10)).side ≠ (squareFrame 1).side := by
  intro h
  have := congrFun h 0
  have hpi := Real.pi_pos
  simp only [squareFrame, squareCell] at this
  field_simp at this
  norm_num at this

theorem initial_one (p : KParams ℝ) (k0 : Vec 2 ℝ) : initialGrid p k0 (some [1]) = .ok [1] := by
  unfold initialGrid pySorted
  simp

theorem initial_default (k0 : Vec 2 ℝ) : initialGrid (⟨4, 1 / 4, 1, 2, 1⟩ : KParams ℝ) k0 none = .ok [1] := by
  unfold initialGrid linearGrid
  simp

/-- The structure factor of two frames with square cells of smallest wave-vectors 1 and 1.1, for the k grid made of the
only value 1, by default or given explicitly. -/
theorem square_compute {pick : ℕ → List (KVec 2) → ℕ → List (KVec 2)} (hpick : IsSample pick) (depth : ℕ) :
    ∃ s v, kSetup Real.sqrt Real.pi (depth + 1) pick ⟨4, 1 / 4, 1, 2, 1⟩ (squareCell (11 / 10)) none = .ok s ∧
      s.kgrid = [11 / 10] ∧
      skComputeA ⟨depth + 1, pick, ⟨4, 1 / 4, 1, 2, 1⟩, true, false, 1⟩ [squareFrame 1, squareFrame (11 / 10)]
        (KAttrs.new 2 none) = .ok ([1], v, attrsOf none s) ∧
      skComputeA ⟨depth + 1, pick, ⟨4, 1 / 4, 1, 2, 1⟩, true, false, 1⟩ [squareFrame 1, squareFrame (11 / 10)]
        (KAttrs.new 2 (some [1])) = .ok ([11 / 10], v, attrsOf (some [1]) s) := by
  obtain ⟨s0, h0, g0⟩ := square_setup hpick (p := ⟨4, 1 / 4, 1, 2, 1⟩) (by norm_num) rfl (a := 1) le_rfl (by norm_num) depth
  obtain ⟨s1, h1, g1⟩ := square_setup hpick (p := ⟨4, 1 / 4, 1, 2, 1⟩) (by norm_num) rfl (a := 11 / 10) (by norm_num)
    (by norm_num) depth
  have h0' : kSetup Real.sqrt Real.pi (depth + 1) pick ⟨4, 1 / 4, 1, 2, 1⟩ (squareCell 1) none = .ok s0 := by
    rw [← h0]; exact kSetup_initial (by rw [initial_one, initial_default])
  have h1' : kSetup Real.sqrt Real.pi (depth + 1) pick ⟨4, 1 / 4, 1, 2, 1⟩ (squareCell (11 / 10)) none = .ok s1 := by
    rw [← h1]; exact kSetup_initial (by rw [initial_one, initial_default])
  have hreg := twoSk_regular hpick (p := ⟨4, 1 / 4, 1, 2, 1⟩) (by norm_num) (by norm_num) (depth := depth + 1) false
    (f0 := squareFrame 1) (f1 := squareFrame (11 / 10)) (squareCell_pos one_pos) (squareCell_pos (by norm_num))
    (by simp [squareFrame]) (initial_one _ _) (by simp) (by simp) (initial_one _ _) rfl (by simp) h0 h1
  obtain ⟨r, hl⟩ : ∃ r, skLegacy (twoSk (⟨depth + 1, pick, ⟨4, 1 / 4, 1, 2, 1⟩, true, false, 1⟩ : SkChoices 2)
      (squareFrame 1) (squareFrame (11 / 10)) s0 s1) = .ok r := ⟨_, skLegacy_eq _ hreg⟩
  refine ⟨s1, r.1, h1', g1, ?_, ?_⟩
  · rw [skComputeA_two (⟨depth + 1, pick, ⟨4, 1 / 4, 1, 2, 1⟩, true, false, 1⟩ : SkChoices 2) rfl squareCell_ne
      (grid := none) h0' h1', hl]
    show Except.ok (s0.kgrid, _, _) = _
    rw [g0]
    rfl
  · rw [skComputeA_two (⟨depth + 1, pick, ⟨4, 1 / 4, 1, 2, 1⟩, true, false, 1⟩ : SkChoices 2) rfl squareCell_ne
      (grid := some [1]) h0 (by show kSetup _ _ _ _ _ _ (some s0.kgrid) = _; rw [g0]; exact h1), hl]
    show Except.ok (s1.kgrid, _, _) = _
    rw [g1]
    congr 3

/-- **C149** is false if the cell changes: with the default k grid the table of `report()` is about the wave-vectors of
the last frame, `grid` about those of the first one. Two frames with square cells of smallest wave-vectors 1 and 1.1:
`grid` is `[1]`, the only row has k = 1.1. -/
theorem C149_counterexample_cell {pick : ℕ → List (KVec 2) → ℕ → List (KVec 2)} (hpick : IsSample pick) (depth : ℕ) :
    ∃ v a' rows, skComputeA ⟨depth + 1, pick, ⟨4, 1 / 4, 1, 2, 1⟩, true, false, 1⟩
        [squareFrame 1, squareFrame (11 / 10)] (KAttrs.new 2 none) = .ok ([1], v, a') ∧
      a'.report Real.sqrt = .ok rows ∧ rows.map (fun r => r.1) = [11 / 10] := by
  obtain ⟨s, v, hs, hg, h, -⟩ := square_compute hpick depth
  have hset := setup_eq (i := 0) (a := KAttrs.new 2 none) (fun _ => rfl) hs
  have hfit := (setup_fits (a := KAttrs.new 2 none) (fun _ => rfl) hset).2
  have hfit' : s.kgrid = (attrsOf none s).getKvectors.map meanNorm := Option.some.inj hfit
  refine ⟨v, _, _, h, (report_fits (a := attrsOf none s) (g := s.kgrid) rfl hfit').1, ?_⟩
  rw [List.map_map]
  show List.map meanNorm _ = _
  rw [← hfit', hg]

/-! ### C150 -/

/-- The default grid is the same as the list given explicitly. -/
theorem initial_explicit {p : KParams ℝ} (h0 : 0 < p.kmin) (h1 : p.kmin ≤ p.kmax) (hn : 1 ≤ p.ksamples) {g : List ℝ}
    (hg : linearGrid p.kmin p.kmax (.int p.ksamples) = .ok g) (k0 : Vec d ℝ) :
    initialGrid p k0 (some g) = initialGrid p k0 none := by
  unfold initialGrid
  rw [if_pos h0, hg]
  simp only [linearGrid, Except.ok.injEq] at hg
  have hdelta : (0 : ℝ) ≤ if p.ksamples > 1 then (p.kmax - p.kmin) / ((p.ksamples : ℝ) - 1) else 0 := by
    split_ifs with h
    · have : (1 : ℝ) < p.ksamples := by exact_mod_cast h
      exact div_nonneg (by linarith) (by linarith)
    · exact le_rfl
  have hsorted : pySorted g = g := by
    unfold pySorted
    apply List.Pairwise.insertionSort_eq
    rw [← hg, List.pairwise_map]
    refine List.Pairwise.imp (fun {a b} hab => ?_) (List.pairwise_lt_range (n := p.ksamples.toNat))
    have : (a : ℝ) ≤ b := by exact_mod_cast hab.le
    nlinarith
  have hmem : ∀ x ∈ g, 0 ≤ x := by
    intro x hx
    rw [← hg] at hx
    obtain ⟨i, -, rfl⟩ := List.mem_map.1 hx
    positivity
  have hlen : g.length = p.ksamples.toNat := by rw [← hg]; simp
  simp only [hsorted]
  cases g with
  | nil => simp at hlen; omega
  | cons a r => simp only [if_neg (not_lt.2 (hmem a (by simp)))]

/-- **C150**, the part that holds: if the cell does not change, a k grid given explicitly as the linear grid from `kmin` to
`kmax` with `ksamples` points gives the same grid and the same values of the structure factor as `kmin`, `kmax` and
`ksamples`, or an exception in both cases. So it does for the intermediate scattering functions. -/
theorem C150_explicit_partial {depth : ℕ} {pick : ℕ → List (KVec d) → ℕ → List (KVec d)} {p : KParams ℝ}
    (h0 : 0 < p.kmin) (h1 : p.kmin ≤ p.kmax) (hn : 1 ≤ p.ksamples) {g : List ℝ}
    (hg : linearGrid p.kmin p.kmax (.int p.ksamples) = .ok g) :
    (∀ (same weighted : Bool) (skip : ℕ) (fr : List (CellFrame d)), (∀ f ∈ fr, ∀ f' ∈ fr, f.side = f'.side) →
      (skComputeA ⟨depth, pick, p, same, weighted, skip⟩ fr (KAttrs.new d (some g))).map (fun r => (r.1, r.2.1)) =
      (skComputeA ⟨depth, pick, p, same, weighted, skip⟩ fr (KAttrs.new d none)).map (fun r => (r.1, r.2.1))) ∧
    (∀ (o : FsObj d) side, fsComputeA o depth pick p side (KAttrs.new d (some g)) =
      fsComputeA o depth pick p side (KAttrs.new d none)) ∧
    (∀ (o : FkObj d) side, fkComputeA o depth pick p side (KAttrs.new d (some g)) =
      fkComputeA o depth pick p side (KAttrs.new d none)) := by
  have hk : ∀ side : Vec d ℝ, kSetup Real.sqrt Real.pi depth pick p side (some g) =
      kSetup Real.sqrt Real.pi depth pick p side none := fun side => kSetup_initial (initial_explicit h0 h1 hn hg _)
  have herr : ∀ (side : Vec d ℝ) (grid : Option (List ℝ)) e, kSetup Real.sqrt Real.pi depth pick p side grid = .error e →
      (KAttrs.new d grid).setup Real.sqrt Real.pi depth pick p 0 side = .error e := by
    intro side grid e he
    unfold KAttrs.setup
    rw [if_neg (by simp [KAttrs.new])]
    show (kSetup Real.sqrt Real.pi depth pick p side grid >>= _) = _
    rw [he]
    rfl
  refine ⟨?_, ?_, ?_⟩
  · intro same weighted skip fr hc
    cases fr with
    | nil => rfl
    | cons f fr =>
      have hc' : ∀ f' ∈ f :: fr, f'.side = f.side := fun f' hf' => hc f' hf' f (by simp)
      cases hs : kSetup Real.sqrt Real.pi depth pick p f.side none with
      | error e =>
        have e1 := herr f.side none e hs
        have e2 := herr f.side (some g) e (by rw [hk, hs])
        unfold skComputeA
        have hf : pyGet (f :: fr) 0 = .ok f := rfl
        simp only [hf, e1, e2, bind, Except.bind]
      | ok s =>
        have hs' : kSetup Real.sqrt Real.pi depth pick p f.side (some g) = .ok s := by rw [hk, hs]
        have e1 := setup_eq (i := 0) (a := KAttrs.new d none) (fun _ => rfl) hs
        have e2 := setup_eq (i := 0) (a := KAttrs.new d (some g)) (fun _ => rfl) hs'
        have r1 : (attrsOf none s).read = .ok s := read_ok (a := attrsOf none s) (k0 := s.k0) rfl
        have r2 : (attrsOf (some g) s).read = .ok s := read_ok (a := attrsOf (some g) s) (k0 := s.k0) rfl
        rw [skComputeA_const (⟨depth, pick, p, same, weighted, skip⟩ : SkChoices d) (f0 := f) rfl (constant_cell rfl hc') e1 r1 rfl,
          skComputeA_const (⟨depth, pick, p, same, weighted, skip⟩ : SkChoices d) (f0 := f) rfl (constant_cell rfl hc') e2 r2 rfl]
        generalize skLegacy _ = x
        cases x <;> rfl
  · intro o side
    cases hs : kSetup Real.sqrt Real.pi depth pick p side none with
    | error e =>
      have e1 := herr side none e hs
      have e2 := herr side (some g) e (by rw [hk, hs])
      unfold fsComputeA
      simp only [e1, e2, bind, Except.bind]
    | ok s =>
      have hs' : kSetup Real.sqrt Real.pi depth pick p side (some g) = .ok s := by rw [hk, hs]
      have e1 := setup_eq (i := 0) (a := KAttrs.new d none) (fun _ => rfl) hs
      have e2 := setup_eq (i := 0) (a := KAttrs.new d (some g)) (fun _ => rfl) hs'
      unfold fsComputeA
      rw [e1, e2]
      rfl
  · intro o side
    cases hs : kSetup Real.sqrt Real.pi depth pick p side none with
    | error e =>
      have e1 := herr side none e hs
      have e2 := herr side (some g) e (by rw [hk, hs])
      unfold fkComputeA
      simp only [e1, e2, bind, Except.bind]
    | ok s =>
      have hs' : kSetup Real.sqrt Real.pi depth pick p side (some g) = .ok s := by rw [hk, hs]
      have e1 := setup_eq (i := 0) (a := KAttrs.new d none) (fun _ => rfl) hs
      have e2 := setup_eq (i := 0) (a := KAttrs.new d (some g)) (fun _ => rfl) hs'
      unfold fkComputeA
      rw [e1, e2]
      rfl

/-- A non-trivial case of the hypotheses: three points from 1 to 5. -/
example : linearGrid (1 : ℝ) 5 (.int 3) = .ok [1, 3, 5] := by
  simp [linearGrid, List.range_succ]
  norm_num

/-- **C150** is false if the cell changes: the list given explicitly is modified for each frame and becomes `grid`. Two
frames with square cells of smallest wave-vectors 1 and 1.1, one point at k = 1: the same values are reported for
k = 1 with `kmin`, `kmax` and `ksamples`, for k = 1.1 with the grid given explicitly. -/
theorem C150_counterexample_cell {pick : ℕ → List (KVec 2) → ℕ → List (KVec 2)} (hpick : IsSample pick) (depth : ℕ) :
    linearGrid (1 : ℝ) 2 (.int 1) = .ok [1] ∧
    ∃ v a a', skComputeA ⟨depth + 1, pick, ⟨4, 1 / 4, 1, 2, 1⟩, true, false, 1⟩
        [squareFrame 1, squareFrame (11 / 10)] (KAttrs.new 2 none) = .ok ([1], v, a) ∧
      skComputeA ⟨depth + 1, pick, ⟨4, 1 / 4, 1, 2, 1⟩, true, false, 1⟩
        [squareFrame 1, squareFrame (11 / 10)] (KAttrs.new 2 (some [1])) = .ok ([11 / 10], v, a') := by
  obtain ⟨s, v, -, -, h, h'⟩ := square_compute hpick depth
  exact ⟨by simp [linearGrid], v, _, _, h, h'⟩

end PP.Props
