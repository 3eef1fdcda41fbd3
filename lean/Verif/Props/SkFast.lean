import Verif.Props.Sk

/-!
# The Fortran structure factor (C57)
-/

set_option linter.unusedSectionVars false

namespace PP.Props

variable {d : ℕ}

theorem fExpo_eq (k0 : Vec 3 ℝ) (off : ℤ) (hoff : 1 ≤ off) (x : Vec 3 ℝ) (j : Fin 3) (i : ℤ) (h1 : 1 ≤ i)
    (h2 : i ≤ 2 * off + 1) :
    fExpo ((List.finRange 3).map fun j => expoList off.toNat (k0 j * x j)) j i =
      .ok (ccis (((i - 1 - off : ℤ) : ℝ) * (k0 j * x j))) := by
  unfold fExpo
  have e : ((List.finRange 3).map fun j => expoList off.toNat (k0 j * x j))[(j : ℕ)]? =
      some (expoList off.toNat (k0 j * x j)) := by
    rw [List.getElem?_map, List.getElem?_eq_getElem (by simp)]; simp
  rw [e]
  simp only
  rw [if_pos h1]
  have e2 : (expoList off.toNat (k0 j * x j))[(i - 1).toNat]? =
      some (ccis (((i - 1 - off : ℤ) : ℝ) * (k0 j * x j))) := by
    unfold expoList
    rw [List.getElem?_map, List.getElem?_range (by omega), Option.map_some]
    congr 4
    omega
  rw [e2]

theorem skBare_eq (ks : KState 3 ℝ) (hoff : 1 ≤ ks.koffset) (v : KVec 3)
    (hv : ∀ c, 1 ≤ v c ∧ v c ≤ 2 * ks.koffset + 1) (pos : List (Vec 3 ℝ)) :
    skBare (skTable ks pos) v = .ok (Spec.density (kvecOf ks fun c => v c - 1) pos) := by
  unfold skBare skTable
  rw [List.mapM_map]
  have h := mapM_ok_map (f := fun x : Vec 3 ℝ => (do
      let a ← fExpo ((List.finRange 3).map fun j => expoList ks.koffset.toNat (ks.k0 j * x j)) 0 (v 0)
      let b ← fExpo ((List.finRange 3).map fun j => expoList ks.koffset.toNat (ks.k0 j * x j)) 1 (v 1)
      let c ← fExpo ((List.finRange 3).map fun j => expoList ks.koffset.toNat (ks.k0 j * x j)) 2 (v 2)
      return a * b * c : Py ℂ))
    (g := fun x => Complex.exp (Complex.I * (Spec.dot (kvecOf ks fun c => v c - 1) x : ℝ))) (l := pos) ?_
  · exact congrArg (fun z : Py (List ℂ) => z.bind fun t => .ok t.sum) h
  · intro x _
    have e : ∀ j : Fin 3, _ := fun j => fExpo_eq ks.k0 ks.koffset hoff x j (v j) (hv j).1 (hv j).2
    have e0 := e 0
    have e1 := e 1
    have e2 := e 2
    simp only [Fin.val_zero, Fin.val_one, Fin.val_two] at e0 e1 e2
    rw [e0, e1, e2]
    show Except.ok _ = Except.ok (ccis (Spec.dot _ x))
    rw [← ccis_add, ← ccis_add]
    congr 2
    unfold Spec.dot kvecOf
    rw [Fin.sum_univ_three]
    ring

/-- Arguments for the Fortran version: the indices of the wave-vectors are at least 1. This is always the case after
`_setup` (`kSetup_allowed`). -/
def Positive (o : SkObj d) : Prop := ∀ f ∈ o.frames, ∀ l ∈ f.ks.kvectors, ∀ v ∈ l, ∀ c, 1 ≤ v c

/-- The density mode computed in Fortran. -/
noncomputable def fastModes (f : SkFrame 3) (v : KVec 3) : ℂ × ℂ :=
  (Spec.density (kvecOf f.ks fun c => v c - 1) f.pos0, Spec.density (kvecOf f.ks fun c => v c - 1) f.pos0)

theorem skFastFrame_eq (o : SkObj 3) (h : SkRegular o) (hp : Positive o) (f : SkFrame 3) (hf : f ∈ o.frames)
    (acc : List SkAcc) (hacc : acc.length = o.nk) :
    skFastFrame o acc f = .ok (accShells (fastModes f) f.ks.kvectors acc) := by
  have ha := h.allowed f hf
  have hoff : 1 ≤ f.ks.koffset.toNat := by have := ha.1; omega
  have ht0 : expoSphere ccis (fun _ => 0) f.ks.k0 f.ks.koffset.toNat f.pos0 = .ok (skTable f.ks f.pos0) :=
    expoSphere_eq _ _ _ hoff _ (h.pos0 f hf)
  have ht1 : expoSphere ccis (fun _ => 0) f.ks.k0 f.ks.koffset.toNat f.pos1 = .ok (skTable f.ks f.pos1) :=
    expoSphere_eq _ _ _ hoff _ (h.pos1 f hf)
  have ht1' : secondTable o.same (skTable f.ks f.pos0) f = .ok (skTable f.ks f.pos1) := by
    unfold secondTable
    by_cases hs : o.same = true
    · rw [if_pos hs, (h.same hs f hf).1]
    · rw [if_neg hs, ht1]
  unfold skFastFrame
  rw [ht0]
  show Except.bind (secondTable o.same (skTable f.ks f.pos0) f) _ = _
  rw [ht1']
  apply shells_loop
  · intro l hl v hv
    have hb := ha.2 l hl v hv
    have hb' := hp f hf l hl v hv
    have hc : ikvecColumn v = .ok v := by
      unfold ikvecColumn; rw [dif_pos rfl]; rfl
    rw [hc]
    show Except.bind (skBare (skTable f.ks f.pos0) v) _ = _
    rw [skBare_eq _ ha.1 v fun c => ⟨hb' c, by have := hb c; omega⟩]
    rfl
  · rw [(h.shells f hf).1, hacc]

/-- Closed form of `StructureFactorFast`. -/
theorem skFast_eq (o : SkObj 3) (h : SkRegular o) (hp : Positive o) :
    skFast o = .ok ((List.range o.nk).map (fun n => modesValue false ((originFrames o.frames o.skip).flatMap fun f =>
        (f.ks.kvectors.getD n []).map (fastModes f)) / √(skN0 o * skN1 o)),
      (List.range o.nk).map fun n => modesValue false ((originFrames o.frames o.skip).flatMap fun f =>
        (f.ks.kvectors.getD n []).map (fastModes f))) := by
  have : (o.frames.map fun f => if o.same then f.pos0.length else f.pos1.length) =
      o.frames.map fun f => f.pos1.length := by
    apply List.map_congr_left
    intro f hf
    by_cases hs : o.same = true
    · rw [if_pos hs, (h.same hs f hf).1]
    · rw [if_neg hs]
  have key := sk_from_modes o.frames o.skip o.nk false h.skip_pos h.frames_ne fastModes (skFastFrame o)
    (fun f hf acc ha => skFastFrame_eq o h hp f hf acc ha) h.shells (o.frames.map fun f => f.pos0.length)
    (o.frames.map fun f => f.pos1.length) (by simpa using h.frames_ne) (by simpa using h.frames_ne)
  unfold skFast
  rw [this]
  refine key.trans ?_
  simp only [List.length_map]
  rfl

/-- The frame in which every component of every wave-vector is decreased by one. -/
def shiftFrame (f : SkFrame d) : SkFrame d :=
  { f with ks := { f.ks with kvectors := f.ks.kvectors.map fun l => l.map fun v c => v c - 1 } }

/-- C57 (negation): for one group of particles in three dimensions, the Fortran version returns the structure factor
at the wave-vectors shifted by one smallest wave-vector along each axis, because indices from 0 are passed to
Fortran, where they start from 1. This holds for all inputs, and no error is raised. -/
theorem C57_counterexample_shift (o : SkObj 3) (h : SkRegular o) (hp : Positive o) (hs : o.same = true)
    (hw : o.weighted = false) : skFast o = skLegacy (o.mapFrames shiftFrame) := by
  have hr : SkRegular (o.mapFrames shiftFrame) := by
    refine ⟨by simpa [SkObj.mapFrames] using h.frames_ne, h.skip_pos, h.dims, ?_, ?_, ?_, ?_, ?_⟩
    · intro _ f hf
      obtain ⟨f, hf', rfl⟩ := List.mem_map.1 hf
      exact h.same hs f hf'
    all_goals
      intro f hf
      obtain ⟨f, hf', rfl⟩ := List.mem_map.1 hf
    · exact h.pos0 f hf'
    · exact h.pos1 f hf'
    · refine ⟨(h.allowed f hf').1, ?_⟩
      intro l hl v hv c
      simp only [shiftFrame] at hl
      obtain ⟨l, hl', rfl⟩ := List.mem_map.1 hl
      obtain ⟨v, hv', rfl⟩ := List.mem_map.1 hv
      have h1 := (h.allowed f hf').2 l hl' v hv' c
      have h2 := hp f hf' l hl' v hv' c
      simp only [shiftFrame]
      omega
    · simp only [shiftFrame, List.length_map, List.mem_map]
      refine ⟨(h.shells f hf').1, ?_⟩
      rintro l ⟨l, hl, rfl⟩
      simpa using (h.shells f hf').2 l hl
  rw [skFast_eq o h hp, skLegacy_eq _ hr]
  have hw' : (o.mapFrames shiftFrame).weighted = false := hw
  have hN0 : skN0 (o.mapFrames shiftFrame) = skN0 o := by
    unfold skN0 SkObj.mapFrames; simp only [List.map_map, List.length_map]; rfl
  have hN1 : skN1 (o.mapFrames shiftFrame) = skN1 o := by
    unfold skN1 SkObj.mapFrames; simp only [List.map_map, List.length_map]; rfl
  have hm : ∀ n, gridModes (o.mapFrames shiftFrame) n = (originFrames o.frames o.skip).flatMap fun f =>
        (f.ks.kvectors.getD n []).map (fastModes f) := by
    intro n
    unfold gridModes SkObj.mapFrames
    simp only
    rw [skFrames_map h.skip_pos, List.flatMap_map]
    apply List.flatMap_congr
    intro f hf
    have hf' := originFrames_mem hf
    have e : (shiftFrame f).ks.kvectors.getD n [] = (f.ks.kvectors.getD n []).map fun v c => v c - 1 := by
      unfold shiftFrame
      simp only [List.getD_eq_getElem?_getD, List.getElem?_map]
      rcases f.ks.kvectors[n]? with _ | l <;> rfl
    rw [e, List.map_map]
    apply List.map_congr_left
    intro v _
    have e1 := (h.same hs f hf').1
    simp only [Function.comp, skModes, hw, realWeight_false, fieldMode_one, fastModes]
    show (Spec.density _ f.pos0, Spec.density _ f.pos1) = _
    rw [e1]
    rfl
  rw [hw', hN0, hN1]
  simp only [hm]
  rfl

/-- The positions of the second group replaced. -/
def replaceSecond (g : SkFrame d → List (Vec d ℝ)) (f : SkFrame d) : SkFrame d := { f with pos1 := g f }

/-- C57 (negation): for two groups of particles, the result of the Fortran version does not depend on the positions of
the second group. -/
theorem C57_counterexample_cross (o : SkObj 3) (h : SkRegular o) (hp : Positive o) (hs : o.same = false)
    (g : SkFrame 3 → List (Vec 3 ℝ)) (hg : ∀ f ∈ o.frames, (g f).length = f.pos1.length) :
    skFast (o.mapFrames (replaceSecond g)) = skFast o := by
  have hr : SkRegular (o.mapFrames (replaceSecond g)) := by
    refine ⟨by simpa [SkObj.mapFrames] using h.frames_ne, h.skip_pos, h.dims, ?_, ?_, ?_, ?_, ?_⟩
    · intro hs' f hf
      have : o.same = true := hs'
      rw [hs] at this; cases this
    all_goals
      intro f hf
      obtain ⟨f, hf', rfl⟩ := List.mem_map.1 hf
    · exact h.pos0 f hf'
    · have := List.length_pos_iff.2 (h.pos1 f hf')
      rw [← hg f hf'] at this
      exact List.length_pos_iff.1 this
    · exact h.allowed f hf'
    · exact h.shells f hf'
  have hp' : Positive (o.mapFrames (replaceSecond g)) := by
    intro f hf
    obtain ⟨f, hf', rfl⟩ := List.mem_map.1 hf
    exact hp f hf'
  have hN0 : skN0 (o.mapFrames (replaceSecond g)) = skN0 o := by
    unfold skN0 SkObj.mapFrames; simp only [List.map_map, List.length_map]; rfl
  have hN1 : skN1 (o.mapFrames (replaceSecond g)) = skN1 o := by
    unfold skN1 SkObj.mapFrames; simp only [List.map_map, List.length_map]
    congr 3
    exact List.map_congr_left fun f hf => hg f hf
  rw [skFast_eq o h hp, skFast_eq _ hr hp', hN0, hN1]
  have e : ∀ n, ((originFrames (o.mapFrames (replaceSecond g)).frames (o.mapFrames (replaceSecond g)).skip).flatMap
      fun f => (f.ks.kvectors.getD n []).map (fastModes f)) =
      (originFrames o.frames o.skip).flatMap fun f => (f.ks.kvectors.getD n []).map (fastModes f) := by
    intro n
    unfold SkObj.mapFrames
    simp only
    rw [skFrames_map h.skip_pos, List.flatMap_map]
    rfl
  simp only [e]
  rfl

theorem foldlM_first_error {α σ : Type} {f : σ → α → Py σ} {a : α} {l : List α} {s : σ} {e : PyErr}
    (h : f s a = .error e) : (a :: l).foldlM f s = .error e := by
  rw [List.foldlM_cons, h]; rfl

/-- C57 (negation): in two dimensions the Fortran version always raises `ValueError`. -/
theorem C57_counterexample_2d (o : SkObj 2) (h : SkRegular o) (hnk : 0 < o.nk) : skFast o = .error .valueError := by
  obtain ⟨f, fs, hfs⟩ : ∃ f fs, o.frames = f :: fs := by
    rcases ho : o.frames with _ | ⟨f, fs⟩
    · exact absurd ho h.frames_ne
    · exact ⟨f, fs, rfl⟩
  have hf : f ∈ o.frames := by rw [hfs]; simp
  have ha := h.allowed f hf
  have hoff : 1 ≤ f.ks.koffset.toNat := by have := ha.1; omega
  have ht0 : expoSphere ccis (fun _ => 0) f.ks.k0 f.ks.koffset.toNat f.pos0 = .ok (skTable f.ks f.pos0) :=
    expoSphere_eq _ _ _ hoff _ (h.pos0 f hf)
  have ht1 : expoSphere ccis (fun _ => 0) f.ks.k0 f.ks.koffset.toNat f.pos1 = .ok (skTable f.ks f.pos1) :=
    expoSphere_eq _ _ _ hoff _ (h.pos1 f hf)
  have ht1' : ∃ t, secondTable o.same (skTable f.ks f.pos0) f = .ok t := by
    unfold secondTable
    by_cases hs : o.same = true
    · rw [if_pos hs]; exact ⟨_, rfl⟩
    · rw [if_neg hs, ht1]; exact ⟨_, rfl⟩
  obtain ⟨t, ht1'⟩ := ht1'
  have hframe : ∀ acc, skFastFrame o acc f = .error .valueError := by
    intro acc
    unfold skFastFrame
    rw [ht0]
    show Except.bind (secondTable o.same (skTable f.ks f.pos0) f) _ = _
    rw [ht1']
    obtain ⟨hl, hne⟩ := h.shells f hf
    rcases hkv : f.ks.kvectors with _ | ⟨l, kv⟩
    · rw [hkv] at hl; simp at hl; omega
    · have hl0 := hne l (by rw [hkv]; simp)
      rcases l with _ | ⟨v, l⟩
      · exact absurd rfl hl0
      · show List.foldlM _ _ _ = _
        rw [List.zipIdx_cons]
        apply foldlM_first_error
        apply foldlM_first_error
        rfl
  have h6 : pyRange 0 o.frames.length o.skip = .ok (rangeList 0 o.frames.length o.skip) := by
    unfold pyRange; rw [if_neg (by have := h.skip_pos; omega)]
  have hcons : ∃ r, rangeList 0 o.frames.length o.skip = 0 :: r := by
    have hlen : 0 < o.frames.length := List.length_pos_iff.2 h.frames_ne
    have hsk := h.skip_pos
    unfold rangeList
    obtain ⟨m, hm⟩ : ∃ m, (o.frames.length - 0 + (o.skip - 1)) / o.skip = m + 1 := by
      refine ⟨(o.frames.length - 0 + (o.skip - 1)) / o.skip - 1, ?_⟩
      have : 0 < (o.frames.length - 0 + (o.skip - 1)) / o.skip := Nat.div_pos (by omega) hsk
      omega
    rw [hm, List.range_succ_eq_map]
    exact ⟨_, by simp; rfl⟩
  obtain ⟨r, hr⟩ := hcons
  have hget : pyGet o.frames 0 = .ok f := by rw [hfs]; rfl
  have hfold : (0 :: r).foldlM (fun acc i => do
      let f ← pyGet o.frames i
      skFastFrame o acc f) (List.replicate o.nk ⟨0, 0, 0, 0⟩) = .error .valueError := by
    apply foldlM_first_error
    rw [hget]
    exact hframe _
  unfold skFast
  rw [h6]
  show Except.bind ((rangeList 0 o.frames.length o.skip).foldlM _ _) _ = _
  rw [hr, hfold]
  rfl

/-! ### Concrete cases -/

/-- The wave-vector with components `(1, 0, 0)` in a cubic cell of side `L`. -/
noncomputable def halfKs (L : ℝ) : KState 3 ℝ :=
  { k0 := fun _ => 2 * Real.pi / L, kgrid := [2 * Real.pi / L], kvectors := [[![3, 2, 2]]], koffset := 2 }

/-- Two particles half a cell side apart along the first axis. The wave-vectors are those with components
`(1, 0, 0)`. -/
noncomputable def halfSk (L : ℝ) : SkObj 3 :=
  { same := true, weighted := false, skip := 1, nk := 1,
    frames := [⟨[![0, 0, 0], ![L / 2, 0, 0]], [![0, 0, 0], ![L / 2, 0, 0]], [], [],
      halfKs L⟩] }

theorem halfSk_regular (L : ℝ) : SkRegular (halfSk L) := by
  refine ⟨by simp [halfSk], by simp [halfSk], Or.inl rfl, ?_, ?_, ?_, ?_, ?_⟩
  · simp [halfSk]
  · simp [halfSk]
  · simp [halfSk]
  · intro f hf
    simp only [halfSk, List.mem_singleton] at hf
    subst hf
    refine ⟨by norm_num [halfKs], ?_⟩
    intro l hl v hv c
    simp only [halfKs, List.mem_singleton] at hl
    subst hl
    simp only [List.mem_singleton] at hv
    subst hv
    fin_cases c <;> simp [halfKs]
  · simp [halfSk, halfKs]

/-- C57 (negation): the two versions differ for all cell sides: 0 in python, 2 in Fortran. -/
theorem C57_counterexample_value {L : ℝ} (hL : 0 < L) :
    skLegacy (halfSk L) = .ok ([0], [0]) ∧ skFast (halfSk L) = .ok ([2], [4]) := by
  have hp : Positive (halfSk L) := by
    intro f hf l hl v hv c
    simp only [halfSk, List.mem_singleton] at hf
    subst hf
    simp only [halfKs, List.mem_singleton] at hl
    subst hl
    simp only [List.mem_singleton] at hv
    subst hv
    fin_cases c <;> simp
  have hN : √(skN0 (halfSk L) * skN1 (halfSk L)) = 2 := by
    have : skN0 (halfSk L) * skN1 (halfSk L) = 2 ^ 2 := by norm_num [skN0, skN1, halfSk]
    rw [this, Real.sqrt_sq (by norm_num)]
  have ho : originFrames (halfSk L).frames 1 = (halfSk L).frames := by
    rw [originFrames_eq _ one_pos]; simp [Spec.everyNth, halfSk]
  have hd1 : Spec.density (kvecOf (halfKs L) ![3, 2, 2]) [![0, 0, 0], ![L / 2, 0, 0]] = 0 := by
    have e1 : Spec.dot (kvecOf (halfKs L) ![3, 2, 2]) ![L / 2, 0, 0] = Real.pi := by
      simp [Spec.dot, kvecOf, halfKs, Fin.sum_univ_three]
      field_simp
      norm_num
    have e2 : Spec.dot (kvecOf (halfKs L) ![3, 2, 2]) ![0, 0, 0] = 0 := by
      simp [Spec.dot, Fin.sum_univ_three]
    simp only [Spec.density, List.map_cons, List.map_nil, List.sum_cons, List.sum_nil, e1, e2]
    rw [mul_comm Complex.I (Real.pi : ℂ), Complex.exp_pi_mul_I]
    simp
  have hd2 : Spec.density (kvecOf (halfKs L) fun c => (![3, 2, 2] : KVec 3) c - 1)
      [![0, 0, 0], ![L / 2, 0, 0]] = 2 := by
    have e1 : Spec.dot (kvecOf (halfKs L) fun c => (![3, 2, 2] : KVec 3) c - 1) ![L / 2, 0, 0] = 0 := by
      simp [Spec.dot, kvecOf, halfKs, Fin.sum_univ_three]
      norm_num
    have e2 : Spec.dot (kvecOf (halfKs L) fun c => (![3, 2, 2] : KVec 3) c - 1) ![0, 0, 0] = 0 := by
      simp [Spec.dot, Fin.sum_univ_three]
    simp only [Spec.density, List.map_cons, List.map_nil, List.sum_cons, List.sum_nil, e1, e2]
    norm_num
  constructor
  · rw [skLegacy_eq _ (halfSk_regular L), hN]
    have : gridModes (halfSk L) 0 = [(0, 0)] := by
      unfold gridModes
      have : (halfSk L).skip = 1 := rfl
      rw [this, ho]
      show [skModes false _ ![3, 2, 2]] = _
      simp only [skModes, realWeight_false, fieldMode_one, hd1]
    show Except.ok ((List.range 1).map _, (List.range 1).map _) = _
    simp [this, modesValue]
  · rw [skFast_eq _ (halfSk_regular L) hp, hN]
    have : ((originFrames (halfSk L).frames (halfSk L).skip).flatMap fun f =>
        (f.ks.kvectors.getD 0 []).map (fastModes f)) = [(2, 2)] := by
      have : (halfSk L).skip = 1 := rfl
      rw [this, ho]
      show [fastModes _ ![3, 2, 2]] = _
      simp only [fastModes, hd2]
    show Except.ok ((List.range 1).map _, (List.range 1).map _) = _
    simp only [List.range_one, List.map_cons, List.map_nil, this, sum_div_re]
    norm_num

/-- The case of C57 above meets the hypotheses of `C57_counterexample_shift`. -/
example : skFast exSk = skLegacy (exSk.mapFrames shiftFrame) := by
  refine C57_counterexample_shift exSk exSk_regular ?_ rfl rfl
  intro f hf l hl v hv c
  have hks : f.ks = exKs := by
    simp only [exSk, List.mem_cons, List.not_mem_nil, or_false] at hf
    rcases hf with rfl | rfl <;> rfl
  rw [hks] at hl
  simp only [exKs, List.mem_cons, List.not_mem_nil, or_false] at hl
  rcases hl with rfl | rfl
  · simp only [List.mem_cons, List.not_mem_nil, or_false] at hv
    subst hv; fin_cases c <;> simp
  · simp only [List.mem_cons, List.not_mem_nil, or_false] at hv
    rcases hv with rfl | rfl <;> fin_cases c <;> simp

/-- Two groups of one particle each. -/
noncomputable def exCross (y : Vec 3 ℝ) : SkObj 3 :=
  { same := false, weighted := false, skip := 1, nk := 1, frames := [⟨[![0, 1, 2]], [y], [], [], halfKs 3⟩] }

/-- A case of `C57_counterexample_cross`: the second particle moved anywhere. -/
example (y : Vec 3 ℝ) : skFast (exCross y) = skFast (exCross ![1, 1, 1]) := by
  have ha : Allowed (halfKs 3) := (halfSk_regular 3).allowed _ (List.mem_singleton.2 rfl)
  refine C57_counterexample_cross (exCross ![1, 1, 1]) ?_ ?_ rfl (fun _ => [y]) (by simp [exCross])
  · refine ⟨by simp [exCross], by simp [exCross], Or.inr (Or.inr rfl), by simp [exCross], by simp [exCross],
      by simp [exCross], by simpa [exCross] using ha, by simp [exCross, halfKs]⟩
  · intro f hf l hl v hv c
    simp only [exCross, List.mem_singleton] at hf
    subst hf
    simp only [halfKs, List.mem_singleton] at hl
    subst hl
    simp only [List.mem_singleton] at hv
    subst hv
    fin_cases c <;> simp

/-- A case in two dimensions. -/
example : skFast { same := true, weighted := false, skip := 1, nk := 1, frames := [⟨[![0, 1]], [![0, 1]], [], [],
    { k0 := ![1, 1], kgrid := [1], kvectors := [[![2, 1]]], koffset := 1 }⟩] } = .error .valueError := by
  apply C57_counterexample_2d _ _ (by simp)
  refine ⟨by simp, by simp, Or.inl rfl, by simp, by simp, by simp, ?_, by simp⟩
  intro f hf
  simp only [List.mem_singleton] at hf
  subst hf
  refine ⟨by norm_num, ?_⟩
  intro l hl v hv c
  simp only [List.mem_singleton] at hl
  subst hl
  simp only [List.mem_singleton] at hv
  subst hv
  fin_cases c <;> simp

end PP.Props
