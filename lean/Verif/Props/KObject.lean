import Verif.Model.KObject
import Verif.Lemmas.Sk
import Verif.Props.KShared
import Verif.Props.KCopy
import Verif.Props.CellVar
import Verif.Props.S4kt

/-!
# C147 to C150: life of a Fourier-space object, input files, report
-/

namespace PP.Props

open PP

set_option linter.unusedSectionVars false

variable {d : ℕ}

/-! ### Preliminaries -/

/-- What all steps preserve holds at the end. -/
theorem foldlM_ok_inv {α σ : Type} (Inv : σ → Prop) (g : σ → α → Py σ) (l : List α)
    (h : ∀ s a s', a ∈ l → Inv s → g s a = .ok s' → Inv s') {s r : σ} (hs : Inv s) (hr : l.foldlM g s = .ok r) :
    Inv r := by
  induction l generalizing s with
  | nil => rw [List.foldlM_nil] at hr; cases hr; exact hs
  | cons a l ih =>
    rw [List.foldlM_cons] at hr
    cases hg : g s a with
    | error e => rw [hg] at hr; cases hr
    | ok s' =>
      rw [hg] at hr
      exact ih (fun s a s' ha => h s a s' (List.mem_cons_of_mem _ ha)) (h s a s' (by simp) hs hg) hr

theorem rangeList_first {a n s : ℕ} (hs : 0 < s) (h : a < n) : rangeList a n s = a :: rangeList (a + s) n s := by
  unfold rangeList
  have e : (n - a + (s - 1)) / s = (n - (a + s) + (s - 1)) / s + 1 := by
    rw [← Nat.add_div_right _ hs]
    by_cases h1 : s ≤ n - a
    · congr 1; omega
    · have h2 : n - (a + s) = 0 := by omega
      rw [h2, Nat.div_eq_of_lt_le (k := 1) (by omega) (by omega), Nat.div_eq_of_lt_le (k := 1) (by omega) (by omega)]
  rw [e, List.range_succ_eq_map, List.map_cons, List.map_map]
  congr 1
  · simp
  · refine List.map_congr_left fun k _ => ?_
    simp only [Function.comp, Nat.succ_eq_add_one]
    ring

/-- A frame leaves the accumulators of the empty groups of wave-vectors as they are. -/
theorem skFrame_empty {o : SkObj d} {acc acc' : List SkAcc} {f : SkFrame d} (h : skFrame o acc f = .ok acc') :
    acc'.length = acc.length ∧ ∀ i, f.ks.kvectors.getD i [] = [] → acc'[i]? = acc[i]? := by
  unfold skFrame at h
  cases h0 : expoSphere ccis (fun _ => 0) f.ks.k0 f.ks.koffset.toNat f.pos0 with
  | error e => rw [h0] at h; cases h
  | ok t0 =>
    rw [h0] at h
    simp only [bind, Except.bind] at h
    cases h1 : secondTable o.same t0 f with
    | error e => rw [h1] at h; cases h
    | ok t1 =>
      rw [h1] at h
      simp only at h
      refine foldlM_ok_inv (fun a => a.length = acc.length ∧
        ∀ i, f.ks.kvectors.getD i [] = [] → a[i]? = acc[i]?) _ _ ?_ ⟨rfl, fun _ _ => rfl⟩ h
      rintro a ⟨l, k⟩ a' hk ⟨ha1, ha2⟩ hr
      have hk' : f.ks.kvectors[k]? = some l := by
        have := List.mem_zipIdx_iff_getElem?.1 hk
        simpa using this
      refine foldlM_ok_inv (fun a => a.length = acc.length ∧
        ∀ i, f.ks.kvectors.getD i [] = [] → a[i]? = acc[i]?) _ _ ?_ ⟨ha1, ha2⟩ hr
      rintro b v b' hv ⟨hb1, hb2⟩ hr
      cases h2 : skRho o.same t0 t1 (skWeight o.weighted f.w0) (skWeight o.weighted f.w1) v with
      | error e => rw [h2] at hr; cases hr
      | ok r =>
        rw [h2] at hr
        simp only at hr
        split_ifs at hr with hlt
        cases hr
        refine ⟨by simpa using hb1, fun i hi => ?_⟩
        have hne : k ≠ i := by
          rintro rfl
          rw [List.getD_eq_getElem?_getD, hk'] at hi
          simp only [Option.getD_some] at hi
          rw [hi] at hv
          cases hv
        rw [List.getElem?_modify, ← hb2 i hi]
        simp only [hne, if_false]
        cases b[i]? <;> rfl

/-- `_setup` returns at once if there is a grid. -/
theorem setup_returns {depth : ℕ} {pick : ℕ → List (KVec d) → ℕ → List (KVec d)} {p : KParams ℝ} {side : Vec d ℝ}
    {a : KAttrs d ℝ} (h : a.kgrid.isSome = true) : a.setup Real.sqrt Real.pi depth pick p 0 side = .ok a := by
  unfold KAttrs.setup
  rw [if_pos ⟨rfl, h⟩]

theorem read_ok {a : KAttrs d ℝ} {k0 : Vec d ℝ} (h : a.k0 = List.ofFn k0) :
    a.read = .ok { k0 := k0, kgrid := a.kgrid.getD [], kvectors := a.kvectors, koffset := a.koffset } := by
  unfold KAttrs.read
  have hg : ∀ c : Fin d, a.k0.getD (c : ℕ) 0 = k0 c := by
    intro c
    rw [h, List.getD_eq_getElem _ _ (by simp)]
    simp
  have hm := mapM_ok_map (f := fun j : Fin d => pyGet a.k0 (j : ℕ)) (g := k0) (l := List.finRange d) (fun c _ => by
    rw [h]
    unfold pyGet
    rw [List.getElem?_eq_getElem (by simp)]
    simp)
  rw [hm]
  simp only [bind, Except.bind, hg]
  rfl

theorem read_none {a : KAttrs d ℝ} (hd : 0 < d) (h : a.k0 = []) : a.read = .error .indexError := by
  unfold KAttrs.read
  obtain ⟨n, rfl⟩ : ∃ n, d = n + 1 := ⟨d - 1, by omega⟩
  rw [List.finRange_succ, List.mapM_cons, h]
  rfl

/-- A frame with the wave-vectors `ks`. -/
def addKs (ks : KState d ℝ) (f : CellFrame d) : SkFrame d := ⟨f.pos0, f.pos1, f.w0, f.w1, ks⟩

/-- The object for a constant cell with wave-vectors `ks`. -/
def constSk (o : SkChoices d) (fr : List (CellFrame d)) (ks : KState d ℝ) : SkObj d :=
  ⟨o.same, o.weighted, o.skip, ks.kgrid.length, fr.map (addKs ks)⟩

/-- The loop over frames of a constant cell. -/
theorem skLoop_const (o : SkChoices d) (fr : List (CellFrame d)) (a : KAttrs d ℝ) {ks : KState d ℝ} (hk : a.read = .ok ks)
    (is : List ℕ) (acc : List SkAcc) :
    is.foldlM (skStep o fr false) (acc, a) = (is.foldlM (fun acc i => do
      let f ← pyGet (constSk o fr ks).frames i
      skFrame (constSk o fr ks) acc f) acc).map fun r => (r, a) := by
  induction is generalizing acc with
  | nil => rfl
  | cons i is ih =>
    rw [List.foldlM_cons, List.foldlM_cons]
    have e : ∀ m F, skFrame ⟨o.same, o.weighted, o.skip, m, F⟩ = skFrame (constSk o fr ks) := fun _ _ => rfl
    have hs : skStep o fr false (acc, a) i = ((do
        let f ← pyGet (constSk o fr ks).frames i
        skFrame (constSk o fr ks) acc f) : Py (List SkAcc)).map fun r => (r, a) := by
      unfold skStep pyGet
      rw [show (constSk o fr ks).frames = fr.map (addKs ks) from rfl, List.getElem?_map]
      cases hf : fr[i]? with
      | none => rfl
      | some f =>
        simp only [bind, Except.bind, hk, Option.map_some, Bool.false_eq_true, if_false, e]
        generalize hx : skFrame (constSk o fr ks) acc (addKs ks f) = x
        rw [show (⟨f.pos0, f.pos1, f.w0, f.w1, ks⟩ : SkFrame d) = addKs ks f from rfl, hx]
        cases x <;> rfl
    rw [hs]
    cases ((do
        let f ← pyGet (constSk o fr ks).frames i
        skFrame (constSk o fr ks) acc f) : Py (List SkAcc)) with
    | error e => rfl
    | ok r => exact ih r

open Classical in
/-- `compute()` for a constant cell is the calculation with the wave-vectors of the first `_setup`. -/
theorem skComputeA_const (o : SkChoices d) {fr : List (CellFrame d)} {f0 : CellFrame d} (h0 : fr[0]? = some f0)
    (hc : isCellVariable (fr.map CellFrame.side) 1 = .ok false) {a a' : KAttrs d ℝ}
    (hs : a.setup Real.sqrt Real.pi o.depth o.pick o.params 0 f0.side = .ok a') {ks : KState d ℝ}
    (hk : a'.read = .ok ks) (hg : a'.kgrid.getD [] = ks.kgrid) :
    skComputeA o fr a = (skLegacy (constSk o fr ks)).map fun r => (ks.kgrid, r.1, a') := by
  unfold skComputeA skLegacy
  have hf : pyGet fr 0 = .ok f0 := by unfold pyGet; rw [h0]
  have e1 : fr.map (fun f => f.pos0.length) = (constSk o fr ks).frames.map fun f => f.pos0.length := by
    simp only [constSk, List.map_map]; rfl
  have e2 : fr.map (fun f => if o.same then f.pos0.length else f.pos1.length) =
      (constSk o fr ks).frames.map fun f => if (constSk o fr ks).same then f.pos0.length else f.pos1.length := by
    simp only [constSk, List.map_map]; rfl
  have e3 : fr.length = (constSk o fr ks).frames.length := by simp [constSk]
  simp only [hf, hs, hc, hg, bind, Except.bind, skLoop_const o fr a' hk, e1, e2, e3]
  have e4 : (constSk o fr ks).skip = o.skip := rfl
  have e5 : (constSk o fr ks).nk = ks.kgrid.length := rfl
  have e6 : (constSk o fr ks).weighted = o.weighted := rfl
  simp only [e4, e5, e6, ite_self]
  cases pyRange 0 (constSk o fr ks).frames.length o.skip with
  | error e => rfl
  | ok is =>
    simp only
    generalize is.foldlM (m := Py) _ (List.replicate ks.kgrid.length (⟨0, 0, 0, 0⟩ : SkAcc)) = x
    cases x with
    | error e => rfl
    | ok r =>
      simp only [Except.map]
      generalize meanNumber _ = x
      cases x with
      | error e => rfl
      | ok n0 =>
        simp only
        generalize meanNumber _ = x
        cases x with
        | error e => rfl
        | ok n1 =>
          simp only
          cases r.mapM (skNonorm o.weighted) with
          | error e => rfl
          | ok v =>
            simp only [hg, ite_self]
            rfl

/-- Mean of the norms of some wave-vectors. -/
noncomputable def meanNorm (l : List (Vec d ℝ)) : ℝ := (l.map fun v => √(∑ c, v c ^ 2)).sum / l.length

/-- The attributes fit together: the grid holds the mean norms of the wave-vectors. -/
def Fits (a : KAttrs d ℝ) (side : Vec d ℝ) : Prop :=
  a.k0 = List.ofFn (fun c => 2 * Real.pi / side c) ∧ a.kgrid = some (a.getKvectors.map meanNorm)

theorem npMean_kNorm (k0 : Vec d ℝ) (off : ℤ) (l : List (KVec d)) :
    npMean (l.map (kNorm Real.sqrt k0 off)) = meanNorm (l.map fun v c => k0 c * ((v c - off : ℤ) : ℝ)) := by
  unfold npMean meanNorm
  rw [List.length_map, List.length_map, List.map_map]
  congr 2
  refine List.map_congr_left fun v _ => ?_
  simp only [Function.comp, kNorm, sqrt_kSq, Spec.knorm]

theorem getKvectors_ofFn {a : KAttrs d ℝ} {k0 : Vec d ℝ} (h : a.k0 = List.ofFn k0) :
    a.getKvectors = a.kvectors.map fun l => l.map fun v c => k0 c * ((v c - a.koffset : ℤ) : ℝ) := by
  unfold KAttrs.getKvectors
  have hg : ∀ c : Fin d, a.k0.getD (c : ℕ) 0 = k0 c := by
    intro c
    rw [h, List.getD_eq_getElem _ _ (by simp)]
    simp
  simp only [hg]

theorem kSetup_fields {depth : ℕ} {pick : ℕ → List (KVec d) → ℕ → List (KVec d)} {p : KParams ℝ} {side : Vec d ℝ}
    {grid : Option (List ℝ)} {s : KState d ℝ} (h : kSetup Real.sqrt Real.pi depth pick p side grid = .ok s) :
    s.k0 = (fun c => 2 * Real.pi / side c) ∧
    s.kgrid = s.kvectors.map fun l => npMean (l.map (kNorm Real.sqrt s.k0 s.koffset)) := by
  unfold kSetup at h
  simp only [bind, Except.bind] at h
  cases hi : initialGrid p (smallestK Real.pi side) grid with
  | error e => rw [hi] at h; cases h
  | ok g =>
  rw [hi] at h
  simp only at h
  cases hg : setupGridSphere Real.sqrt (smallestK Real.pi side) g depth (List.replicate g.length p.dk) with
  | error e => rw [hg] at h; cases h
  | ok r =>
  rw [hg] at h
  simp only at h
  cases hm : r.1.zipIdx.mapM fun e => decimate pick p.nk e.2 e.1 with
  | error e => rw [hm] at h; cases h
  | ok kv =>
  rw [hm] at h
  cases h
  exact ⟨rfl, rfl⟩

/-- The attributes after `_setup` with result `s`. -/
def attrsOf (grid : Option (List ℝ)) (s : KState d ℝ) : KAttrs d ℝ :=
  ⟨grid.map fun _ => s.kgrid, some s.kgrid, grid.isSome, List.ofFn s.k0, s.kvectors, s.koffset⟩

theorem setup_new {depth : ℕ} {pick : ℕ → List (KVec d) → ℕ → List (KVec d)} {p : KParams ℝ} {side : Vec d ℝ}
    {i : ℕ} {a a' : KAttrs d ℝ} (hi : i = 0 → a.kgrid = none)
    (h : a.setup Real.sqrt Real.pi depth pick p i side = .ok a') :
    ∃ s, kSetup Real.sqrt Real.pi depth pick p side a.grid = .ok s ∧ a' = attrsOf a.grid s := by
  unfold KAttrs.setup at h
  have hn : ¬ (i = 0 ∧ a.kgrid.isSome = true) := by
    rintro ⟨h0, h1⟩
    rw [hi h0] at h1
    cases h1
  rw [if_neg hn] at h
  cases hs : kSetup Real.sqrt Real.pi depth pick p side a.grid with
  | error e => rw [hs] at h; cases h
  | ok s =>
    rw [hs] at h
    cases h
    exact ⟨s, rfl, rfl⟩

theorem setup_fits {depth : ℕ} {pick : ℕ → List (KVec d) → ℕ → List (KVec d)} {p : KParams ℝ} {side : Vec d ℝ}
    {i : ℕ} {a a' : KAttrs d ℝ} (hi : i = 0 → a.kgrid = none)
    (h : a.setup Real.sqrt Real.pi depth pick p i side = .ok a') : Fits a' side := by
  obtain ⟨s, hs, rfl⟩ := setup_new hi h
  obtain ⟨h1, h2⟩ := kSetup_fields hs
  refine ⟨by unfold attrsOf; rw [h1], ?_⟩
  rw [getKvectors_ofFn (a := attrsOf a.grid s) (k0 := s.k0) rfl]
  show some s.kgrid = _
  rw [h2, List.map_map]
  congr 1
  refine List.map_congr_left fun l _ => ?_
  rw [npMean_kNorm]
  rfl

theorem setKvectors_fits (a : KAttrs d ℝ) (side : Vec d ℝ) (kv : List (List (Vec d ℝ))) :
    Fits (a.setKvectors Real.sqrt Real.pi side kv) side := by
  have h0 : (a.setKvectors Real.sqrt Real.pi side kv).k0 = List.ofFn (fun c => 2 * Real.pi / side c) := rfl
  refine ⟨h0, ?_⟩
  rw [getKvectors_ofFn h0, List.map_map]
  show some (List.map _ _) = _
  congr 1
  refine List.map_congr_left fun l _ => ?_
  exact npMean_kNorm _ _ _

/-- Allowed wave-vectors given by the user are those of the object. -/
theorem setKvectors_get (a : KAttrs d ℝ) {side : Vec d ℝ} (hside : ∀ c, 0 < side c) {kv : List (List (Vec d ℝ))}
    (hkv : ∀ l ∈ kv, ∀ v ∈ l, ∀ c, ∃ n : ℤ, v c * side c = 2 * Real.pi * n) :
    (a.setKvectors Real.sqrt Real.pi side kv).getKvectors = kv := by
  have h0 : (a.setKvectors Real.sqrt Real.pi side kv).k0 = List.ofFn (fun c => 2 * Real.pi / side c) := rfl
  rw [getKvectors_ofFn h0]
  show List.map _ (List.map _ (List.map _ kv)) = kv
  rw [List.map_map, List.map_map]
  refine (List.map_congr_left (g := id) fun l hl => ?_).trans (List.map_id _)
  simp only [Function.comp, List.map_map, id]
  refine (List.map_congr_left (g := id) fun v hv => ?_).trans (List.map_id _)
  funext c
  obtain ⟨n, hn⟩ := hkv l hl v hv c
  have hpi := Real.pi_pos
  have hs := hside c
  have e : v c / (2 * Real.pi / side c) = n := by field_simp; linarith
  show 2 * Real.pi / side c * ((pyRound (v c / (2 * Real.pi / side c)) + _ - _ : ℤ) : ℝ) = v c
  rw [e, pyRound_int]
  have : (n + (a.setKvectors Real.sqrt Real.pi side kv).koffset -
    (a.setKvectors Real.sqrt Real.pi side kv).koffset : ℤ) = n := by ring
  rw [show (|minShift (kv.map fun l => l.map fun v c => pyRound (v c / smallestK Real.pi side c))| + 1) =
    (a.setKvectors Real.sqrt Real.pi side kv).koffset from rfl, this]
  field_simp
  linarith

/-! ### C147 -/

open Classical in
theorem constant_cell {fr : List (CellFrame d)} {f0 : CellFrame d} (h0 : fr[0]? = some f0)
    (hc : ∀ f ∈ fr, f.side = f0.side) : isCellVariable (fr.map CellFrame.side) 1 = .ok false := by
  have hne : fr.map CellFrame.side ≠ [] := by
    rintro h
    rw [List.map_eq_nil_iff] at h
    rw [h] at h0
    cases h0
  obtain ⟨b, hb, hiff⟩ := isCellVariable_iff hne 1
  cases b with
  | false => convert hb
  | true =>
    obtain ⟨i, -, h2, -, h4⟩ := hiff.1 rfl
    refine absurd ?_ h4
    rw [List.length_map] at h2
    rw [List.getElem?_map, List.getElem?_map, h0, List.getElem?_eq_getElem h2]
    simp only [Option.map_some]
    rw [hc _ (List.getElem_mem h2)]

/-- The attributes before `compute()` when the user has followed the ways that work: nothing, a grid passed to the
constructor, or wave-vectors set after construction. -/
def Prepared (side : Vec d ℝ) (a : KAttrs d ℝ) : Prop :=
  ∃ grid, a = KAttrs.new d grid ∨ ∃ kv, a = (KAttrs.new d grid).setKvectors Real.sqrt Real.pi side kv

theorem prepared_setup {side : Vec d ℝ} {a a' : KAttrs d ℝ} (ha : Prepared side a) {depth : ℕ}
    {pick : ℕ → List (KVec d) → ℕ → List (KVec d)} {p : KParams ℝ}
    (h : a.setup Real.sqrt Real.pi depth pick p 0 side = .ok a') : Fits a' side := by
  obtain ⟨grid, rfl | ⟨kv, rfl⟩⟩ := ha
  · exact setup_fits (fun _ => rfl) h
  · rw [setup_returns rfl] at h
    cases h
    exact setKvectors_fits _ _ _

theorem skLegacy_empty {o : SkObj d} {r : List ℝ × List ℝ} (h : skLegacy o = .ok r) :
    r.1.length = o.nk ∧ ∀ i < o.nk, ∃ f ∈ o.frames, f.ks.kvectors.getD i [] ≠ [] := by
  unfold skLegacy at h
  cases hr : pyRange 0 o.frames.length o.skip with
  | error e => rw [hr] at h; cases h
  | ok is =>
  rw [hr] at h
  simp only [bind, Except.bind] at h
  generalize hx : is.foldlM (m := Py) _ (List.replicate o.nk (⟨0, 0, 0, 0⟩ : SkAcc)) = x at h
  cases x with
  | error e => cases h
  | ok acc =>
  simp only at h
  have hinv : acc.length = o.nk ∧ ∀ i < o.nk, (∀ f ∈ o.frames, f.ks.kvectors.getD i [] = []) →
      acc[i]? = some ⟨0, 0, 0, 0⟩ := by
    refine foldlM_ok_inv (fun acc => acc.length = o.nk ∧ ∀ i < o.nk, (∀ f ∈ o.frames, f.ks.kvectors.getD i [] = []) →
      acc[i]? = some ⟨0, 0, 0, 0⟩) _ _ ?_ ?_ hx
    · rintro s i s' - ⟨h1, h2⟩ hs
      cases hf : pyGet o.frames i with
      | error e => rw [hf] at hs; cases hs
      | ok f =>
        rw [hf] at hs
        simp only at hs
        obtain ⟨g1, g2⟩ := skFrame_empty hs
        refine ⟨g1.trans h1, fun j hj he => ?_⟩
        have hfm : f ∈ o.frames := by
          unfold pyGet at hf
          cases hi : o.frames[i]? with
          | none => rw [hi] at hf; cases hf
          | some f' => rw [hi] at hf; cases hf; exact List.mem_of_getElem? hi
        rw [g2 j (he f hfm)]
        exact h2 j hj he
    · refine ⟨by simp, fun i hi _ => ?_⟩
      rw [List.getElem?_replicate, if_pos hi]
  generalize meanNumber _ = x at h
  cases x with
  | error e => cases h
  | ok n0 =>
  simp only at h
  generalize meanNumber _ = x at h
  cases x with
  | error e => cases h
  | ok n1 =>
  simp only at h
  cases hv : acc.mapM (skNonorm o.weighted) with
  | error e => rw [hv] at h; cases h
  | ok v =>
  rw [hv] at h
  cases h
  obtain ⟨hl, hget⟩ := mapM_ok_get hv
  refine ⟨by simp [hl, hinv.1], fun i hi => ?_⟩
  by_contra hcon
  push Not at hcon
  have h1 := hinv.2 i hi hcon
  have hia : i < acc.length := by rw [hinv.1]; exact hi
  rw [List.getElem?_eq_getElem hia] at h1
  have h2 := hget i hia (by omega)
  rw [Option.some.inj h1] at h2
  simp [skNonorm] at h2

/-- **C147**, the part that holds. In a cell that does not change, with no k grid, a k grid passed to the constructor or
wave-vectors set after construction: if `compute()` succeeds, each reported k is the mean norm of one group of
wave-vectors of the attribute `kvectors`, there is one value per k, no group is empty, and all wave-vectors are
compatible with the periodic cell. -/
theorem C147_wave_vectors_partial (o : SkChoices d) {fr : List (CellFrame d)} {f0 : CellFrame d} (h0 : fr[0]? = some f0)
    (hc : ∀ f ∈ fr, f.side = f0.side) (hside : ∀ c, 0 < f0.side c) {a : KAttrs d ℝ} (ha : Prepared f0.side a)
    {g v : List ℝ} {a' : KAttrs d ℝ} (h : skComputeA o fr a = .ok (g, v, a')) :
    g = a'.getKvectors.map meanNorm ∧ v.length = g.length ∧ (∀ l ∈ a'.getKvectors, l ≠ []) ∧
    ∀ l ∈ a'.getKvectors, ∀ k ∈ l, ∀ c, ∃ n : ℤ, k c * f0.side c = 2 * Real.pi * n := by
  have hf : pyGet fr 0 = .ok f0 := by unfold pyGet; rw [h0]
  cases hs : a.setup Real.sqrt Real.pi o.depth o.pick o.params 0 f0.side with
  | error e =>
    unfold skComputeA at h
    simp only [hf, hs, bind, Except.bind] at h
    cases h
  | ok b =>
    obtain ⟨hb1, hb2⟩ := prepared_setup ha hs
    have hread := read_ok hb1
    rw [skComputeA_const o h0 (constant_cell h0 hc) hs hread rfl] at h
    cases hl : skLegacy (constSk o fr ⟨fun c => 2 * Real.pi / f0.side c, b.kgrid.getD [], b.kvectors, b.koffset⟩) with
    | error e => rw [hl] at h; cases h
    | ok r =>
      rw [hl] at h
      cases h
      obtain ⟨g1, g2⟩ := skLegacy_empty hl
      have hlen : (constSk o fr ⟨fun c => 2 * Real.pi / f0.side c, a'.kgrid.getD [], a'.kvectors, a'.koffset⟩).nk = a'.kvectors.length := by
        show (a'.kgrid.getD []).length = _
        rw [hb2]
        simp [KAttrs.getKvectors]
      have hk := getKvectors_ofFn hb1
      refine ⟨by show a'.kgrid.getD [] = _; rw [hb2]; rfl, g1, ?_, ?_⟩
      · intro l hl'
        rw [hk] at hl'
        obtain ⟨l', hl'', rfl⟩ := List.mem_map.1 hl'
        obtain ⟨i, hi, rfl⟩ := List.getElem_of_mem hl''
        obtain ⟨f, hf, hne⟩ := g2 i (by rw [hlen]; exact hi)
        obtain ⟨f', -, rfl⟩ := List.mem_map.1 hf
        rw [show (addKs _ f').ks.kvectors = a'.kvectors from rfl, List.getD_eq_getElem _ _ hi] at hne
        simpa using hne
      · intro l hl' k hk' c
        rw [hk] at hl'
        obtain ⟨l', -, rfl⟩ := List.mem_map.1 hl'
        obtain ⟨w, -, rfl⟩ := List.mem_map.1 hk'
        refine ⟨w c - a'.koffset, ?_⟩
        have := (hside c).ne'
        field_simp

/-- **C147**: wave-vectors set after construction that are compatible with the cell are those used. -/
theorem C147_given_vectors_partial (o : SkChoices d) {fr : List (CellFrame d)} {f0 : CellFrame d}
    (h0 : fr[0]? = some f0) (hc : ∀ f ∈ fr, f.side = f0.side) (hside : ∀ c, 0 < f0.side c) {grid : Option (List ℝ)}
    {kv : List (List (Vec d ℝ))} (hkv : ∀ l ∈ kv, ∀ v ∈ l, ∀ c, ∃ n : ℤ, v c * f0.side c = 2 * Real.pi * n)
    {g v : List ℝ} {a' : KAttrs d ℝ}
    (h : skComputeA o fr ((KAttrs.new d grid).setKvectors Real.sqrt Real.pi f0.side kv) = .ok (g, v, a')) :
    a'.getKvectors = kv ∧ g = kv.map meanNorm := by
  have hs := setup_returns (d := d) (depth := o.depth) (pick := o.pick) (p := o.params) (side := f0.side)
    (a := (KAttrs.new d grid).setKvectors Real.sqrt Real.pi f0.side kv) rfl
  have hread := read_ok (setKvectors_fits (KAttrs.new d grid) f0.side kv).1
  have h' := h
  rw [skComputeA_const o h0 (constant_cell h0 hc) hs hread rfl] at h'
  have ha : a' = (KAttrs.new d grid).setKvectors Real.sqrt Real.pi f0.side kv := by
    generalize skLegacy _ = x at h'
    cases x with
    | error e => cases h'
    | ok r => cases h'; rfl
  have hk : a'.getKvectors = kv := by rw [ha]; exact setKvectors_get _ hside hkv
  refine ⟨hk, ?_⟩
  rw [(C147_wave_vectors_partial o h0 hc hside ⟨grid, Or.inr ⟨kv, rfl⟩⟩ h).1, hk]

/-- **C147**: the grid reported after wave-vectors have been assigned is that of their norms, also if the cell changes. -/
theorem C147_given_grid (o : SkChoices d) {fr : List (CellFrame d)} {f0 : CellFrame d}
    (h0 : fr[0]? = some f0) (hside : ∀ c, 0 < f0.side c) {grid : Option (List ℝ)}
    {kv : List (List (Vec d ℝ))} (hkv : ∀ l ∈ kv, ∀ v ∈ l, ∀ c, ∃ n : ℤ, v c * f0.side c = 2 * Real.pi * n)
    {g v : List ℝ} {a' : KAttrs d ℝ}
    (h : skComputeA o fr ((KAttrs.new d grid).setKvectors Real.sqrt Real.pi f0.side kv) = .ok (g, v, a')) :
    g = kv.map meanNorm := by
  have hs := setup_returns (d := d) (depth := o.depth) (pick := o.pick) (p := o.params) (side := f0.side)
    (a := (KAttrs.new d grid).setKvectors Real.sqrt Real.pi f0.side kv) rfl
  have hf := (setKvectors_fits (KAttrs.new d grid) f0.side kv).2
  have hk := setKvectors_get (KAttrs.new d grid) hside hkv
  have hal : ((KAttrs.new d grid).setKvectors Real.sqrt Real.pi f0.side kv).aliased = false := rfl
  generalize (KAttrs.new d grid).setKvectors Real.sqrt Real.pi f0.side kv = a at *
  unfold skComputeA at h
  have hp : pyGet fr 0 = .ok f0 := by unfold pyGet; rw [h0]
  rw [hp] at h
  simp only [bind, Except.bind] at h
  rw [hs] at h
  simp only at h
  cases h1 : isCellVariable (fr.map CellFrame.side) 1 with
  | error e => rw [h1] at h; cases h
  | ok vc =>
    rw [h1] at h
    simp only at h
    cases h2 : pyRange 0 fr.length o.skip with
    | error e => rw [h2] at h; cases h
    | ok is =>
      rw [h2] at h
      simp only at h
      generalize List.foldlM (m := Except PyErr) _ _ _ = x at h
      cases x with
      | error e => cases h
      | ok st =>
        simp only at h
        generalize meanNumber _ = x at h
        cases x with
        | error e => cases h
        | ok n0 =>
          simp only at h
          generalize meanNumber _ = x at h
          cases x with
          | error e => cases h
          | ok n1 =>
            simp only at h
            generalize List.mapM (m := Except PyErr) _ _ = x at h
            cases x with
            | error e => cases h
            | ok w =>
              simp only [hal] at h
              cases h
              rw [hf, hk]
              rfl

/-- **C147**: `compute()` succeeds with wave-vectors assigned to `kvectors`, in a constant cell, if along with each of them
its opposite is given, or its components are at most the smallest wave-vector. -/
theorem C147_given_computes_partial (o : SkChoices d) (hskip : 0 < o.skip) (hsame : o.same = true)
    {fr : List (CellFrame d)} {f0 : CellFrame d}
    (h0 : fr[0]? = some f0) (hc : ∀ f ∈ fr, f.side = f0.side) (hside : ∀ c, 0 < f0.side c)
    (hpos : ∀ f ∈ fr, f.pos0 ≠ [] ∧ f.pos1 = f.pos0 ∧ f.w1 = f.w0) {grid : Option (List ℝ)}
    {kv : List (List (Vec d ℝ))} (hkv : ∀ l ∈ kv, ∀ v ∈ l, ∀ c, ∃ n : ℤ, v c * f0.side c = 2 * Real.pi * n)
    (hne : ∀ l ∈ kv, l ≠ [])
    (hmax : ∀ l ∈ kv, ∀ v ∈ l, (∀ c, v c * f0.side c ≤ 2 * Real.pi) ∨ ∃ l' ∈ kv, -v ∈ l') :
    ∃ r, skComputeA o fr ((KAttrs.new d grid).setKvectors Real.sqrt Real.pi f0.side kv) = .ok r := by
  have hpi := Real.pi_pos
  have hs := setup_returns (d := d) (depth := o.depth) (pick := o.pick) (p := o.params) (side := f0.side)
    (a := (KAttrs.new d grid).setKvectors Real.sqrt Real.pi f0.side kv) rfl
  have hread := read_ok (setKvectors_fits (KAttrs.new d grid) f0.side kv).1
  rw [skComputeA_const o h0 (constant_cell h0 hc) hs hread rfl]
  set a := (KAttrs.new d grid).setKvectors Real.sqrt Real.pi f0.side kv with ha
  have hint : ∀ v : Vec d ℝ, ∀ c, ∀ n : ℤ, v c * f0.side c = 2 * Real.pi * n →
      pyRound (v c / smallestK Real.pi f0.side c) = n := by
    intro v c n hn
    have e : v c / smallestK Real.pi f0.side c = (n : ℝ) := by
      unfold smallestK
      have := (hside c).ne'
      field_simp
      linarith
    rw [e, pyRound_int]
  set r : List (List (KVec d)) := kv.map fun l => l.map fun v c => pyRound (v c / smallestK Real.pi f0.side c) with hr
  have hoff : a.koffset = |minShift r| + 1 := rfl
  have hvec : a.kvectors = r.map fun l => l.map fun v c => v c + (|minShift r| + 1) := rfl
  obtain ⟨m1, m2, -⟩ := minShift_spec r
  have habs : |minShift r| = -minShift r := abs_of_nonpos m1
  have hallow : Allowed (⟨fun c => 2 * Real.pi / f0.side c, a.kgrid.getD [], a.kvectors, a.koffset⟩ : KState d ℝ) := by
    refine ⟨by show 1 ≤ a.koffset; rw [hoff]; have := abs_nonneg (minShift r); omega, ?_⟩
    intro l hl w hw c
    change l ∈ a.kvectors at hl
    show 0 ≤ w c ∧ w c ≤ 2 * a.koffset
    rw [hvec] at hl
    obtain ⟨l1, hl1, rfl⟩ := List.mem_map.1 hl
    obtain ⟨w1, hw1, rfl⟩ := List.mem_map.1 hw
    have low := m2 l1 hl1 w1 hw1 c
    obtain ⟨l2, hl2, rfl⟩ := List.mem_map.1 hl1
    obtain ⟨v, hv, rfl⟩ := List.mem_map.1 hw1
    obtain ⟨n, hn⟩ := hkv l2 hl2 v hv c
    have hup : n ≤ |minShift r| + 1 := by
      rcases hmax l2 hl2 v hv with h | ⟨l', hl', hv'⟩
      · have h2 := h c
        rw [hn] at h2
        have : (n : ℝ) ≤ 1 := by
          by_contra hcon
          push Not at hcon
          nlinarith
        have : n ≤ 1 := by exact_mod_cast this
        have := abs_nonneg (minShift r)
        omega
      · have := m2 _ (List.mem_map_of_mem hl') _ (List.mem_map_of_mem hv') c
        rw [hint (-v) c (-n) (by simp only [Pi.neg_apply]; push_cast; linarith)] at this
        omega
    simp only [hint v c n hn] at low ⊢
    rw [hoff]
    omega
  have hreg : SkRegular (constSk o fr ⟨fun c => 2 * Real.pi / f0.side c, a.kgrid.getD [], a.kvectors, a.koffset⟩) := by
    have hfr : ∀ f ∈ (constSk o fr ⟨fun c => 2 * Real.pi / f0.side c, a.kgrid.getD [], a.kvectors, a.koffset⟩).frames,
        ∃ f' ∈ fr, f = addKs ⟨fun c => 2 * Real.pi / f0.side c, a.kgrid.getD [], a.kvectors, a.koffset⟩ f' := by
      intro f hf
      obtain ⟨f', hf', rfl⟩ := List.mem_map.1 hf
      exact ⟨f', hf', rfl⟩
    refine ⟨?_, hskip, Or.inl hsame, ?_, ?_, ?_, ?_, ?_⟩
    · rintro h
      have : fr = [] := by simpa [constSk] using h
      rw [this] at h0
      cases h0
    · rintro - f hf
      obtain ⟨f', hf', rfl⟩ := hfr f hf
      exact (hpos f' hf').2
    · intro f hf
      obtain ⟨f', hf', rfl⟩ := hfr f hf
      exact (hpos f' hf').1
    · intro f hf
      obtain ⟨f', hf', rfl⟩ := hfr f hf
      show f'.pos1 ≠ []
      rw [(hpos f' hf').2.1]
      exact (hpos f' hf').1
    · intro f hf
      obtain ⟨f', hf', rfl⟩ := hfr f hf
      exact hallow
    · intro f hf
      obtain ⟨f', hf', rfl⟩ := hfr f hf
      refine ⟨?_, ?_⟩
      · show a.kvectors.length = (a.kgrid.getD []).length
        show a.kvectors.length = (a.kvectors.map _).length
        rw [List.length_map]
      · intro l hl
        change l ∈ a.kvectors at hl
        rw [hvec] at hl
        obtain ⟨l1, hl1, rfl⟩ := List.mem_map.1 hl
        obtain ⟨l2, hl2, rfl⟩ := List.mem_map.1 hl1
        simpa using hne l2 hl2
  rw [skLegacy_eq _ hreg]
  exact ⟨_, rfl⟩

/-- A non-trivial case: one group of two wave-vectors of norms 4π/5 and one of the smallest norm. -/
example : ∃ v a', skComputeA ⟨0, fun _ l n => l.take n, ⟨2, 1 / 10, -1, 10, 20⟩, true, false, 1⟩
      [⟨![5, 6, 7], [![0, 1, 2], ![1, 1, 1]], [![0, 1, 2], ![1, 1, 1]], [], []⟩]
      ((KAttrs.new 3 none).setKvectors Real.sqrt Real.pi ![5, 6, 7]
        [[![4 * Real.pi / 5, 0, 0], ![-(4 * Real.pi / 5), 0, 0]], [![0, 0, 2 * Real.pi / 7]]]) =
        .ok ([4 * Real.pi / 5, 2 * Real.pi / 7], v, a') := by
  have hpi := Real.pi_pos
  have hside : ∀ c, 0 < (![5, 6, 7] : Vec 3 ℝ) c := by intro c; fin_cases c <;> norm_num
  have hkv : ∀ l ∈ ([[![4 * Real.pi / 5, 0, 0], ![-(4 * Real.pi / 5), 0, 0]], [![0, 0, 2 * Real.pi / 7]]] :
      List (List (Vec 3 ℝ))), ∀ v ∈ l, ∀ c, ∃ n : ℤ, v c * (![5, 6, 7] : Vec 3 ℝ) c = 2 * Real.pi * n := by
    intro l hl v hv c
    simp only [List.mem_cons, List.not_mem_nil, or_false] at hl
    rcases hl with rfl | rfl
    · simp only [List.mem_cons, List.not_mem_nil, or_false] at hv
      rcases hv with rfl | rfl
      · fin_cases c
        · exact ⟨2, by show 4 * Real.pi / 5 * 5 = _; push_cast; ring⟩
        · exact ⟨0, by simp⟩
        · exact ⟨0, by simp⟩
      · fin_cases c
        · exact ⟨-2, by show -(4 * Real.pi / 5) * 5 = _; push_cast; ring⟩
        · exact ⟨0, by simp⟩
        · exact ⟨0, by simp⟩
    · simp only [List.mem_cons, List.not_mem_nil, or_false] at hv
      subst hv
      fin_cases c
      · exact ⟨0, by simp⟩
      · exact ⟨0, by simp⟩
      · exact ⟨1, by show 2 * Real.pi / 7 * 7 = _; push_cast; ring⟩
  obtain ⟨⟨g, v, a'⟩, h⟩ := C147_given_computes_partial
    (⟨0, fun _ l n => l.take n, ⟨2, 1 / 10, -1, 10, 20⟩, true, false, 1⟩ : SkChoices 3) one_pos rfl
    (fr := [⟨![5, 6, 7], [![0, 1, 2], ![1, 1, 1]], [![0, 1, 2], ![1, 1, 1]], [], []⟩])
    (f0 := ⟨![5, 6, 7], [![0, 1, 2], ![1, 1, 1]], [![0, 1, 2], ![1, 1, 1]], [], []⟩) rfl (by simp) hside (by simp)
    (grid := none) hkv (by simp) (by
      intro l hl v hv
      simp only [List.mem_cons, List.not_mem_nil, or_false] at hl
      rcases hl with rfl | rfl
      · simp only [List.mem_cons, List.not_mem_nil, or_false] at hv
        right
        refine ⟨[![4 * Real.pi / 5, 0, 0], ![-(4 * Real.pi / 5), 0, 0]], by simp, ?_⟩
        rcases hv with rfl | rfl <;> simp
      · simp only [List.mem_cons, List.not_mem_nil, or_false] at hv
        subst hv
        left
        intro c
        fin_cases c
        · show 0 * 5 ≤ 2 * Real.pi; linarith
        · show 0 * 6 ≤ 2 * Real.pi; linarith
        · show 2 * Real.pi / 7 * 7 ≤ 2 * Real.pi; linarith)
  obtain ⟨-, hg⟩ := C147_given_vectors_partial
    (⟨0, fun _ l n => l.take n, ⟨2, 1 / 10, -1, 10, 20⟩, true, false, 1⟩ : SkChoices 3)
    (f0 := ⟨![5, 6, 7], [![0, 1, 2], ![1, 1, 1]], [![0, 1, 2], ![1, 1, 1]], [], []⟩) rfl (by simp) hside hkv h
  refine ⟨v, a', ?_⟩
  rw [h, hg]
  have e1 : √((4 * Real.pi / 5) ^ 2) = 4 * Real.pi / 5 := Real.sqrt_sq (by positivity)
  have e2 : √((2 * Real.pi / 7) ^ 2) = 2 * Real.pi / 7 := Real.sqrt_sq (by positivity)
  have q : [[![4 * Real.pi / 5, 0, 0], ![-(4 * Real.pi / 5), 0, 0]], [![0, 0, 2 * Real.pi / 7]]].map meanNorm =
      [4 * Real.pi / 5, 2 * Real.pi / 7] := by
    simp [meanNorm, Fin.sum_univ_three, e1, e2]
  rw [q]

/-- **C147**: with a non-negative k grid passed to the constructor, in two and three dimensions, `compute()` succeeds
(with enough recursion depth), with as many values as points of the grid. -/
theorem C147_constructor_partial {pick : ℕ → List (KVec d) → ℕ → List (KVec d)} (hpick : IsSample pick)
    (hd : d = 2 ∨ d = 3) {p : KParams ℝ} (hnk : 1 ≤ p.nk) (hdk : 0 < p.dk) {skip : ℕ} (hskip : 0 < skip)
    {fr : List (CellFrame d)} {f0 : CellFrame d} (h0 : fr[0]? = some f0)
    (hc : ∀ f ∈ fr, f.side = f0.side) (hside : ∀ c, 0 < f0.side c)
    (hpos : ∀ f ∈ fr, f.pos0 ≠ [] ∧ f.pos1 = f.pos0 ∧ f.w1 = f.w0) {g : List ℝ} (hg : ∀ x ∈ g, 0 ≤ x) (hne : g ≠ [])
    (weighted : Bool) :
    ∃ depth r, skComputeA ⟨depth, pick, p, true, weighted, skip⟩ fr (KAttrs.new d (some g)) = .ok r ∧
      r.1.length = g.length ∧ r.2.1.length = g.length := by
  have hperm : (pySorted g).Perm g := List.perm_insertionSort _ _
  have hsort : pySorted g ≠ [] := by
    intro h
    rw [h] at hperm
    exact hne (List.nil_perm.1 hperm)
  have hreq : initialGrid p (smallestK Real.pi f0.side) (some g) = .ok (pySorted g) := by
    unfold initialGrid
    cases hs : pySorted g with
    | nil => exact absurd hs hsort
    | cons a r =>
      have : 0 ≤ a := hg a (hperm.subset (by rw [hs]; simp))
      simp only [hs, if_neg (not_lt.2 this)]
  have hnn : ∀ i < (pySorted g).length, 0 ≤ (pySorted g).getD i 0 := by
    intro i hi
    rw [List.getD_eq_getElem _ _ hi]
    exact hg _ (hperm.subset (List.getElem_mem _))
  obtain ⟨depth, s, hs⟩ := kSetup_exists (pick := pick) hd (by omega) hdk hside hreq hsort hnn
  obtain ⟨hk0, hl1, hl2, dk, -, hsel⟩ := setup_selection hpick hnk hdk.le hside hs hreq hnn
  have hset : (KAttrs.new d (some g)).setup Real.sqrt Real.pi depth pick p 0 f0.side = .ok (attrsOf (some g) s) := by
    unfold KAttrs.setup
    rw [if_neg (by simp [KAttrs.new])]
    show (kSetup Real.sqrt Real.pi depth pick p f0.side (some g) >>= _) = _
    rw [hs]
    rfl
  have hread : (attrsOf (some g) s).read = .ok s := read_ok (a := attrsOf (some g) s) (k0 := s.k0) rfl
  refine ⟨depth, (s.kgrid, (skLegacy (constSk (⟨depth, pick, p, true, weighted, skip⟩ : SkChoices d) fr s)).toOption.getD
    ([], []) |>.1, attrsOf (some g) s), ?_⟩
  rw [skComputeA_const (⟨depth, pick, p, true, weighted, skip⟩ : SkChoices d) h0 (constant_cell h0 hc) hset hread rfl]
  have hreg : SkRegular (constSk (⟨depth, pick, p, true, weighted, skip⟩ : SkChoices d) fr s) := by
    have hfr : ∀ f ∈ (constSk (⟨depth, pick, p, true, weighted, skip⟩ : SkChoices d) fr s).frames,
        ∃ f' ∈ fr, f = addKs s f' := by
      intro f hf
      obtain ⟨f', hf', rfl⟩ := List.mem_map.1 hf
      exact ⟨f', hf', rfl⟩
    refine ⟨?_, hskip, Or.inl rfl, ?_, ?_, ?_, ?_, ?_⟩
    · rintro h
      have : fr = [] := by simpa [constSk] using h
      rw [this] at h0
      cases h0
    · rintro - f hf
      obtain ⟨f', hf', rfl⟩ := hfr f hf
      exact (hpos f' hf').2
    · intro f hf
      obtain ⟨f', hf', rfl⟩ := hfr f hf
      exact (hpos f' hf').1
    · intro f hf
      obtain ⟨f', hf', rfl⟩ := hfr f hf
      show f'.pos1 ≠ []
      rw [(hpos f' hf').2.1]
      exact (hpos f' hf').1
    · intro f hf
      obtain ⟨f', hf', rfl⟩ := hfr f hf
      have hpos0 : 0 < (pySorted g).length := List.length_pos_iff.2 hsort
      refine ⟨(hsel 0 hpos0).2.2.2.2.2.2.2.2, ?_⟩
      intro l hl v hv c
      change l ∈ s.kvectors at hl
      obtain ⟨i, hi, rfl⟩ := List.getElem_of_mem hl
      have hi' : i < (pySorted g).length := by rw [← hl2]; exact hi
      have := (hsel i hi').2.2.2.2.2.2.2.1 v (by rw [List.getD_eq_getElem _ _ hi]; exact hv) c
      show 0 ≤ v c ∧ v c ≤ 2 * s.koffset
      omega
    · intro f hf
      obtain ⟨f', hf', rfl⟩ := hfr f hf
      refine ⟨by show s.kvectors.length = s.kgrid.length; omega, ?_⟩
      intro l hl
      change l ∈ s.kvectors at hl
      obtain ⟨i, hi, rfl⟩ := List.getElem_of_mem hl
      have hi' : i < (pySorted g).length := by rw [← hl2]; exact hi
      have := (hsel i hi').2.1
      rwa [List.getD_eq_getElem _ _ hi] at this
  rw [skLegacy_eq _ hreg]
  have hlen : s.kgrid.length = g.length := by rw [hl1, hperm.length_eq]
  refine ⟨rfl, hlen, ?_⟩
  show (List.map _ (List.range s.kgrid.length)).length = _
  rw [List.length_map, List.length_range]
  exact hlen

/-- A non-trivial case: two frames of two particles in three dimensions, a k grid of three points. -/
example : ∃ depth r, skComputeA ⟨depth, fun _ l n => l.take n, ⟨2, 1 / 10, -1, 10, 20⟩, true, false, 1⟩
      [⟨![5, 6, 7], [![0, 1, 2], ![1, 1, 1]], [![0, 1, 2], ![1, 1, 1]], [], []⟩,
       ⟨![5, 6, 7], [![0, 2, 2], ![1, 3, 1]], [![0, 2, 2], ![1, 3, 1]], [], []⟩]
      (KAttrs.new 3 (some [3, 2, 3])) = .ok r ∧ r.1 = r.2.2.getKvectors.map meanNorm ∧ r.1.length = 3 := by
  have hside : ∀ c, 0 < (![5, 6, 7] : Vec 3 ℝ) c := by intro c; fin_cases c <;> norm_num
  obtain ⟨depth, r, h, h1, -⟩ := C147_constructor_partial isSample_take (Or.inr rfl) (p := ⟨2, 1 / 10, -1, 10, 20⟩)
    (by norm_num) (by norm_num) (skip := 1) one_pos
    (fr := [⟨![5, 6, 7], [![0, 1, 2], ![1, 1, 1]], [![0, 1, 2], ![1, 1, 1]], [], []⟩,
       ⟨![5, 6, 7], [![0, 2, 2], ![1, 3, 1]], [![0, 2, 2], ![1, 3, 1]], [], []⟩])
    (f0 := ⟨![5, 6, 7], [![0, 1, 2], ![1, 1, 1]], [![0, 1, 2], ![1, 1, 1]], [], []⟩) rfl (by simp) hside (by simp)
    (g := [3, 2, 3]) (by intro x hx; simp at hx; rcases hx with rfl | rfl | rfl <;> norm_num) (by simp) false
  refine ⟨depth, r, h, ?_, h1⟩
  obtain ⟨g, v, a'⟩ := r
  exact (C147_wave_vectors_partial _ rfl (by simp) hside ⟨_, Or.inl rfl⟩ h).1

open Classical in
/-- **C147** is false: a k grid assigned to `kgrid` after construction, as described in the documentation of the
constructor, is never used. `compute()` of the structure factor raises an exception whatever the trajectory and the
grid; so do the intermediate scattering functions unless there are no particles, or no frames. -/
theorem C147_counterexample_kgrid (hd : 0 < d) (grid : Option (List ℝ)) (g : List ℝ) :
    (∀ (o : SkChoices d) (fr : List (CellFrame d)) r, skComputeA o fr ((KAttrs.new d grid).setKgrid g) ≠ .ok r) ∧
    (∀ (o : FsObj d) depth pick p side, (∀ f ∈ o.pos, f ≠ []) →
      ∀ r, fsComputeA o depth pick p side ((KAttrs.new d grid).setKgrid g) ≠ .ok r) ∧
    (∀ (o : FkObj d) depth pick p side, o.pos0 ≠ [] →
      ∀ r, fkComputeA o depth pick p side ((KAttrs.new d grid).setKgrid g) ≠ .ok r) := by
  have hread : ((KAttrs.new d grid).setKgrid g).read = .error .indexError := read_none hd rfl
  refine ⟨?_, ?_, ?_⟩
  · intro o fr r h
    unfold skComputeA at h
    cases hf : pyGet fr 0 with
    | error e => rw [hf] at h; cases h
    | ok f0 =>
    rw [hf] at h
    simp only [bind, Except.bind] at h
    rw [setup_returns (a := (KAttrs.new d grid).setKgrid g) rfl] at h
    simp only at h
    cases hvc : isCellVariable (fr.map CellFrame.side) 1 with
    | error e => rw [hvc] at h; cases h
    | ok vc =>
    rw [hvc] at h
    simp only at h
    have h0 : fr[0]? = some f0 := by
      unfold pyGet at hf
      cases hi : fr[0]? with
      | none => rw [hi] at hf; cases hf
      | some f => rw [hi] at hf; cases hf; rfl
    have hlen : 0 < fr.length := by
      by_contra hcon
      have : fr = [] := List.length_eq_zero_iff.1 (by omega)
      rw [this] at h0
      cases h0
    by_cases hskip : o.skip = 0
    · have : pyRange 0 fr.length o.skip = .error .valueError := by unfold pyRange; rw [if_pos hskip]
      rw [this] at h
      cases h
    · obtain ⟨is, his⟩ : ∃ is, pyRange 0 fr.length o.skip = .ok (0 :: is) := by
        unfold pyRange
        rw [if_neg hskip, rangeList_first (by omega) hlen]
        exact ⟨_, rfl⟩
      rw [his] at h
      simp only [List.foldlM_cons] at h
      have hstep : ∀ acc, skStep o fr vc (acc, (KAttrs.new d grid).setKgrid g) 0 = .error .indexError := by
        intro acc
        unfold skStep
        rw [hf]
        simp only [bind, Except.bind]
        rw [setup_returns (a := (KAttrs.new d grid).setKgrid g) rfl]
        cases vc <;> simp [hread]
      rw [hstep] at h
      cases h
  · intro o depth pick p side hne r h
    unfold fsComputeA at h
    rw [setup_returns (a := (KAttrs.new d grid).setKgrid g) rfl] at h
    simp only [bind, Except.bind] at h
    cases hN : fsNumber o.pos with
    | error e => rw [hN] at h; cases h
    | ok N =>
      rw [hN] at h
      simp only at h
      have hN0 : N ≠ 0 := by
        unfold fsNumber at hN
        cases hp : o.pos with
        | nil => rw [hp] at hN; cases hN
        | cons f l =>
          rw [hp] at hN
          simp only at hN
          split_ifs at hN
          cases hN
          exact fun h0 => hne f (by rw [hp]; simp) (List.length_eq_zero_iff.1 h0)
      rw [if_neg hN0, hread] at h
      cases h
  · intro o depth pick p side hne r h
    unfold fkComputeA at h
    rw [setup_returns (a := (KAttrs.new d grid).setKgrid g) rfl] at h
    simp only [bind, Except.bind] at h
    rw [if_neg hne, hread] at h
    cases h

/-- What each successful step implies holds for all elements. -/
theorem foldlM_ok_all {α σ : Type} (Inv : σ → Prop) (Q : α → Prop) (g : σ → α → Py σ) (l : List α)
    (h : ∀ s a s', a ∈ l → Inv s → g s a = .ok s' → Inv s' ∧ Q a) {s r : σ} (hs : Inv s) (hr : l.foldlM g s = .ok r) :
    ∀ a ∈ l, Q a := by
  induction l generalizing s with
  | nil => intro a ha; cases ha
  | cons a l ih =>
    rw [List.foldlM_cons] at hr
    cases hg : g s a with
    | error e => rw [hg] at hr; cases hr
    | ok s' =>
      rw [hg] at hr
      obtain ⟨h1, h2⟩ := h s a s' (by simp) hs hg
      have := ih (fun s a s' ha => h s a s' (List.mem_cons_of_mem _ ha)) h1 hr
      intro b hb
      rcases List.mem_cons.1 hb with rfl | hb
      · exact h2
      · exact this b hb

/-- There must be an accumulator for each group of wave-vectors. -/
theorem skFrame_room {o : SkObj d} {acc acc' : List SkAcc} {f : SkFrame d} (h : skFrame o acc f = .ok acc')
    (hne : ∀ l ∈ f.ks.kvectors, l ≠ []) : f.ks.kvectors.length ≤ acc.length := by
  unfold skFrame at h
  cases h0 : expoSphere ccis (fun _ => 0) f.ks.k0 f.ks.koffset.toNat f.pos0 with
  | error e => rw [h0] at h; cases h
  | ok t0 =>
    rw [h0] at h
    simp only [bind, Except.bind] at h
    cases h1 : secondTable o.same t0 f with
    | error e => rw [h1] at h; cases h
    | ok t1 =>
      rw [h1] at h
      simp only at h
      have key : ∀ e ∈ f.ks.kvectors.zipIdx, e.2 < acc.length := by
        refine foldlM_ok_all (fun a : List SkAcc => a.length = acc.length) (fun e => e.2 < acc.length) _ _ ?_ rfl h
        rintro a ⟨l, k⟩ a' hk ha hr
        have hl : l ≠ [] := hne l (List.fst_mem_of_mem_zipIdx hk)
        constructor
        · refine foldlM_ok_inv (fun a : List SkAcc => a.length = acc.length) _ _ ?_ ha hr
          intro b v b' _ hb hb'
          cases h2 : skRho o.same t0 t1 (skWeight o.weighted f.w0) (skWeight o.weighted f.w1) v with
          | error e => rw [h2] at hb'; cases hb'
          | ok r =>
            rw [h2] at hb'
            simp only at hb'
            split_ifs at hb' with hlt
            cases hb'
            simpa using hb
        · obtain ⟨v, hv⟩ := List.exists_mem_of_ne_nil l hl
          refine foldlM_ok_all (fun a : List SkAcc => a.length = acc.length) (fun _ => k < acc.length) _ _ ?_ ha hr v hv
          intro b v b' _ hb hb'
          cases h2 : skRho o.same t0 t1 (skWeight o.weighted f.w0) (skWeight o.weighted f.w1) v with
          | error e => rw [h2] at hb'; cases hb'
          | ok r =>
            rw [h2] at hb'
            simp only at hb'
            split_ifs at hb' with hlt
            cases hb'
            exact ⟨by simpa using hb, by omega⟩
      by_contra hcon
      have hi : acc.length < f.ks.kvectors.length := by omega
      have := key (f.ks.kvectors[acc.length], acc.length) (List.mem_zipIdx_iff_getElem?.2 (by simp [hi]))
      simp at this

theorem setupGridSphere_ne {k0 : Vec d ℝ} {kgrid : List ℝ} {depth : ℕ} {dk : List ℝ}
    {r : List (List (KVec d)) × ℤ × List ℝ} (h : setupGridSphere Real.sqrt k0 kgrid depth dk = .ok r) :
    ∀ l ∈ r.1, l ≠ [] := by
  induction depth generalizing dk with
  | zero => cases h
  | succ n ih =>
    rw [setupGridSphere] at h
    cases hf : fillShells Real.sqrt k0 kgrid dk with
    | error e => rw [hf] at h; cases h
    | ok q =>
      rw [hf] at h
      simp only [bind, Except.bind] at h
      split_ifs at h with ha
      · cases h
        intro l hl
        have := List.all_eq_true.1 ha l hl
        simpa using this
      · exact ih h

/-- All groups have wave-vectors after `_setup`. -/
theorem kSetup_ne {depth : ℕ} {pick : ℕ → List (KVec d) → ℕ → List (KVec d)} (hpick : IsSample pick) {p : KParams ℝ}
    (hnk : 1 ≤ p.nk) {side : Vec d ℝ} {grid : Option (List ℝ)} {s : KState d ℝ}
    (h : kSetup Real.sqrt Real.pi depth pick p side grid = .ok s) : ∀ l ∈ s.kvectors, l ≠ [] := by
  unfold kSetup at h
  simp only [bind, Except.bind] at h
  cases hi : initialGrid p (smallestK Real.pi side) grid with
  | error e => rw [hi] at h; cases h
  | ok g =>
  rw [hi] at h
  simp only at h
  cases hg : setupGridSphere Real.sqrt (smallestK Real.pi side) g depth (List.replicate g.length p.dk) with
  | error e => rw [hg] at h; cases h
  | ok r =>
  rw [hg] at h
  simp only at h
  cases hm : r.1.zipIdx.mapM fun e => decimate pick p.nk e.2 e.1 with
  | error e => rw [hm] at h; cases h
  | ok kv =>
  rw [hm] at h
  cases h
  intro l hl
  change l ∈ kv at hl
  obtain ⟨i, hi, rfl⟩ := List.getElem_of_mem hl
  obtain ⟨h1, h2⟩ := mapM_ok_get hm
  have h3 := h2 i (by omega) hi
  have hlen : i < r.1.length := by simpa using (show i < r.1.zipIdx.length by omega)
  have hne := setupGridSphere_ne hg r.1[i] (List.getElem_mem hlen)
  have hpos := List.length_pos_iff.2 hne
  simp only [List.getElem_zipIdx, Nat.zero_add, decimate] at h3
  rw [if_neg (by omega)] at h3
  rw [← Except.ok.inj h3]
  have := (hpick i r.1[i] (min p.nk r.1[i].length).toNat (by omega)).1
  intro h0
  rw [h0] at this
  simp at this
  omega

open Classical in
/-- **C147** is false: wave-vectors set after construction are dropped if the cell changes. The grid for the second
frame is built anew; if it has more points than groups of wave-vectors were given (the default has 30 points),
`compute()` raises an exception. -/
theorem C147_counterexample_cell (o : SkChoices d) (hpick : IsSample o.pick) (hnk : 1 ≤ o.params.nk)
    {fr : List (CellFrame d)} {f0 f1 fl : CellFrame d} (hskip : 0 < o.skip) (h0 : fr[0]? = some f0)
    (h1 : fr[o.skip]? = some f1) (hl : fr[fr.length - 1]? = some fl) (hc : fl.side ≠ f0.side)
    {grid : Option (List ℝ)} {kv : List (List (Vec d ℝ))} {s : KState d ℝ}
    (hs : kSetup Real.sqrt Real.pi o.depth o.pick o.params f1.side grid = .ok s) (hlen : kv.length < s.kgrid.length)
    (r : List ℝ × List ℝ × KAttrs d ℝ) :
    skComputeA o fr ((KAttrs.new d grid).setKvectors Real.sqrt Real.pi f0.side kv) ≠ .ok r := by
  intro h
  have hf : pyGet fr 0 = .ok f0 := by unfold pyGet; rw [h0]
  have hf1 : pyGet fr o.skip = .ok f1 := by unfold pyGet; rw [h1]
  have hlt : o.skip < fr.length := by
    by_contra hcon
    rw [List.getElem?_eq_none (by omega)] at h1
    cases h1
  have hvar : isCellVariable (fr.map CellFrame.side) 1 = .ok true := by
    obtain ⟨b, hb, hiff⟩ := C59_counterexample_default (sides := fr.map CellFrame.side) (by
      intro h; rw [List.map_eq_nil_iff] at h; rw [h] at hlt; simp at hlt)
    rw [hb]
    congr 1
    rw [hiff, List.length_map, List.getElem?_map, List.getElem?_map, h0, hl]
    simpa using hc
  set a := (KAttrs.new d grid).setKvectors Real.sqrt Real.pi f0.side kv with ha
  have hsome : a.kgrid.isSome = true := rfl
  have hg : a.kgrid.getD [] = a.kgrid.getD [] := rfl
  have hglen : (a.kgrid.getD []).length = kv.length := by
    show (kvectorsSet Real.sqrt Real.pi f0.side kv).kgrid.length = _
    simp [kvectorsSet]
  have hrange : pyRange 0 fr.length o.skip = .ok (0 :: o.skip :: rangeList (o.skip + o.skip) fr.length o.skip) := by
    unfold pyRange
    rw [if_neg (by omega), rangeList_first hskip (by omega), Nat.zero_add, rangeList_first hskip hlt]
  unfold skComputeA at h
  simp only [hf, setup_returns hsome, hvar, hrange, bind, Except.bind, List.foldlM_cons] at h
  cases hst : skStep o fr true (List.replicate (a.kgrid.getD []).length ⟨0, 0, 0, 0⟩, a) 0 with
  | error e => rw [hst] at h; cases h
  | ok st =>
    rw [hst] at h
    simp only at h
    have hst' : st.1.length = kv.length ∧ st.2 = a := by
      unfold skStep at hst
      simp only [hf, setup_returns hsome, bind, Except.bind, if_true] at hst
      cases hr : a.read with
      | error e => rw [hr] at hst; cases hst
      | ok ks =>
        rw [hr] at hst
        simp only at hst
        generalize hx : skFrame _ _ _ = x at hst
        cases x with
        | error e => cases hst
        | ok acc =>
          cases hst
          exact ⟨by rw [(skFrame_empty hx).1, List.length_replicate, hglen], rfl⟩
    cases hst1 : skStep o fr true st o.skip with
    | error e => rw [hst1] at h; cases h
    | ok st1 =>
      unfold skStep at hst1
      have hset : st.2.setup Real.sqrt Real.pi o.depth o.pick o.params o.skip f1.side = .ok (attrsOf grid s) := by
        rw [hst'.2]
        unfold KAttrs.setup
        rw [if_neg (by omega)]
        show (kSetup Real.sqrt Real.pi o.depth o.pick o.params f1.side grid >>= _) = _
        rw [hs]
        rfl
      have hread : (attrsOf grid s).read = .ok s := read_ok (a := attrsOf grid s) (k0 := s.k0) rfl
      simp only [hf1, hset, hread, bind, Except.bind, if_true] at hst1
      generalize hx : skFrame _ _ _ = x at hst1
      cases x with
      | error e => cases hst1
      | ok acc =>
        have hroom := skFrame_room hx (kSetup_ne hpick hnk hs)
        have e1 : s.kgrid.length = s.kvectors.length := by rw [(kSetup_fields hs).2, List.length_map]
        simp only at hroom
        omega

/-- A non-trivial case: two frames with different cells, a default grid of three points and one group of wave-vectors
given by the user. -/
example : ∃ depth, ∀ r, skComputeA ⟨depth, fun _ l n => l.take n, ⟨2, 1 / 10, 1, 5, 3⟩, true, false, 1⟩
      [⟨![5, 6, 7], [![0, 1, 2]], [![0, 1, 2]], [], []⟩, ⟨![6, 6, 7], [![0, 2, 2]], [![0, 2, 2]], [], []⟩]
      ((KAttrs.new 3 none).setKvectors Real.sqrt Real.pi ![5, 6, 7] [[![2 * Real.pi / 5, 0, 0]]]) ≠ .ok r := by
  have hside : ∀ c, 0 < (![6, 6, 7] : Vec 3 ℝ) c := by intro c; fin_cases c <;> norm_num
  obtain ⟨depth, s, h⟩ := kSetup_exists (pick := fun _ l n => l.take n) (Or.inr rfl)
    (p := { nk := 2, dk := 1 / 10, kmin := 1, kmax := 5, ksamples := 3 }) (by norm_num) (by norm_num) hside
    (grid := none) (req := [1, 3, 5]) (by
      simp [initialGrid, linearGrid, List.range_succ]
      norm_num) (by simp)
    (by intro i hi; simp at hi; interval_cases i <;> norm_num)
  obtain ⟨a, req, dk, -, -, -, h4, -, -, h7, -⟩ := C49_default isSample_take (by norm_num) (by norm_num) (by norm_num)
      hside h
  refine ⟨depth, fun r => ?_⟩
  have hc : (![6, 6, 7] : Vec 3 ℝ) ≠ ![5, 6, 7] := by
    intro hcon
    have := congrFun hcon 0
    norm_num at this
  have hlen : ([[![2 * Real.pi / 5, 0, 0]]] : List (List (Vec 3 ℝ))).length < s.kgrid.length := by
    rw [h7, h4]
    simp
  exact C147_counterexample_cell (f0 := ⟨![5, 6, 7], [![0, 1, 2]], [![0, 1, 2]], [], []⟩)
    (f1 := ⟨![6, 6, 7], [![0, 2, 2]], [![0, 2, 2]], [], []⟩) (fl := ⟨![6, 6, 7], [![0, 2, 2]], [![0, 2, 2]], [], []⟩)
    _ isSample_take (by norm_num) one_pos rfl rfl rfl hc h hlen r

/-! ### C148 -/

/-- **C148**, the part that holds: the wave-vectors used for one file by `sk` without the option `kgrid`, and by `fkt`
and `fskt` in all cases, are those used when the command is given this file alone. -/
theorem C148_files_partial {depth : ℕ} {pick : ℕ → List (KVec d) → ℕ → List (KVec d)} {p : KParams ℝ}
    {files : List (Vec d ℝ × ℕ)} :
    (∀ r, skFiles Real.sqrt Real.pi depth pick p files none = .ok r → r.length = files.length ∧
      ∀ i (h : i < files.length) (h' : i < r.length),
        skFiles Real.sqrt Real.pi depth pick p [files[i]] none = .ok [r[i]]) ∧
    (∀ grid r, fktFiles Real.sqrt Real.pi depth pick p files grid = .ok r → r.length = files.length ∧
      ∀ i (h : i < files.length) (h' : i < r.length),
        fktFiles Real.sqrt Real.pi depth pick p [files[i]] grid = .ok [r[i]]) := by
  constructor
  · intro r h
    have e : skFiles Real.sqrt Real.pi depth pick p files none =
        files.mapM fun f => kSetupMany Real.sqrt Real.pi depth pick p f.1 f.2 none := by
      clear h
      induction files with
      | nil => rfl
      | cons f l ih =>
        rw [skFiles, List.mapM_cons]
        show (kSetupMany Real.sqrt Real.pi depth pick p f.1 f.2 none >>= fun s =>
          skFiles Real.sqrt Real.pi depth pick p l none >>= fun r => pure (s :: r)) = _
        rw [ih]
    rw [e] at h
    obtain ⟨h1, h2⟩ := mapM_ok_get h
    refine ⟨h1, fun i hi hi' => ?_⟩
    rw [skFiles]
    have := h2 i hi hi'
    rw [this]
    rfl
  · intro grid r h
    obtain ⟨h1, h2⟩ := mapM_ok_get h
    refine ⟨h1, fun i hi hi' => ?_⟩
    have := h2 i hi hi'
    unfold fktFiles
    rw [List.mapM_cons, this]
    rfl

theorem kSetupMany_cell {depth : ℕ} {pick : ℕ → List (KVec d) → ℕ → List (KVec d)} {p : KParams ℝ} {side : Vec d ℝ} {n : ℕ}
    {grid : Option (List ℝ)} {r : List (KState d ℝ)} (h : kSetupMany Real.sqrt Real.pi depth pick p side n grid = .ok r) :
    r.length = n ∧ ∀ s ∈ r, ∀ kl ∈ kvectorsGet s, ∀ k ∈ kl, ∀ c, ∃ j : ℤ, k c = 2 * Real.pi / side c * j := by
  induction n generalizing grid r with
  | zero => cases h; simp
  | succ n ih =>
    rw [kSetupMany] at h
    obtain ⟨s, hs, h⟩ := bind_ok_iff.1 h
    obtain ⟨r', hr, h⟩ := bind_ok_iff.1 h
    cases h
    obtain ⟨i1, i2⟩ := ih hr
    refine ⟨by rw [List.length_cons, i1], fun t ht => ?_⟩
    rcases List.mem_cons.1 ht with rfl | ht
    · intro kl hkl k hk c
      have hk0 := (kSetup_fields hs).1
      unfold kvectorsGet at hkl
      obtain ⟨l, -, rfl⟩ := List.mem_map.1 hkl
      obtain ⟨v, -, rfl⟩ := List.mem_map.1 hk
      refine ⟨v c - t.koffset, ?_⟩
      rw [hk0]
    · exact i2 t ht

/-- **C148**, the part that holds: for each file the commands `sk`, `fkt` and `fskt` make the total and the partial
correlations, and use wave-vectors of the cell of this file. -/
theorem C148_own_cell_partial {depth : ℕ} {pick : ℕ → List (KVec d) → ℕ → List (KVec d)} {p : KParams ℝ}
    {files : List (Vec d ℝ × ℕ)} {grid : Option (List ℝ)} {r : List (List (KState d ℝ))}
    (h : skFiles Real.sqrt Real.pi depth pick p files grid = .ok r ∨ fktFiles Real.sqrt Real.pi depth pick p files grid = .ok r) :
    List.Forall₂ (fun f rf => rf.length = f.2 ∧ ∀ s ∈ rf, ∀ kl ∈ kvectorsGet s, ∀ k ∈ kl, ∀ c,
      ∃ j : ℤ, k c = 2 * Real.pi / f.1 c * j) files r := by
  rcases h with h | h
  · induction files generalizing grid r with
    | nil => cases h; exact .nil
    | cons f files ih =>
      rw [skFiles] at h
      obtain ⟨s, hs, h⟩ := bind_ok_iff.1 h
      obtain ⟨r', hr, h⟩ := bind_ok_iff.1 h
      cases h
      exact .cons (kSetupMany_cell hs) (ih hr)
  · obtain ⟨h1, h2⟩ := mapM_ok_get h
    refine List.forall₂_iff_get.2 ⟨h1.symm, fun i hi hi' => ?_⟩
    have h3 := h2 i hi hi'
    cases grid with
    | some g => exact kSetupMany_cell h3
    | none =>
      obtain ⟨g, -, h4⟩ := bind_ok_iff.1 h3
      exact kSetupMany_cell h4

/-- **C148**: without the option `kgrid`, `fkt` and `fskt` use for each file the `ksamples` values of k evenly spaced from
`kmin` to `kmax`. -/
theorem C148_linear_partial {depth : ℕ} {pick : ℕ → List (KVec d) → ℕ → List (KVec d)} {p : KParams ℝ}
    (hp : 2 ≤ p.ksamples) (files : List (Vec d ℝ × ℕ)) :
    ∃ g : List ℝ, (g.length : ℤ) = p.ksamples ∧
      (∀ i (h : i < g.length), g[i] = p.kmin + i * ((p.kmax - p.kmin) / (p.ksamples - 1))) ∧
      fktFiles Real.sqrt Real.pi depth pick p files none = fktFiles Real.sqrt Real.pi depth pick p files (some g) := by
  refine ⟨(List.range p.ksamples.toNat).map fun i : ℕ => p.kmin + (i : ℝ) * ((p.kmax - p.kmin) / (p.ksamples - 1)),
    ?_, ?_, ?_⟩
  · rw [List.length_map, List.length_range]; omega
  · intro i h
    simp
  · have hg : linearGrid p.kmin p.kmax (.int p.ksamples) =
        .ok ((List.range p.ksamples.toNat).map fun i : ℕ => p.kmin + (i : ℝ) * ((p.kmax - p.kmin) / (p.ksamples - 1))) := by
      simp only [linearGrid]
      rw [if_pos (show p.ksamples > 1 by omega)]
    unfold fktFiles
    rw [hg]

/-- **C148**: the wave-vectors used by `sk` for the first file do not depend on the files that follow. -/
theorem C148_first_partial {depth : ℕ} {pick : ℕ → List (KVec d) → ℕ → List (KVec d)} {p : KParams ℝ}
    {f : Vec d ℝ × ℕ} {files : List (Vec d ℝ × ℕ)} {grid : Option (List ℝ)} {s : List (KState d ℝ)}
    {r : List (List (KState d ℝ))} (h : skFiles Real.sqrt Real.pi depth pick p (f :: files) grid = .ok (s :: r)) :
    skFiles Real.sqrt Real.pi depth pick p [f] grid = .ok [s] := by
  rw [skFiles] at h ⊢
  cases hs : kSetupMany Real.sqrt Real.pi depth pick p f.1 f.2 grid with
  | error e => rw [hs] at h; cases h
  | ok s' =>
    rw [hs] at h
    simp only [bind, Except.bind] at h ⊢
    generalize hx : skFiles _ _ _ _ _ files _ = x at h
    cases x with
    | error e => cases h
    | ok r' => cases h; rfl

/-- **C148** is false for `sk` with the option `kgrid`: the list of k is modified by the first file and not restored. Two
files with the same two-dimensional cell, `kgrid = [4]`, `dk = 1.2`, and `nk` large enough to use all wave-vectors: the
wave-vector `(3, 0)` is used for the first file, and for the second one if it is given alone, but not for the second
one after the first. -/
theorem C148_counterexample_kgrid {pick : ℕ → List (KVec 2) → ℕ → List (KVec 2)} (hpick : IsSample pick)
    (depth : ℕ) :
    ∃ s1 s2, skFiles Real.sqrt Real.pi (depth + 1) pick ⟨8, 6 / 5, -1, 10, 20⟩
        [(![2 * Real.pi / 3, 2 * Real.pi / 4], 1), (![2 * Real.pi / 3, 2 * Real.pi / 4], 1)] (some [4]) =
          .ok [[s1], [s2]] ∧
      skFiles Real.sqrt Real.pi (depth + 1) pick ⟨8, 6 / 5, -1, 10, 20⟩
        [(![2 * Real.pi / 3, 2 * Real.pi / 4], 1)] (some [4]) = .ok [[s1]] ∧
      ![3, 0] ∈ (kvectorsGet s1).flatten ∧ ![3, 0] ∉ (kvectorsGet s2).flatten := by
  obtain ⟨s1, s2, h, hm, hn⟩ := C58_counterexample_shared_grid hpick depth
  simp only [kSetupMany] at h
  cases h1 : kSetup Real.sqrt Real.pi (depth + 1) pick ⟨8, 6 / 5, -1, 10, 20⟩
      (![2 * Real.pi / 3, 2 * Real.pi / 4] : Vec 2 ℝ) (some [4]) with
  | error e => rw [h1] at h; cases h
  | ok a =>
    rw [h1] at h
    simp only [bind, Except.bind, Option.map_some] at h
    cases h2 : kSetup Real.sqrt Real.pi (depth + 1) pick ⟨8, 6 / 5, -1, 10, 20⟩
        (![2 * Real.pi / 3, 2 * Real.pi / 4] : Vec 2 ℝ) (some a.kgrid) with
    | error e => rw [h2] at h; cases h
    | ok b =>
      rw [h2] at h
      cases h
      refine ⟨s1, s2, ?_, ?_, hm, hn⟩
      · simp only [skFiles, kSetupMany, h1, bind, Except.bind, Option.map_some]
        have h2' : kSetup Real.sqrt Real.pi (depth + 1) pick ⟨8, 6 / 5, -1, 10, 20⟩
            (![2 * Real.pi / 3, 2 * Real.pi / 4] : Vec 2 ℝ)
            (some (([s1].getLast?.map KState.kgrid).getD [4])) = .ok s2 := h2
        simp only [pure, Except.pure]
        rw [h2']
      · simp only [skFiles, kSetupMany, h1, bind, Except.bind]
        rfl

/-- A non-trivial case of the parts that hold: two files, one and two objects, default grid. -/
example : ∃ depth r, skFiles Real.sqrt Real.pi depth (fun _ l n => l.take n) ⟨2, 1 / 10, 1, 5, 3⟩
      [((![5, 6, 7] : Vec 3 ℝ), 1), (![5, 6, 7], 2)] none = .ok r ∧ r.map List.length = [1, 2] := by
  have hside : ∀ c, 0 < (![5, 6, 7] : Vec 3 ℝ) c := by intro c; fin_cases c <;> norm_num
  obtain ⟨depth, s, h⟩ := kSetup_exists (pick := fun _ l n => l.take n) (Or.inr rfl)
    (p := { nk := 2, dk := 1 / 10, kmin := 1, kmax := 5, ksamples := 3 }) (by norm_num) (by norm_num) hside
    (grid := none) (req := [1, 3, 5]) (by
      simp [initialGrid, linearGrid, List.range_succ]
      norm_num) (by simp)
    (by intro i hi; simp at hi; interval_cases i <;> norm_num)
  refine ⟨depth, [[s], [s, s]], ?_, rfl⟩
  simp only [skFiles, kSetupMany, h, bind, Except.bind, Option.map_none]
  rfl

end PP.Props
