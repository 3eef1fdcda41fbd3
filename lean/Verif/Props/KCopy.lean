import Verif.Lemmas.Fold
import Verif.Props.Sk

/-!
# Wave-vectors copied between objects (C50)
-/

set_option linter.unusedSectionVars false

namespace PP.Props

variable {d : ℕ}

theorem foldl_min_le (l : List ℤ) (s : ℤ) : l.foldl min s ≤ s ∧ (∀ x ∈ l, l.foldl min s ≤ x) ∧
    (l.foldl min s = s ∨ l.foldl min s ∈ l) := by
  induction l generalizing s with
  | nil => simp
  | cons a l ih =>
    obtain ⟨h1, h2, h3⟩ := ih (min s a)
    rw [List.foldl_cons]
    refine ⟨h1.trans (min_le_left _ _), ?_, ?_⟩
    · intro x hx
      rcases List.mem_cons.1 hx with rfl | hx
      · exact h1.trans (min_le_right _ _)
      · exact h2 x hx
    · rcases h3 with h3 | h3
      · rcases min_choice s a with h | h
        · left; rw [h3, h]
        · right; rw [h3, h]; simp
      · right; simp [h3]

theorem minShift_flat (l : List (List (KVec d))) : minShift l = (l.flatten.flatMap List.ofFn).foldl min 0 := by
  unfold minShift
  rw [List.foldl_flatMap, List.foldl_flatten]

theorem minShift_spec (l : List (List (KVec d))) : minShift l ≤ 0 ∧ (∀ k ∈ l, ∀ v ∈ k, ∀ c, minShift l ≤ v c) ∧
    (minShift l = 0 ∨ ∃ k ∈ l, ∃ v ∈ k, ∃ c, minShift l = v c) := by
  rw [minShift_flat]
  obtain ⟨h1, h2, h3⟩ := foldl_min_le (l.flatten.flatMap List.ofFn) 0
  refine ⟨h1, ?_, ?_⟩
  · intro k hk v hv c
    apply h2
    rw [List.mem_flatMap]
    exact ⟨v, List.mem_flatten.2 ⟨k, hk, hv⟩, List.mem_ofFn.2 ⟨c, rfl⟩⟩
  · rcases h3 with h3 | h3
    · exact Or.inl h3
    · right
      obtain ⟨v, hv, hc⟩ := List.mem_flatMap.1 h3
      obtain ⟨k, hk, hv⟩ := List.mem_flatten.1 hv
      obtain ⟨c, hc⟩ := List.mem_ofFn.1 hc
      exact ⟨k, hk, v, hv, c, hc.symm⟩

theorem pyRound_int (m : ℤ) : pyRound (m : ℝ) = m := by
  unfold pyRound
  simp

/-- Integer components of the wave-vectors. -/
def intComponents (p : KState d ℝ) : List (List (KVec d)) := p.kvectors.map fun l => l.map fun v c => v c - p.koffset

/-- The attributes of an object whose wave-vectors are copied from another one in the same cell. -/
theorem kvectorsSet_get (p : KState d ℝ) {side : Vec d ℝ} (hside : ∀ c, 0 < side c)
    (hk : ∀ c, p.k0 c = 2 * Real.pi / side c) :
    let q := kvectorsSet Real.sqrt Real.pi side (kvectorsGet p)
    q.k0 = p.k0 ∧ q.koffset = |minShift (intComponents p)| + 1 ∧
    q.kvectors = p.kvectors.map fun l => l.map fun v c => v c - p.koffset + q.koffset := by
  have hk0 : smallestK Real.pi side = p.k0 := by funext c; rw [hk]; rfl
  have hr : ((kvectorsGet p).map fun l => l.map fun v c => pyRound (v c / smallestK Real.pi side c)) =
      intComponents p := by
    unfold kvectorsGet intComponents
    rw [List.map_map]
    apply List.map_congr_left
    intro l _
    simp only [Function.comp]
    rw [List.map_map]
    apply List.map_congr_left
    intro v _
    funext c
    simp only [Function.comp]
    have hpos : p.k0 c ≠ 0 := by rw [hk]; exact (div_pos (by positivity) (hside c)).ne'
    rw [hk0, mul_div_cancel_left₀ _ hpos, pyRound_int]
  intro q
  refine ⟨hk0, ?_, ?_⟩
  · show |minShift ((kvectorsGet p).map fun l => l.map fun v c => pyRound (v c / smallestK Real.pi side c))| + 1 = _
    rw [hr]
  · show (((kvectorsGet p).map fun l => l.map fun v c => pyRound (v c / smallestK Real.pi side c)).map fun l =>
      l.map fun v c => v c + q.koffset) = _
    rw [hr]
    unfold intComponents
    rw [List.map_map]
    apply List.map_congr_left
    intro l _
    simp only [Function.comp]
    rw [List.map_map]
    rfl

/-- C50: wave-vectors copied to another object over the same cell are read back unchanged, and define the same norms
as after `_setup`. -/
theorem C50_roundtrip_partial {depth : ℕ} {pick : ℕ → List (KVec d) → ℕ → List (KVec d)}
    {a : KParams ℝ} {side : Vec d ℝ} (hside : ∀ c, 0 < side c) {grid : Option (List ℝ)} {p : KState d ℝ}
    (h : kSetup Real.sqrt Real.pi depth pick a side grid = .ok p) :
    kvectorsGet (kvectorsSet Real.sqrt Real.pi side (kvectorsGet p)) = kvectorsGet p ∧
    (kvectorsSet Real.sqrt Real.pi side (kvectorsGet p)).kgrid = p.kgrid := by
  have hp : (∀ c, p.k0 c = 2 * Real.pi / side c) ∧
      p.kgrid = p.kvectors.map fun l => npMean (l.map (kNorm Real.sqrt p.k0 p.koffset)) := by
    unfold kSetup at h
    simp only [bind, Except.bind] at h
    cases hi : initialGrid a (smallestK Real.pi side) grid with
    | error e => rw [hi] at h; cases h
    | ok g =>
    rw [hi] at h
    simp only at h
    cases hg : setupGridSphere Real.sqrt (smallestK Real.pi side) g depth (List.replicate g.length a.dk) with
    | error e => rw [hg] at h; cases h
    | ok r =>
    rw [hg] at h
    simp only at h
    cases hm : r.1.zipIdx.mapM fun e => decimate pick a.nk e.2 e.1 with
    | error e => rw [hm] at h; cases h
    | ok kv =>
    rw [hm] at h
    cases h
    exact ⟨fun c => rfl, rfl⟩
  obtain ⟨hk, hg⟩ := hp
  obtain ⟨h1, h2, h3⟩ := kvectorsSet_get p hside hk
  set q := kvectorsSet Real.sqrt Real.pi side (kvectorsGet p) with hq
  constructor
  · unfold kvectorsGet
    rw [h1, h3, List.map_map]
    apply List.map_congr_left
    intro l _
    simp only [Function.comp]
    rw [List.map_map]
    apply List.map_congr_left
    intro v _
    funext c
    simp only [Function.comp]
    congr 2
    ring
  · have e : q.kgrid = q.kvectors.map fun l => npMean (l.map (kNorm Real.sqrt q.k0 q.koffset)) := rfl
    rw [e, hg, h1, h3, List.map_map]
    apply List.map_congr_left
    intro l _
    simp only [Function.comp]
    rw [List.map_map]
    congr 2
    funext v
    simp only [Function.comp, kNorm]
    congr 2
    funext c
    ring

/-- All frames with the wave-vectors `ks`. -/
def withKs (o : SkObj d) (ks : KState d ℝ) : SkObj d := o.mapFrames fun f => { f with ks := ks }

/-- C50: a structure factor computed with the copied wave-vectors gives the same values, provided that each component
of the wave-vectors, in units of the smallest one, is at most 1 plus the modulus of some negative component. -/
theorem C50_compute_partial (o : SkObj d) (h : SkRegular o) (p : KState d ℝ) (hp : ∀ f ∈ o.frames, f.ks = p)
    {side : Vec d ℝ} (hside : ∀ c, 0 < side c) (hk : ∀ c, p.k0 c = 2 * Real.pi / side c)
    (hmax : ∀ l ∈ p.kvectors, ∀ v ∈ l, ∀ c, v c - p.koffset ≤ 1 ∨
      ∃ l' ∈ p.kvectors, ∃ v' ∈ l', ∃ c', v c - p.koffset ≤ 1 - (v' c' - p.koffset)) :
    skLegacy (withKs o (kvectorsSet Real.sqrt Real.pi side (kvectorsGet p))) = skLegacy o := by
  obtain ⟨h1, h2, h3⟩ := kvectorsSet_get p hside hk
  set q := kvectorsSet Real.sqrt Real.pi side (kvectorsGet p) with hq
  obtain ⟨m1, m2, -⟩ := minShift_spec (intComponents p)
  have hmem : ∀ l ∈ p.kvectors, ∀ v ∈ l, ∀ c, minShift (intComponents p) ≤ v c - p.koffset := by
    intro l hl v hv c
    exact m2 _ (List.mem_map.2 ⟨l, hl, rfl⟩) _ (List.mem_map.2 ⟨v, hv, rfl⟩) c
  have hoff : q.koffset = 1 - minShift (intComponents p) := by rw [h2, abs_of_nonpos m1]; ring
  have hall : Allowed q := by
    refine ⟨by omega, ?_⟩
    rw [h3]
    intro l hl w hw c
    obtain ⟨l, hl', rfl⟩ := List.mem_map.1 hl
    obtain ⟨v, hv, rfl⟩ := List.mem_map.1 hw
    have g1 := hmem l hl' v hv c
    have g2 : v c - p.koffset ≤ q.koffset := by
      rcases hmax l hl' v hv c with g | ⟨l', hl'', v', hv', c', g⟩
      · omega
      · have := hmem l' hl'' v' hv' c'
        omega
    simp only
    omega
  have hr : SkRegular (withKs o q) := by
    refine ⟨by simpa [withKs, SkObj.mapFrames] using h.frames_ne, h.skip_pos, h.dims, ?_, ?_, ?_, ?_, ?_⟩
    · intro hs f hf
      obtain ⟨f, hf', rfl⟩ := List.mem_map.1 hf
      exact h.same hs f hf'
    all_goals
      intro f hf
      obtain ⟨f, hf', rfl⟩ := List.mem_map.1 hf
    · exact h.pos0 f hf'
    · exact h.pos1 f hf'
    · exact hall
    · have := h.shells f hf'
      rw [hp f hf'] at this
      simp only [h3, List.length_map, List.mem_map]
      refine ⟨this.1, ?_⟩
      rintro l ⟨l, hl, rfl⟩
      simpa using this.2 l hl
  have hN0 : skN0 (withKs o q) = skN0 o := by
    unfold skN0 withKs SkObj.mapFrames; simp only [List.map_map, List.length_map]; rfl
  have hN1 : skN1 (withKs o q) = skN1 o := by
    unfold skN1 withKs SkObj.mapFrames; simp only [List.map_map, List.length_map]; rfl
  have hm : ∀ n, gridModes (withKs o q) n = gridModes o n := by
    intro n
    unfold gridModes withKs SkObj.mapFrames
    simp only
    rw [skFrames_map h.skip_pos, List.flatMap_map]
    apply List.flatMap_congr
    intro f hf
    have hf' := hp f (originFrames_mem hf)
    have e : q.kvectors.getD n [] = (f.ks.kvectors.getD n []).map fun v c => v c - p.koffset + q.koffset := by
      rw [h3, hf']
      simp only [List.getD_eq_getElem?_getD, List.getElem?_map]
      rcases p.kvectors[n]? with _ | l <;> rfl
    simp only
    rw [e, List.map_map]
    apply List.map_congr_left
    intro v _
    have ek : kvecOf q (fun c => v c - p.koffset + q.koffset) = kvecOf f.ks v := by
      funext c
      unfold kvecOf
      rw [h1, hf']
      congr 2
      ring
    simp only [Function.comp, skModes, ek]
  rw [skLegacy_eq o h, skLegacy_eq _ hr, hN0, hN1]
  simp only [hm]
  rfl

/-! ### Failure -/

theorem mapM_either {α β : Type} {f : α → Py β} {e : PyErr} (l : List α)
    (h : ∀ a ∈ l, f a = .error e ∨ ∃ b, f a = .ok b) :
    (l.mapM f = .error e ∨ ∃ r, l.mapM f = .ok r) ∧ ((∃ a ∈ l, f a = .error e) → l.mapM f = .error e) := by
  induction l with
  | nil => exact ⟨Or.inr ⟨[], rfl⟩, by simp⟩
  | cons a l ih =>
    obtain ⟨h1, h2⟩ := ih fun b hb => h b (by simp [hb])
    rw [List.mapM_cons]
    rcases h a (by simp) with ha | ⟨b, ha⟩
    · rw [ha]; exact ⟨Or.inl rfl, fun _ => rfl⟩
    · rw [ha]
      rcases h1 with h1 | ⟨r, h1⟩
      · rw [h1]; exact ⟨Or.inl rfl, fun _ => rfl⟩
      · rw [h1]
        refine ⟨Or.inr ⟨_, rfl⟩, ?_⟩
        rintro ⟨x, hx, hx'⟩
        rcases List.mem_cons.1 hx with rfl | hx
        · rw [hx'] at ha; cases ha
        · rw [h2 ⟨x, hx, hx'⟩] at h1; cases h1

theorem npGet_either (l : List ℂ) (i : ℤ) (hi : 0 ≤ i) :
    (npGet l i = .error .indexError ∨ ∃ z, npGet l i = .ok z) ∧
      ((l.length : ℤ) ≤ i → npGet l i = .error .indexError) := by
  unfold npGet pyGet
  rw [if_pos hi]
  constructor
  · rcases l[i.toNat]? with _ | z
    · exact Or.inl rfl
    · exact Or.inr ⟨z, rfl⟩
  · intro h
    rw [List.getElem?_eq_none (by omega)]

theorem table_row (ks : KState d ℝ) (x : Vec d ℝ) (j : Fin d) :
    pyGet ((List.finRange d).map fun j => expoList ks.koffset.toNat (ks.k0 j * x j)) (j : ℕ) =
      .ok (expoList ks.koffset.toNat (ks.k0 j * x j)) := by
  have hj : (j : ℕ) < ((List.finRange d).map fun j => expoList ks.koffset.toNat (ks.k0 j * x j)).length := by simp
  exact (PP.pyGet_ok hj).trans (by simp)

theorem rhoSum_either (ks : KState d ℝ) (hoff : 1 ≤ ks.koffset) (v : KVec d) (hv : ∀ c, 0 ≤ v c) {pos : List (Vec d ℝ)}
    (hpos : pos ≠ []) (w : ℕ → ℂ) (dims : List (Fin d)) :
    (rhoSum (skTable ks pos) w v dims = .error .indexError ∨ ∃ z, rhoSum (skTable ks pos) w v dims = .ok z) ∧
    ((∃ c ∈ dims, 2 * ks.koffset < v c) → rhoSum (skTable ks pos) w v dims = .error .indexError) := by
  have hp : ∀ x : Vec d ℝ,
      (expoProd ((List.finRange d).map fun j => expoList ks.koffset.toNat (ks.k0 j * x j)) v dims = .error .indexError ∨
        ∃ z, expoProd ((List.finRange d).map fun j => expoList ks.koffset.toNat (ks.k0 j * x j)) v dims = .ok z) ∧
      ((∃ c ∈ dims, 2 * ks.koffset < v c) →
        expoProd ((List.finRange d).map fun j => expoList ks.koffset.toNat (ks.k0 j * x j)) v dims =
          .error .indexError) := by
    intro x
    unfold expoProd
    have hrow := table_row ks x
    have key := mapM_either (e := .indexError) (f := fun j : Fin d => (do
      let r ← pyGet ((List.finRange d).map fun j => expoList ks.koffset.toNat (ks.k0 j * x j)) (j : ℕ)
      npGet r (v j) : Py ℂ)) dims (fun j _ => by
        show (Except.bind (pyGet ((List.finRange d).map fun j => expoList ks.koffset.toNat (ks.k0 j * x j)) (j : ℕ)) _ = _) ∨
          ∃ b, Except.bind (pyGet ((List.finRange d).map fun j => expoList ks.koffset.toNat (ks.k0 j * x j)) (j : ℕ)) _ =
            .ok b
        rw [hrow j]
        exact (npGet_either (expoList ks.koffset.toNat (ks.k0 j * x j)) _ (hv j)).1)
    obtain ⟨k1, k2⟩ := key
    constructor
    · rcases k1 with k1 | ⟨r, k1⟩
      · rw [k1]; exact Or.inl rfl
      · rw [k1]; exact Or.inr ⟨_, rfl⟩
    · rintro ⟨c, hc, hbig⟩
      rw [k2 ⟨c, hc, ?_⟩]; rfl
      rw [hrow]
      apply (npGet_either _ _ (hv c)).2
      simp [expoList]
      omega
  unfold rhoSum
  have key := mapM_either (e := .indexError) (f := fun e : List (List ℂ) × ℕ => (do
      let x ← expoProd e.1 v dims
      return w e.2 * x : Py ℂ)) (skTable ks pos).zipIdx (fun e he => by
        obtain ⟨x, hx, hxe⟩ : ∃ x ∈ pos, ((List.finRange d).map fun j => expoList ks.koffset.toNat (ks.k0 j * x j)) =
            e.1 := by
          have := List.mem_zipIdx he
          have h' : e.1 ∈ skTable ks pos := by rw [this.2.2]; exact List.getElem_mem _
          exact List.mem_map.1 h'
        rw [← hxe]
        rcases (hp x).1 with h | ⟨z, h⟩
        · rw [h]; exact Or.inl rfl
        · rw [h]; exact Or.inr ⟨_, rfl⟩)
  obtain ⟨k1, k2⟩ := key
  constructor
  · rcases k1 with k1 | ⟨r, k1⟩
    · rw [k1]; exact Or.inl rfl
    · rw [k1]; exact Or.inr ⟨_, rfl⟩
  · intro hbig
    obtain ⟨x, r, rfl⟩ : ∃ x r, pos = x :: r := by
      rcases pos with _ | ⟨x, r⟩
      · exact absurd rfl hpos
      · exact ⟨x, r, rfl⟩
    rw [k2 ⟨((List.finRange d).map fun j => expoList ks.koffset.toNat (ks.k0 j * x j), 0), ?_, ?_⟩]; rfl
    · unfold skTable
      rw [List.map_cons, List.zipIdx_cons]; simp
    · simp only
      rw [(hp x).2 hbig]; rfl

/-- C50 (negation): if some component of the wave-vectors, in units of the smallest one, exceeds by more than 1 the
largest modulus of the negative components, then every calculation of the structure factor with the copied
wave-vectors raises `IndexError`, whatever the frames. -/
theorem C50_counterexample_compute (o : SkObj d) (h : SkRegular o) (p : KState d ℝ)
    {side : Vec d ℝ} (hside : ∀ c, 0 < side c) (hk : ∀ c, p.k0 c = 2 * Real.pi / side c)
    (hlen : p.kvectors.length = o.nk) {B : ℤ} (hB : 0 ≤ B)
    (hlow : ∀ l ∈ p.kvectors, ∀ v ∈ l, ∀ c, -B ≤ v c - p.koffset)
    (hbig : ∃ l ∈ p.kvectors, ∃ v ∈ l, ∃ c, B + 1 < v c - p.koffset) :
    skLegacy (withKs o (kvectorsSet Real.sqrt Real.pi side (kvectorsGet p))) = .error .indexError := by
  obtain ⟨h1, h2, h3⟩ := kvectorsSet_get p hside hk
  set q := kvectorsSet Real.sqrt Real.pi side (kvectorsGet p) with hq
  obtain ⟨m1, m2, m3⟩ := minShift_spec (intComponents p)
  have hmem : ∀ l ∈ p.kvectors, ∀ v ∈ l, ∀ c, minShift (intComponents p) ≤ v c - p.koffset := by
    intro l hl v hv c
    exact m2 _ (List.mem_map.2 ⟨l, hl, rfl⟩) _ (List.mem_map.2 ⟨v, hv, rfl⟩) c
  have hoff : q.koffset = 1 - minShift (intComponents p) := by rw [h2, abs_of_nonpos m1]; ring
  have hB' : -B ≤ minShift (intComponents p) := by
    rcases m3 with h0 | ⟨k, hk', v, hv, c, hc⟩
    · omega
    · obtain ⟨l, hl, rfl⟩ := List.mem_map.1 hk'
      obtain ⟨w, hw, rfl⟩ := List.mem_map.1 hv
      rw [hc]; exact hlow l hl w hw c
  have hq1 : 1 ≤ q.koffset := by omega
  have hq0 : ∀ l ∈ q.kvectors, ∀ v ∈ l, ∀ c, 0 ≤ v c := by
    rw [h3]
    intro l hl w hw c
    obtain ⟨l, hl', rfl⟩ := List.mem_map.1 hl
    obtain ⟨v, hv, rfl⟩ := List.mem_map.1 hw
    have := hmem l hl' v hv c
    simp only
    omega
  have hqbig : ∃ l ∈ q.kvectors, ∃ v ∈ l, ∃ c, 2 * q.koffset < v c := by
    obtain ⟨l, hl, v, hv, c, hc⟩ := hbig
    rw [h3]
    refine ⟨_, List.mem_map.2 ⟨l, hl, rfl⟩, _, List.mem_map.2 ⟨v, hv, rfl⟩, c, ?_⟩
    omega
  have hdims : ∀ c : Fin d, c ∈ crossDims d := by
    intro c; unfold crossDims; split_ifs <;> simp
  -- one wave-vector
  have hrho : ∀ f ∈ o.frames, ∀ w0 w1 : ℕ → ℂ, ∀ v : KVec d, (∀ c, 0 ≤ v c) →
      (skRho o.same (skTable q f.pos0) (skTable q f.pos1) w0 w1 v = .error .indexError ∨
        ∃ z, skRho o.same (skTable q f.pos0) (skTable q f.pos1) w0 w1 v = .ok z) ∧
      ((∃ c, 2 * q.koffset < v c) → skRho o.same (skTable q f.pos0) (skTable q f.pos1) w0 w1 v = .error .indexError) := by
    intro f hf w0 w1 v hv
    unfold skRho
    by_cases hs : o.same = true
    · rw [if_pos hs]
      obtain ⟨r1, r2⟩ := rhoSum_either q hq1 v hv (h.pos0 f hf) w0 (List.finRange d)
      constructor
      · rcases r1 with r | ⟨z, r⟩
        · rw [r]; exact Or.inl rfl
        · rw [r]; exact Or.inr ⟨_, rfl⟩
      · rintro ⟨c, hc⟩
        rw [r2 ⟨c, List.mem_finRange c, hc⟩]; rfl
    · rw [if_neg hs]
      obtain ⟨r1, r2⟩ := rhoSum_either q hq1 v hv (h.pos0 f hf) w0 (crossDims d)
      obtain ⟨s1, s2⟩ := rhoSum_either q hq1 v hv (h.pos1 f hf) (if d = 2 ∨ d = 3 then w1 else w0) (crossDims d)
      constructor
      · rcases r1 with r | ⟨z, r⟩
        · rw [r]; exact Or.inl rfl
        · rw [r]
          rcases s1 with r | ⟨z, r⟩
          · rw [r]; exact Or.inl rfl
          · rw [r]; exact Or.inr ⟨_, rfl⟩
      · rintro ⟨c, hc⟩
        rw [r2 ⟨c, hdims c, hc⟩]; rfl
  -- one frame
  have hframe : ∀ f ∈ o.frames, ∀ acc : List SkAcc, acc.length = o.nk →
      skFrame (withKs o q) acc { f with ks := q } = .error .indexError := by
    intro f hf acc hacc
    have hoffn : 1 ≤ q.koffset.toNat := by omega
    have ht0 : expoSphere ccis (fun _ => 0) q.k0 q.koffset.toNat f.pos0 = .ok (skTable q f.pos0) :=
      expoSphere_eq _ _ _ hoffn _ (h.pos0 f hf)
    have ht1 : expoSphere ccis (fun _ => 0) q.k0 q.koffset.toNat f.pos1 = .ok (skTable q f.pos1) :=
      expoSphere_eq _ _ _ hoffn _ (h.pos1 f hf)
    have hsec : secondTable o.same (skTable q f.pos0) { f with ks := q } = .ok (skTable q f.pos1) := by
      unfold secondTable
      by_cases hs : o.same = true
      · rw [if_pos hs, (h.same hs f hf).1]
      · rw [if_neg hs]; exact ht1
    unfold skFrame
    simp only
    rw [ht0]
    show Except.bind (secondTable o.same (skTable q f.pos0) { f with ks := q }) _ = _
    rw [hsec]
    show List.foldlM _ _ _ = _
    have step : ∀ (w0 w1 : ℕ → ℂ) (n : ℕ), n < o.nk → ∀ l ∈ q.kvectors, ∀ s : List SkAcc, s.length = o.nk → ∀ v ∈ l,
        ((do
          let r ← skRho o.same (skTable q f.pos0) (skTable q f.pos1) w0 w1 v
          if n < s.length then return s.modify n (·.add r) else .error .indexError : Py (List SkAcc)) =
            .error .indexError ∨ ∃ s', (do
          let r ← skRho o.same (skTable q f.pos0) (skTable q f.pos1) w0 w1 v
          if n < s.length then return s.modify n (·.add r) else .error .indexError : Py (List SkAcc)) = .ok s' ∧
            s'.length = o.nk) ∧
        ((∃ c, 2 * q.koffset < v c) → (do
          let r ← skRho o.same (skTable q f.pos0) (skTable q f.pos1) w0 w1 v
          if n < s.length then return s.modify n (·.add r) else .error .indexError : Py (List SkAcc)) =
            .error .indexError) := by
      intro w0 w1 n hn l hl s hs v hv
      obtain ⟨r1, r2⟩ := hrho f hf w0 w1 v (hq0 l hl v hv)
      constructor
      · rcases r1 with r | ⟨z, r⟩
        · rw [r]; exact Or.inl rfl
        · rw [r]
          right
          refine ⟨s.modify n (·.add z), ?_, by rw [List.length_modify, hs]⟩
          show (if n < s.length then _ else _) = _
          rw [if_pos (by omega)]; rfl
      · intro hb
        rw [r2 hb]; rfl
    have hidx : ∀ kl ∈ q.kvectors.zipIdx, kl.1 ∈ q.kvectors ∧ kl.2 < o.nk := by
      intro kl hkl
      have hz := List.mem_zipIdx hkl
      refine ⟨by rw [hz.2.2]; exact List.getElem_mem _, ?_⟩
      have : q.kvectors.length = o.nk := by rw [h3, List.length_map, hlen]
      omega
    apply foldlM_fails (fun s : List SkAcc => s.length = o.nk) _ _ hacc
    · intro s hs kl hkl
      obtain ⟨i1, i2⟩ := hidx kl hkl
      apply foldlM_either (fun s : List SkAcc => s.length = o.nk) _ _ hs
      intro s hs v hv
      exact (step _ _ kl.2 i2 kl.1 i1 s hs v hv).1
    · obtain ⟨l, hl, v, hv, c, hc⟩ := hqbig
      obtain ⟨i, hi, rfl⟩ := List.getElem_of_mem hl
      have hmemz : (q.kvectors[i], i) ∈ q.kvectors.zipIdx := by
        rw [List.mem_zipIdx_iff_getElem?]; exact List.getElem?_eq_getElem hi
      refine ⟨_, hmemz, ?_⟩
      intro s hs
      obtain ⟨i1, i2⟩ := hidx _ hmemz
      apply foldlM_fails (fun s : List SkAcc => s.length = o.nk) _ _ hs
      · intro s hs v hv
        exact (step _ _ i i2 _ i1 s hs v hv).1
      · exact ⟨v, hv, fun s hs => (step _ _ i i2 _ i1 s hs v hv).2 ⟨c, hc⟩⟩
  -- all frames
  have h6 : pyRange 0 (withKs o q).frames.length o.skip = .ok (rangeList 0 (withKs o q).frames.length o.skip) := by
    unfold pyRange; rw [if_neg (by have := h.skip_pos; omega)]
  have hne' : (withKs o q).frames ≠ [] := by simpa [withKs, SkObj.mapFrames] using h.frames_ne
  have h9 := foldlM_pyGet (withKs o q).frames (rangeList 0 (withKs o q).frames.length o.skip)
    (fun i hi => by rw [mem_rangeList h.skip_pos] at hi; omega) (skFrame (withKs o q))
    (List.replicate o.nk ⟨0, 0, 0, 0⟩)
  change _ = (originFrames (withKs o q).frames o.skip).foldlM (skFrame (withKs o q)) _ at h9
  have h10 : (originFrames (withKs o q).frames o.skip).foldlM (skFrame (withKs o q))
      (List.replicate o.nk ⟨0, 0, 0, 0⟩) = .error .indexError := by
    apply foldlM_fails (fun s : List SkAcc => s.length = o.nk) _ _ (by simp)
    · intro s hs g hg
      obtain ⟨f, hf, rfl⟩ := List.mem_map.1 (originFrames_mem hg)
      exact Or.inl (hframe f hf s hs)
    · obtain ⟨g, hg⟩ := List.exists_mem_of_ne_nil _ (originFrames_ne_nil hne' h.skip_pos)
      refine ⟨g, hg, ?_⟩
      intro s hs
      obtain ⟨f, hf, rfl⟩ := List.mem_map.1 (originFrames_mem hg)
      exact hframe f hf s hs
  rw [h10] at h9
  unfold skLegacy
  show Except.bind (pyRange 0 (withKs o q).frames.length o.skip) _ = _
  rw [h6]
  show Except.bind ((rangeList 0 (withKs o q).frames.length o.skip).foldlM (fun acc i => do
      let f ← pyGet (withKs o q).frames i
      skFrame (withKs o q) acc f) (List.replicate o.nk (⟨0, 0, 0, 0⟩ : SkAcc))) _ = _
  rw [h9]
  rfl

/-! ### Cases -/

/-- One wave-vector with components `(3, 0, 0)` in a cubic cell of side `2π`: the structure factor is defined, but it is
not any more if the wave-vector is copied. -/
example : (∃ r, skLegacy { exSk with nk := 1, frames := exSk.frames.map fun f => { f with ks :=
      { k0 := fun _ => 1, kgrid := [3], kvectors := [[![7, 4, 4]]], koffset := 4 } } } = .ok r) ∧
    skLegacy (withKs { exSk with nk := 1, frames := exSk.frames.map fun f => { f with ks :=
      { k0 := fun _ => 1, kgrid := [3], kvectors := [[![7, 4, 4]]], koffset := 4 } } }
      (kvectorsSet Real.sqrt Real.pi (fun _ => 2 * Real.pi) (kvectorsGet (d := 3)
        { k0 := fun _ => 1, kgrid := [3], kvectors := [[![7, 4, 4]]], koffset := 4 }))) = .error .indexError := by
  have hr : SkRegular { exSk with nk := 1, frames := exSk.frames.map fun f => { f with ks :=
      { k0 := fun _ => 1, kgrid := [3], kvectors := [[![7, 4, 4]]], koffset := 4 } } } := by
    refine ⟨by simp [exSk], by simp [exSk], Or.inl rfl, by simp [exSk], by simp [exSk], by simp [exSk], ?_, ?_⟩
    · intro f hf
      obtain ⟨f, hf', rfl⟩ := List.mem_map.1 hf
      refine ⟨by norm_num, ?_⟩
      intro l hl v hv c
      simp only [List.mem_singleton] at hl
      subst hl
      simp only [List.mem_singleton] at hv
      subst hv
      fin_cases c <;> simp
    · simp [exSk]
  refine ⟨⟨_, skLegacy_eq _ hr⟩, ?_⟩
  apply C50_counterexample_compute _ hr _ (fun _ => by positivity) (fun _ => ?_) (by simp) (le_refl (0 : ℤ))
  · intro l hl v hv c
    simp only [List.mem_singleton] at hl
    subst hl
    simp only [List.mem_singleton] at hv
    subst hv
    fin_cases c <;> simp
  · exact ⟨[![7, 4, 4]], by simp, ![7, 4, 4], by simp, 0, by simp⟩
  · have := Real.pi_pos.ne'
    field_simp

/-- A case of `C50_compute_partial`: components between -1 and 1. -/
example : skLegacy (withKs exSk (kvectorsSet Real.sqrt Real.pi (fun _ => 2 * Real.pi) (kvectorsGet exKs))) =
    skLegacy exSk := by
  refine C50_compute_partial exSk exSk_regular exKs (by simp [exSk]) (fun _ => by positivity) ?_ ?_
  · intro c
    have := Real.pi_pos.ne'
    fin_cases c <;> simp [exKs, this]
  · intro l hl v hv c
    left
    simp only [exKs, List.mem_cons, List.not_mem_nil, or_false] at hl
    rcases hl with rfl | rfl
    · simp only [List.mem_cons, List.not_mem_nil, or_false] at hv
      subst hv; fin_cases c <;> simp [exKs]
    · simp only [List.mem_cons, List.not_mem_nil, or_false] at hv
      rcases hv with rfl | rfl <;> fin_cases c <;> simp [exKs]

/-- A case of `C50_roundtrip_partial`. -/
example : ∃ depth p, kSetup Real.sqrt Real.pi depth (fun _ l n => l.take n)
      { nk := 2, dk := 1 / 10, kmin := -1, kmax := 10, ksamples := 20 } (![5, 6, 7] : Vec 3 ℝ) (some [3]) = .ok p ∧
    kvectorsGet (kvectorsSet Real.sqrt Real.pi ![5, 6, 7] (kvectorsGet p)) = kvectorsGet p := by
  have hside : ∀ c, 0 < (![5, 6, 7] : Vec 3 ℝ) c := by intro c; fin_cases c <;> norm_num
  have hs : pySorted ([3] : List ℝ) = [3] := by norm_num [pySorted, List.insertionSort, List.orderedInsert]
  obtain ⟨depth, s, h⟩ := kSetup_exists (pick := fun _ l n => l.take n) (Or.inr rfl)
    (p := { nk := 2, dk := 1 / 10, kmin := -1, kmax := 10, ksamples := 20 }) (by norm_num) (by norm_num) hside
    (grid := some [3]) (req := [3]) (by simp [initialGrid, hs]) (by simp)
    (by intro i hi; simp at hi; subst hi; norm_num)
  exact ⟨depth, s, h, (C50_roundtrip_partial hside h).1⟩

end PP.Props
