import Verif.Props.KSubset
import Verif.Props.Fkt
import Verif.Props.Fskt

/-!
# C214 for the intermediate scattering functions
-/

namespace PP.Props

open PP

variable {d : ℕ}

/-- What the setup of the wave-vectors from a k grid provides. -/
theorem setup_given {depth : ℕ} {pick : ℕ → List (KVec d) → ℕ → List (KVec d)} (hpick : IsSample pick)
    {p : KParams ℝ} (hnk : 1 ≤ p.nk) (hdk : 0 < p.dk) {side : Vec d ℝ} (hside : ∀ c, 0 < side c) {g : List ℝ} (hg : ∀ x ∈ g, 0 ≤ x)
    (hsort : pySorted g = g) (hne : g ≠ []) {s : KState d ℝ}
    (h : kSetup Real.sqrt Real.pi depth pick p side (some g) = .ok s) :
    Allowed s ∧ s.kgrid.length = s.kvectors.length ∧ s.kvectors ≠ [] ∧ (∀ l ∈ s.kvectors, l ≠ []) ∧
      s.kvectors.length = g.length := by
  have hreq : initialGrid p (smallestK Real.pi side) (some g) = .ok g := initialGrid_nonneg hsort hg hne
  have hnn : ∀ i < g.length, 0 ≤ g.getD i 0 := by
    intro i hi
    rw [List.getD_eq_getElem _ _ hi]
    exact hg _ (List.getElem_mem _)
  obtain ⟨hk0, hl1, hl2, dk, -, hsel⟩ := setup_selection hpick hnk hdk.le hside h hreq hnn
  have hpos : 0 < g.length := List.length_pos_iff.2 hne
  refine ⟨⟨(hsel 0 hpos).2.2.2.2.2.2.2.2, ?_⟩, by omega, ?_, ?_, hl2⟩
  · intro l hl v hv c
    obtain ⟨i, hi, rfl⟩ := List.getElem_of_mem hl
    have := (hsel i (by omega)).2.2.2.2.2.2.2.1 v (by rw [List.getD_eq_getElem _ _ hi]; exact hv) c
    omega
  · intro e
    rw [e] at hl2
    simp at hl2
    omega
  · intro l hl
    obtain ⟨i, hi, rfl⟩ := List.getElem_of_mem hl
    have := (hsel i (by omega)).2.1
    rwa [List.getD_eq_getElem _ _ hi] at this

/-- Two k grids with a common point that determines its wave-vectors. -/
structure CommonPoint (p : KParams ℝ) (side : Vec d ℝ) (g g' : List ℝ) (i i' : ℕ) (k : ℝ) : Prop where
  dk_pos : 0 < p.dk
  nk_pos : 1 ≤ p.nk
  side_pos : ∀ c, 0 < side c
  nonneg : ∀ x ∈ g ++ g', 0 ≤ x
  apart : g.Pairwise fun a b => a + 2 * p.dk ≤ b
  apart' : g'.Pairwise fun a b => a + 2 * p.dk ≤ b
  around : ∀ x ∈ g ++ g', ∃ v : Fin d → ℤ, |√(∑ c, (2 * Real.pi / side c * v c) ^ 2) - x| < p.dk
  at_i : g[i]? = some k
  at_i' : g'[i']? = some k
  all : (({v | |√(∑ c, (2 * Real.pi / side c * v c) ^ 2) - k| < p.dk} : Set (Fin d → ℤ)).ncard : ℤ) ≤ p.nk

/-- The wave-vectors of the two setups are the same. -/
theorem common_perm {depth depth' : ℕ} {pick pick' : ℕ → List (KVec d) → ℕ → List (KVec d)} (hpick : IsSample pick)
    (hpick' : IsSample pick') {p : KParams ℝ} {side : Vec d ℝ} {g g' : List ℝ} {i i' : ℕ} {k : ℝ}
    (hc : CommonPoint p side g g' i i' k) {s s' : KState d ℝ}
    (h : kSetup Real.sqrt Real.pi depth pick p side (some g) = .ok s)
    (h' : kSetup Real.sqrt Real.pi depth' pick' p side (some g') = .ok s') :
    ((s.kvectors.getD i []).map (kvecOf s)).Perm ((s'.kvectors.getD i' []).map (kvecOf s')) := by
  obtain ⟨q1, q2⟩ := C214_wave_vectors_partial hpick hc.dk_pos hc.side_pos (fun x hx => hc.nonneg x (by simp [hx])) hc.apart
    (fun x hx => hc.around x (by simp [hx])) h hc.at_i hc.all
  obtain ⟨q1', q2'⟩ := C214_wave_vectors_partial hpick' hc.dk_pos hc.side_pos (fun x hx => hc.nonneg x (by simp [hx])) hc.apart'
    (fun x hx => hc.around x (by simp [hx])) h' hc.at_i' hc.all
  rw [← kvectorsGet_at, ← kvectorsGet_at, List.perm_ext_iff_of_nodup q1 q1']
  intro q
  rw [q2, q2']

theorem CommonPoint.given {p : KParams ℝ} {side : Vec d ℝ} {g g' : List ℝ} {i i' : ℕ} {k : ℝ}
    (hc : CommonPoint p side g g' i i' k) {depth : ℕ} {pick : ℕ → List (KVec d) → ℕ → List (KVec d)} (hpick : IsSample pick)
    {s : KState d ℝ} (h : kSetup Real.sqrt Real.pi depth pick p side (some g) = .ok s) :
    Allowed s ∧ s.kgrid.length = s.kvectors.length ∧ s.kvectors ≠ [] ∧ (∀ l ∈ s.kvectors, l ≠ []) ∧ i < s.kvectors.length := by
  have hi := (List.getElem?_eq_some_iff.1 hc.at_i).1
  obtain ⟨a, b, c, e, f⟩ := setup_given hpick hc.nk_pos hc.dk_pos hc.side_pos (fun x hx => hc.nonneg x (by simp [hx]))
    (pySorted_separated (by linarith [hc.dk_pos] : 0 < 2 * p.dk) hc.apart) (by rintro rfl; simp at hi) h
  exact ⟨a, b, c, e, by omega⟩

theorem CommonPoint.swap {p : KParams ℝ} {side : Vec d ℝ} {g g' : List ℝ} {i i' : ℕ} {k : ℝ}
    (hc : CommonPoint p side g g' i i' k) : CommonPoint p side g' g i' i k :=
  ⟨hc.dk_pos, hc.nk_pos, hc.side_pos, fun x hx => hc.nonneg x (by simp at hx ⊢; tauto), hc.apart', hc.apart,
    fun x hx => hc.around x (by simp at hx ⊢; tauto), hc.at_i', hc.at_i, hc.all⟩

/-- **C214** for the self intermediate scattering function, normalised or not, in both versions: with the wave-vectors set up
from two k grids with the wave-number `k` in common, the times are the same and so are the values at `k`. -/
theorem C214_self_partial (o : FsObj d) {N : ℕ} (hN : 0 < N) (hfr : o.pos ≠ []) (hskip : 0 < o.skip)
    (hst : o.pos.length ≤ o.steps.length) (hnp : ∀ f ∈ o.pos, f.length = N)
    {depth depth' : ℕ} {pick pick' : ℕ → List (KVec d) → ℕ → List (KVec d)} (hpick : IsSample pick)
    (hpick' : IsSample pick') {p : KParams ℝ} {side : Vec d ℝ} {g g' : List ℝ} {i i' : ℕ} {k : ℝ}
    (hc : CommonPoint p side g g' i i' k) {s s' : KState d ℝ}
    (h : kSetup Real.sqrt Real.pi depth pick p side (some g) = .ok s)
    (h' : kSetup Real.sqrt Real.pi depth' pick' p side (some g') = .ok s') :
    ∃ t v v' x, fsLegacy { o with ks := s } = .ok (t, v) ∧ fsLegacy { o with ks := s' } = .ok (t, v') ∧
      v[i]? = some x ∧ v'[i']? = some x ∧
      (o.lookupMb ≠ 0 → fsFast { o with ks := s } = .ok (t, v) ∧ fsFast { o with ks := s' } = .ok (t, v')) := by
  obtain ⟨a1, a2, a3, a4, a5⟩ := hc.given hpick h
  obtain ⟨b1, b2, b3, b4, b5⟩ := hc.swap.given hpick' h'
  have hr : FsRegular { o with ks := s } N := ⟨hfr, hskip, hst, hnp, hN, a1, a2, a3, a4⟩
  have hr' : FsRegular { o with ks := s' } N := ⟨hfr, hskip, hst, hnp, hN, b1, b2, b3, b4⟩
  have hperm := common_perm hpick hpick' hc h h'
  rw [List.getD_eq_getElem _ _ a5, List.getD_eq_getElem _ _ b5] at hperm
  have hraw : (fsRaw { o with ks := s })[i]? = (fsRaw { o with ks := s' })[i']? := by
    unfold fsRaw
    rw [List.getElem?_map, List.getElem?_map, List.getElem?_eq_getElem a5, List.getElem?_eq_getElem b5]
    simp only [Option.map_some]
    refine congrArg some (List.map_congr_left fun δ _ => ?_)
    have e : ∀ (s : KState d ℝ) (kl : List (KVec d)), selfList { o with ks := s } kl δ = (kl.map (kvecOf s)).flatMap fun q =>
        (Spec.framePairs o.steps o.skip o.tgrid o.pos δ).flatMap fun ab => Spec.selfTerms q ab.1 ab.2 := by
      intro s kl
      unfold selfList
      rw [List.flatMap_map]
    have hp := hperm.flatMap_right fun q =>
      (Spec.framePairs o.steps o.skip o.tgrid o.pos δ).flatMap fun ab => Spec.selfTerms q ab.1 ab.2
    rw [e, e]
    unfold Spec.mean
    rw [hp.sum_eq, hp.length_eq]
  have hlt : i < (fsRaw { o with ks := s }).length := by simpa [fsRaw] using a5
  refine ⟨_, _, _, if o.normalize then normInPlace ((fsRaw { o with ks := s })[i]) else (fsRaw { o with ks := s })[i],
    fsLegacy_eq _ hr, fsLegacy_eq _ hr', ?_, ?_, fun hm => ⟨fsFast_eq _ hr hm, fsFast_eq _ hr' hm⟩⟩
  · show (if o.normalize = true then _ else _ : List (List ℝ))[i]? = _
    split_ifs
    · rw [List.getElem?_map, List.getElem?_eq_getElem hlt]; rfl
    · rw [List.getElem?_eq_getElem hlt]
  · show (if o.normalize = true then _ else _ : List (List ℝ))[i']? = _
    split_ifs
    · rw [List.getElem?_map, ← hraw, List.getElem?_eq_getElem hlt]; rfl
    · rw [← hraw, List.getElem?_eq_getElem hlt]

/-- **C214** for the intermediate scattering function of one or two groups, in two or three dimensions. -/
theorem C214_coherent_partial (o : FkObj d) (hd : d = 2 ∨ d = 3) (hskip : 0 < o.skip)
    (hst : o.pos0.length ≤ o.steps.length) (hfr : o.pos1.length = o.pos0.length) (hsame : o.same = true → o.pos1 = o.pos0)
    (h0 : ∀ f ∈ o.pos0, f ≠ []) (h1 : ∀ f ∈ o.pos1, f ≠ [])
    {depth depth' : ℕ} {pick pick' : ℕ → List (KVec d) → ℕ → List (KVec d)} (hpick : IsSample pick)
    (hpick' : IsSample pick') {p : KParams ℝ} {side : Vec d ℝ} {g g' : List ℝ} {i i' : ℕ} {k : ℝ}
    (hc : CommonPoint p side g g' i i' k) {s s' : KState d ℝ}
    (h : kSetup Real.sqrt Real.pi depth pick p side (some g) = .ok s)
    (h' : kSetup Real.sqrt Real.pi depth' pick' p side (some g') = .ok s') :
    ∃ t v v' w w' x y, fkCompute { o with ks := s } = .ok (t, v, w) ∧ fkCompute { o with ks := s' } = .ok (t, v', w') ∧
      v[i]? = some x ∧ v'[i']? = some x ∧ w[i]? = some y ∧ w'[i']? = some y := by
  obtain ⟨a1, a2, a3, a4, a5⟩ := hc.given hpick h
  obtain ⟨b1, b2, b3, b4, b5⟩ := hc.swap.given hpick' h'
  have hr : FkRegular { o with ks := s } := ⟨hd, hskip, hst, hfr, hsame, h0, h1, a1, a2, a3, a4⟩
  have hr' : FkRegular { o with ks := s' } := ⟨hd, hskip, hst, hfr, hsame, h0, h1, b1, b2, b3, b4⟩
  have hperm := common_perm hpick hpick' hc h h'
  rw [List.getD_eq_getElem _ _ a5, List.getD_eq_getElem _ _ b5] at hperm
  have hraw : (fkRaw { o with ks := s })[i]? = (fkRaw { o with ks := s' })[i']? := by
    unfold fkRaw
    rw [List.getElem?_map, List.getElem?_map, List.getElem?_eq_getElem a5, List.getElem?_eq_getElem b5]
    simp only [Option.map_some]
    refine congrArg some (List.map_congr_left fun δ _ => ?_)
    have e : ∀ (s : KState d ℝ) (kl : List (KVec d)), cohList { o with ks := s } kl δ = (kl.map (kvecOf s)).flatMap fun q =>
        (Spec.framePairs o.steps o.skip o.tgrid (o.pos0.zip o.pos1) δ).map fun ab =>
          (Spec.density q ab.1.1 * star (Spec.density q ab.2.2)).re := by
      intro s kl
      unfold cohList
      rw [List.flatMap_map]
    have hp := hperm.flatMap_right fun q => (Spec.framePairs o.steps o.skip o.tgrid (o.pos0.zip o.pos1) δ).map fun ab =>
          (Spec.density q ab.1.1 * star (Spec.density q ab.2.2)).re
    rw [e, e]
    unfold Spec.mean
    rw [hp.sum_eq, hp.length_eq]
  have hlt : i < (fkRaw { o with ks := s }).length := by simpa [fkRaw] using a5
  have hv := List.getElem?_eq_getElem hlt
  generalize (fkRaw { o with ks := s })[i] = y at hv
  refine ⟨_, _, _, _, _, if o.normalize then y.map fun x => x / y.getD 0 0 else y, y, fkCompute_eq _ hr, fkCompute_eq _ hr',
    ?_, ?_, hv, hraw ▸ hv⟩
  · show (if o.normalize = true then _ else _ : List (List ℝ))[i]? = _
    split_ifs
    · rw [List.getElem?_map, hv]; rfl
    · exact hv
  · show (if o.normalize = true then _ else _ : List (List ℝ))[i']? = _
    split_ifs
    · rw [List.getElem?_map, ← hraw, hv]; rfl
    · rw [← hraw, hv]

/-! ### Concrete cases -/

/-- The wave-number 1 of a square cell of side 2π, requested alone and together with 2. -/
theorem exCommon : CommonPoint exKP exKSide [1] [1, 2] 0 0 1 := by
  have hpi : 2 * Real.pi / (2 * Real.pi) = 1 := div_self (by positivity)
  have pop : ∀ n : ℕ, ∃ v : Fin 2 → ℤ, |√(∑ c, (2 * Real.pi / exKSide c * v c) ^ 2) - n| < exKP.dk := by
    intro n
    refine ⟨![(n : ℤ), 0], ?_⟩
    simp only [exKP, exKSide, Fin.sum_univ_two, Matrix.cons_val_zero, Matrix.cons_val_one, hpi, one_mul]
    rw [show ((((n : ℤ) : ℝ)) ^ 2 + ((0 : ℤ) : ℝ) ^ 2) = (n : ℝ) ^ 2 by push_cast; ring, Real.sqrt_sq (by positivity)]
    norm_num
  have p1 := pop 1
  have p2 := pop 2
  push_cast at p1 p2
  refine ⟨by norm_num [exKP], by norm_num [exKP], exKSide_pos, by simp, by simp, by norm_num [exKP], ?_, rfl, rfl, ex_shell⟩
  intro x hx
  simp only [List.cons_append, List.nil_append, List.mem_cons, List.not_mem_nil, or_false] at hx
  rcases hx with rfl | rfl | rfl
  · exact p1
  · exact p1
  · exact p2

/-- The two setups of the example. -/
theorem exCommon_setup : ∃ depth depth' s s',
    kSetup Real.sqrt Real.pi depth (fun _ l n => l.take n) exKP exKSide (some [1]) = .ok s ∧
    kSetup Real.sqrt Real.pi depth' (fun _ l n => l.take n) exKP exKSide (some [1, 2]) = .ok s' := by
  have h2 : (0 : ℝ) < 2 * exKP.dk := by norm_num [exKP]
  obtain ⟨a, s, hs⟩ := kSetup_exists (d := 2) (pick := fun _ l n => l.take n) (p := exKP) (side := exKSide) (grid := some [1])
    (req := [1]) (Or.inl rfl) (by norm_num [exKP]) (by norm_num [exKP]) exKSide_pos
    (initialGrid_nonneg (pySorted_separated h2 (by simp)) (by simp) (by simp)) (by simp) (by simp)
  obtain ⟨b, s', hs'⟩ := kSetup_exists (d := 2) (pick := fun _ l n => l.take n) (p := exKP) (side := exKSide) (grid := some [1, 2])
    (req := [1, 2]) (Or.inl rfl) (by norm_num [exKP]) (by norm_num [exKP]) exKSide_pos
    (initialGrid_nonneg (pySorted_separated h2 (by norm_num [exKP])) (by simp) (by simp)) (by simp) (by
      intro i hi
      have : i = 0 ∨ i = 1 := by simp at hi; omega
      rcases this with rfl | rfl <;> simp)
  exact ⟨a, b, s, s', hs, hs'⟩

/-- Two particles in two frames. -/
noncomputable def exKPos : List (List (Vec 2 ℝ)) := [[![0, 1], ![1, 1]], [![0, 2], ![1, 3]]]

example : ∃ s s' t v v' x, fsLegacy ⟨[0, 5], 1, 1, [(0, 0), (0, 1)], exKPos, s, 1, true⟩ = .ok (t, v) ∧
    fsLegacy ⟨[0, 5], 1, 1, [(0, 0), (0, 1)], exKPos, s', 1, true⟩ = .ok (t, v') ∧ v[0]? = some x ∧ v'[0]? = some x := by
  obtain ⟨a, b, s, s', h, h'⟩ := exCommon_setup
  obtain ⟨t, v, v', x, h1, h2, h3, h4, -⟩ := C214_self_partial (⟨[0, 5], 1, 1, [(0, 0), (0, 1)], exKPos, s, 1, true⟩ : FsObj 2)
    (N := 2) (by norm_num) (by simp [exKPos]) one_pos (by simp [exKPos]) (by simp [exKPos]) isSample_take isSample_take exCommon
    h h'
  exact ⟨s, s', t, v, v', x, h1, h2, h3, h4⟩

example : ∃ s s' t v v' w w' x, fkCompute ⟨[0, 5], 1, 1, [(0, 0), (0, 1)], true, exKPos, exKPos, s, true⟩ = .ok (t, v, w) ∧
    fkCompute ⟨[0, 5], 1, 1, [(0, 0), (0, 1)], true, exKPos, exKPos, s', true⟩ = .ok (t, v', w') ∧ v[0]? = some x ∧
    v'[0]? = some x := by
  obtain ⟨a, b, s, s', h, h'⟩ := exCommon_setup
  obtain ⟨t, v, v', w, w', x, y, h1, h2, h3, h4, -⟩ := C214_coherent_partial
    (⟨[0, 5], 1, 1, [(0, 0), (0, 1)], true, exKPos, exKPos, s, true⟩ : FkObj 2) (Or.inl rfl) one_pos (by simp [exKPos]) rfl
    (fun _ => rfl) (by simp [exKPos]) (by simp [exKPos]) isSample_take isSample_take exCommon h h'
  exact ⟨s, s', t, v, v', w, w', x, h1, h2, h3, h4⟩

end PP.Props
