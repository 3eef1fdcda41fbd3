import Verif.Props.Gr

/-!
# C192: g(r) with a spacing twice as large
-/

set_option linter.unusedSectionVars false

namespace PP.Props
open PP Classical

section
variable {K : Type} [Field K] [LinearOrder K] [IsStrictOrderedRing K] [FloorRing K] {d : ℕ}

theorem shellVol_factor {pi : K} (hpi : 0 < pi) : ∃ k : K, 0 < k ∧ ∀ a b, shellVol pi d a b = k * (b ^ d - a ^ d) := by
  unfold shellVol
  by_cases h2 : d = 2
  · exact ⟨pi, hpi, fun a b => by subst h2; simp⟩
  · by_cases h3 : d = 3
    · exact ⟨4 * pi / 3, by positivity, fun a b => by subst h3; simp⟩
    · exact ⟨pi ^ (d / 2) / ((d / 2).factorial : K), by positivity, fun a b => by
        simp only [if_neg h2, if_neg h3]; ring⟩

theorem meanCount_add (F : List (GrFrame d K)) (H H' : GrFrame d K → ℕ) :
    meanCount F (fun f => H f + H' f) = meanCount F H + meanCount F H' := by
  have := meanCount_sum F (fun j f => if j = 0 then H f else H' f) [0, 1]
  simpa using this.symm

/-- Two half-open bins make one. -/
theorem pairCount_merge (o : GrObj d K) (dist : Vec d K → Vec d K → Vec d K → K) (f : GrFrame d K) {w : K} (hw : 0 < w) (j : ℕ) :
    pairCount o dist f (fun r => (j : K) * (2 * w) ≤ r ∧ r < ((j : K) + 1) * (2 * w)) =
      pairCount o dist f (fun r => ((2 * j : ℕ) : K) * w ≤ r ∧ r < (((2 * j : ℕ) : K) + 1) * w) +
      pairCount o dist f (fun r => ((2 * j + 1 : ℕ) : K) * w ≤ r ∧ r < (((2 * j + 1 : ℕ) : K) + 1) * w) := by
  have := pairCount_sum_bins o dist f (fun j r => (j : K) * w ≤ r ∧ r < ((j : K) + 1) * w) [2 * j, 2 * j + 1]
    (by simp) (fun j j' r => bin_unique hw)
  simp only [List.map_cons, List.map_nil, List.sum_cons, List.sum_nil, add_zero, List.mem_cons, List.not_mem_nil, or_false,
    exists_eq_or_imp, exists_eq_left] at this
  rw [this]
  congr 1
  funext r
  push_cast
  apply propext
  constructor
  · rintro ⟨h1, h2⟩
    by_cases h : r < (2 * (j : K) + 1) * w
    · exact Or.inl ⟨by linarith, h⟩
    · exact Or.inr ⟨not_lt.1 h, by linarith⟩
  · rintro (⟨h1, h2⟩ | ⟨h1, h2⟩)
    · exact ⟨by linarith, by linarith⟩
    · exact ⟨by linarith, by linarith⟩

theorem grVal_merge {pi w : K} (hpi : 0 < pi) (o : GrObj d K) {n0 n1 : ℕ} {f0 : GrFrame d K}
    (h : GrSystem o w n0 n1 f0) {volume : K} (hv : 0 < volume) (F : List (GrFrame d K)) (j : ℕ) (o' : GrObj d K)
    (ho : o'.same = o.same) (H H0 H1 : GrFrame d K → ℕ) (hH : ∀ f, H f = H0 f + H1 f) (r : K)
    (hr : r = ((j : K) + 1 / 2) * (2 * w)) :
    grVal o' pi (2 * w) n0 n1 F volume j H * ((r + w) ^ d - (r - w) ^ d) =
      grVal o pi w n0 n1 F volume (2 * j) H0 * (r ^ d - (r - w) ^ d) +
      grVal o pi w n0 n1 F volume (2 * j + 1) H1 * ((r + w) ^ d - r ^ d) := by
  obtain ⟨k, hk, hsh⟩ := shellVol_factor (d := d) hpi
  have hw := h.w_pos
  have hj : (0 : K) ≤ j := Nat.cast_nonneg j
  have p1 : 0 < r ^ d - (r - w) ^ d := sub_pos.2 (pow_lt_pow_left₀ (by linarith) (by rw [hr]; nlinarith) h.dim_pos.ne')
  have p2 : 0 < (r + w) ^ d - r ^ d := sub_pos.2 (pow_lt_pow_left₀ (by linarith) (by rw [hr]; nlinarith) h.dim_pos.ne')
  have p3 : 0 < (r + w) ^ d - (r - w) ^ d := by linarith
  have hq : (0 : K) < (if o.same then 1 / 2 else 1) := by split_ifs <;> norm_num
  have h0 : (0 : K) < n0 := by exact_mod_cast h.n0_pos
  have h1 : (0 : K) < n1 := by exact_mod_cast h.n1_pos
  unfold grVal
  rw [ho, hsh, hsh, hsh]
  have e1 : (j : K) * (2 * w) = r - w := by rw [hr]; ring
  have e2 : ((j : K) + 1) * (2 * w) = r + w := by rw [hr]; ring
  have e3 : ((2 * j : ℕ) : K) * w = r - w := by rw [hr]; push_cast; ring
  have e4 : (((2 * j : ℕ) : K) + 1) * w = r := by rw [hr]; push_cast; ring
  have e5 : ((2 * j + 1 : ℕ) : K) * w = r := by rw [hr]; push_cast; ring
  have e6 : (((2 * j + 1 : ℕ) : K) + 1) * w = r + w := by rw [hr]; push_cast; ring
  rw [e1, e2, e3, e4, e5, e6, show H = fun f => H0 f + H1 f from funext hH, meanCount_add]
  generalize (if o.same = true then (1 / 2 : K) else 1) = q at *
  generalize meanCount F H0 = A
  generalize meanCount F H1 = B
  generalize r ^ d - (r - w) ^ d = s1 at *
  generalize (r + w) ^ d - r ^ d = s2 at *
  generalize (r + w) ^ d - (r - w) ^ d = s3 at *
  have := hv.ne'
  field_simp

theorem index_of_point {w : K} (hw : 0 < w) {i j : ℕ} (h : ((i : K) + 1 / 2) * w = (((j : K)) + 1 / 2) * w) : i = j := by
  have := mul_right_cancel₀ hw.ne' h
  have : (i : K) = j := by linarith
  exact_mod_cast this

/-- **C192** for the fast calculation without linked cells: the value at `r` obtained with the spacing `2w` is the average of the
values at `r - w/2` and `r + w/2` obtained with the spacing `w`, weighted with the volumes of the shells. -/
theorem C192_fast (sq : K → K) (hsq : ∀ x, 0 ≤ sq x) {pi : K} (hpi : 0 < pi) (huge : K) (o : GrObj d K) {w : K}
    {n0 n1 : ℕ} {f0 : GrFrame d K} (h : GrRegular sq o w n0 n1 f0)
    (h' : GrRegular sq { o with dr := .float (2 * w) } (2 * w) n0 n1 f0)
    (hper : ∀ f ∈ o.frames, ∀ c, f.periodic c = true) (hlc : useLinkedCells o f0 = .ok false) :
    ∃ t t', grFast sq pi huge o = .ok t ∧ grFast sq pi huge { o with dr := .float (2 * w) } = .ok t' ∧
      ∀ r g g0 g1, (r, some g) ∈ t' → (r - w / 2, some g0) ∈ t → (r + w / 2, some g1) ∈ t →
        g * ((r + w) ^ d - (r - w) ^ d) = g0 * (r ^ d - (r - w) ^ d) + g1 * ((r + w) ^ d - r ^ d) := by
  have hd : 0 < d := h.system.dim_pos
  have key : ∀ (o : GrObj d K) {w : K} (h : GrRegular sq o w n0 n1 f0) (hper : ∀ f ∈ o.frames, ∀ c, f.periodic c = true)
      (hlc : useLinkedCells o f0 = .ok false), ∃ n m, grFast sq pi huge o = .ok
        (((List.range (n - 1)).map fun j : ℕ => (((j : K) + 1 / 2) * w,
        some (grVal o pi w n0 n1 (originFrames o.frames o.skip)
          (cellVolume ((originFrames o.frames o.skip).getLastD f0).side) j
          fun f => pairCount o (fDist sq) f fun r => (j : K) * w ≤ r ∧ r < ((j : K) + 1) * w))).filter fun p => p.1 ≤ m) := by
    intro o w h hper hlc
    obtain ⟨n, hn, hg, hn2⟩ := grSetupGrid_default sq hsq o f0.side h.w_pos h.rgrid h.dr h.fit
    have hF := grFast_closed sq hpi huge o h.system hn hg false hlc (fun c => c = none) rfl
      (fun f => (List.range n).map fun b : ℕ => pairCount o (fDist sq) f
            fun r => (b : K) * w ≤ r ∧ r < ((b : K) + 1) * w) (by simp)
      (fun st f hf hc h1 h2 => ⟨none, rfl, fastFrame_direct sq hsq huge o h.system st f hf (hper f hf) hc h1 h2⟩)
    obtain ⟨m, -, -, -, hm⟩ := grCrop_ok (rmax := o.rmax) (side := ((originFrames o.frames o.skip).getLastD f0).side) hd
    rw [hm] at hF
    refine ⟨n, m, hF.trans ?_⟩
    congr 2
    apply List.map_congr_left
    intro j hj
    rw [List.mem_range] at hj
    have e : ∀ f, ((List.range n).map fun b : ℕ => pairCount o (fDist sq) f
        fun r => (b : K) * w ≤ r ∧ r < ((b : K) + 1) * w).getD j 0 =
        pairCount o (fDist sq) f fun r => (j : K) * w ≤ r ∧ r < ((j : K) + 1) * w := by
      intro f
      rw [List.getD_eq_getElem?_getD, List.getElem?_map, List.getElem?_range (by omega)]
      rfl
    simp only [e]
  obtain ⟨n, m, ht⟩ := key o h hper hlc
  obtain ⟨n', m', ht'⟩ := key { o with dr := .float (2 * w) } h' hper hlc
  refine ⟨_, _, ht, ht', fun r g g0 g1 hg hg0 hg1 => ?_⟩
  rw [List.mem_filter, List.mem_map] at hg hg0 hg1
  obtain ⟨⟨j, -, hj⟩, -⟩ := hg
  obtain ⟨⟨j0, -, hj0⟩, -⟩ := hg0
  obtain ⟨⟨j1, -, hj1⟩, -⟩ := hg1
  simp only [Prod.mk.injEq, Option.some.injEq] at hj hj0 hj1
  have i0 : j0 = 2 * j := index_of_point h.w_pos (by rw [hj0.1, ← hj.1]; push_cast; ring)
  have i1 : j1 = 2 * j + 1 := index_of_point h.w_pos (by rw [hj1.1, ← hj.1]; push_cast; ring)
  subst i0 i1
  rw [← hj.2, ← hj0.2, ← hj1.2]
  have hlast := lastFrame_mem h.first h.skip_pos
  exact grVal_merge hpi o h.system (cellVolume_pos (h.side_pos _ hlast)) _ j _ rfl _ _ _
    (fun f => pairCount_merge o (fDist sq) f h.w_pos j) r hj.1.symm

/-- **C192** for the plain calculation, except at the last point of each table (whose bin includes the upper edge). -/
theorem C192_legacy (sq : K → K) (hsq : ∀ x, 0 ≤ sq x) {pi : K} (hpi : 0 < pi) (o : GrObj d K) {w : K}
    {n0 n1 : ℕ} {f0 : GrFrame d K} (h : GrRegular sq o w n0 n1 f0)
    (h' : GrRegular sq { o with dr := .float (2 * w) } (2 * w) n0 n1 f0) :
    ∃ t t', grLegacy sq pi o = .ok t ∧ grLegacy sq pi { o with dr := .float (2 * w) } = .ok t' ∧
      ∀ r g g0 g1, (r, some g) ∈ t' → (r - w / 2, some g0) ∈ t → (r + w / 2, some g1) ∈ t →
        (∃ p ∈ t', r < p.1) → (∃ p ∈ t, r + w / 2 < p.1) →
        g * ((r + w) ^ d - (r - w) ^ d) = g0 * (r ^ d - (r - w) ^ d) + g1 * ((r + w) ^ d - r ^ d) := by
  have hd : 0 < d := h.system.dim_pos
  have key : ∀ (o : GrObj d K) {w : K} (h : GrRegular sq o w n0 n1 f0), ∃ n m, grLegacy sq pi o = .ok
        (((List.range n).map fun j : ℕ => (((j : K) + 1 / 2) * w,
        some (grVal o pi w n0 n1 (originFrames o.frames o.skip)
          (cellVolume ((originFrames o.frames o.skip).getLastD f0).side) j
          fun f => pairCount o (grDist sq) f (Spec.InBin (defaultEdges w n) j)))).filter fun p => p.1 ≤ m) := by
    intro o w h
    obtain ⟨n, hn, hg, hn2⟩ := grSetupGrid_default sq hsq o f0.side h.w_pos h.rgrid h.dr h.fit
    have hL := grLegacy_closed sq hpi o h.system hn hg
    obtain ⟨m, -, -, -, hm⟩ := grCrop_ok (rmax := o.rmax) (side := ((originFrames o.frames o.skip).getLastD f0).side) hd
    rw [hm] at hL
    exact ⟨n, m, hL⟩
  have hbin : ∀ {w : K} {n j i : ℕ}, 0 < w → i < n → ((j : K) + 1 / 2) * w < ((i : K) + 1 / 2) * w →
      Spec.InBin (defaultEdges w n) j = fun r => (j : K) * w ≤ r ∧ r < ((j : K) + 1) * w := by
    intro w n j i hw hi hlt
    have : (j : K) < i := by
      have := lt_of_mul_lt_mul_right hlt hw.le
      linarith
    have : j < i := by exact_mod_cast this
    funext r
    apply propext
    rw [inBin_default (by omega)]
    constructor
    · rintro ⟨a, b | b⟩
      · exact ⟨a, b⟩
      · omega
    · rintro ⟨a, b⟩; exact ⟨a, Or.inl b⟩
  obtain ⟨n, m, ht⟩ := key o h
  obtain ⟨n', m', ht'⟩ := key { o with dr := .float (2 * w) } h'
  refine ⟨_, _, ht, ht', fun r g g0 g1 hg hg0 hg1 hl' hl => ?_⟩
  obtain ⟨p', hp', hlt'⟩ := hl'
  obtain ⟨p, hp, hlt⟩ := hl
  rw [List.mem_filter, List.mem_map] at hg hg0 hg1 hp hp'
  obtain ⟨⟨j, -, hj⟩, -⟩ := hg
  obtain ⟨⟨j0, -, hj0⟩, -⟩ := hg0
  obtain ⟨⟨j1, -, hj1⟩, -⟩ := hg1
  obtain ⟨⟨i, hi, rfl⟩, -⟩ := hp
  obtain ⟨⟨i', hi', rfl⟩, -⟩ := hp'
  rw [List.mem_range] at hi hi'
  simp only [Prod.mk.injEq, Option.some.injEq] at hj hj0 hj1
  have i0 : j0 = 2 * j := index_of_point h.w_pos (by rw [hj0.1, ← hj.1]; push_cast; ring)
  have i1 : j1 = 2 * j + 1 := index_of_point h.w_pos (by rw [hj1.1, ← hj.1]; push_cast; ring)
  subst i0 i1
  have hw := h.w_pos
  have b := hbin (j := j) h'.w_pos hi' (by rw [hj.1]; exact hlt')
  have b0 := hbin (j := 2 * j) h.w_pos hi (by rw [hj0.1]; linarith)
  have b1 := hbin (j := 2 * j + 1) h.w_pos hi (by rw [hj1.1]; exact hlt)
  rw [← hj.2, ← hj0.2, ← hj1.2, b, b0, b1]
  have hlast := lastFrame_mem h.first h.skip_pos
  exact grVal_merge hpi o h.system (cellVolume_pos (h.side_pos _ hlast)) _ j _ rfl _ _ _
    (fun f => pairCount_merge o (grDist sq) f h.w_pos j) r hj.1.symm

end

/-- Spacings 1 and 1/2. -/
example : GrRegular Rat.sqrt { grExample with dr := .float (1 / 2) } (1 / 2) 4 4
      ⟨![8, 6], fun _ => true, [![0, 0], ![3, 0], ![3, -2], ![-3, 0]], [![0, 0], ![3, 0], ![3, -2], ![-3, 0]]⟩ ∧
    grFast Rat.sqrt 3 1000 { grExample with dr := .float (1 / 2) } = .ok [(1 / 4, some 4), (3 / 4, some 0),
      (5 / 4, some (4 / 5)), (7 / 4, some 0), (9 / 4, some (4 / 3)), (11 / 4, some 0)] ∧
    grFast Rat.sqrt 3 1000 grExample = .ok [(1 / 2, some 1), (3 / 2, some (1 / 3)), (5 / 2, some (3 / 5))] := by
  refine ⟨?_, by decide +kernel, by decide +kernel⟩
  exact { grExample_regular with
    w_pos := by norm_num
    dr := rfl
    fit := ⟨0, by decide +kernel⟩ }

end PP.Props
