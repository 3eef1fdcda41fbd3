import Verif.Props.FourierSym
import Verif.Props.Parts

/-!
# C160, C161: intermediate scattering functions and structure factor

C160: at zero lag the coherent intermediate scattering function is the structure factor.
C161: the coherent function of one group of particles is the sum of the self part and of the terms of distinct particles.
-/

set_option linter.unusedSectionVars false

namespace PP.Props
open PP

variable {d : ℕ}

/-! ### C160 -/

/-- The frames sampled at zero lag, if the grid has only one entry at zero lag and it has no offset. -/
theorem pairsAt_zero (steps : List ℤ) (hs : steps.Pairwise (· < ·)) (n skip : ℕ) (hn : n ≤ steps.length)
    (grid : List (ℕ × ℕ)) (hg : (grid.filter fun g => decide (g.2 = 0)) = [(0, 0)]) :
    pairsAt steps (Spec.sampled n skip grid) 0 =
      ((List.range n).filter fun i => decide (i % skip = 0)).map fun i => (i, 0) := by
  have e1 : pairsAt steps (Spec.sampled n skip grid) 0 = (Spec.sampled n skip grid).filter fun p => decide (p.2 = 0) := by
    unfold pairsAt
    apply List.filter_congr
    intro p hp
    have hlt := sampled_lt hp
    apply decide_eq_decide.2
    unfold stepDiff
    constructor
    · intro h
      by_contra hne
      have := List.pairwise_iff_getElem.1 hs p.1 (p.1 + p.2) (by omega) (by omega) (by omega)
      rw [List.getD_eq_getElem _ _ (by omega), List.getD_eq_getElem _ _ (by omega)] at h
      omega
    · intro h
      rw [h, Nat.add_zero, sub_self]
  have e2 : ((Spec.sampled n skip grid).filter fun p => decide (p.2 = 0)) =
      Spec.sampled n skip (grid.filter fun g => decide (g.2 = 0)) := by
    unfold Spec.sampled
    clear hg e1
    induction grid with
    | nil => rfl
    | cons g grid ih =>
      rw [List.flatMap_cons, List.filter_append, ih, List.filter_cons, List.filter_map]
      by_cases h0 : g.2 = 0
      · rw [if_pos (by simpa using h0), List.flatMap_cons]
        congr 1
        rw [List.filter_eq_self.2]
        intro a _
        simpa using h0
      · rw [if_neg (by simpa using h0), List.filter_eq_nil_iff.2, List.map_nil, List.nil_append]
        intro a _
        simpa using h0
  rw [e1, e2, hg]
  unfold Spec.sampled
  rw [List.flatMap_cons, List.flatMap_nil, List.append_nil]
  congr 1
  apply List.filter_congr
  intro i hi
  have := List.mem_range.1 hi
  apply decide_eq_decide.2
  simp [this]

/-- One element in `n` of a list, by its indices. -/
theorem everyNth_getD {α : Type} (n : ℕ) (l : List α) (x : α) :
    Spec.everyNth n l = ((List.range l.length).filter fun i => decide (i % n = 0)).map fun i => l.getD i x := by
  have hz : l.zipIdx = (List.range l.length).map fun i => (l.getD i x, i) := by
    apply List.ext_getElem
    · simp
    · intro i h1 h2
      have hi : i < l.length := by simpa using h1
      simp [List.getElem?_eq_getElem hi]
  unfold Spec.everyNth
  rw [hz, List.filter_map, List.map_map]
  rfl

theorem sum_flatMap_comm {α β : Type} (l : List α) (m : List β) (f : α → β → ℝ) :
    (l.flatMap fun a => m.map (f a)).sum = (m.flatMap fun b => l.map fun a => f a b).sum := by
  rw [sum_flatMap_map, sum_flatMap_map]
  induction l with
  | nil => simp
  | cons a l ih => simp only [List.map_cons, List.sum_cons, ih, List.sum_map_add]

theorem mean_flatMap_comm {α β : Type} (l : List α) (m : List β) (f : α → β → ℝ) :
    Spec.mean (l.flatMap fun a => m.map (f a)) = Spec.mean (m.flatMap fun b => l.map fun a => f a b) := by
  unfold Spec.mean
  rw [sum_flatMap_comm, length_flatMap_const _ _ m.length (by simp), length_flatMap_const _ _ l.length (by simp), mul_comm]

/-- The zero lag is sampled. -/
theorem sampled_zero_lag (o : FkObj d) (h : FkRegular o) (hne : o.pos0 ≠ [])
    (hg : (o.tgrid.filter fun g => decide (g.2 = 0)) = [(0, 0)]) : Spec.Sampled o.steps o.skip o.tgrid o.pos0.length 0 := by
  refine ⟨(0, 0), ?_, by simp⟩
  have hm : ((0, 0) : ℕ × ℕ) ∈ o.tgrid := by
    have : ((0, 0) : ℕ × ℕ) ∈ o.tgrid.filter fun g => decide (g.2 = 0) := by rw [hg]; simp
    exact (List.mem_filter.1 this).1
  unfold Spec.sampled
  refine List.mem_flatMap.2 ⟨(0, 0), hm, List.mem_map.2 ⟨0, List.mem_filter.2 ⟨List.mem_range.2 ?_, ?_⟩, rfl⟩⟩
  · exact List.length_pos_iff.2 hne
  · simp [List.length_pos_iff.2 hne]

/-- **C160** (part that holds). At zero lag `value_nonorm` of the coherent intermediate scattering function is
`value_nonorm` of the structure factor of the same frames, that is the structure factor times the square root of the product
of the numbers of particles. -/
theorem C160_zero_lag_partial (o : FkObj d) (h : FkRegular o) (s : SkObj d) (hS : SkRegular s) (hw : s.weighted = false)
    (hskip : s.skip = o.skip) (hframes : (s.frames.map fun f => (f.pos0, f.pos1)) = o.pos0.zip o.pos1)
    (hks : ∀ f ∈ s.frames, f.ks = o.ks) (hsteps : o.steps.Pairwise (· < ·))
    (hg : (o.tgrid.filter fun g => decide (g.2 = 0)) = [(0, 0)]) :
    ∃ ts value nonorm v x, fkCompute o = .ok (ts, value, nonorm) ∧ skLegacy s = .ok (v, x) ∧ ts.head? = some 0 ∧
      nonorm.length = s.nk ∧ x.length = s.nk ∧ v.length = s.nk ∧
      (∀ n < s.nk, (nonorm.getD n []).head? = some (x.getD n 0)) ∧
      ∀ n0 n1 : ℕ, (∀ f ∈ o.pos0, f.length = n0) → (∀ f ∈ o.pos1, f.length = n1) →
        ∀ n < s.nk, (nonorm.getD n []).head? = some (√((n0 : ℝ) * n1) * v.getD n 0) := by
  have hlen : s.frames.length = o.pos0.length := by
    rw [← zip_length o h, ← hframes, List.length_map]
  have hne : o.pos0 ≠ [] := by
    rw [← List.length_pos_iff, ← hlen]; exact List.length_pos_iff.2 hS.frames_ne
  obtain ⟨f0, hf0⟩ := List.exists_mem_of_ne_nil _ hS.frames_ne
  have hnk : o.ks.kvectors.length = s.nk := by rw [← hks f0 hf0]; exact (hS.shells f0 hf0).1
  obtain ⟨r, hr⟩ := fkRaw_head o h hsteps (sampled_zero_lag o h hne hg)
  have hget : ∀ (g : ℕ → ℝ) (n : ℕ), n < s.nk → ((List.range s.nk).map g).getD n 0 = g n := by
    intro g n hn
    rw [List.getD_eq_getElem?_getD, List.getElem?_map, List.getElem?_range hn]
    rfl
  have key : ∀ n < s.nk, ((fkRaw o).getD n []).head? = some (modesValue s.weighted (gridModes s n)) := by
    intro n hn
    have hn' : n < o.ks.kvectors.length := by omega
    unfold fkRaw
    rw [List.getD_eq_getElem _ _ (by simpa using hn'), List.getElem_map, hr, List.map_cons, List.head?_cons]
    congr 1
    rw [hw, sum_div_re, gridModes_products s hS.skip_pos hw,
      ← List.length_map (as := gridModes s n) (fun r : ℂ × ℂ => (r.1 * star r.2).re), gridModes_products s hS.skip_pos hw]
    show _ = Spec.mean (modeProducts s n)
    rw [cohList_eq o h, pairsAt_zero o.steps hsteps _ _ h.steps _ hg]
    simp only [List.map_map]
    rw [mean_flatMap_comm]
    congr 1
    unfold modeProducts
    rw [everyNth_getD s.skip s.frames f0, hskip, hlen, List.flatMap_map]
    apply List.flatMap_congr
    intro i hi
    have hi' : i < o.pos0.length := List.mem_range.1 (List.mem_filter.1 hi).1
    have his : i < s.frames.length := by omega
    have hi1 : i < o.pos1.length := by rw [h.frames]; exact hi'
    have hfi : s.frames[i] ∈ s.frames := List.getElem_mem his
    have hp : (s.frames[i].pos0, s.frames[i].pos1) = (o.pos0[i], o.pos1[i]) := by
      have := congrArg (fun l => l[i]?) hframes
      simp only [List.getElem?_map, List.getElem?_eq_getElem his, Option.map_some] at this
      rw [List.getElem?_eq_getElem (by rw [zip_length o h]; exact hi'), List.getElem_zip] at this
      exact Option.some.inj this
    rw [List.getD_eq_getElem _ _ his, hks _ hfi]
    have e : (kvectorsGet o.ks).getD n [] = o.ks.kvectors[n].map (kvecOf o.ks) := by
      unfold kvectorsGet
      rw [List.getD_eq_getElem _ _ (by simpa using hn'), List.getElem_map]
      rfl
    rw [e, List.map_map]
    apply List.map_congr_left
    intro v _
    simp only [Function.comp, Nat.add_zero]
    rw [List.getD_eq_getElem _ _ hi', List.getD_eq_getElem _ _ hi1, (Prod.mk.inj hp).1, (Prod.mk.inj hp).2]
  refine ⟨_, _, fkRaw o, _, _, fkCompute_eq o h, skLegacy_eq s hS, by rw [hr]; simp, by simp [fkRaw, hnk], by simp, by simp, ?_,
    ?_⟩
  · intro n hn
    rw [key n hn, hget _ n hn]
  · intro n0 n1 h0 h1 n hn
    rw [key n hn, hget _ n hn]
    have hm : ∀ f ∈ s.frames, f.pos0 ∈ o.pos0 ∧ f.pos1 ∈ o.pos1 := by
      intro f hf
      have : (f.pos0, f.pos1) ∈ o.pos0.zip o.pos1 := by rw [← hframes]; exact List.mem_map.2 ⟨f, hf, rfl⟩
      exact List.of_mem_zip this
    have c0 : skN0 s = n0 := skN_const s.frames hS.frames_ne _ fun f hf => h0 _ (hm f hf).1
    have c1 : skN1 s = n1 := skN_const s.frames hS.frames_ne _ fun f hf => h1 _ (hm f hf).2
    have p0 : 0 < n0 := by
      rw [← h0 _ (hm f0 hf0).1]; exact List.length_pos_iff.2 (hS.pos0 f0 hf0)
    have p1 : 0 < n1 := by
      rw [← h1 _ (hm f0 hf0).2]; exact List.length_pos_iff.2 (hS.pos1 f0 hf0)
    have hpos : (0 : ℝ) < √((n0 : ℝ) * n1) := Real.sqrt_pos.2 (by positivity)
    rw [c0, c1, mul_div_cancel₀ _ hpos.ne']

/-- **C160 does not hold** with `normalize=False`: unless the groups have one particle each, the values of the
intermediate scattering function at zero lag differ from the structure factor wherever this is not zero. -/
theorem C160_counterexample_number (o : FkObj d) (h : FkRegular o) (hn : o.normalize = false) (s : SkObj d)
    (hS : SkRegular s) (hw : s.weighted = false)
    (hskip : s.skip = o.skip) (hframes : (s.frames.map fun f => (f.pos0, f.pos1)) = o.pos0.zip o.pos1)
    (hks : ∀ f ∈ s.frames, f.ks = o.ks) (hsteps : o.steps.Pairwise (· < ·))
    (hg : (o.tgrid.filter fun g => decide (g.2 = 0)) = [(0, 0)]) {n0 n1 : ℕ} (h0 : ∀ f ∈ o.pos0, f.length = n0)
    (h1 : ∀ f ∈ o.pos1, f.length = n1) (hN : n0 * n1 ≠ 1) :
    ∃ ts value nonorm v x, fkCompute o = .ok (ts, value, nonorm) ∧ skLegacy s = .ok (v, x) ∧ ts.head? = some 0 ∧
      value.length = s.nk ∧ v.length = s.nk ∧
      ∀ n < s.nk, v.getD n 0 ≠ 0 → (value.getD n []).head? ≠ some (v.getD n 0) := by
  obtain ⟨ts, value, nonorm, v, x, e1, e2, e3, e4, -, e6, -, e8⟩ :=
    C160_zero_lag_partial o h s hS hw hskip hframes hks hsteps hg
  have hv : value = nonorm := by
    rw [fkCompute_eq o h, hn] at e1
    simp only [Except.ok.injEq, Prod.mk.injEq, Bool.false_eq_true, if_false] at e1
    exact e1.2.1.symm.trans e1.2.2
  refine ⟨ts, value, nonorm, v, x, e1, e2, e3, by rw [hv, e4], e6, ?_⟩
  intro n hlt hne heq
  rw [hv, e8 n0 n1 h0 h1 n hlt] at heq
  have h2 : √((n0 : ℝ) * n1) = 1 := by
    have := Option.some.inj heq
    exact mul_right_cancel₀ hne (by rw [this, one_mul])
  rw [Real.sqrt_eq_one] at h2
  exact hN (by exact_mod_cast h2)

/-! ### C161 -/

/-- Terms of pairs of distinct particles, `Σ_{p≠q} cos(k·(x_p - y_q))`. -/
noncomputable def distinctSum (N : ℕ) (k : Vec d ℝ) (a b : List (Vec d ℝ)) : ℝ :=
  ∑ p : Fin N, ∑ q ∈ Finset.univ.erase p, Real.cos (Spec.dot k fun c => a.getD p 0 c - b.getD q 0 c)

theorem density_fin {N : ℕ} (k : Vec d ℝ) (a : List (Vec d ℝ)) (ha : a.length = N) :
    Spec.density k a = ∑ p : Fin N, Complex.exp (Complex.I * (Spec.dot k (a.getD p 0) : ℝ)) := by
  have : (a.map fun x => Complex.exp (Complex.I * (Spec.dot k x : ℝ))) =
      List.ofFn fun p : Fin N => Complex.exp (Complex.I * (Spec.dot k (a.getD p 0) : ℝ)) := by
    apply List.ext_getElem
    · simp [ha]
    · intro p h1 h2
      rw [List.length_map] at h1
      simp only [List.getElem_map, List.getElem_ofFn]
      rw [List.getD_eq_getElem _ _ h1]
  unfold Spec.density
  rw [this, List.sum_ofFn]

theorem exp_mul_star_re (α β : ℝ) :
    (Complex.exp (Complex.I * (α : ℝ)) * star (Complex.exp (Complex.I * (β : ℝ)))).re = Real.cos (α - β) := by
  rw [Complex.star_def, ← Complex.exp_conj, map_mul, Complex.conj_I, Complex.conj_ofReal, ← Complex.exp_add,
    show Complex.I * (α : ℂ) + -Complex.I * (β : ℂ) = ((α - β : ℝ) : ℂ) * Complex.I by push_cast; ring,
    Complex.exp_ofReal_mul_I_re]

theorem dot_diff (k x y : Vec d ℝ) : Spec.dot k (fun c => x c - y c) = Spec.dot k x - Spec.dot k y := by
  unfold Spec.dot
  rw [← Finset.sum_sub_distrib]
  exact Finset.sum_congr rfl fun c _ => by ring

/-- The product of two densities is the sum of the self and of the distinct terms. -/
theorem density_self_distinct {N : ℕ} (k : Vec d ℝ) (a b : List (Vec d ℝ)) (ha : a.length = N) (hb : b.length = N) :
    (Spec.density k a * star (Spec.density k b)).re = (Spec.selfTerms k a b).sum + distinctSum N k a b := by
  rw [selfTerms_sum_fin k a b ha hb, density_fin k a ha, density_fin k b hb, star_sum, Finset.sum_mul_sum]
  simp only [Complex.re_sum, exp_mul_star_re]
  unfold distinctSum
  rw [← Finset.sum_add_distrib]
  refine Finset.sum_congr rfl fun p _ => ?_
  rw [← Finset.add_sum_erase _ _ (Finset.mem_univ p)]
  simp only [dot_diff]

theorem mean_add_mean {α : Type} (l : List α) (f g : α → ℝ) :
    Spec.mean (l.map fun a => f a + g a) = Spec.mean (l.map f) + Spec.mean (l.map g) := by
  unfold Spec.mean
  rw [List.sum_map_add, List.length_map, List.length_map, List.length_map, add_div]

/-- Mean of the distinct terms at a lag. -/
noncomputable def distinctMean (o : FsObj d) (N : ℕ) (kl : List (KVec d)) (δ : ℤ) : ℝ :=
  Spec.mean (kl.flatMap fun v => (Spec.framePairs o.steps o.skip o.tgrid o.pos δ).map fun ab =>
    distinctSum N (kvecOf o.ks v) ab.1 ab.2)

/-- **C161.** For one group of `N` particles, `value_nonorm` of the coherent intermediate scattering function is `N` times
the self part (without normalisation) plus the mean over the wave-vectors and over the pairs of frames of the terms of
distinct particles. -/
theorem C161_self_distinct (q : FsObj d) {N : ℕ} (hq : FsRegular q N) (hd : d = 2 ∨ d = 3) (hnorm : q.normalize = false)
    (same normalize : Bool) :
    ∃ (lags : List ℤ) (ts : List ℝ) (self value total : List (List ℝ)),
      fsLegacy q = .ok (ts, self) ∧
      fkCompute ⟨q.steps, q.timestep, q.skip, q.tgrid, same, q.pos, q.pos, q.ks, normalize⟩ = .ok (ts, value, total) ∧
      (∀ δ, δ ∈ lags ↔ Spec.Sampled q.steps q.skip q.tgrid q.pos.length δ) ∧ lags.Pairwise (· < ·) ∧
      ts = lags.map (fun t : ℤ => (t : ℝ) * q.timestep) ∧
      self.length = q.ks.kvectors.length ∧ total.length = q.ks.kvectors.length ∧
      (∀ row ∈ self, row.length = lags.length) ∧ (∀ row ∈ total, row.length = lags.length) ∧
      ∀ (n : ℕ) (kl : List (KVec d)), q.ks.kvectors[n]? = some kl → ∀ (j : ℕ) (δ : ℤ), lags[j]? = some δ →
        ∃ fs : ℝ, (self.getD n [])[j]? = some fs ∧ (total.getD n [])[j]? = some (N * fs + distinctMean q N kl δ) := by
  let o : FkObj d := ⟨q.steps, q.timestep, q.skip, q.tgrid, same, q.pos, q.pos, q.ks, normalize⟩
  have ne : ∀ f ∈ q.pos, f ≠ [] := by
    intro f hf h0
    have h1 := hq.npart f hf
    have h2 := hq.npart_pos
    rw [h0] at h1
    simp at h1
    omega
  have ho : FkRegular o := ⟨hd, hq.skip_pos, hq.steps, rfl, fun _ => rfl, ne, ne, hq.allowed, hq.kgrid, hq.shells_ne, hq.shells⟩
  refine ⟨fsLags q, _, fsRaw q, _, fkRaw o, ?_, fkCompute_eq o ho, fun δ => mem_lagList, lagList_sorted _ _, rfl,
    by simp [fsRaw], by simp [fkRaw, o], ?_, ?_, ?_⟩
  · rw [fsLegacy_eq q hq, hnorm]; rfl
  · intro row hrow
    obtain ⟨kl, -, rfl⟩ := List.mem_map.1 hrow
    simp
  · intro row hrow
    obtain ⟨kl, -, rfl⟩ := List.mem_map.1 hrow
    simp [fkLags, fsLags, o]
  intro n kl hn j δ hj
  refine ⟨Spec.mean (selfList q kl δ), ?_, ?_⟩
  · unfold fsRaw
    rw [List.getD_eq_getElem?_getD, List.getElem?_map, hn]
    simp [hj]
  · unfold fkRaw
    rw [List.getD_eq_getElem?_getD, List.getElem?_map, show o.ks.kvectors[n]? = some kl from hn]
    show ((fkLags o).map fun δ => Spec.mean (cohList o kl δ))[j]? = _
    rw [List.getElem?_map, show (fkLags o)[j]? = some δ from hj]
    show some _ = some _
    congr 1
    set P := Spec.framePairs q.steps q.skip q.tgrid q.pos δ with hP
    have e1 : cohList o kl δ = kl.flatMap fun v => P.map fun ab =>
        (Spec.selfTerms (kvecOf q.ks v) ab.1 ab.2).sum + distinctSum N (kvecOf q.ks v) ab.1 ab.2 := by
      rw [cohList_eq o ho]
      apply List.flatMap_congr
      intro v _
      rw [hP, framePairs_eq _ _ _ _ hq.steps [], List.map_map]
      apply List.map_congr_left
      intro p hp
      have hlt := sampled_lt (List.mem_filter.1 hp).1
      have l1 : (q.pos.getD (p.1 + p.2) []).length = N :=
        hq.npart _ (getD_mem (show p.1 + p.2 < q.pos.length from hlt))
      have l2 : (q.pos.getD p.1 []).length = N :=
        hq.npart _ (getD_mem (show p.1 < q.pos.length from by have : p.1 + p.2 < q.pos.length := hlt; omega))
      exact density_self_distinct _ _ _ l1 l2
    have hN : (N : ℝ) ≠ 0 := by have := hq.npart_pos; positivity
    have hL : (selfList q kl δ).length = kl.length * P.length * N := by
      rw [selfList_length q hq, hP, framePairs_eq _ _ _ _ hq.steps [], List.length_map]
    have hS : (selfList q kl δ).sum = (kl.flatMap fun v => P.map fun ab => (Spec.selfTerms (kvecOf q.ks v) ab.1 ab.2).sum).sum := by
      unfold selfList
      rw [sum_flatMap_map, sum_flatMap_map]
      simp only [sum_flatMap_map]
      rfl
    show Spec.mean (cohList o kl δ) = _
    rw [e1]
    unfold distinctMean Spec.mean
    rw [hS, hL, ← hP]
    rw [length_flatMap_const _ _ P.length (by simp), length_flatMap_const _ _ P.length (by simp)]
    simp only [sum_flatMap_map, List.sum_map_add]
    push_cast
    rw [add_div]
    congr 1
    rw [mul_comm ((kl.length : ℝ) * P.length) N, ← mul_div_assoc, mul_div_mul_left _ _ hN]

/-- One particle has no distinct terms. -/
theorem distinctSum_one (k : Vec d ℝ) (a b : List (Vec d ℝ)) : distinctSum 1 k a b = 0 := by
  unfold distinctSum
  refine Finset.sum_eq_zero fun p _ => Finset.sum_eq_zero fun q hq => ?_
  exact absurd (Subsingleton.elim q p) (Finset.mem_erase.1 hq).1

/-- **C161**, one particle: the coherent function and its self part are the same. -/
theorem C161_one_particle (q : FsObj d) (hq : FsRegular q 1) (hd : d = 2 ∨ d = 3) (hnorm : q.normalize = false)
    (same normalize : Bool) :
    ∃ (ts : List ℝ) (value : List (List ℝ)) (self : List (List ℝ)), fsLegacy q = .ok (ts, self) ∧
      fkCompute ⟨q.steps, q.timestep, q.skip, q.tgrid, same, q.pos, q.pos, q.ks, normalize⟩ = .ok (ts, value, self) := by
  obtain ⟨lags, ts, self, value, total, e1, e2, -, -, -, e6, e7, e8, e9, e10⟩ :=
    C161_self_distinct q hq hd hnorm same normalize
  refine ⟨ts, value, self, e1, ?_⟩
  rw [e2]
  have : total = self := by
    apply List.ext_getElem (by rw [e6, e7])
    intro n h1 h2
    have l1 := e9 _ (List.getElem_mem h1)
    have l2 := e8 _ (List.getElem_mem h2)
    apply List.ext_getElem (by rw [l1, l2])
    intro j j1 j2
    have hn : n < q.ks.kvectors.length := by omega
    obtain ⟨fs, f1, f2⟩ := e10 n _ (List.getElem?_eq_getElem hn) j _ (List.getElem?_eq_getElem (by omega : j < lags.length))
    have hz : distinctMean q 1 q.ks.kvectors[n] (lags[j]'(by omega)) = 0 := by
      unfold distinctMean Spec.mean
      simp only [distinctSum_one]
      rw [sum_flatMap_map]
      simp
    rw [hz, List.getD_eq_getElem _ _ h1, List.getElem?_eq_getElem j1] at f2
    rw [List.getD_eq_getElem _ _ h2, List.getElem?_eq_getElem j2] at f1
    rw [Option.some.inj f1, Option.some.inj f2]
    simp
  rw [this]

theorem selfTerms_same (k : Vec d ℝ) (a : List (Vec d ℝ)) : (Spec.selfTerms k a a).sum = a.length := by
  rw [selfTerms_sum_fin k a a rfl rfl]
  simp [Spec.dot]

/-- **C161**, structure factor: for one group of `N` particles it is 1 plus the mean over frames and wave-vectors of the
terms of distinct particles, divided by `N`. -/
theorem C161_structure_factor (s : SkObj d) (hS : SkRegular s) (hw : s.weighted = false) (hs : s.same = true) {N : ℕ}
    (hN : ∀ f ∈ s.frames, f.pos0.length = N) :
    ∃ v x, skLegacy s = .ok (v, x) ∧ v.length = s.nk ∧ ∀ n < s.nk,
      v.getD n 0 = 1 + Spec.mean ((Spec.everyNth s.skip s.frames).flatMap fun f =>
        ((kvectorsGet f.ks).getD n []).map fun k => distinctSum N k f.pos0 f.pos0) / N := by
  refine ⟨_, _, skLegacy_eq s hS, by simp, ?_⟩
  intro n hn
  obtain ⟨f0, hf0⟩ := List.exists_mem_of_ne_nil _ hS.frames_ne
  have c0 : skN0 s = N := skN_const s.frames hS.frames_ne _ hN
  have c1 : skN1 s = N := skN_const s.frames hS.frames_ne _ fun f hf => by rw [(hS.same hs f hf).1]; exact hN f hf
  have p0 : 0 < N := by rw [← hN _ hf0]; exact List.length_pos_iff.2 (hS.pos0 f0 hf0)
  have p0' : (N : ℝ) ≠ 0 := by positivity
  have hget : ∀ g : ℕ → ℝ, ((List.range s.nk).map g).getD n 0 = g n := by
    intro g
    rw [List.getD_eq_getElem?_getD, List.getElem?_map, List.getElem?_range hn]
    rfl
  rw [hget, c0, c1, Real.sqrt_mul_self (by positivity), hw, sum_div_re, gridModes_products s hS.skip_pos hw,
    ← List.length_map (as := gridModes s n) (fun r : ℂ × ℂ => (r.1 * star r.2).re), gridModes_products s hS.skip_pos hw]
  set E := Spec.everyNth s.skip s.frames with hE
  have hm : ∀ f ∈ E, f ∈ s.frames := by
    intro f hf
    rw [hE, everyNth_getD _ _ f0] at hf
    obtain ⟨i, hi, rfl⟩ := List.mem_map.1 hf
    exact getD_mem (List.mem_range.1 (List.mem_filter.1 hi).1)
  have e1 : modeProducts s n = (E.flatMap fun f => ((kvectorsGet f.ks).getD n []).map fun k => (f, k)).map fun e =>
      (N : ℝ) + distinctSum N e.2 e.1.pos0 e.1.pos0 := by
    unfold modeProducts
    rw [List.map_flatMap, ← hE]
    apply List.flatMap_congr
    intro f hf
    rw [List.map_map]
    apply List.map_congr_left
    intro k _
    rw [(hS.same hs f (hm f hf)).1, density_self_distinct k f.pos0 f.pos0 (hN f (hm f hf)) (hN f (hm f hf)), selfTerms_same,
      hN f (hm f hf)]
    rfl
  have e2 : (E.flatMap fun f => ((kvectorsGet f.ks).getD n []).map fun k => distinctSum N k f.pos0 f.pos0) =
      (E.flatMap fun f => ((kvectorsGet f.ks).getD n []).map fun k => (f, k)).map fun e =>
      distinctSum N e.2 e.1.pos0 e.1.pos0 := by
    rw [List.map_flatMap]
    simp only [List.map_map]
    rfl
  have hne : (E.flatMap fun f => ((kvectorsGet f.ks).getD n []).map fun k => (f, k)) ≠ [] := by
    obtain ⟨f, hf⟩ : ∃ f, f ∈ E := by
      refine List.exists_mem_of_ne_nil _ ?_
      rw [hE, everyNth_getD _ _ f0]
      apply List.ne_nil_of_mem (a := s.frames.getD 0 f0)
      refine List.mem_map.2 ⟨0, List.mem_filter.2 ⟨List.mem_range.2 (List.length_pos_iff.2 hS.frames_ne), by simp⟩, rfl⟩
    obtain ⟨s1, s2⟩ := hS.shells f (hm f hf)
    have hk : (kvectorsGet f.ks).getD n [] ≠ [] := by
      have h2 := s2 _ (List.getElem_mem (by omega : n < f.ks.kvectors.length))
      unfold kvectorsGet
      rw [List.getD_eq_getElem?_getD, List.getElem?_map, List.getElem?_eq_getElem (by omega)]
      simpa using h2
    obtain ⟨k, hk⟩ := List.exists_mem_of_ne_nil _ hk
    exact List.ne_nil_of_mem (List.mem_flatMap.2 ⟨f, hf, List.mem_map.2 ⟨k, hk, rfl⟩⟩)
  rw [e1, e2]
  set L := E.flatMap fun f => ((kvectorsGet f.ks).getD n []).map fun k => (f, k) with hL
  show Spec.mean _ / _ = _
  rw [mean_add_mean, add_div]
  have hl : (L.length : ℝ) ≠ 0 := by
    have := List.length_pos_iff.2 hne
    positivity
  congr 1
  unfold Spec.mean
  simp only [List.map_const', List.sum_replicate, List.length_replicate, nsmul_eq_mul]
  field_simp

/-! ### Examples -/

/-- The frames of `exFk` for the structure factor. -/
noncomputable def exFkFrames : SkObj 3 :=
  ⟨false, false, 1, 2, [⟨[![0, 0, 0], ![1, 2, 3]], [![0, 0, 1]], [], [], exKs⟩,
    ⟨[![0, 1, 0], ![1, 2, 2]], [![0, 1, 2]], [], [], exKs⟩, ⟨[![1, 1, 1], ![1, 4, 2]], [![1, 3, 1]], [], [], exKs⟩]⟩

theorem exFkFrames_regular : SkRegular exFkFrames := by
  refine ⟨by simp [exFkFrames], by simp [exFkFrames], Or.inr (Or.inr rfl), ?_, ?_, ?_, ?_, ?_⟩
  all_goals simp [exFkFrames, exKs_allowed]
  simp [exKs]

/-- Two groups of 2 and 1 particles: F(k,0) is the structure factor times √2. -/
example : ∃ ts value nonorm v x, fkCompute exFk = .ok (ts, value, nonorm) ∧ skLegacy exFkFrames = .ok (v, x) ∧
    ts.head? = some 0 ∧ ∀ n < 2, (nonorm.getD n []).head? = some (√((2 : ℕ) * (1 : ℕ)) * v.getD n 0) := by
  obtain ⟨ts, value, nonorm, v, x, e1, e2, e3, -, -, -, -, e8⟩ := C160_zero_lag_partial exFk exFk_regular exFkFrames
    exFkFrames_regular rfl rfl (by simp [exFkFrames, exFk]) (by simp [exFkFrames, exFk]) (by simp [exFk])
    (by simp [exFk])
  exact ⟨ts, value, nonorm, v, x, e1, e2, e3, e8 2 1 (by simp [exFk]) (by simp [exFk])⟩

/-- Without normalisation the values at zero lag are not those of the structure factor. -/
example : ∃ ts value nonorm v x, fkCompute { exFk with normalize := false } = .ok (ts, value, nonorm) ∧
    skLegacy exFkFrames = .ok (v, x) ∧ ts.head? = some 0 ∧ value.length = 2 ∧ v.length = 2 ∧
    ∀ n < 2, v.getD n 0 ≠ 0 → (value.getD n []).head? ≠ some (v.getD n 0) :=
  C160_counterexample_number { exFk with normalize := false }
    ⟨Or.inr rfl, by simp [exFk], by simp [exFk], by simp [exFk], by simp [exFk], by simp [exFk],
    by simp [exFk], exKs_allowed, by simp [exFk, exKs], by simp [exFk, exKs], by simp [exFk, exKs]⟩ rfl exFkFrames
    exFkFrames_regular rfl rfl (by simp [exFkFrames, exFk]) (by simp [exFkFrames, exFk]) (by simp [exFk])
    (by simp [exFk]) (n0 := 2) (n1 := 1) (by simp [exFk]) (by simp [exFk]) (by norm_num)

/-- The two particles of `exFs`: F(k,t) is twice the self part plus the terms of the two pairs. -/
example : ∃ (lags : List ℤ) (ts : List ℝ) (self value total : List (List ℝ)),
    fsLegacy { exFs with normalize := false } = .ok (ts, self) ∧
    fkCompute ⟨exFs.steps, exFs.timestep, exFs.skip, exFs.tgrid, true, exFs.pos, exFs.pos, exKs, true⟩ =
      .ok (ts, value, total) ∧
    ts = lags.map (fun t : ℤ => (t : ℝ) * (1 / 2)) ∧ self.length = 2 ∧ total.length = 2 ∧
      ∀ (n : ℕ) (kl : List (KVec 3)), exKs.kvectors[n]? = some kl → ∀ (j : ℕ) (δ : ℤ), lags[j]? = some δ →
        ∃ fs : ℝ, (self.getD n [])[j]? = some fs ∧
          (total.getD n [])[j]? = some ((2 : ℕ) * fs + distinctMean { exFs with normalize := false } 2 kl δ) := by
  have hr : FsRegular { exFs with normalize := false } 2 := by
    refine ⟨by simp [exFs], by simp [exFs], by simp [exFs], by simp [exFs], two_pos, exKs_allowed, by simp [exFs, exKs],
      by simp [exFs, exKs], by simp [exFs, exKs]⟩
  obtain ⟨lags, ts, self, value, total, e1, e2, -, -, e5, e6, e7, -, -, e10⟩ :=
    C161_self_distinct { exFs with normalize := false } hr (Or.inr rfl) rfl true true
  exact ⟨lags, ts, self, value, total, e1, e2, e5, e6, e7, e10⟩

/-- The structure factor of three particles. -/
example : ∃ v x, skLegacy exSk = .ok (v, x) ∧ v.length = 2 ∧ ∀ n < 2,
    v.getD n 0 = 1 + Spec.mean ((Spec.everyNth 1 exSk.frames).flatMap fun f =>
      ((kvectorsGet f.ks).getD n []).map fun k => distinctSum 3 k f.pos0 f.pos0) / (3 : ℕ) :=
  C161_structure_factor exSk exSk_regular rfl rfl (by simp [exSk])

/-- One particle. -/
example : ∃ (ts : List ℝ) (value self : List (List ℝ)),
    fsLegacy ⟨[0, 1, 3], 1 / 2, 1, [(0, 0), (0, 1), (0, 2)], [[![0, 0, 0]], [![0, 1, 0]], [![1, 4, 2]]], exKs, 64, false⟩ =
      .ok (ts, self) ∧
    fkCompute ⟨[0, 1, 3], 1 / 2, 1, [(0, 0), (0, 1), (0, 2)], true, [[![0, 0, 0]], [![0, 1, 0]], [![1, 4, 2]]],
      [[![0, 0, 0]], [![0, 1, 0]], [![1, 4, 2]]], exKs, true⟩ = .ok (ts, value, self) :=
  C161_one_particle (d := 3)
    ⟨[0, 1, 3], 1 / 2, 1, [(0, 0), (0, 1), (0, 2)], [[![0, 0, 0]], [![0, 1, 0]], [![1, 4, 2]]], exKs, 64, false⟩
    ⟨by simp, by simp, by simp, by simp, one_pos, exKs_allowed, by simp [exKs], by simp [exKs], by simp [exKs]⟩
    (Or.inr rfl) rfl true true

end PP.Props
