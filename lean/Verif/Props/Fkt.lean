import Verif.Lemmas.Fcoh
import Verif.Props.Fskt
import Verif.Props.Roots

/-!
# Coherent intermediate scattering function and relaxation times: C56, C83, C84
-/

set_option linter.unusedSectionVars false

namespace PP.Props

variable {d : ℕ}

/-! ### C83: the definition -/

/-- **C83, partial.** In two and three dimensions, row `n` of `value_nonorm` contains, for each sampled lag in increasing
order, the mean over the wave-vectors of grid point `n` and over the sampled pairs of frames of
`Re ρ⁰(t₀ + t) ρ¹(t₀)*`. Without normalisation `value` is the same. Missing: other numbers of dimensions, where it is
false, see `C83_counterexample_1d`. -/
theorem C83_definition_partial (o : FkObj d) (h : FkRegular o) :
    ∃ lags : List ℤ, lags.Pairwise (· < ·) ∧
      (∀ δ, δ ∈ lags ↔ Spec.Sampled o.steps o.skip o.tgrid o.pos0.length δ) ∧
      ∃ value nonorm, fkCompute o = .ok (lags.map fun t : ℤ => (t : ℝ) * o.timestep, value, nonorm) ∧
      (nonorm = (kvectorsGet o.ks).map fun kl => lags.map fun δ => Spec.mean (kl.flatMap fun k =>
          (Spec.framePairs o.steps o.skip o.tgrid (o.pos0.zip o.pos1) δ).map fun ab =>
            (Spec.density k ab.1.1 * star (Spec.density k ab.2.2)).re)) ∧
      (o.normalize = false → value = nonorm) := by
  refine ⟨fkLags o, lagList_sorted _ _, fun δ => mem_lagList, _, fkRaw o, fkCompute_eq o h, ?_, ?_⟩
  · rw [kvectorsGet_map, List.map_map]
    unfold fkRaw
    apply List.map_congr_left
    intro kl _
    apply List.map_congr_left
    intro δ _
    simp only [cohList, List.flatMap_map]
  · intro hn; rw [hn]; rfl

/-- C83 (exception): in one dimension the imaginary part of the density is lost. For one frame and one wave-vector
(given through the `kvectors` property), the value is `(Σ cos k·x)²`, whatever the positions. -/
theorem C83_counterexample_1d (ks : KState 1 ℝ) (v : KVec 1) (hk : ks.kvectors = [[v]]) (kg : ℝ) (hg : ks.kgrid = [kg])
    (ha : Allowed ks) (pos : List (Vec 1 ℝ)) (hp : pos ≠ []) (step : ℤ) (dt : ℝ) :
    fkCompute ⟨[step], dt, 1, [(0, 0)], true, [pos], [pos], ks, false⟩ =
      .ok ([0], [[((pos.map fun x => Real.cos (Spec.dot (kvecOf ks v) x)).sum) ^ 2]],
        [[((pos.map fun x => Real.cos (Spec.dot (kvecOf ks v) x)).sum) ^ 2]]) := by
  set S : ℝ := (pos.map fun x => Real.cos (Spec.dot (kvecOf ks v) x)).sum with hS
  have hoff : 1 ≤ ks.koffset.toNat := by have := ha.1; omega
  have hv := ha.2 [v] (by rw [hk]; simp) v (by simp)
  have hfr : fkFrame ks pos = .ok [(v, (S : ℂ))] := by
    unfold fkFrame
    rw [expoSphere_eq _ _ _ hoff _ hp]
    show Except.bind (List.foldlM _ (skTable ks pos, []) _) _ = _
    rw [foldlM_flatten', hk]
    show Except.bind (List.foldlM fkDensity (skTable ks pos, []) [v]) _ = _
    rw [List.foldlM_cons]
    have hrow : ∀ x ∈ pos, fkRowNd ((List.finRange 1).map fun j => expoList ks.koffset.toNat (ks.k0 j * x j)) v =
        .ok (ccis (Spec.dot (kvecOf ks v) x),
          ((List.finRange 1).map fun j => expoList ks.koffset.toNat (ks.k0 j * x j)).modify 0 fun r =>
            r.set (fkRowNd.kvec0 v r.length) (ccis (Spec.dot (kvecOf ks v) x))) := by
      intro x _
      unfold fkRowNd
      rw [expoProd_eq ks.k0 ks.koffset ha.1 v hv x, ccis_kvec ks v x]
      rfl
    have hden : fkDensity (skTable ks pos, []) v = .ok ((pos.map fun x =>
        ((List.finRange 1).map fun j => expoList ks.koffset.toNat (ks.k0 j * x j)).modify 0 fun r =>
            r.set (fkRowNd.kvec0 v r.length) (ccis (Spec.dot (kvecOf ks v) x))), [(v, (S : ℂ))]) := by
      unfold fkDensity
      rw [if_neg (by omega)]
      have h2 : (skTable ks pos).mapM (fun row => fkRowNd row v) = .ok (pos.map fun x =>
          (ccis (Spec.dot (kvecOf ks v) x),
          ((List.finRange 1).map fun j => expoList ks.koffset.toNat (ks.k0 j * x j)).modify 0 fun r =>
            r.set (fkRowNd.kvec0 v r.length) (ccis (Spec.dot (kvecOf ks v) x)))) := by
        unfold skTable
        rw [List.mapM_map]
        exact mapM_ok_map hrow
      show Except.bind (List.mapM _ _) _ = _
      rw [h2]
      show Except.ok _ = _
      rw [List.map_map, List.map_map]
      refine congrArg Except.ok (Prod.ext rfl ?_)
      show [(v, (0 : ℂ) + _)] = _
      rw [zero_add]
      congr 2
      rw [hS, re_sum, List.map_map]
      congr 2
      apply List.map_congr_left
      intro x _
      exact re_ccis _
    rw [hden]
    rfl
  have hloop := fkLoops_eq [step] 1 1 1 one_pos [(0, 0)] (fkPair [[(v, (S : ℂ))]] [[(v, (S : ℂ))]]) (fun _ _ _ => S ^ 2)
    [[v]] [([], [])] le_rfl (by
      intro i0 i hi l hl w hw
      obtain ⟨rfl, rfl⟩ : i0 = 0 ∧ i = 0 := by omega
      rw [List.mem_singleton] at hl
      subst hl
      rw [List.mem_singleton] at hw
      subst hw
      show Except.ok _ = _
      simp [ddGet, sq]) le_rfl
  have hval := fkValues_eq [()] (by simp) [step] (Spec.sampled 1 1 [(0, 0)]) (fun _ _ _ _ => S ^ 2) (fun _ => 1) (by simp)
    [[v]] (by simp) (by simp)
  have hp : Spec.sampled 1 1 [(0, 0)] = [(0, 0)] := by decide +kernel
  rw [hp] at hloop hval
  have hlag : lagList [step] [(0, 0)] = [0] := by simp [lagList, stepDiff, pySorted]
  have hpa : pairsAt [step] [(0, 0)] 0 = [(0, 0)] := by simp [pairsAt, stepDiff]
  rw [hlag] at hval
  unfold fkCompute
  show Except.bind (List.mapM (fkFrame ks) [pos]) _ = _
  have hm : List.mapM (fkFrame ks) [pos] = .ok [[(v, (S : ℂ))]] := by
    rw [List.mapM_cons, hfr]; rfl
  rw [hm]
  show Except.bind (fkLoops [step] 1 1 1 [(0, 0)] _ ks.kvectors (List.replicate ks.kgrid.length _)) _ = _
  rw [hk, hg]
  show Except.bind (fkLoops [step] 1 1 1 [(0, 0)] _ [[v]] [([], [])]) _ = _
  rw [hloop]
  show Except.bind (fkValues ([[v]].map fun kl => accBlocks [()] (fun _ => fkEvents [step] [(0, 0)] (fun _ _ _ => S ^ 2) kl)
    fun _ => 1)) _ = _
  rw [hval]
  show Except.ok _ = _
  simp [hpa]

/-! ### C56 -/

theorem fkRaw_head (o : FkObj d) (h : FkRegular o) (hs : o.steps.Pairwise (· < ·))
    (h0 : Spec.Sampled o.steps o.skip o.tgrid o.pos0.length 0) : ∃ r, fkLags o = 0 :: r :=
  lagList_head hs (fun p hp => lt_of_lt_of_le (sampled_lt hp) h.steps) h0

/-- **C56, partial.** With `normalize=True` the values are those of `value_nonorm` divided by the one at zero lag, so
that each row begins with 1, unless the value at zero lag is 0. Missing: the partial `F_ba`, see
`C56_counterexample_swap`. -/
theorem C56_normalised_partial (o : FkObj d) (h : FkRegular o) (hs : o.steps.Pairwise (· < ·))
    (h0 : Spec.Sampled o.steps o.skip o.tgrid o.pos0.length 0) (hn : o.normalize = true) :
    ∃ ts value nonorm, fkCompute o = .ok (ts, value, nonorm) ∧ ts.head? = some 0 ∧
      value = (nonorm.map fun row => row.map fun x => x / row.getD 0 0) ∧ nonorm.length = o.ks.kvectors.length ∧
      (∀ row ∈ nonorm, row.length = ts.length) ∧
      ∀ n, (∃ c, (nonorm.getD n []).head? = some c ∧ c ≠ 0) → (value.getD n []).head? = some 1 := by
  obtain ⟨r, hr⟩ := fkRaw_head o h hs h0
  refine ⟨(fkLags o).map fun t : ℤ => (t : ℝ) * o.timestep, (fkRaw o).map fun row => row.map fun x => x / row.getD 0 0,
    fkRaw o, ?_, by rw [hr]; simp, rfl, by simp [fkRaw], ?_, ?_⟩
  · rw [fkCompute_eq o h, hn]; rfl
  · intro row hrow
    unfold fkRaw at hrow
    obtain ⟨kl, -, rfl⟩ := List.mem_map.1 hrow
    simp
  · rintro n ⟨c, hc, hc0⟩
    rw [List.getD_eq_getElem?_getD] at hc
    rw [List.getD_eq_getElem?_getD, List.getElem?_map]
    cases hrow : (fkRaw o)[n]? with
    | none => rw [hrow] at hc; simp at hc
    | some row =>
      rw [hrow] at hc
      cases row with
      | nil => simp at hc
      | cons a t =>
        simp only [Option.getD_some, List.head?_cons, Option.some.injEq] at hc
        subst hc
        simp [div_self hc0]

/-- Terms at zero lag are products of densities of the same frame. -/
theorem cohList_zero (o : FkObj d) (h : FkRegular o) (hs : o.steps.Pairwise (· < ·)) {kl : List (KVec d)} {x : ℝ}
    (hx : x ∈ cohList o kl 0) : ∃ v ∈ kl, ∃ i < o.pos0.length,
      x = (Spec.density (kvecOf o.ks v) (o.pos0.getD i []) *
        star (Spec.density (kvecOf o.ks v) (o.pos1.getD i []))).re := by
  rw [cohList_eq o h] at hx
  obtain ⟨v, hv, hx⟩ := List.mem_flatMap.1 hx
  obtain ⟨p, hp, rfl⟩ := List.mem_map.1 hx
  obtain ⟨hp1, hp2⟩ := List.mem_filter.1 hp
  rw [decide_eq_true_eq] at hp2
  have hlt := sampled_lt hp1
  have := stepDiff_eq_zero hs (lt_of_lt_of_le hlt h.steps) hp2
  exact ⟨v, hv, p.1, by omega, by rw [this]; rfl⟩

theorem mul_star_re_norm (z : ℂ) : (z * star z).re = ‖z‖ ^ 2 := by
  rw [Complex.star_def, Complex.mul_conj, Complex.ofReal_re, Complex.normSq_eq_norm_sq]

/-- **C56, partial.** For one group of particles, the values at zero lag that the code divides by are not negative. -/
theorem C56_zero_lag_nonneg_partial (o : FkObj d) (h : FkRegular o) (hsame : o.pos1 = o.pos0)
    (hs : o.steps.Pairwise (· < ·)) (h0 : Spec.Sampled o.steps o.skip o.tgrid o.pos0.length 0) :
    ∃ ts value nonorm, fkCompute o = .ok (ts, value, nonorm) ∧ nonorm.length = o.ks.kvectors.length ∧
      ∀ row ∈ nonorm, ∃ c, row.head? = some c ∧ 0 ≤ c := by
  obtain ⟨r, hr⟩ := fkRaw_head o h hs h0
  refine ⟨_, _, fkRaw o, fkCompute_eq o h, by simp [fkRaw], ?_⟩
  intro row hrow
  unfold fkRaw at hrow
  obtain ⟨kl, hkl, rfl⟩ := List.mem_map.1 hrow
  refine ⟨Spec.mean (cohList o kl 0), by rw [hr]; rfl, ?_⟩
  apply PP.le_mean
  · rw [cohList_length o h]
    have h1 := pairsAt_length_pos (show (0 : ℤ) ∈ fkLags o by rw [hr]; simp)
    have h2 := List.length_pos_iff.2 (h.shells kl hkl)
    positivity
  · intro a ha
    obtain ⟨v, -, i, -, rfl⟩ := cohList_zero o h hs ha
    rw [hsame, mul_star_re_norm]
    positivity

/-- The same calculation with the two groups exchanged. -/
def _root_.PP.FkObj.swap (o : FkObj d) : FkObj d := { o with pos0 := o.pos1, pos1 := o.pos0 }

theorem swap_regular (o : FkObj d) (h : FkRegular o) : FkRegular o.swap :=
  ⟨h.dims, h.skip_pos, by show o.pos1.length ≤ _; rw [h.frames]; exact h.steps, h.frames.symm,
    fun hs => (h.same hs).symm, h.pos1, h.pos0, h.allowed, h.kgrid, h.shells_ne, h.shells⟩

/-- **C56, partial.** Exchanging the two groups gives the same times and the same values at zero lag. -/
theorem C56_swap_zero_lag_partial (o : FkObj d) (h : FkRegular o) (hs : o.steps.Pairwise (· < ·))
    (h0 : Spec.Sampled o.steps o.skip o.tgrid o.pos0.length 0) :
    ∃ ts value nonorm value' nonorm', fkCompute o = .ok (ts, value, nonorm) ∧
      fkCompute o.swap = .ok (ts, value', nonorm') ∧ nonorm.length = nonorm'.length ∧
      ∀ n, (nonorm.getD n []).head? = (nonorm'.getD n []).head? := by
  have hl : fkLags o.swap = fkLags o := by
    show lagList o.steps (Spec.sampled o.pos1.length o.skip o.tgrid) = _
    rw [h.frames]; rfl
  obtain ⟨r, hr⟩ := fkRaw_head o h hs h0
  have he := fkCompute_eq _ (swap_regular o h)
  rw [hl] at he
  refine ⟨_, _, fkRaw o, _, fkRaw o.swap, fkCompute_eq o h, he, by simp [fkRaw, FkObj.swap], ?_⟩
  · intro n
    simp only [List.getD_eq_getElem?_getD, fkRaw, List.getElem?_map]
    show ((o.ks.kvectors[n]?.map _).getD []).head? = ((o.ks.kvectors[n]?.map _).getD []).head?
    rcases o.ks.kvectors[n]? with _ | kl
    · rfl
    · simp only [Option.map_some, Option.getD_some, hl, hr, List.map_cons, List.head?_cons, Option.some.injEq]
      congr 1
      rw [cohList_eq o h, cohList_eq _ (swap_regular o h)]
      show _ = kl.flatMap fun v => (pairsAt o.steps (Spec.sampled o.pos1.length o.skip o.tgrid) 0).map fun p =>
        (Spec.density (kvecOf o.ks v) (o.pos1.getD (p.1 + p.2) []) *
          star (Spec.density (kvecOf o.ks v) (o.pos0.getD p.1 []))).re
      rw [h.frames]
      apply List.flatMap_congr
      intro v _
      apply List.map_congr_left
      intro p hp
      obtain ⟨hp1, hp2⟩ := List.mem_filter.1 hp
      rw [decide_eq_true_eq] at hp2
      rw [stepDiff_eq_zero hs (lt_of_lt_of_le (sampled_lt hp1) h.steps) hp2, Nat.add_zero]
      simp only [Complex.star_def, Complex.mul_re, Complex.conj_re, Complex.conj_im]
      ring

/-! #### The counterexample -/

/-- One wave-vector `(1, 0)`. -/
noncomputable def exKs2 : KState 2 ℝ :=
  { k0 := ![1, 1], kgrid := [1], kvectors := [[![2, 1]]], koffset := 1 }

theorem exKs2_allowed : Allowed exKs2 := by
  refine ⟨by simp [exKs2], ?_⟩
  intro l hl v hv
  simp only [exKs2, List.mem_singleton] at hl
  subst hl
  rw [List.mem_singleton] at hv
  subst hv
  intro c
  fin_cases c <;> simp [exKs2]

/-- Particle A moves by half a wavelength, B does not move; a single time origin. -/
noncomputable def exSwap (normalize : Bool) : FkObj 2 :=
  { steps := [0, 1], timestep := 1, skip := 2, tgrid := [(0, 0), (0, 1)], same := false,
    pos0 := [[![0, 0]], [![Real.pi, 0]]], pos1 := [[![0, 0]], [![0, 0]]], ks := exKs2, normalize := normalize }

theorem exSwap_regular (b : Bool) : FkRegular (exSwap b) :=
  ⟨Or.inl rfl, by simp [exSwap], by simp [exSwap], by simp [exSwap], by simp [exSwap], by simp [exSwap],
    by simp [exSwap], exKs2_allowed, by simp [exSwap, exKs2], by simp [exSwap, exKs2], by simp [exSwap, exKs2]⟩

theorem exSwap_zero (b : Bool) : (exSwap b).steps.Pairwise (· < ·) ∧
    Spec.Sampled (exSwap b).steps (exSwap b).skip (exSwap b).tgrid (exSwap b).pos0.length 0 :=
  ⟨by simp [exSwap], sampled_zero (off := 0) (by simp [exSwap]) (by simp [exSwap])⟩

theorem density_one (k x : Fin 2 → ℝ) : Spec.density k [x] = ccis (Spec.dot k x) := by
  simp [Spec.density, ccis]

theorem kvec_ex (x y : ℝ) : Spec.dot (kvecOf exKs2 ![2, 1]) ![x, y] = x := by
  simp [Spec.dot, kvecOf, exKs2, Fin.sum_univ_two]; ring

/-- C56 (exception): `F_AB` and `F_BA` calculated directly are different; `Partial` copies the first into the second. -/
theorem C56_counterexample_swap (b : Bool) :
    fkCompute (exSwap b) = .ok ([0, 1], [[1, -1]], [[1, -1]]) ∧
    fkCompute (exSwap b).swap = .ok ([0, 1], [[1, 1]], [[1, 1]]) := by
  have hl : fkLags (exSwap b) = [0, 1] := by
    show lagList [0, 1] (Spec.sampled 2 2 [(0, 0), (0, 1)]) = [0, 1]
    decide +kernel
  have hl' : fkLags (exSwap b).swap = [0, 1] := hl
  have p0 : pairsAt [0, 1] (Spec.sampled 2 2 [(0, 0), (0, 1)]) 0 = [(0, 0)] := by decide +kernel
  have p1 : pairsAt [0, 1] (Spec.sampled 2 2 [(0, 0), (0, 1)]) 1 = [(0, 1)] := by decide +kernel
  have hpi : ccis Real.pi = -1 := by
    unfold ccis; rw [mul_comm]; exact Complex.exp_pi_mul_I
  have r1 : fkRaw (exSwap b) = [[1, -1]] := by
    unfold fkRaw
    rw [hl]
    show [[Spec.mean (cohList (exSwap b) [![2, 1]] 0), Spec.mean (cohList (exSwap b) [![2, 1]] 1)]] = _
    rw [cohList_eq _ (exSwap_regular b), cohList_eq _ (exSwap_regular b)]
    have hs : (exSwap b).steps = [0, 1] := rfl
    have hk : (exSwap b).skip = 2 := rfl
    have hg : (exSwap b).tgrid = [(0, 0), (0, 1)] := rfl
    have hn : (exSwap b).pos0.length = 2 := rfl
    rw [hs, hk, hg, hn, p0, p1]
    simp [exSwap, density_one, kvec_ex, hpi, ccis_zero, Spec.mean]
  have r2 : fkRaw (exSwap b).swap = [[1, 1]] := by
    unfold fkRaw
    rw [hl']
    show [[Spec.mean (cohList (exSwap b).swap [![2, 1]] 0), Spec.mean (cohList (exSwap b).swap [![2, 1]] 1)]] = _
    rw [cohList_eq _ (swap_regular _ (exSwap_regular b)), cohList_eq _ (swap_regular _ (exSwap_regular b))]
    have hs : (exSwap b).swap.steps = [0, 1] := rfl
    have hk : (exSwap b).swap.skip = 2 := rfl
    have hg : (exSwap b).swap.tgrid = [(0, 0), (0, 1)] := rfl
    have hn : (exSwap b).swap.pos0.length = 2 := rfl
    rw [hs, hk, hg, hn, p0, p1]
    simp [exSwap, FkObj.swap, density_one, kvec_ex, ccis_zero, Spec.mean]
  constructor
  · rw [fkCompute_eq _ (exSwap_regular b), hl, r1]
    cases b <;> simp [exSwap]
  · rw [fkCompute_eq _ (swap_regular _ (exSwap_regular b)), hl', r2]
    cases b <;> simp [exSwap, FkObj.swap]

/-- The theorems apply to the example and to one with two groups of different size in three dimensions. -/
example : ∃ ts value nonorm, fkCompute (exSwap true) = .ok (ts, value, nonorm) ∧ ts.head? = some 0 ∧
    value = (nonorm.map fun row => row.map fun x => x / row.getD 0 0) := by
  obtain ⟨ts, v, n, h1, h2, h3, -⟩ := C56_normalised_partial _ (exSwap_regular true) (exSwap_zero true).1
    (exSwap_zero true).2 rfl
  exact ⟨ts, v, n, h1, h2, h3⟩

/-- Three dimensions, three frames with one and two particles. -/
noncomputable def exFk : FkObj 3 :=
  { steps := [0, 1, 3], timestep := 1 / 2, skip := 1, tgrid := [(0, 0), (0, 1), (0, 2)], same := false,
    pos0 := [[![0, 0, 0], ![1, 2, 3]], [![0, 1, 0], ![1, 2, 2]], [![1, 1, 1], ![1, 4, 2]]],
    pos1 := [[![0, 0, 1]], [![0, 1, 2]], [![1, 3, 1]]], ks := exKs, normalize := true }

theorem exFk_regular : FkRegular exFk :=
  ⟨Or.inr rfl, by simp [exFk], by simp [exFk], by simp [exFk], by simp [exFk], by simp [exFk],
    by simp [exFk], exKs_allowed, by simp [exFk, exKs], by simp [exFk, exKs], by simp [exFk, exKs]⟩

example : ∃ ts value nonorm value' nonorm', fkCompute exFk = .ok (ts, value, nonorm) ∧
    fkCompute exFk.swap = .ok (ts, value', nonorm') ∧ nonorm.length = nonorm'.length ∧
      ∀ n, (nonorm.getD n []).head? = (nonorm'.getD n []).head? :=
  C56_swap_zero_lag_partial exFk exFk_regular (by simp [exFk])
    (sampled_zero (off := 0) (by simp [exFk]) (by simp [exFk]))

/-! ### C84: relaxation times -/

/-- `τ` is the relaxation time of the samples `f` at times `t`, which starts from `f0`: the first point where the chord
between two samples has the value `f0 / e`, or none if no sample is below this value. -/
def IsTau (e : ℝ) (t f : List ℝ) (f0 : ℝ) : Option ℝ → Prop
  | none => ∀ i < min t.length f.length, f0 / e ≤ f.getD i 0
  | some τ => ∃ i, 1 ≤ i ∧ i < min t.length f.length ∧ f.getD i 0 < f0 / e ∧ (∀ j < i, f0 / e ≤ f.getD j 0) ∧
      t.getD (i - 1) 0 ≤ τ ∧ τ < t.getD i 0 ∧
      f.getD (i - 1) 0 + (f.getD i 0 - f.getD (i - 1) 0) / (t.getD i 0 - t.getD (i - 1) 0) * (τ - t.getD (i - 1) 0) =
        f0 / e

theorem getD_of_some {l : List ℝ} {i : ℕ} {x : ℝ} (h : l[i]? = some x) : l.getD i 0 = x := by
  rw [List.getD_eq_getElem?_getD, h]; rfl

theorem tauRoot_spec (e : ℝ) (he : 1 < e) (t f : List ℝ) (f0 : ℝ) (hf : f[0]? = some f0) (hf0 : 0 < f0)
    (ht : t.Pairwise (· < ·)) : ∃ r, extractTau.tauRoot t f (f0 * (1 / e)) = .ok r ∧ IsTau e t f f0 r := by
  have hlt : f0 / e < f0 := div_lt_self hf0 he
  have hop : ∀ v, Spec.Opposite (f0 / e) f0 v ↔ v < f0 / e := by
    intro v
    unfold Spec.Opposite
    constructor
    · rintro (⟨h1, -⟩ | ⟨-, h2⟩)
      · exact absurd h1 (not_lt.2 hlt.le)
      · exact h2
    · exact fun h => Or.inr ⟨hlt, h⟩
  unfold extractTau.tauRoot
  rw [mul_one_div]
  rcases C12_feqc t f (f0 / e) f0 hf ht with ⟨h1, h2⟩ | ⟨x, i, xp, xi, fp, fi, h1, h2, h3, h4, h5, h6, h7, h8, h9, h10, h11⟩
  · rw [h1]
    refine ⟨none, rfl, ?_⟩
    intro i hi
    have hi' : f[i]? = some f[i] := List.getElem?_eq_getElem (by omega)
    rw [getD_of_some hi']
    exact not_lt.1 fun hc => h2 i hi _ hi' ((hop _).2 hc)
  · rw [h1]
    refine ⟨some x, rfl, i, h2, ?_, ?_, ?_, ?_, ?_, ?_⟩
    · have a := (List.getElem?_eq_some_iff.1 h4).1
      have b := (List.getElem?_eq_some_iff.1 h6).1
      omega
    · rw [getD_of_some h6]; exact (hop _).1 h7
    · intro j hj
      have b := (List.getElem?_eq_some_iff.1 h6).1
      have hj' : f[j]? = some f[j] := List.getElem?_eq_getElem (by omega)
      rw [getD_of_some hj']
      exact not_lt.1 fun hc => h8 j hj _ hj' ((hop _).2 hc)
    · rw [getD_of_some h3]; exact h9
    · rw [getD_of_some h4]; exact h10
    · rw [getD_of_some h3, getD_of_some h4, getD_of_some h5, getD_of_some h6]; exact h11

theorem dictSet_new {κ V : Type} [DecidableEq κ] (D : List (κ × V)) (k : κ) (v : V) (h : k ∉ dictKeys D) :
    dictSet D k v = D ++ [(k, v)] := by
  induction D with
  | nil => rfl
  | cons e D ih =>
    obtain ⟨a, b⟩ := e
    simp only [dictKeys, List.map_cons, List.mem_cons, not_or] at h
    simp only [dictSet]
    rw [if_neg (Ne.symm h.1), ih h.2]
    rfl

/-- **C84.** If the time grid starts from zero and the wave-numbers are different, the analysis gives a relaxation time
for each of them, in the same order. -/
theorem C84_relaxation_times (e : ℝ) (he : 1 < e) (ks t : List ℝ) (f : List (List ℝ)) (hlen : ks.length ≤ f.length)
    (hk : ks.Nodup) (ht : t.Pairwise (· < ·)) (ht0 : t.head? = some 0)
    (hf : ∀ row ∈ f, ∃ f0, row.head? = some f0 ∧ 0 < f0) :
    ∃ τ : ℕ → Option ℝ, extractTau e ks t f = .ok (ks.zipIdx.map fun ki => (ki.1, τ ki.2)) ∧
      ∀ i < ks.length, IsTau e t (f.getD i []) ((f.getD i []).getD 0 0) (τ i) := by
  have hrow : ∀ i, ∃ r, i < ks.length → (do
      let fi ← pyGet f i
      let f0 ← pyGet fi 0
      extractTau.tauRoot t fi (f0 * (1 / e))) = .ok r ∧ IsTau e t (f.getD i []) ((f.getD i []).getD 0 0) r := by
    intro i
    by_cases hi : i < ks.length
    · have hi' : i < f.length := by omega
      obtain ⟨f0, h0, hpos⟩ := hf f[i] (List.getElem_mem _)
      have h0' : f[i][0]? = some f0 := by rw [← h0, List.head?_eq_getElem?]
      obtain ⟨r, hr1, hr2⟩ := tauRoot_spec e he t f[i] f0 h0' hpos ht
      refine ⟨r, fun _ => ⟨?_, ?_⟩⟩
      · rw [PP.pyGet_ok hi']
        show Except.bind (pyGet f[i] 0) _ = _
        rw [pyGet_some h0']
        exact hr1
      · rw [List.getD_eq_getElem _ _ hi', getD_of_some h0']
        exact hr2
    · exact ⟨none, fun h => absurd h hi⟩
  choose τ hτ using hrow
  refine ⟨τ, ?_, fun i hi => (hτ i hi).2⟩
  have hbody := foldlM_inv_ok (P := fun _ : List (ℝ × Option ℝ) => True)
    (f := fun tau ki => do
      let fi ← pyGet f ki.2
      let f0 ← pyGet fi 0
      let r ← extractTau.tauRoot t fi (f0 * (1 / e))
      return dictSet tau ki.1 r) (g := fun tau ki => dictSet tau ki.1 (τ ki.2)) ks.zipIdx [] trivial (by
    intro tau _ ki hki
    refine ⟨?_, trivial⟩
    have hlt : ki.2 < ks.length := by
      have := (List.mem_zipIdx hki).2.1
      omega
    have := (hτ ki.2 hlt).1
    cases h1 : pyGet f ki.2 with
    | error => rw [h1] at this; cases this
    | ok fi =>
      rw [h1] at this
      simp only [bind, Except.bind] at this ⊢
      cases h2 : pyGet fi 0 with
      | error => rw [h2] at this; cases this
      | ok f0 =>
        rw [h2] at this
        simp only at this ⊢
        rw [this]
        rfl)
  have hD : ∀ (L : List (ℝ × ℕ)) (D : List (ℝ × Option ℝ)), (L.map Prod.fst).Nodup →
      (∀ k ∈ L.map Prod.fst, k ∉ dictKeys D) →
      L.foldl (fun tau ki => dictSet tau ki.1 (τ ki.2)) D = D ++ L.map fun ki => (ki.1, τ ki.2) := by
    intro L
    induction L with
    | nil => intro D _ _; simp
    | cons a L ih =>
      intro D hnd hD
      rw [List.foldl_cons, dictSet_new _ _ _ (hD a.1 (by simp)), ih]
      · simp
      · exact (List.nodup_cons.1 hnd).2
      · intro k hk'
        simp only [dictKeys, List.map_append, List.map_cons, List.map_nil, List.mem_append, List.mem_singleton, not_or]
        refine ⟨hD k (by rw [List.map_cons]; exact List.mem_cons_of_mem _ hk'), ?_⟩
        rintro rfl
        exact (List.nodup_cons.1 hnd).1 hk'
  have ht0' : pyGet t 0 = .ok 0 := pyGet_some (by rw [← ht0, List.head?_eq_getElem?])
  unfold extractTau
  rw [ht0']
  simp only [bind, Except.bind]
  rw [if_neg (lt_irrefl _)]
  have := hbody.1
  simp only [bind, Except.bind] at this
  rw [this, hD _ _ (by rw [List.zipIdx_map_fst]; exact hk) (by simp [dictKeys])]
  simp

/-- **C84.** A time grid that starts later is refused. -/
theorem C84_first_time (e : ℝ) (ks t : List ℝ) (f : List (List ℝ)) (t0 : ℝ) (h : t.head? = some t0) (h0 : 0 < t0) :
    extractTau e ks t f = .error .valueError := by
  unfold extractTau
  rw [pyGet_some (by rw [← h, List.head?_eq_getElem?] : t[0]? = some t0)]
  simp only [bind, Except.bind]
  rw [if_pos h0]

example : ∃ τ : ℕ → Option ℝ, extractTau (Real.exp 1) [1, 2] [0, 1, 2] [[1, 1 / 2, 0], [1, 1, 1]] =
    .ok ([1, 2].zipIdx.map fun ki => (ki.1, τ ki.2)) := by
  obtain ⟨τ, h, -⟩ := C84_relaxation_times (Real.exp 1) (by rw [Real.one_lt_exp_iff]; exact one_pos) [1, 2] [0, 1, 2]
    [[1, 1 / 2, 0], [1, 1, 1]] (by simp) (by norm_num) (by norm_num) (by simp) (by
      intro row hrow
      simp only [List.mem_cons, List.not_mem_nil, or_false] at hrow
      rcases hrow with rfl | rfl
      · exact ⟨1, rfl, one_pos⟩
      · exact ⟨1, rfl, one_pos⟩)
  exact ⟨τ, h⟩

end PP.Props
