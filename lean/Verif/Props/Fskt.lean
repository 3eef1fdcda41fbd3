import Verif.Lemmas.Fskt
import Verif.Props.Sk
import Verif.Props.Grids

/-!
# Self intermediate scattering function: C53, C54, C55, C82
-/

set_option linter.unusedSectionVars false

namespace PP.Props

variable {d : ℕ}

/-! ### C82: the definition -/

theorem kvectorsGet_map (ks : KState d ℝ) : kvectorsGet ks = ks.kvectors.map fun kl => kl.map (kvecOf ks) := rfl

/-- **C82.** Without normalisation, row `n` of the values of the legacy version contains, for each sampled lag in
increasing order, the mean over the wave-vectors of grid point `n`, over the sampled pairs of frames at that lag and
over the particles of the cosine of the phase of the displacement. The time grid contains these lags in units of time. -/
theorem C82_definition (o : FsObj d) {N : ℕ} (h : FsRegular o N) (hn : o.normalize = false) :
    ∃ lags : List ℤ, lags.Pairwise (· < ·) ∧
      (∀ δ, δ ∈ lags ↔ Spec.Sampled o.steps o.skip o.tgrid o.pos.length δ) ∧
      fsLegacy o = .ok (lags.map fun t : ℤ => (t : ℝ) * o.timestep,
        (kvectorsGet o.ks).map fun kl => lags.map fun δ => Spec.mean (kl.flatMap fun k =>
          (Spec.framePairs o.steps o.skip o.tgrid o.pos δ).flatMap fun ab => Spec.selfTerms k ab.1 ab.2)) := by
  refine ⟨fsLags o, lagList_sorted _ _, fun δ => mem_lagList, ?_⟩
  rw [fsLegacy_eq o h, hn, kvectorsGet_map, List.map_map]
  refine congrArg Except.ok (Prod.ext rfl ?_)
  show fsRaw o = _
  unfold fsRaw
  apply List.map_congr_left
  intro kl _
  apply List.map_congr_left
  intro δ _
  simp only [selfList, List.flatMap_map]

/-! ### The normalisation -/

theorem set_loop (a : ℝ) (r : List ℝ) (n : ℕ) (hn : n ≤ r.length) :
    (List.range (n + 1)).foldl (fun v i => v.set i (v.getD i 0 / v.getD 0 0)) (a :: r) =
      (a / a) :: ((r.take n).map fun x => x / (a / a)) ++ r.drop n := by
  induction n with
  | zero => simp
  | succ n ih =>
    rw [List.range_succ, List.foldl_append, ih (by omega)]
    simp only [List.foldl_cons, List.foldl_nil]
    have hlt : n < r.length := by omega
    have e : ((a / a) :: ((r.take n).map fun x => x / (a / a)) ++ r.drop n).getD (n + 1) 0 = r[n] := by
      have e2 : (r.take n).length = n := by simp; omega
      rw [List.cons_append, List.getD_cons_succ, List.getD_eq_getElem?_getD, List.getElem?_append_right (by simp),
        List.length_map, e2, Nat.sub_self]
      simp [hlt]
    have e0 : ((a / a) :: ((r.take n).map fun x => x / (a / a)) ++ r.drop n).getD 0 0 = a / a := rfl
    rw [e, e0]
    have e1 : r.drop n = r[n] :: r.drop (n + 1) := List.drop_eq_getElem_cons hlt
    have e2 : (r.take n).length = n := by simp; omega
    rw [e1, List.cons_append, List.set_cons_succ, List.set_append, if_neg (by simp), List.length_map, e2, Nat.sub_self,
      List.set_cons_zero, ← List.take_concat_get' _ _ hlt, List.map_append]
    simp

/-- The loop divides the first value by itself first, and all others by the result. -/
theorem normInPlace_cons (a : ℝ) (r : List ℝ) : normInPlace (a :: r) = (a / a) :: r.map fun x => x / (a / a) := by
  unfold normInPlace
  rw [List.length_cons, set_loop a r r.length le_rfl]
  simp

/-- What the loop does by itself: if the first value is not zero, it becomes 1 and *the others do not change*. The
result of the class is right because the first value is 1 (see `C53_zero_lag`). -/
theorem C55_loop (a : ℝ) (ha : a ≠ 0) (r : List ℝ) : normInPlace (a :: r) = 1 :: r := by
  rw [normInPlace_cons, div_self ha]
  simp

example : normInPlace [2, 4, 6] = [1, 4, 6] := C55_loop 2 two_ne_zero _

/-! ### Zero lag -/

theorem stepDiff_eq_zero {steps : List ℤ} (hs : steps.Pairwise (· < ·)) {p : ℕ × ℕ} (hp : p.1 + p.2 < steps.length)
    (h : stepDiff steps p = 0) : p.2 = 0 := by
  by_contra hne
  have := List.pairwise_iff_getElem.1 hs p.1 (p.1 + p.2) (by omega) hp (by omega)
  unfold stepDiff at h
  rw [List.getD_eq_getElem _ _ hp, List.getD_eq_getElem _ _ (by omega : p.1 < steps.length)] at h
  omega

theorem stepDiff_nonneg {steps : List ℤ} (hs : steps.Pairwise (· < ·)) {p : ℕ × ℕ} (hp : p.1 + p.2 < steps.length) :
    0 ≤ stepDiff steps p := by
  rcases Nat.eq_zero_or_pos p.2 with h0 | h0
  · unfold stepDiff; rw [h0]; simp
  · have := List.pairwise_iff_getElem.1 hs p.1 (p.1 + p.2) (by omega) hp (by omega)
    unfold stepDiff
    rw [List.getD_eq_getElem _ _ hp, List.getD_eq_getElem _ _ (by omega : p.1 < steps.length)]
    omega

theorem sorted_head {l : List ℤ} (h : l.Pairwise (· < ·)) (h0 : (0 : ℤ) ∈ l) (hn : ∀ a ∈ l, 0 ≤ a) :
    ∃ r, l = 0 :: r := by
  cases l with
  | nil => cases h0
  | cons a r =>
    refine ⟨r, ?_⟩
    rcases List.mem_cons.1 h0 with h' | h'
    · rw [h']
    · have := (List.pairwise_cons.1 h).1 0 h'
      have := hn a (by simp)
      omega

theorem lagList_head {steps : List ℤ} {ps : List (ℕ × ℕ)} (hs : steps.Pairwise (· < ·))
    (hp : ∀ p ∈ ps, p.1 + p.2 < steps.length) (h0 : ∃ p ∈ ps, stepDiff steps p = 0) :
    ∃ r, lagList steps ps = 0 :: r := by
  apply sorted_head (lagList_sorted _ _) (mem_lagList.2 h0)
  intro a ha
  obtain ⟨p, hp', rfl⟩ := mem_lagList.1 ha
  exact stepDiff_nonneg hs (hp p hp')

theorem selfTerms_abs_le {k : Fin d → ℝ} {a b : List (Fin d → ℝ)} {x : ℝ} (hx : x ∈ Spec.selfTerms k a b) : |x| ≤ 1 := by
  unfold Spec.selfTerms at hx
  rw [← List.map_uncurry_zip_eq_zipWith] at hx
  obtain ⟨y, -, rfl⟩ := List.mem_map.1 hx
  exact Real.abs_cos_le_one _

theorem selfTerms_self {k : Fin d → ℝ} {a : List (Fin d → ℝ)} {x : ℝ} (hx : x ∈ Spec.selfTerms k a a) : x = 1 := by
  unfold Spec.selfTerms at hx
  rw [List.zipWith_self] at hx
  obtain ⟨y, -, rfl⟩ := List.mem_map.1 hx
  simp [Spec.dot]

theorem selfList_pos (o : FsObj d) {N : ℕ} (h : FsRegular o N) {kl : List (KVec d)} (hkl : kl ∈ o.ks.kvectors) {δ : ℤ}
    (hδ : δ ∈ fsLags o) : 0 < (selfList o kl δ).length := by
  rw [selfList_length o h]
  have h1 := pairsAt_length_pos hδ
  have h2 := List.length_pos_iff.2 (h.shells kl hkl)
  have h3 := h.npart_pos
  positivity

theorem abs_mean_le {l : List ℝ} (hl : 0 < l.length) (h : ∀ x ∈ l, |x| ≤ 1) : |Spec.mean l| ≤ 1 := by
  rw [abs_le]
  exact ⟨le_mean hl fun a ha => (abs_le.1 (h a ha)).1, PP.mean_le hl fun a ha => (abs_le.1 (h a ha)).2⟩

theorem selfList_zero (o : FsObj d) {N : ℕ} (h : FsRegular o N) (hs : o.steps.Pairwise (· < ·)) {kl : List (KVec d)}
    {x : ℝ} (hx : x ∈ selfList o kl 0) : x = 1 := by
  unfold selfList at hx
  obtain ⟨v, -, hx⟩ := List.mem_flatMap.1 hx
  rw [framePairs_eq _ _ _ _ h.steps []] at hx
  obtain ⟨ab, hab, hx⟩ := List.mem_flatMap.1 hx
  obtain ⟨p, hp, rfl⟩ := List.mem_map.1 hab
  obtain ⟨hp1, hp2⟩ := List.mem_filter.1 hp
  rw [decide_eq_true_eq] at hp2
  have hlt := sampled_lt hp1
  have := stepDiff_eq_zero hs (lt_of_lt_of_le hlt h.steps) hp2
  simp only [this, Nat.add_zero] at hx
  exact selfTerms_self hx

/-- Every row of raw values starts with 1. -/
theorem fsRaw_head (o : FsObj d) {N : ℕ} (h : FsRegular o N) (hs : o.steps.Pairwise (· < ·))
    (h0 : Spec.Sampled o.steps o.skip o.tgrid o.pos.length 0) :
    (∃ r, fsLags o = 0 :: r) ∧ ∀ row ∈ fsRaw o, ∃ r, row = 1 :: r := by
  obtain ⟨r, hr⟩ := lagList_head (steps := o.steps) (ps := Spec.sampled o.pos.length o.skip o.tgrid) hs
    (fun p hp => lt_of_lt_of_le (sampled_lt hp) h.steps) h0
  refine ⟨⟨r, hr⟩, ?_⟩
  intro row hrow
  unfold fsRaw at hrow
  obtain ⟨kl, hkl, rfl⟩ := List.mem_map.1 hrow
  have hr' : fsLags o = 0 :: r := hr
  refine ⟨r.map fun δ => Spec.mean (selfList o kl δ), ?_⟩
  rw [hr', List.map_cons]
  congr 1
  exact mean_const (selfList_pos o h hkl (by rw [hr']; simp)) fun a ha => selfList_zero o h hs ha

/-- If zero lag is sampled, the normalisation changes nothing. -/
theorem fsRaw_norm (o : FsObj d) {N : ℕ} (h : FsRegular o N) (hs : o.steps.Pairwise (· < ·))
    (h0 : Spec.Sampled o.steps o.skip o.tgrid o.pos.length 0) : (fsRaw o).map normInPlace = fsRaw o := by
  have := (fsRaw_head o h hs h0).2
  conv_rhs => rw [← List.map_id (fsRaw o)]
  apply List.map_congr_left
  intro row hrow
  obtain ⟨r, rfl⟩ := this row hrow
  exact C55_loop 1 one_ne_zero r

/-! ### C54 -/

/-- **C54.** The two versions give the same result, for every memory limit. -/
theorem C54_fast_eq_legacy (o : FsObj d) {N : ℕ} (h : FsRegular o N) (hm : o.lookupMb ≠ 0) : fsFast o = fsLegacy o := by
  rw [fsFast_eq o h hm, fsLegacy_eq o h]

/-- **C54.** The result does not depend on the memory limit. -/
theorem C54_memory_limit (o : FsObj d) {N : ℕ} (h : FsRegular o N) (hm : o.lookupMb ≠ 0) (m : ℝ) (hm' : m ≠ 0) :
    fsFast { o with lookupMb := m } = fsFast o := by
  have h' : FsRegular { o with lookupMb := m } N :=
    ⟨h.frames_ne, h.skip_pos, h.steps, h.npart, h.npart_pos, h.allowed, h.kgrid, h.shells_ne, h.shells⟩
  rw [fsFast_eq _ h' hm', fsFast_eq o h hm]
  rfl

/-- **C54.** The result does not depend on the size of the blocks, in both versions. -/
theorem C54_block_size (o : FsObj d) {N : ℕ} (h : FsRegular o N) (b : ℕ) (hb : 0 < b) :
    fsCompute o fsPairSum N b = fsLegacy o ∧ fsCompute o fsPairFast N b = fsLegacy o := by
  rw [fsLegacy_eq o h]
  exact ⟨fsCompute_eq o h _ (fun X i0 i hi l hl v hv =>
      fsPairSum_eq o.ks h.allowed.1 v (h.allowed.2 l hl v hv) X i0 i hi) hb,
    fsCompute_eq o h _ (fun X i0 i hi l hl v hv =>
      fsPairFast_eq o.ks h.allowed.1 v (h.allowed.2 l hl v hv) X i0 i hi) hb⟩

/-- C54 (exception): a memory limit of zero makes the fast version stop, whatever the trajectory. -/
theorem C54_counterexample_zero (o : FsObj d) {N : ℕ} (h : FsRegular o N) :
    (∃ r, fsLegacy { o with lookupMb := 0 } = .ok r) ∧ ∀ r, fsFast { o with lookupMb := 0 } ≠ .ok r := by
  have h' : FsRegular { o with lookupMb := 0 } N :=
    ⟨h.frames_ne, h.skip_pos, h.steps, h.npart, h.npart_pos, h.allowed, h.kgrid, h.shells_ne, h.shells⟩
  refine ⟨⟨_, fsLegacy_eq _ h'⟩, fun r hr => ?_⟩
  unfold fsFast at hr
  obtain ⟨n, -, hr⟩ := bind_ok_iff.1 hr
  obtain ⟨b, hb, -⟩ := bind_ok_iff.1 hr
  unfold fsBlockFast at hb
  rw [if_pos rfl] at hb
  cases hb

/-- C54 (exception): without particles, as for a species that does not occur, the legacy version gives empty lists and
the fast one stops with `ValueError`. -/
theorem C54_counterexample_empty (o : FsObj d) (hpos : o.pos ≠ []) (he : ∀ f ∈ o.pos, f = [])
    (hk : o.ks.kgrid ≠ []) (hm : o.lookupMb ≠ 0) :
    fsLegacy o = .ok ([], o.ks.kgrid.map fun _ => []) ∧ fsFast o = .error .valueError := by
  have hN : fsNumber o.pos = .ok 0 := by
    obtain ⟨f, r, hp⟩ := List.exists_cons_of_ne_nil hpos
    unfold fsNumber
    rw [hp]
    have hf : f = [] := he f (by rw [hp]; simp)
    have hall : (r.all fun g => decide (g.length = f.length)) = true := by
      rw [List.all_eq_true]
      intro g hg
      rw [decide_eq_true_eq, hf, he g (by rw [hp]; simp [hg])]
    simp only
    rw [if_pos hall, hf]
    rfl
  constructor
  · unfold fsLegacy
    rw [hN]
    show fsCompute o fsPairSum 0 20 = _
    unfold fsCompute
    obtain ⟨a, r, hp⟩ := List.exists_cons_of_ne_nil hk
    have h1 : fkValues (List.replicate o.ks.kgrid.length (([], []) : Acc ℤ ℝ)) =
        .ok ([], o.ks.kgrid.map fun _ => []) := by
      rw [hp]
      unfold fkValues
      have h2 := mapM_ok_map (f := fun a : Acc ℤ ℝ => ([] : List ℤ).mapM fun t =>
        pyDiv (ddGet 0 a.1 t) ((ddGet 0 a.2 t : ℕ) : ℝ)) (g := fun _ => ([] : List ℝ))
        (l := List.replicate (a :: r).length (([], []) : Acc ℤ ℝ)) (fun _ _ => rfl)
      refine Eq.trans (congrArg (fun z : Py (List (List ℝ)) => z.bind fun vs => .ok (([] : List ℤ), vs)) h2) ?_
      show Except.ok _ = _
      rw [List.map_replicate, List.map_const']
    show Except.bind (fkValues _) _ = _
    rw [h1]
    show Except.ok _ = _
    refine congrArg Except.ok (Prod.ext rfl ?_)
    simp only
    split_ifs
    · rw [List.map_map]; rfl
    · rfl
  · unfold fsFast fsBlockFast
    rw [hN]
    simp only [bind, Except.bind]
    rw [if_neg hm]
    unfold fsCompute pyRange
    simp [bind, Except.bind]

/-! ### C53 -/

/-- **C53.** Every value is bounded by 1 in absolute value. -/
theorem C53_bounded (o : FsObj d) {N : ℕ} (h : FsRegular o N)
    (hn : o.normalize = true → o.steps.Pairwise (· < ·) ∧ Spec.Sampled o.steps o.skip o.tgrid o.pos.length 0)
    {ts : List ℝ} {vs : List (List ℝ)} (he : fsLegacy o = .ok (ts, vs)) : ∀ row ∈ vs, ∀ x ∈ row, |x| ≤ 1 := by
  have hvs : vs = fsRaw o := by
    rw [fsLegacy_eq o h] at he
    simp only [Except.ok.injEq, Prod.mk.injEq] at he
    by_cases hb : o.normalize = true
    · rw [if_pos hb, fsRaw_norm o h (hn hb).1 (hn hb).2] at he
      exact he.2.symm
    · rw [if_neg hb] at he
      exact he.2.symm
  subst hvs
  intro row hrow x hx
  unfold fsRaw at hrow
  obtain ⟨kl, hkl, rfl⟩ := List.mem_map.1 hrow
  obtain ⟨δ, hδ, rfl⟩ := List.mem_map.1 hx
  apply abs_mean_le (selfList_pos o h hkl hδ)
  intro y hy
  unfold selfList at hy
  obtain ⟨v, -, hy⟩ := List.mem_flatMap.1 hy
  obtain ⟨ab, -, hy⟩ := List.mem_flatMap.1 hy
  exact selfTerms_abs_le hy

/-- **C53.** If zero lag is sampled, the time grid starts with 0 and every row of values with 1. -/
theorem C53_zero_lag (o : FsObj d) {N : ℕ} (h : FsRegular o N) (hs : o.steps.Pairwise (· < ·))
    (h0 : Spec.Sampled o.steps o.skip o.tgrid o.pos.length 0) :
    ∃ ts vs, fsLegacy o = .ok (ts, vs) ∧ ts.head? = some 0 ∧ vs.length = o.ks.kvectors.length ∧
      ∀ row ∈ vs, row.length = ts.length ∧ row.head? = some 1 := by
  obtain ⟨⟨r, hr⟩, hrow⟩ := fsRaw_head o h hs h0
  refine ⟨(fsLags o).map fun t : ℤ => (t : ℝ) * o.timestep, fsRaw o, ?_, ?_, by simp [fsRaw], ?_⟩
  · rw [fsLegacy_eq o h, fsRaw_norm o h hs h0, ite_self]
  · rw [hr]; simp
  · intro row hrow'
    refine ⟨?_, ?_⟩
    · unfold fsRaw at hrow'
      obtain ⟨kl, -, rfl⟩ := List.mem_map.1 hrow'
      simp
    · obtain ⟨r', rfl⟩ := hrow row hrow'
      rfl

theorem scanned_lag_nonneg {steps : List ℤ} (hs : steps.Pairwise (· < ·)) {os : List ℕ} {v : ℤ}
    (h : Spec.IsScannedLag steps os v) : 0 ≤ v := by
  obtain ⟨g, hg, rfl⟩ := h
  exact stepDiff_nonneg (p := g) hs (by have := hg.2; omega)

/-- The discrete grid of a list of times, one of which is not positive, contains a pair with zero separation. -/
theorem setupTGrid_zero (tr : Traj ℝ) (hs : tr.steps.Pairwise (· < ·)) (hne : tr.steps ≠ []) (hbs : 0 < tr.blockSize)
    (hdt : 0 < tr.timestep) (offset : Bool) (g : List ℝ) (t : ℝ) (ht : t ∈ g) (ht0 : t ≤ 0) :
    ∃ dg, setupTGrid tr.steps tr.blockSize tr.timestep g offset = .ok dg ∧
      ∃ off, (off, 0) ∈ dg ∧ off < tr.steps.length := by
  have h0 : 0 ∈ (if offset then List.range tr.blockSize else [0]) := by cases offset <;> simp [hbs]
  obtain ⟨dg, h1, h2, -, h4⟩ := setupTGrid_spec tr.steps tr.blockSize tr.timestep g offset _ rfl h0 hne hdt.ne'
  have hlen : 0 < tr.steps.length := List.length_pos_iff.2 hne
  have hscan : Spec.IsScannedLag tr.steps (if offset then List.range tr.blockSize else [0]) 0 :=
    ⟨(0, 0), ⟨h0, by simpa using hlen⟩, by simp [Spec.lag]⟩
  have hr : pyRound (t / tr.timestep) ≤ 0 := by
    have hq : t / tr.timestep ≤ 0 := div_nonpos_of_nonpos_of_nonneg ht0 hdt.le
    have := (abs_le.1 (pyRound_le (t / tr.timestep))).2
    have h3 : ((pyRound (t / tr.timestep) : ℤ) : ℝ) < ((1 : ℤ) : ℝ) := by push_cast; linarith
    have := Int.cast_lt.1 h3
    omega
  have hz : (0 : ℤ) ∈ dg.map (Spec.lag tr.steps) := by
    rw [h4]
    refine ⟨hscan, t, ht, ?_⟩
    intro w hw
    have := scanned_lag_nonneg hs hw
    refine ⟨?_, fun _ => this⟩
    rw [abs_of_nonneg (by omega), abs_of_nonneg (by omega)]
    omega
  obtain ⟨p, hp, hp0⟩ := List.mem_map.1 hz
  have hsc := h2 p hp
  have hlt : p.1 + p.2 < tr.steps.length := by have := hsc.2; omega
  have : p.2 = 0 := stepDiff_eq_zero hs hlt hp0
  refine ⟨dg, h1, p.1, ?_, by omega⟩
  rw [← this]; exact hp

theorem sampled_zero {steps : List ℤ} {skip : ℕ} {grid : List (ℕ × ℕ)} {n off : ℕ} (h : (off, 0) ∈ grid) (hlt : off < n) :
    Spec.Sampled steps skip grid n 0 := by
  refine ⟨(off, 0), ?_, by simp⟩
  rw [mem_sampled]
  exact ⟨off, h, le_rfl, by simp, by simpa using hlt⟩

/-- **C53.** The constructor always includes zero lag in the time grid, whatever the times given by the user, if the
values are to be normalised, and for the default grid in any case. -/
theorem C53_constructor (tr : Traj ℝ) (hs : tr.steps.Pairwise (· < ·)) (hne : tr.steps ≠ []) (hbs : 0 < tr.blockSize)
    (hdt : 0 < tr.timestep) (tgrid : Option (List ℝ)) (tsamples : ℕ) (normalize offset : Bool)
    (hg : tgrid = none ∧ 0 < tsamples ∨ tgrid ≠ none ∧ tgrid ≠ some [] ∧ normalize = true) :
    ∃ dg, fktInit tr tgrid tsamples normalize offset = .ok dg ∧
      ∀ skip, Spec.Sampled tr.steps skip dg tr.steps.length 0 := by
  have key : ∃ g, fktGrid tr.totalTime tgrid tsamples normalize = .ok g ∧ ∃ t ∈ g, t ≤ 0 := by
    rcases hg with ⟨rfl, hn⟩ | ⟨hg1, hg2, rfl⟩
    · unfold fktGrid logxGrid
      simp only
      rw [if_neg (by omega), if_neg (lt_irrefl _)]
      exact ⟨_, rfl, 0, by simp, le_rfl⟩
    · cases tgrid with
      | none => exact absurd rfl hg1
      | some g =>
        cases g with
        | nil => exact absurd rfl hg2
        | cons a r =>
          unfold fktGrid
          simp only [if_true]
          have : pyGet (a :: r) 0 = .ok a := rfl
          rw [this]
          simp only [bind, Except.bind]
          by_cases ha : a > 0
          · exact ⟨0 :: a :: r, by rw [if_pos ha]; rfl, 0, by simp, le_rfl⟩
          · exact ⟨a :: r, by rw [if_neg ha]; rfl, a, by simp, not_lt.1 ha⟩
  obtain ⟨g, hg', t, ht, ht0⟩ := key
  obtain ⟨dg, h1, off, h2, h3⟩ := setupTGrid_zero tr hs hne hbs hdt offset g t ht ht0
  refine ⟨dg, ?_, fun skip => sampled_zero h2 h3⟩
  unfold fktInit
  rw [hg']
  exact h1

/-! ### C55 -/

/-- **C55.** If zero lag is sampled, as the constructor ensures, the values with `normalize=True` are those with
`normalize=False` divided by the value at zero lag. -/
theorem C55_divided (o : FsObj d) {N : ℕ} (h : FsRegular o N) (hs : o.steps.Pairwise (· < ·))
    (h0 : Spec.Sampled o.steps o.skip o.tgrid o.pos.length 0) :
    ∃ ts vs, fsLegacy { o with normalize := false } = .ok (ts, vs) ∧ ts.head? = some 0 ∧
      fsLegacy { o with normalize := true } = .ok (ts, vs.map fun row => row.map fun x => x / row.getD 0 0) := by
  have h' : ∀ b, FsRegular { o with normalize := b } N := fun b =>
    ⟨h.frames_ne, h.skip_pos, h.steps, h.npart, h.npart_pos, h.allowed, h.kgrid, h.shells_ne, h.shells⟩
  obtain ⟨⟨r, hr⟩, hrow⟩ := fsRaw_head o h hs h0
  refine ⟨(fsLags o).map fun t : ℤ => (t : ℝ) * o.timestep, fsRaw o, ?_, by rw [hr]; simp, ?_⟩
  · rw [fsLegacy_eq _ (h' false)]; rfl
  · rw [fsLegacy_eq _ (h' true)]
    refine congrArg Except.ok (Prod.ext rfl ?_)
    show (fsRaw o).map normInPlace = _
    rw [fsRaw_norm o h hs h0]
    conv_lhs => rw [← List.map_id (fsRaw o)]
    apply List.map_congr_left
    intro row hrow'
    obtain ⟨r', rfl⟩ := hrow row hrow'
    simp

/-! ### A concrete case -/

/-- Three frames of two particles, two shells of wave-vectors. -/
noncomputable def exFs : FsObj 3 :=
  { steps := [0, 1, 3], timestep := 1 / 2, skip := 1, tgrid := [(0, 0), (0, 1), (0, 2)],
    pos := [[![0, 0, 0], ![1, 2, 3]], [![0, 1, 0], ![1, 2, 2]], [![1, 1, 1], ![1, 4, 2]]],
    ks := exKs, lookupMb := 64, normalize := true }

theorem exFs_regular : FsRegular exFs 2 := by
  refine ⟨by simp [exFs], by simp [exFs], by simp [exFs], by simp [exFs], two_pos, exKs_allowed, by simp [exFs, exKs],
    by simp [exFs, exKs], by simp [exFs, exKs]⟩

theorem exFs_zero : exFs.steps.Pairwise (· < ·) ∧ Spec.Sampled exFs.steps exFs.skip exFs.tgrid exFs.pos.length 0 :=
  ⟨by simp [exFs], sampled_zero (off := 0) (by simp [exFs]) (by simp [exFs])⟩

/-- All theorems apply to the example; the lags 0, 1, 2 and 3 are sampled. -/
example : ∃ ts vs, fsLegacy exFs = .ok (ts, vs) ∧ fsFast exFs = .ok (ts, vs) ∧
    fsCompute exFs fsPairSum 2 1 = .ok (ts, vs) ∧ vs.length = 2 ∧ ts.head? = some 0 ∧
    (∀ row ∈ vs, row.head? = some 1 ∧ ∀ x ∈ row, |x| ≤ 1) ∧
    (∀ δ ∈ [0, 1, 2, 3], Spec.Sampled exFs.steps exFs.skip exFs.tgrid exFs.pos.length δ) := by
  obtain ⟨ts, vs, h1, h2, h3, h4⟩ := C53_zero_lag exFs exFs_regular exFs_zero.1 exFs_zero.2
  refine ⟨ts, vs, h1, ?_, ?_, ?_, h2, ?_, ?_⟩
  · rw [C54_fast_eq_legacy exFs exFs_regular (by norm_num [exFs]), h1]
  · rw [(C54_block_size exFs exFs_regular 1 one_pos).1, h1]
  · rw [h3]; rfl
  · exact fun row hrow => ⟨(h4 row hrow).2, C53_bounded exFs exFs_regular (fun _ => exFs_zero) h1 row hrow⟩
  · have hs : exFs.steps = [0, 1, 3] := rfl
    have hg : exFs.tgrid = [(0, 0), (0, 1), (0, 2)] := rfl
    have hp : exFs.pos.length = 3 := rfl
    have hk : exFs.skip = 1 := rfl
    rw [hs, hg, hp, hk]
    intro δ hδ
    simp only [List.mem_cons, List.not_mem_nil, or_false] at hδ
    rcases hδ with rfl | rfl | rfl | rfl
    · exact ⟨(0, 0), by decide, by decide⟩
    · exact ⟨(0, 1), by decide, by decide⟩
    · exact ⟨(1, 1), by decide, by decide⟩
    · exact ⟨(0, 2), by decide, by decide⟩

/-- A user grid without zero, steps that are not evenly spaced. -/
example : ∃ dg, fktInit { steps := [0, 1, 4, 5], timestep := 1 / 2, blockSize := 2, totalTime := 5 / 2, npart := [2, 2, 2, 2] }
    (some [1 / 2, 2]) 10 true true = .ok dg ∧ ∀ skip, Spec.Sampled [0, 1, 4, 5] skip dg 4 0 :=
  C53_constructor _ (by simp) (by simp) two_pos (by norm_num) _ _ _ _ (Or.inr ⟨by simp, by simp, rfl⟩)

/-- Two frames without particles. -/
example : fsFast { exFs with pos := [[], []] } = .error .valueError :=
  (C54_counterexample_empty { exFs with pos := [[], []] } (by simp) (by simp) (by simp [exFs, exKs])
    (by norm_num [exFs])).2

end PP.Props
