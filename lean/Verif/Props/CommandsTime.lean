import Verif.Props.Commands
import Verif.Props.Skip

/-!
# C224: the values that the commands of the single-particle time correlations report for frames saved at regular intervals
-/

namespace PP.Props
open PP

variable {n d : ℕ}

/-- The distance between time origins for `N` frames of `n` particles saved at regular intervals: every frame if `norigins`
is negative, the first frame only if it is 1, every `N/k`-th frame if it is an integer `k` between 2 and `N` (as a number or as
a string), and a distance proportional to the number of coordinates by default. -/
def _root_.PP.Spec.OriginStride (o : NOrigins) (N n s : ℕ) : Prop :=
  match o with
  | .none => s = min N (max 1 (N * n / 40000))
  | .num q => (q < 0 ∧ s = 1) ∨ (q = 1 ∧ s = N) ∨ ∃ k : ℕ, 2 ≤ k ∧ k ≤ N ∧ q = k ∧ s = N / k
  | .str t => (∃ i : ℤ, pyIntOfStr t = .ok i ∧ i < 0 ∧ s = 1) ∨ (pyIntOfStr t = .ok 1 ∧ s = N) ∨
      ∃ k : ℕ, 2 ≤ k ∧ k ≤ N ∧ pyIntOfStr t = .ok (k : ℤ) ∧ s = N / k

theorem adjustSkip_stride_num (N : ℕ) (hN : 0 < N) (npart : List ℕ) (q : ℚ) (s : ℕ)
    (h : (q < 0 ∧ s = 1) ∨ (q = 1 ∧ s = N) ∨ ∃ k : ℕ, 2 ≤ k ∧ k ≤ N ∧ q = k ∧ s = N / k) :
    adjustSkip N 1 npart (.num q) = .ok (s : ℤ) := by
  rw [C14_skip_number N 1 npart q one_pos]
  rcases h with ⟨h, rfl⟩ | ⟨rfl, rfl⟩ | ⟨k, h2, hk, rfl, rfl⟩
  · rw [if_pos h]
    congr 1; simp; omega
  · norm_num
  · have hn' : (2 : ℚ) ≤ (k : ℚ) := by exact_mod_cast h2
    rw [if_neg (by linarith), if_neg (by linarith), if_neg (by linarith), if_neg (by linarith)]
    congr 1
    rw [Nat.div_one, Rat.floor_natCast_div_natCast]
    have h1 : N / k ≤ N := Nat.div_le_self _ _
    have h3 : 0 < N / k := Nat.div_pos hk (by omega)
    push_cast
    have h4 : ((N : ℤ) / (k : ℤ)) = ((N / k : ℕ) : ℤ) := by push_cast; rfl
    rw [h4]; omega

theorem adjustSkip_stride (o : NOrigins) (N : ℕ) (hN : 0 < N) (npart : List ℕ) (hnp : npart.head? = some n) (s : ℕ)
    (h : Spec.OriginStride o N n s) : adjustSkip N 1 npart o = .ok (s : ℤ) := by
  cases o with
  | none =>
    have h' : s = min N (max 1 (N * n / 40000)) := h
    rw [C14_no_wrong_skip N 1 npart _ one_pos]
    cases npart with
    | nil => simp at hnp
    | cons a l =>
      have ha : a = n := by simpa using hnp
      subst ha
      have e : rawSkip N 1 (a :: l) .none = .ok (pyInt (((N * a : ℕ) : ℚ) / 40000)) := rfl
      rw [e]
      have hp : pyInt (((N * a : ℕ) : ℚ) / 40000) = ((N * a / 40000 : ℕ) : ℤ) := by
        unfold pyInt
        rw [if_pos (by positivity)]
        have := Rat.floor_natCast_div_natCast (N * a) 40000
        push_cast at this ⊢
        exact this
      rw [hp, h']
      simp only [Except.map]
      congr 1
      push_cast
      rfl
  | num q => exact adjustSkip_stride_num N hN npart q s h
  | str t =>
    rcases h with ⟨i, hi, h0, hs⟩ | ⟨hi, hs⟩ | ⟨k, h2, hk, hi, hs⟩
    · rw [(C17_string_partial N 1 npart t one_pos).1 _ hi]
      exact adjustSkip_stride_num N hN npart _ s (Or.inl ⟨by exact_mod_cast h0, hs⟩)
    · rw [(C17_string_partial N 1 npart t one_pos).1 _ hi]
      exact adjustSkip_stride_num N hN npart _ s (Or.inr (Or.inl ⟨by simp, hs⟩))
    · rw [(C17_string_partial N 1 npart t one_pos).1 _ hi]
      exact adjustSkip_stride_num N hN npart _ s (Or.inr (Or.inr ⟨k, h2, hk, by simp, hs⟩))

/-- The averages over time origins `0, s, 2s, ...` of a quantity `k i j` of frames `i` and `j` of `N` frames saved every `m`
steps, as a function of time, starting from time 0. -/
def _root_.PP.Spec.OriginAverage (N s : ℕ) (m : ℤ) (dt : ℝ) (k : ℕ → ℕ → ℝ) (r : List ℝ × List (Option ℝ)) : Prop :=
  ∃ js : List ℕ, js.Pairwise (· < ·) ∧ js.head? = some 0 ∧ (∀ j ∈ js, j < N) ∧
    r = (js.map fun j : ℕ => ((m * j : ℤ) : ℝ) * dt,
      js.map fun j => some ((∑ i ∈ (Finset.range (N - j)).filter (s ∣ ·), k i (i + j)) /
        (((Finset.range (N - j)).filter (s ∣ ·)).card : ℝ)))

theorem regular_corr {X : Type} (N : ℕ) (hN : 0 < N) (s0 m : ℤ) (hm : 0 < m) (dt : ℝ) (hdt : 0 < dt) (tr : Traj ℝ)
    (hst : tr.steps = (List.range N).map fun i : ℕ => s0 + m * i) (hbs : tr.blockSize = 1) (htm : tr.timestep = dt)
    (s : ℕ) (hs : 0 < s) (x : ℕ → X) (f : X → X → Py (Option ℝ)) (k : ℕ → ℕ → ℝ)
    (hf : ∀ i j, i ≤ j → j < N → f (x j) (x i) = .ok (some (k i j))) (hf' : ∀ a b, ∃ v, f a b = .ok v)
    (g : List ℝ) (h0 : 0 ∈ g) (offset : Bool) :
    ∃ dg r, setupTGrid tr.steps tr.blockSize tr.timestep g offset = .ok dg ∧
      timeCorr (Arith.nan ℝ) f tr dg s ((List.range N).map x) = .ok r ∧ Spec.OriginAverage N s m dt k r := by
  choose v hv using hf'
  have hlen : tr.steps.length = N := by rw [hst]; simp
  have hxl : ((List.range N).map x).length = tr.steps.length := by rw [hlen]; simp
  have hne : tr.steps ≠ [] := by
    intro e
    rw [e] at hlen
    simp at hlen
    omega
  have hgetD : ∀ i, i < N → tr.steps.getD i 0 = s0 + m * i := by
    intro i hi
    rw [hst, List.getD_eq_getElem?_getD]
    simp [hi]
  obtain ⟨dg, h1, h2, h3, h4⟩ := setupTGrid_spec tr.steps tr.blockSize tr.timestep g offset [0]
    (by rw [hbs]; cases offset <;> rfl) (by simp) hne (by rw [htm]; exact hdt.ne')
  have hdg : ∀ p ∈ dg, p.1 = 0 ∧ p.2 < N := by
    intro p hp
    obtain ⟨ha, hb⟩ := h2 p hp
    simp only [List.mem_cons, List.not_mem_nil, or_false] at ha
    rw [ha, hlen] at hb
    exact ⟨ha, by omega⟩
  have hlag : ∀ j, j < N → Spec.lag tr.steps (0, j) = m * j := by
    intro j hj
    unfold Spec.lag
    simp only [zero_add]
    rw [hgetD j hj, hgetD 0 hN]
    push_cast
    ring
  have hper : Spec.BlockPeriodic tr.steps 1 := by
    refine ⟨m, fun i hi => ?_⟩
    rw [hlen] at hi
    rw [hgetD _ hi, hgetD i (by omega)]
    push_cast
    ring
  have key := C21_block_periodic (Arith.nan ℝ) f v tr.steps ((List.range N).map x) 1 s dg hs (one_dvd _) hxl hper
    (by
      intro p hp
      obtain ⟨ha, hb⟩ := hdg p hp
      exact ⟨by omega, by rw [hlen]; omega⟩) h3 (fun a _ b _ => hv a b)
  set js := dg.map Prod.snd with hjs
  have hdgj : dg = js.map fun j => (0, j) := by
    rw [hjs, List.map_map]
    conv_lhs => rw [← List.map_id dg]
    apply List.map_congr_left
    intro p hp
    exact Prod.ext (hdg p hp).1 rfl
  have hjN : ∀ j ∈ js, j < N := by
    intro j hj
    obtain ⟨p, hp, rfl⟩ := List.mem_map.1 hj
    exact (hdg p hp).2
  have hjlag : dg.map (Spec.lag tr.steps) = js.map fun j : ℕ => m * (j : ℤ) := by
    rw [hdgj, List.map_map]
    apply List.map_congr_left
    intro j hj
    exact hlag j (hjN j hj)
  have hjp : js.Pairwise (· < ·) := by
    rw [hjlag, List.pairwise_map] at h3
    refine h3.imp ?_
    intro a b hab
    have := lt_of_mul_lt_mul_left hab hm.le
    exact_mod_cast this
  refine ⟨dg, _, h1, ?_, js, hjp, ?_, hjN, rfl⟩
  · unfold timeCorr
    rw [key]
    simp only [bind, Except.bind, pure, Except.pure]
    congr 2
    · rw [hjlag, List.map_map]
      rw [htm]
      rfl
    · rw [hdgj, List.map_map]
      apply List.map_congr_left
      intro j hj
      have hjN' := hjN j hj
      simp only [Function.comp_apply]
      set L := (List.range N).filter fun i => decide (0 ≤ i ∧ (i - 0) % s = 0 ∧ i + j < N) with hL
      have hmem : ∀ i, i ∈ L ↔ i < N ∧ i % s = 0 ∧ i + j < N := by
        intro i
        rw [hL, List.mem_filter, List.mem_range]
        simp
      have hown : Spec.terms tr.steps ((List.range N).map x) (Spec.sampled tr.steps.length s [(0, j)])
          = L.map fun i => (m * (j : ℤ), x (i + j), x i) := by
        unfold Spec.terms Spec.sampled
        rw [hlen, List.flatMap_cons, List.flatMap_nil, List.append_nil, List.filterMap_map]
        rw [← List.filterMap_eq_map (f := fun i => (m * (j : ℤ), x (i + j), x i))]
        apply List.filterMap_congr
        intro i hi
        obtain ⟨hi1, -, hi2⟩ := (hmem i).1 hi
        simp only [Function.comp_apply]
        unfold Spec.term
        have e1 : tr.steps[i + j]? = some (s0 + m * ((i + j : ℕ) : ℤ)) := by rw [hst]; simp [hi2]
        have e2 : tr.steps[i]? = some (s0 + m * ((i : ℕ) : ℤ)) := by rw [hst]; simp [hi1]
        have e3 : ((List.range N).map x)[i + j]? = some (x (i + j)) := by simp [hi2]
        have e4 : ((List.range N).map x)[i]? = some (x i) := by simp [hi1]
        simp only [e1, e2, e3, e4]
        congr 2
        push_cast
        ring
      rw [hown, List.map_map, List.length_map]
      have hval : L.map ((fun e : ℤ × X × X => v e.2.1 e.2.2) ∘ fun i => (m * (j : ℤ), x (i + j), x i))
          = (L.map fun i => k i (i + j)).map some := by
        rw [List.map_map]
        apply List.map_congr_left
        intro i hi
        obtain ⟨hi1, -, hi2⟩ := (hmem i).1 hi
        have := hf i (i + j) (by omega) hi2
        rw [hv] at this
        exact Except.ok.inj this
      have hnd : L.Nodup := List.nodup_range.filter _
      have hfin : L.toFinset = (Finset.range (N - j)).filter (s ∣ ·) := by
        ext i
        rw [List.mem_toFinset, hmem, Finset.mem_filter, Finset.mem_range, Nat.dvd_iff_mod_eq_zero]
        constructor
        · rintro ⟨a, b, c⟩; exact ⟨by omega, b⟩
        · rintro ⟨a, b⟩; exact ⟨by omega, b, by omega⟩
      rw [hval]
      have hz : (Arith.nan ℝ).zero = some 0 := rfl
      rw [hz, foldl_nan, zero_add, ← hfin, List.sum_toFinset _ hnd, List.toFinset_card_of_nodup hnd]
      rfl
  · have : (0 : ℤ) ∈ dg.map (Spec.lag tr.steps) := by
      rw [h4]
      have hsc : Spec.IsScannedLag tr.steps [0] 0 :=
        ⟨(0, 0), ⟨by simp, by rw [hlen]; simpa using hN⟩, by simp [Spec.lag]⟩
      refine ⟨hsc, 0, h0, ?_⟩
      intro w hw
      have hr : pyRound ((0 : ℝ) / tr.timestep) = 0 := by
        rw [zero_div]
        simpa using pyRound_cast (K := ℝ) 0
      rw [hr]
      simp only [sub_zero, abs_zero, abs_nonneg, true_and]
      intro e
      rw [abs_eq_zero.1 e]
    rw [hjlag, List.mem_map] at this
    obtain ⟨j, hj, hj0⟩ := this
    have hj0' : j = 0 := by
      rcases mul_eq_zero.1 hj0 with h | h
      · omega
      · exact_mod_cast h
    subst hj0'
    cases hjs' : js with
    | nil => rw [hjs'] at hj; simp at hj
    | cons a l =>
      rw [hjs'] at hj hjp
      rcases List.mem_cons.1 hj with h | h
      · rw [← h]; rfl
      · have := (List.pairwise_cons.1 hjp).1 0 h
        omega

/-- What the commands average over time origins, for frames `i` and `j` (later) of `n` particles: the squared displacement, the
scalar product of the velocities, the non-Gaussian parameter of the displacements, the fraction of particles displaced by less
than 0.3 and the number of pairs of particles, one of each frame, at a distance smaller than 0.3 per particle. -/
noncomputable def _root_.PP.Spec.pairValue (c : Command) (x : ℕ → Frame n d ℝ) (i j : ℕ) : ℝ :=
  let r2 : Fin n → Fin n → ℝ := fun p q => ∑ a, (x j p a - x i q a) ^ 2
  match c with
  | .msd => (∑ p, r2 p p) / n
  | .vacf => (∑ p, ∑ a, x j p a * x i p a) / n
  | .alpha2 => if i = j then 0 else 3 * ((∑ p, r2 p p ^ 2) / n) / (5 * ((∑ p, r2 p p) / n) ^ 2) - 1
  | .qst => ((Finset.univ.filter fun p => r2 p p < (3 / 10) ^ 2).card : ℝ) / n
  | .qt => ((Finset.univ.filter fun pq : Fin n × Fin n => r2 pq.1 pq.2 < (3 / 10) ^ 2).card : ℝ) / n
  | _ => 0

/-- **C224.** For `N` frames saved every `m` steps the commands give, at each time of the form `m j dt` they report, the average
over the time origins `i = 0, s, 2s, ...` with `i + j < N` of what they measure between frames `i` and `i + j`, where `s` is the
distance of the origins chosen by `norigins` (1 for vacf, which uses every frame). The times reported are those of C217. For
the non-Gaussian parameter some particle moves between any two frames. -/
theorem C224_average (c : Command) (hc : c ∈ [.msd, .vacf, .alpha2, .qst, .qt]) (o : TimeOptions)
    (hfunc : o.func ∈ ["linear".toList, "linear_grid".toList, "logx".toList, "logx_grid".toList]) (hts : 2 ≤ o.tsamples)
    (h : 0 < o.tmax ∨ 0 < o.fraction) (N : ℕ) (hN : 0 < N) (s0 m : ℤ) (hm : 0 < m) (tr : Traj ℝ)
    (hst : tr.steps = (List.range N).map fun i : ℕ => s0 + m * i) (hbs : tr.blockSize = 1) (hdt : 0 < tr.timestep)
    (hT : 0 ≤ tr.totalTime) (hn : 0 < n) (hnp : tr.npart.head? = some n) (s : ℕ) (hs : Spec.OriginStride o.norigins N n s)
    (x : ℕ → Frame n d ℝ) (hx : c = .alpha2 → ∀ i j, i < j → j < N → x i ≠ x j) :
    ∃ r, timeCommand c o tr ((List.range N).map x) = some (.ok r) ∧
      Spec.OriginAverage N (if c = .vacf then 1 else s) m tr.timestep (Spec.pairValue c x) r := by
  have hlen : tr.steps.length = N := by rw [hst]; simp
  have hskip : adjustSkip tr.steps.length tr.blockSize tr.npart o.norigins = .ok (s : ℤ) := by
    rw [hlen, hbs]
    exact adjustSkip_stride o.norigins N hN tr.npart hnp s hs
  have hsk : 0 < s := by
    have := adjustSkip_pos (by omega) hskip
    simpa using this
  obtain ⟨f, hf⟩ : ∃ f, funcOf o.func = .ok f := by
    simp only [List.mem_cons, List.not_mem_nil, or_false] at hfunc
    rcases hfunc with e | e | e | e <;> rw [e] <;> exact ⟨_, rfl⟩
  have hL : 0 ≤ lastTime c tr.totalTime o.tmax o.fraction := by
    unfold lastTime
    split_ifs with h1 h2
    · exact le_min hT h1.le
    · exact h1.le
    · exact mul_nonneg ((h.resolve_left h1).le) hT
  obtain ⟨g, hg, g1, g2, g3⟩ := grid_ends f o.tsamples hts tr.timestep _ hdt hL
  have hgrid : (do
      let f ← funcOf o.func
      apiTimeGrid c (f.grid o.tsamples) tr.timestep tr.totalTime o.tmax o.fraction) = .ok (some (0 :: g)) := by
    rw [hf]
    exact apiTimeGrid_eq c _ _ _ _ _ h g hg
  have hn' : (n : ℝ) ≠ 0 := by exact_mod_cast hn.ne'
  have main := fun {X : Type} (s : ℕ) (h1 : 0 < s) (x : ℕ → X) (f : X → X → Py (Option ℝ)) (k : ℕ → ℕ → ℝ) h2 h3 (off : Bool) =>
    regular_corr N hN s0 m hm tr.timestep hdt tr hst hbs rfl s h1 x f k h2 h3 (0 :: g) (by simp) off
  have hpp : ∀ y : ℝ, perParticle n y = some (y / n) := fun y => by unfold perParticle; rw [if_neg hn.ne']
  simp only [List.mem_cons, List.not_mem_nil, or_false] at hc
  rcases hc with rfl | rfl | rfl | rfl | rfl
  · obtain ⟨dg, r, e1, e2, e3⟩ := main s hsk x msdKernel (Spec.pairValue .msd x)
      (fun i j _ _ => by unfold msdKernel; rw [hpp]; rfl) (fun a b => ⟨_, rfl⟩) (o.norigins.offset && !o.noOffset)
    refine ⟨r, ?_, by simpa using e3⟩
    unfold timeCommand
    simp only [hgrid]
    show some (msdRun (.object tr) (some (0 :: g)) o.rmsdMax 30 o.norigins o.noOffset _) = _
    unfold msdRun TrajArg.traj
    simp only
    rw [hskip]
    show some (setupTGrid tr.steps tr.blockSize tr.timestep (0 :: g) (o.norigins.offset && !o.noOffset) >>= _) = _
    rw [e1]
    exact congrArg some e2
  · obtain ⟨dg, r, e1, e2, e3⟩ := main tr.blockSize (by omega) x vacfKernel (Spec.pairValue .vacf x)
      (fun i j _ _ => by unfold vacfKernel; rw [hpp]; rfl) (fun a b => ⟨_, rfl⟩) o.norigins.offset
    refine ⟨r, ?_, by simpa [hbs] using e3⟩
    unfold timeCommand
    simp only [hgrid]
    show some (vacfRun tr (some (0 :: g)) 30 o.norigins _) = _
    unfold vacfRun vacfInit
    rw [hskip]
    show some ((setupTGrid tr.steps tr.blockSize tr.timestep (0 :: g) o.norigins.offset >>= _) >>= _) = _
    rw [e1]
    exact congrArg some e2
  · obtain ⟨dg, r, e1, e2, e3⟩ := main s hsk (fun i => (i, x i)) alpha2Kernel (Spec.pairValue .alpha2 x)
      (fun i j hij hj => by
        unfold alpha2Kernel Spec.pairValue
        simp only
        by_cases e : i = j
        · rw [if_pos e.symm, if_pos e]
        · rw [if_neg (Ne.symm e), if_neg e, hpp, hpp]
          have hne : sqDisp (x j) (x i) / (n : ℝ) ≠ 0 := by
            intro h0
            rw [div_eq_zero_iff, or_iff_left hn'] at h0
            apply hx rfl i j (by omega) hj
            funext p a
            unfold sqDisp at h0
            rw [Finset.sum_eq_zero_iff_of_nonneg (fun p _ => Finset.sum_nonneg fun a _ => sq_nonneg _)] at h0
            have := h0 p (Finset.mem_univ _)
            rw [Finset.sum_eq_zero_iff_of_nonneg (fun a _ => sq_nonneg _)] at this
            have := pow_eq_zero_iff (two_ne_zero) |>.1 (this a (Finset.mem_univ _))
            linarith
          simp only [if_neg hne]
          rfl)
      (fun a b => by unfold alpha2Kernel; split_ifs <;> exact ⟨_, rfl⟩) o.norigins.offset
    refine ⟨r, ?_, by simpa using e3⟩
    unfold timeCommand
    simp only [hgrid]
    show some (alpha2Run (.object tr) (some (0 :: g)) 30 o.norigins _) = _
    unfold alpha2Run alpha2Init timeInit TrajArg.traj
    simp only
    rw [hskip]
    show some ((setupTGrid tr.steps tr.blockSize tr.timestep (0 :: g) o.norigins.offset >>= _) >>= _) = _
    rw [e1]
    have hz : (((List.range N).map x).zipIdx.map fun e => (e.2, e.1)) = (List.range N).map fun i => (i, x i) := by
      apply List.ext_getElem
      · simp
      · intro i h1 h2
        simp
    show some (timeCorr (Arith.nan ℝ) alpha2Kernel tr dg _ (((List.range N).map x).zipIdx.map fun e => (e.2, e.1))) = _
    rw [hz]
    exact congrArg some e2
  · obtain ⟨dg, r, e1, e2, e3⟩ := main s hsk x (fun a b : Frame n d ℝ => .ok (perParticle n (selfOverlap a b ((3 / 10) ^ 2) : ℝ)))
      (Spec.pairValue .qst x)
      (fun i j _ _ => by
        rw [hpp]
        unfold Spec.pairValue
        simp only
        congr 4
        unfold selfOverlap sqDist
        rw [List.countP_map, List.countP_eq_length_filter]
        rw [← List.toFinset_card_of_nodup ((List.nodup_finRange n).filter _)]
        congr 1
        ext p
        simp)
      (fun a b => ⟨_, rfl⟩) o.norigins.offset
    refine ⟨r, ?_, by simpa using e3⟩
    unfold timeCommand
    simp only [hgrid]
    show some (qstRunR (.object tr) (some (0 :: g)) 60 o.norigins (3 / 10) _) = _
    unfold qstRunR qstInit timeInit TrajArg.traj
    simp only
    rw [hskip]
    show some ((setupTGrid tr.steps tr.blockSize tr.timestep (0 :: g) o.norigins.offset >>= _) >>= _) = _
    rw [e1]
    exact congrArg some e2
  · obtain ⟨dg, r, e1, e2, e3⟩ := main s hsk x
      (fun a b : Frame n d ℝ => .ok (perParticle n (collectiveOverlap a b ((3 / 10) ^ 2) : ℝ)))
      (Spec.pairValue .qt x)
      (fun i j _ _ => by
        rw [hpp]
        unfold Spec.pairValue
        simp only
        congr 4
        rw [collectiveOverlap_card]
        rfl)
      (fun a b => ⟨_, rfl⟩) o.norigins.offset
    refine ⟨r, ?_, by simpa using e3⟩
    unfold timeCommand
    simp only [hgrid]
    show some (qtRun (.object tr) (some (0 :: g)) 60 o.norigins (3 / 10) _) = _
    unfold qtRun qtInit timeInit TrajArg.traj
    simp only
    rw [hskip]
    show some ((setupTGrid tr.steps tr.blockSize tr.timestep (0 :: g) o.norigins.offset >>= _) >>= _) = _
    rw [e1]
    exact congrArg some e2

/-- Four frames saved every ten steps. -/
noncomputable def exEven : Traj ℝ := { steps := [5, 15, 25, 35], timestep := 1 / 100, blockSize := 1, totalTime := 3 / 10, npart := [2, 2, 2, 2] }

/-- Options of the commands: three times up to three quarters of the total, two time origins. -/
noncomputable def exEvenOptions : TimeOptions :=
  { tmax := -1, fraction := 3 / 4, tsamples := 3, func := "linear".toList, norigins := .str ['2'], rmsdMax := -1, noOffset := false }

/-- Two particles on a line with velocities 1 and 2. -/
noncomputable def exMoving : ℕ → Frame 2 1 ℝ := fun i p _ => (i : ℝ) * ((p : ℕ) + 1)

/-- All commands for this trajectory. -/
example (c : Command) (hc : c ∈ [.msd, .vacf, .alpha2, .qst, .qt]) :
    ∃ r, timeCommand c exEvenOptions exEven ((List.range 4).map exMoving) = some (.ok r) ∧
      Spec.OriginAverage 4 (if c = .vacf then 1 else 2) 10 exEven.timestep (Spec.pairValue c exMoving) r := by
  have hi : pyIntOfStr ['2'] = .ok ((2 : ℕ) : ℤ) := by decide +kernel
  have hs : Spec.OriginStride exEvenOptions.norigins 4 2 2 := Or.inr (Or.inr ⟨2, le_rfl, by norm_num, hi, rfl⟩)
  have hfunc : exEvenOptions.func = "linear".toList := rfl
  have hfm : exEvenOptions.func ∈ ["linear".toList, "linear_grid".toList, "logx".toList, "logx_grid".toList] := by
    rw [hfunc]
    exact List.mem_cons_self
  have ht : 2 ≤ exEvenOptions.tsamples := by norm_num [exEvenOptions]
  have hfr : 0 < exEvenOptions.fraction := by norm_num [exEvenOptions]
  have hdt : 0 < exEven.timestep := by norm_num [exEven]
  have hT : 0 ≤ exEven.totalTime := by norm_num [exEven]
  have hst : exEven.steps = (List.range 4).map fun i : ℕ => (5 : ℤ) + 10 * i := by
    simp [exEven, List.range_succ]
  have hx : c = .alpha2 → ∀ i j : ℕ, i < j → j < 4 → exMoving i ≠ exMoving j := by
    intro _ i j hij _ e
    have h1 := congrFun (congrFun e 0) 0
    simp [exMoving] at h1
    omega
  exact C224_average c hc exEvenOptions hfm ht (Or.inr hfr) 4 (by norm_num) 5 10
    (by norm_num) exEven hst rfl hdt hT (by norm_num) rfl 2 hs exMoving hx

/-- The squared displacement between frames 1 and 3 of the example: (4 + 16) / 2. -/
example : Spec.pairValue .msd exMoving 1 3 = 10 := by
  simp [Spec.pairValue, exMoving, Fin.sum_univ_two]
  norm_num

end PP.Props
