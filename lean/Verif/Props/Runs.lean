import Verif.Model.Runs
import Verif.Props.FktGrid
import Verif.Props.Gaussian
import Verif.Props.Skip
import Verif.Props.Stress

/-!
# C125, C126, C127: constructors of the time correlation functions
-/

set_option linter.unusedSectionVars false

namespace PP.Spec

/-- Every reported pair of time and value is that of the first frame and a later one. -/
def FromFirst {X K : Type} [Field K] (steps : List ℤ) (dt : K) (x : List X) (g : X → X → K)
    (r : List K × List (Option K)) : Prop :=
  r.1.length = r.2.length ∧ ∀ p ∈ r.1.zip r.2, ∃ (i : ℕ) (ti t0 : ℤ) (xi x0 : X), steps[i]? = some ti ∧
    steps[0]? = some t0 ∧ x[i]? = some xi ∧ x[0]? = some x0 ∧ p.1 = ((ti - t0 : ℤ) : K) * dt ∧ p.2 = some (g xi x0)

end PP.Spec

namespace PP.Props
open PP

section
variable {K : Type} [Field K] [LinearOrder K] [IsStrictOrderedRing K] [FloorRing K] {n d : ℕ}

/-! ### C125 -/

theorem skip_one_str (len bs : ℕ) (npart : List ℕ) (hlen : 0 < len) (hbs : 0 < bs) :
    adjustSkip len bs npart (.str ['1']) = .ok len := by
  rw [(C17_string_partial len bs npart ['1'] hbs).1 1 (by decide +kernel)]
  have := (C15_single_origin len bs npart hlen hbs).1
  simpa using this

theorem single_origin {X : Type} {f : X → X → Py (Option K)} {g : X → X → K} {tr : Traj K} {tgrid : List K}
    {dg : List (ℕ × ℕ)} {x : List X} {r : List K × List (Option K)} (hlen : x.length = tr.steps.length)
    (hne : tr.steps ≠ []) (hs : tr.steps.Pairwise (· < ·)) (hdt : tr.timestep ≠ 0)
    (hdg : setupTGrid tr.steps tr.blockSize tr.timestep tgrid false = .ok dg)
    (hf : ∀ a ∈ x, ∀ b ∈ x, f a b = .ok (some (g a b)))
    (h : timeCorr (Arith.nan K) f tr dg tr.steps.length x = .ok r) :
    Spec.FromFirst tr.steps tr.timestep x g r := by
  obtain ⟨ts, vs⟩ := r
  have hl : 0 < tr.steps.length := List.length_pos_iff.2 hne
  obtain ⟨dg', h1, h2, -⟩ := setupTGrid_spec tr.steps tr.blockSize tr.timestep tgrid false [0] rfl (by simp) hne hdt
  rw [hdg] at h1
  cases h1
  refine timeCorr_forall (P := fun t v => ∃ (i : ℕ) (ti t0 : ℤ) (xi x0 : X), tr.steps[i]? = some ti ∧
    tr.steps[0]? = some t0 ∧ x[i]? = some xi ∧ x[0]? = some x0 ∧ t = ((ti - t0 : ℤ) : K) * tr.timestep ∧
    v = some (g xi x0)) hl hlen.le hf h ?_
  intro δ hδ
  have key : ∀ v ∈ Spec.valuesAt g tr.steps.length dg tr.steps x δ, ∃ (i : ℕ) (ti t0 : ℤ) (xi x0 : X),
      tr.steps[i]? = some ti ∧ tr.steps[0]? = some t0 ∧ x[i]? = some xi ∧ x[0]? = some x0 ∧ ti - t0 = δ ∧
      v = g xi x0 := by
    intro v hv
    obtain ⟨i0, i, ta, tb, xa, xb, hsm, ha, hb, hxa, hxb, hd, rfl⟩ := mem_valuesAt hv
    obtain ⟨off, ho, h3, h4, h5⟩ := mem_sampled.1 hsm
    have h6 := (h2 _ ho).1
    simp only [List.mem_singleton] at h6
    subst h6
    simp only [Nat.sub_zero] at h4
    have h0 : i0 = 0 := by
      rw [Nat.mod_eq_of_lt (by simp only at h5; omega)] at h4
      exact h4
    subst h0
    rw [Nat.zero_add] at ha hxa
    exact ⟨i, ta, tb, xa, xb, ha, hb, hxa, hxb, hd, rfl⟩
  obtain ⟨v0, hv0⟩ := List.length_pos_iff_exists_mem.1 hδ
  obtain ⟨i, ti, t0, xi, x0, e1, e2, e3, e4, e5, e6⟩ := key v0 hv0
  refine ⟨i, ti, t0, xi, x0, e1, e2, e3, e4, by rw [e5], ?_⟩
  congr 1
  refine mean_const hδ fun v hv => ?_
  obtain ⟨i', ti', t0', xi', x0', e1', e2', e3', e4', e5', e6'⟩ := key v hv
  rw [e2] at e2'
  rw [e4] at e4'
  cases e2'
  cases e4'
  have hii : i = i' := by
    have : ti = ti' := by omega
    subst this
    exact lag_zero_same hs e1 e1' (by omega)
  subst hii
  rw [e3] at e3'
  cases e3'
  rw [e6']

/-- **C125.** With `norigins='1'`, as on the command line, the mean square displacement and the non-Gaussian parameter
at all times are those of the first frame and a later one. What is missing: the number 1, see `C125_counterexample`. -/
theorem C125_msd_partial (trj : TrajArg K) (tgrid : Option (List K)) (rmax : K) (tsamples : ℤ) (noOffset : Bool)
    (pos : List (Frame n d K)) (hn : 0 < n) (hlen : pos.length = trj.traj.steps.length) (hne : trj.traj.steps ≠ [])
    (hs : trj.traj.steps.Pairwise (· < ·)) (hdt : trj.traj.timestep ≠ 0) (hbs : 0 < trj.traj.blockSize)
    {r : List K × List (Option K)} (h : msdRun trj tgrid rmax tsamples (.str ['1']) noOffset pos = .ok r) :
    Spec.FromFirst trj.traj.steps trj.traj.timestep pos (fun x y => (∑ p, ∑ c, (x p c - y p c) ^ 2) / (n : K)) r := by
  have hl : 0 < trj.traj.steps.length := List.length_pos_iff.2 hne
  unfold msdRun at h
  rw [skip_one_str _ _ _ hl hbs] at h
  obtain ⟨g, dg, hdg, ht, -⟩ := msdCompute_ok h
  refine single_origin hlen hne hs hdt hdg (fun a _ b _ => ?_) ht
  unfold msdKernel perParticle sqDisp
  rw [if_neg hn.ne']

theorem C125_alpha2_partial (trj : TrajArg K) (tgrid : Option (List K)) (nsamples : ℤ)
    (pos : List (Frame n d K)) (hnd : pos.Nodup) (hlen : pos.length = trj.traj.steps.length) (hne : trj.traj.steps ≠ [])
    (hs : trj.traj.steps.Pairwise (· < ·)) (hdt : trj.traj.timestep ≠ 0) (hbs : 0 < trj.traj.blockSize)
    {r : List K × List (Option K)} (h : alpha2Run trj tgrid nsamples (.str ['1']) pos = .ok r) :
    Spec.FromFirst trj.traj.steps trj.traj.timestep pos
      (fun x y => open Classical in if x = y then 0 else
        3 * Spec.moment 2 x y / (5 * Spec.moment 1 x y ^ 2) - 1) r := by
  have hl : 0 < trj.traj.steps.length := List.length_pos_iff.2 hne
  unfold alpha2Run alpha2Init timeInit at h
  rw [skip_one_str _ _ _ hl hbs] at h
  obtain ⟨i, hi, h⟩ := bind_ok_iff.1 h
  obtain ⟨s, hs', hi⟩ := bind_ok_iff.1 hi
  cases hs'
  obtain ⟨g, -, hi⟩ := bind_ok_iff.1 hi
  obtain ⟨dg, hdg, hi⟩ := bind_ok_iff.1 hi
  cases hi
  simp only [Int.toNat_natCast] at h
  unfold alpha2Compute at h
  have hx := single_origin (g := fun a b : ℕ × Frame n d K => ratio a.2 b.2) (by simpa using hlen) hne hs hdt hdg
    (alpha2Kernel_ratio pos hnd) h
  refine ⟨hx.1, fun p hp => ?_⟩
  obtain ⟨i, ti, t0, xi, x0, e1, e2, e3, e4, e5, e6⟩ := hx.2 p hp
  have hget : ∀ (i : ℕ) (q : ℕ × Frame n d K), (pos.zipIdx.map fun e : Frame n d K × ℕ => (e.2, e.1))[i]? = some q →
      pos[i]? = some q.2 := by
    intro i q hq
    rw [List.getElem?_map, List.getElem?_zipIdx] at hq
    cases hp : pos[i]? with
    | none => rw [hp] at hq; simp at hq
    | some y =>
      rw [hp] at hq
      simp only [Option.map_some, Option.some.injEq] at hq
      rw [← hq]
  exact ⟨i, ti, t0, xi.2, x0.2, e1, e2, hget _ _ e3, hget _ _ e4, e5, e6⟩

/-- A lag of the discrete grid is reported. -/
theorem lag_reported {X : Type} {f : X → X → Py (Option K)} {g : X → X → K} {tr : Traj K} {dg : List (ℕ × ℕ)} {x : List X}
    {skip : ℕ} (hskip : 0 < skip) (hlen : x.length = tr.steps.length) (hf : ∀ a ∈ x, ∀ b ∈ x, f a b = .ok (some (g a b)))
    (p : ℕ × ℕ) (hp : p ∈ dg) (hpl : p.1 + p.2 < tr.steps.length) :
    ∃ r, timeCorr (Arith.nan K) f tr dg skip x = .ok r ∧ ((Spec.lag tr.steps p : ℤ) : K) * tr.timestep ∈ r.1 := by
  obtain ⟨lags, -, h2, h3⟩ := timeCorr_mean (tr := tr) (dg := dg) hskip hlen.le hf
  refine ⟨_, h3, List.mem_map.2 ⟨Spec.lag tr.steps p, (h2 _).2 ?_, rfl⟩⟩
  have hp1 : p.1 < tr.steps.length := by omega
  refine ⟨(Spec.lag tr.steps p, x[p.1 + p.2]'(by omega), x[p.1]'(by omega)), ?_, rfl⟩
  unfold Spec.terms
  refine List.mem_filterMap.2 ⟨p, ?_, ?_⟩
  · exact mem_sampled.2 ⟨p.1, hp, le_rfl, by simp, by omega⟩
  · unfold Spec.term Spec.lag
    rw [List.getElem?_eq_getElem hpl, List.getElem?_eq_getElem hp1, List.getElem?_eq_getElem (by omega),
      List.getElem?_eq_getElem (by omega), List.getD_eq_getElem _ _ hpl, List.getD_eq_getElem _ _ hp1]

theorem pyRound_cast (i : ℤ) : pyRound (i : K) = i := by
  unfold pyRound
  simp

/-- A difference of steps that is scanned is in the discrete grid, if it is asked for. -/
theorem tgrid_asked (steps : List ℤ) (bs : ℕ) (dt : K) (hdt : dt ≠ 0) (off j : ℕ) (hbs : off < bs)
    (hj : j + off < steps.length) (hoj : off ≤ j) :
    ∃ dg, setupTGrid steps bs dt [((steps.getD j 0 - steps.getD off 0 : ℤ) : K) * dt] true = .ok dg ∧
      ∃ p ∈ dg, p.1 + p.2 < steps.length ∧ Spec.lag steps p = steps.getD j 0 - steps.getD off 0 := by
  have hne : steps ≠ [] := by rintro rfl; simp at hj
  obtain ⟨dg, h1, h2, -, h4⟩ := setupTGrid_spec steps bs dt [((steps.getD j 0 - steps.getD off 0 : ℤ) : K) * dt] true
    (List.range bs) rfl (List.mem_range.2 (by omega)) hne hdt
  refine ⟨dg, h1, ?_⟩
  have hlag : Spec.lag steps (off, j - off) = steps.getD j 0 - steps.getD off 0 := by
    unfold Spec.lag
    rw [Nat.add_sub_cancel' hoj]
  have hv := (h4 (steps.getD j 0 - steps.getD off 0)).2 ⟨⟨(off, j - off), ⟨List.mem_range.2 hbs, by
    show j - off + 2 * off < _
    omega⟩, hlag⟩, _, List.mem_singleton_self _, ?_⟩
  · obtain ⟨p, hp, he⟩ := List.mem_map.1 hv
    refine ⟨p, hp, ?_, he⟩
    have := (h2 p hp).2
    omega
  · intro w _
    rw [mul_div_cancel_right₀ _ hdt, pyRound_cast, sub_self, abs_zero]
    refine ⟨abs_nonneg _, fun h => ?_⟩
    have := abs_eq_zero.1 h
    omega

/-- **C125, false** for the number 1 in trajectories with blocks: the mean square displacement at the time between two
frames of the first block is reported, and it is not that between the first frame and any other, if there is no such
frame at that distance. -/
theorem C125_counterexample (tr : Traj K) (rmax : K) (tsamples : ℤ) (pos : List (Frame n d K))
    (hlen : pos.length = tr.steps.length) (hdt : tr.timestep ≠ 0) (off j : ℕ) (hn : 0 < n)
    (hbs : off < tr.blockSize) (hj : j + off < tr.steps.length) (hoj : off ≤ j)
    (hnot : ∀ (i : ℕ) (t t0 : ℤ), tr.steps[i]? = some t → tr.steps[0]? = some t0 →
      t - t0 ≠ tr.steps.getD j 0 - tr.steps.getD off 0) (g : Frame n d K → Frame n d K → K) :
    ∃ r, msdRun (.object tr) (some [((tr.steps.getD j 0 - tr.steps.getD off 0 : ℤ) : K) * tr.timestep]) rmax tsamples
        (.num 1) false pos = .ok r ∧ ¬Spec.FromFirst tr.steps tr.timestep pos g r := by
  have hl : 0 < tr.steps.length := by omega
  obtain ⟨dg, h1, p, hp, hpl, hlag⟩ := tgrid_asked tr.steps tr.blockSize tr.timestep hdt off j hbs hj hoj
  obtain ⟨r, h2, h3⟩ := lag_reported (tr := tr) (dg := dg) (f := msdKernel) (x := pos)
    (g := fun x y => sqDisp x y / (n : K)) hl hlen
    (fun a _ b _ => by unfold msdKernel perParticle; rw [if_neg hn.ne']) p hp hpl
  refine ⟨r, ?_, ?_⟩
  · unfold msdRun TrajArg.traj
    simp only
    rw [(C15_single_origin tr.steps.length tr.blockSize tr.npart hl (by omega)).1]
    unfold msdCompute
    show (setupTGrid tr.steps tr.blockSize tr.timestep _ true >>= _) = _
    rw [h1]
    exact h2
  · rintro ⟨hll, hall⟩
    obtain ⟨k, hk, hke⟩ := List.mem_iff_getElem.1 h3
    have hz : (r.1[k], r.2[k]'(by omega)) ∈ r.1.zip r.2 := by
      rw [← List.getElem_zip (h := by rw [List.length_zip]; omega)]
      exact List.getElem_mem _
    obtain ⟨i, ti, t0, xi, x0, e1, e2, -, -, e5, -⟩ := hall _ hz
    rw [hke, hlag] at e5
    have := mul_right_cancel₀ hdt e5
    exact hnot i ti t0 e1 e2 (by exact_mod_cast this.symm)

/-- Seven frames in blocks of three: with `norigins='1'` only the distances from the first frame are used. -/
example : msdRun (K := ℚ) (n := 1) (d := 1) (.object ⟨[0, 1, 4, 10, 11, 14, 20], 1 / 2, 3, 10, [1]⟩) (some [0, 2, 5]) 0 3
      (.str ['1']) false [![![0]], ![![1]], ![![3]], ![![4]], ![![5]], ![![7]], ![![9]]]
      = .ok ([0, 2, 5], [some 0, some 9, some 16]) ∧
    msdRun (K := ℚ) (n := 1) (d := 1) (.object ⟨[0, 1, 4, 10, 11, 14, 20], 1 / 2, 3, 10, [1]⟩) (some [3 / 2]) 0 3
      (.num 1) false [![![0]], ![![1]], ![![3]], ![![4]], ![![5]], ![![7]], ![![9]]]
      = .ok ([3 / 2], [some 4]) := by constructor <;> decide +kernel

/-- The hypothesis of `C125_counterexample` on these frames: no frame is three steps after the first, but the third is
three steps after the second. -/
example : ∀ (i : ℕ) (t t0 : ℤ), ([0, 1, 4, 10, 11, 14, 20] : List ℤ)[i]? = some t →
    ([0, 1, 4, 10, 11, 14, 20] : List ℤ)[0]? = some t0 →
    t - t0 ≠ ([0, 1, 4, 10, 11, 14, 20] : List ℤ).getD 2 0 - ([0, 1, 4, 10, 11, 14, 20] : List ℤ).getD 1 0 := by
  intro i t t0 h h0
  have hm := List.mem_of_getElem? h
  simp only [List.getElem?_cons_zero, Option.some.injEq] at h0
  subst h0
  simp only [List.mem_cons, List.not_mem_nil, or_false] at hm
  rcases hm with rfl | rfl | rfl | rfl | rfl | rfl | rfl <;> decide

example : alpha2Run (K := ℚ) (n := 2) (d := 1) (.object ⟨[0, 1, 2], 1, 1, 2, [2]⟩) (some [0, 1, 2]) 3 (.str ['1'])
    [![![0], ![0]], ![![1], ![2]], ![![3], ![2]]] = .ok ([0, 1, 2], [some 0, some (-(23 / 125)), some (-(263 / 845))]) := by
  decide +kernel

/-! ### C96, velocity autocorrelation -/

/-- **C96**: the velocity autocorrelation on a given time grid is the mean over the time origins separated by the block
size, whatever the number of origins requested. -/
theorem C96_vacf_partial (tr : Traj K) (tgrid : List K) (tsamples : ℤ) (norigins : NOrigins) (vel : List (Frame n d K))
    (hn : 0 < n) (hlen : vel.length ≤ tr.steps.length) (hbs : 0 < tr.blockSize) (skip : ℤ)
    (hs : adjustSkip tr.steps.length tr.blockSize tr.npart norigins = .ok skip) (dg : List (ℕ × ℕ))
    (hdg : setupTGrid tr.steps tr.blockSize tr.timestep tgrid norigins.offset = .ok dg) :
    ∃ lags : List ℤ,
      (∀ δ, δ ∈ lags ↔ ∃ e ∈ Spec.terms tr.steps vel (Spec.sampled vel.length tr.blockSize dg), e.1 = δ) ∧
      vacfRun tr (some tgrid) tsamples norigins vel = .ok (lags.map fun δ : ℤ => (δ : K) * tr.timestep, lags.map fun δ =>
        some (Spec.mean (Spec.valuesAt (fun x y => (∑ p, ∑ c, x p c * y p c) / (n : K)) tr.blockSize dg tr.steps vel δ))) := by
  obtain ⟨lags, -, h2, h3⟩ := timeCorr_mean (tr := tr) (dg := dg) (skip := tr.blockSize) (x := vel) (f := vacfKernel)
    (g := fun x y => (∑ p, ∑ c, x p c * y p c) / (n : K)) hbs hlen
    (fun a _ b _ => by unfold vacfKernel perParticle; rw [if_neg hn.ne'])
  refine ⟨lags, h2, ?_⟩
  unfold vacfRun vacfInit
  rw [hs]
  show (setupTGrid tr.steps tr.blockSize tr.timestep tgrid norigins.offset >>= _) >>= _ = _
  rw [hdg]
  exact h3

/-- Four frames in blocks of two: at lag one there are two origins, the frames 0 and 2. -/
example : vacfRun (K := ℚ) (n := 1) (d := 1) ⟨[0, 1, 3, 4], 1, 2, 4, [1]⟩ (some [0, 1]) 9 (.num 1)
    [![![1]], ![![2]], ![![3]], ![![-1]]] = .ok ([0, 1], [some 5, some (-(1 / 2))]) := by decide +kernel

/-! ### C126 -/

/-- **C126.** A path can be given in place of a trajectory to the mean square displacement and to the non-Gaussian
parameter. -/
theorem C126_partial (tr : Traj K) (tgrid : Option (List K)) (rmax : K) (m : ℤ) (norigins : NOrigins) (noOffset : Bool)
    (pos : List (Frame n d K)) :
    msdRun (.path tr) tgrid rmax m norigins noOffset pos = msdRun (.object tr) tgrid rmax m norigins noOffset pos ∧
    alpha2Run (.path tr) tgrid m norigins pos = alpha2Run (.object tr) tgrid m norigins pos := ⟨rfl, rfl⟩

/-! ### C127 -/

/-- **C127.** The default times of the non-Gaussian parameter run from zero to the available one nearest to 3/4 of the
total time. -/
theorem C127_alpha2 (trj : TrajArg K) (norigins : NOrigins) (m : ℤ) (hm : 2 ≤ m) (hs : trj.traj.steps.Pairwise (· < ·))
    (hne : trj.traj.steps ≠ []) (hbs : 0 < trj.traj.blockSize) (hdt : 0 < trj.traj.timestep) (hT : 0 ≤ trj.traj.totalTime)
    (skip : ℤ) (hskip : adjustSkip trj.traj.steps.length trj.traj.blockSize trj.traj.npart norigins = .ok skip) :
    ∃ i, alpha2Init trj none m norigins = .ok i ∧
      Spec.Spans trj.traj.steps (if norigins.offset then List.range trj.traj.blockSize else [0]) trj.traj.timestep
        (3 / 4 * trj.traj.totalTime) i.dgrid := by
  obtain ⟨l, h1, h2, h3, h4, h5⟩ := C06_linear_grid_count (0 : K) (trj.traj.totalTime * (3 / 4)) m
  have hll : 2 ≤ l.length := by omega
  have h4' := h4 hm (by omega)
  have h3' := h3 (by omega)
  have hmp : (0 : K) < (m : K) - 1 := by
    have : (2 : K) ≤ (m : K) := by exact_mod_cast hm
    linarith
  have hmono : ∀ k (i : ℕ) (h : i + k < l.length), l[i]'(by omega) ≤ l[i + k] := by
    intro k
    induction k with
    | zero => intro i h; exact le_rfl
    | succ k ih =>
      intro i h
      have e := h5 (i + k) (by omega)
      have e0 : 0 ≤ (trj.traj.totalTime * (3 / 4) - 0) / ((m : K) - 1) := by
        apply div_nonneg _ hmp.le
        rw [sub_zero]
        positivity
      have := ih i (by omega)
      rw [← e] at e0
      have e1 : l[i + (k + 1)] = l[i + k + 1] := rfl
      rw [e1]
      linarith
  obtain ⟨dg, h6, h7⟩ := tgrid_span trj.traj.steps hs hne trj.traj.blockSize hbs trj.traj.timestep hdt l
    (trj.traj.totalTime * (3 / 4)) (by rw [← h3']; exact List.getElem_mem _) (by rw [← h4']; exact List.getElem_mem _)
    (by
      intro t ht
      obtain ⟨i, hi, rfl⟩ := List.mem_iff_getElem.1 ht
      rw [← h4']
      have := hmono (l.length - 1 - i) i (by omega)
      simpa [show i + (l.length - 1 - i) = l.length - 1 by omega] using this) norigins.offset
  refine ⟨⟨skip.toNat, l, dg⟩, ?_, by rw [mul_comm (3 / 4 : K)]; exact h7⟩
  unfold alpha2Init timeInit
  rw [hskip, h1]
  show (setupTGrid _ _ _ l _ >>= _) = _
  rw [h6]
  rfl

/-- Five frames: the default times end at 3, three quarters of the total time 4. -/
example : alpha2Init (K := ℚ) (.path ⟨[0, 1, 2, 3, 4], 1, 1, 4, [1]⟩) none 3 (.num 1)
    = .ok ⟨5, [0, 3 / 2, 3], [(0, 0), (0, 2), (0, 3)]⟩ := by decide +kernel

end

section
variable {n d : ℕ}

/-- **C125**, overlaps: with `norigins='1'` all values are those of the first frame and a later one. -/
theorem C125_self_overlap_partial (trj : TrajArg ℝ) (tgrid : Option (List ℝ)) (tsamples : ℕ) (a : ℝ)
    (pos : List (Frame n d ℝ)) (hn : 0 < n) (hlen : pos.length = trj.traj.steps.length) (hne : trj.traj.steps ≠ [])
    (hs : trj.traj.steps.Pairwise (· < ·)) (hdt : trj.traj.timestep ≠ 0) (hbs : 0 < trj.traj.blockSize)
    {r : List ℝ × List (Option ℝ)} (h : qstRunR trj tgrid tsamples (.str ['1']) a pos = .ok r) :
    Spec.FromFirst trj.traj.steps trj.traj.timestep pos (fun x y => (((List.finRange n).filter fun j =>
      decide (∑ c, (x j c - y j c) ^ 2 < a ^ 2)).length : ℝ) / n) r := by
  have hl : 0 < trj.traj.steps.length := List.length_pos_iff.2 hne
  unfold qstRunR qstInit timeInit at h
  rw [skip_one_str _ _ _ hl hbs] at h
  obtain ⟨i, hi, h⟩ := bind_ok_iff.1 h
  obtain ⟨s, hs', hi⟩ := bind_ok_iff.1 hi
  cases hs'
  obtain ⟨g, -, hi⟩ := bind_ok_iff.1 hi
  obtain ⟨dg, hdg, hi⟩ := bind_ok_iff.1 hi
  cases hi
  simp only [Int.toNat_natCast] at h
  unfold qstCompute at h
  refine single_origin hlen hne hs hdt hdg (fun x _ y _ => ?_) h
  unfold perParticle selfOverlap
  rw [if_neg hn.ne', List.countP_map, List.countP_eq_length_filter]
  rfl

theorem C125_collective_overlap_partial (trj : TrajArg ℝ) (tgrid : Option (List ℝ)) (tsamples : ℕ) (a : ℝ)
    (pos : List (Frame n d ℝ)) (hn : 0 < n) (hlen : pos.length = trj.traj.steps.length) (hne : trj.traj.steps ≠ [])
    (hs : trj.traj.steps.Pairwise (· < ·)) (hdt : trj.traj.timestep ≠ 0) (hbs : 0 < trj.traj.blockSize)
    {r : List ℝ × List (Option ℝ)} (h : qtRun trj tgrid tsamples (.str ['1']) a pos = .ok r) :
    Spec.FromFirst trj.traj.steps trj.traj.timestep pos (fun x y => (Spec.pairsBelow a x y : ℝ) / n) r := by
  have hl : 0 < trj.traj.steps.length := List.length_pos_iff.2 hne
  unfold qtRun qtInit timeInit at h
  rw [skip_one_str _ _ _ hl hbs] at h
  obtain ⟨i, hi, h⟩ := bind_ok_iff.1 h
  obtain ⟨s, hs', hi⟩ := bind_ok_iff.1 hi
  cases hs'
  obtain ⟨g, -, hi⟩ := bind_ok_iff.1 hi
  obtain ⟨dg, hdg, hi⟩ := bind_ok_iff.1 hi
  cases hi
  simp only [Int.toNat_natCast] at h
  unfold qtCompute at h
  refine single_origin hlen hne hs hdt hdg (fun x _ y _ => ?_) h
  simp only [perParticle, if_neg hn.ne', collectiveOverlap_card]

/-- **C126**, overlaps and dynamic susceptibility. -/
theorem C126_overlap_partial (tr : Traj ℝ) (tgrid : Option (List ℝ)) (g : List ℝ) (m : ℕ) (norigins : NOrigins) (a : ℝ)
    (pos : List (Frame n d ℝ)) :
    qtRun (.path tr) tgrid m norigins a pos = qtRun (.object tr) tgrid m norigins a pos ∧
    chi4Run (.path tr) tgrid m norigins a pos = chi4Run (.object tr) tgrid m norigins a pos ∧
    qstRunR (.path tr) (some g) m norigins a pos = qstRunR (.object tr) (some g) m norigins a pos := ⟨rfl, rfl, rfl⟩

/-- **C127**, overlaps and dynamic susceptibility: the default times run from zero to the available one nearest to 3/4 of
the total time minus one. What is missing: see `C127_counterexample`. -/
theorem C127_partial (tr : Traj ℝ) (norigins : NOrigins) (m : ℕ) (hm : 2 ≤ m) (hs : tr.steps.Pairwise (· < ·))
    (hne : tr.steps ≠ []) (hbs : 0 < tr.blockSize) (hdt : 0 < tr.timestep) (hT : 4 / 3 < tr.totalTime)
    (skip : ℤ) (hskip : adjustSkip tr.steps.length tr.blockSize tr.npart norigins = .ok skip) :
    ∃ i, qtInit (.object tr) none m norigins = .ok i ∧ qstInit (.object tr) none m norigins = .ok i ∧
      chi4Init (.object tr) none m norigins = .ok i ∧
      Spec.Spans tr.steps (if norigins.offset then List.range tr.blockSize else [0]) tr.timestep
        (3 / 4 * tr.totalTime - 1) i.dgrid := by
  obtain ⟨l, hl, hlast, hzero, hrange⟩ := logx_span (tr.totalTime * (3 / 4)) (by linarith) m hm
  obtain ⟨dg, h1, h2⟩ := tgrid_span tr.steps hs hne tr.blockSize hbs tr.timestep hdt l _ hzero hlast hrange norigins.offset
  have key : timeInit tr none (overlapGrid tr.totalTime m) norigins = .ok ⟨skip.toNat, l, dg⟩ := by
    unfold timeInit overlapGrid
    rw [hskip, hl]
    show (setupTGrid _ _ _ l _ >>= _) = _
    rw [h1]
    rfl
  exact ⟨⟨skip.toNat, l, dg⟩, key, key, key, by rw [mul_comm (3 / 4 : ℝ)]; exact h2⟩

/-- **C126, false** for the self overlap with the default time grid: the constructor accepts the trajectory but never the
path to it. -/
theorem C126_counterexample (tr : Traj ℝ) (norigins : NOrigins) (m : ℕ) (hm : 2 ≤ m) (hs : tr.steps.Pairwise (· < ·))
    (hne : tr.steps ≠ []) (hbs : 0 < tr.blockSize) (hdt : 0 < tr.timestep) (hT : 4 / 3 < tr.totalTime)
    (skip : ℤ) (hskip : adjustSkip tr.steps.length tr.blockSize tr.npart norigins = .ok skip) :
    (∃ i, qstInit (.object tr) none m norigins = .ok i) ∧ qstInit (.path tr) none m norigins = .error .attributeError ∧
    ∀ (a : ℝ) (pos : List (Frame n d ℝ)), qstRunR (.path tr) none m norigins a pos = .error .attributeError := by
  obtain ⟨i, -, h, -⟩ := C127_partial tr norigins m hm hs hne hbs hdt hT skip hskip
  have h2 : qstInit (.path tr) none m norigins = .error .attributeError := by
    unfold qstInit timeInit TrajArg.traj
    simp only
    rw [hskip]
    rfl
  exact ⟨⟨i, h⟩, h2, fun a pos => by unfold qstRunR; rw [h2]; rfl⟩

/-- **C127, false** for the overlaps and the dynamic susceptibility: for every trajectory there is a unit of time such
that in it, and in all larger ones, all the default lags are zero. -/
theorem C127_counterexample (tr : Traj ℝ) (hs : tr.steps.Pairwise (· < ·)) (hne : tr.steps ≠ []) (hbs : 0 < tr.blockSize)
    (hdt : 0 < tr.timestep) (hT : 0 ≤ tr.totalTime) (norigins : NOrigins) (skip : ℤ)
    (hskip : adjustSkip tr.steps.length tr.blockSize tr.npart norigins = .ok skip) :
    ∃ c0 > 0, ∀ c, 0 < c → c ≤ c0 → ∀ m : ℕ, 0 < m →
      ∃ i, qtInit (.object (Spec.inUnit c tr)) none m norigins = .ok i ∧
        qstInit (.object (Spec.inUnit c tr)) none m norigins = .ok i ∧
        chi4Init (.object (Spec.inUnit c tr)) none m norigins = .ok i ∧ i.dgrid ≠ [] ∧
        ∀ p ∈ i.dgrid, Spec.lag tr.steps p = 0 := by
  obtain ⟨c0, hc0, hc⟩ := unit_small tr.totalTime hT
  refine ⟨c0, hc0, fun c hcp hcle m hm => ?_⟩
  obtain ⟨h0, h1⟩ := hc c hcp hcle
  obtain ⟨l, hl, hzero, hle⟩ := logx_zero _ h0 h1 m hm
  obtain ⟨dg, h2, h3, h4⟩ := tgrid_zero tr.steps hs hne tr.blockSize hbs (c * tr.timestep) (mul_pos hcp hdt) l hzero hle
    norigins.offset
  have key : timeInit (Spec.inUnit c tr) none (overlapGrid (c * tr.totalTime) m) norigins = .ok ⟨skip.toNat, l, dg⟩ := by
    unfold timeInit overlapGrid Spec.inUnit
    simp only
    rw [hskip, hl]
    show (setupTGrid _ _ _ l _ >>= _) = _
    rw [h2]
    rfl
  exact ⟨⟨skip.toNat, l, dg⟩, key, key, key, h3, h4⟩

/-- The hypotheses of the theorems above hold for five frames and `norigins='1'`. -/
example : ∃ tr : Traj ℝ, tr.steps.Pairwise (· < ·) ∧ tr.steps ≠ [] ∧ 0 < tr.blockSize ∧ 0 < tr.timestep ∧
    4 / 3 < tr.totalTime ∧ adjustSkip tr.steps.length tr.blockSize tr.npart (.str ['1']) = .ok 5 :=
  ⟨{ steps := [0, 100, 200, 300, 400], timestep := 3 / 100, blockSize := 1, totalTime := 12, npart := [2, 2, 2, 2, 2] },
    by decide, by simp, by norm_num, by norm_num, by norm_num, by decide +kernel⟩

end
end PP.Props
