import Verif.Lemmas.TimeCorr
import Mathlib.Algebra.Order.BigOperators.Ring.Finset
import Mathlib.Tactic.Positivity
import Mathlib.Algebra.Order.Chebyshev

/-!
# C23-C28: displacements and velocities (`msd.py`, `vacf.py`, `alpha2.py`, centre of mass)
-/

set_option linter.unusedSectionVars false

namespace PP.Props
open PP

variable {K : Type} [Field K] [LinearOrder K] [IsStrictOrderedRing K] [FloorRing K] {n d : ℕ}

/-! ## C23 -/

theorem msdCompute_ok {tr : Traj K} {skip : ℕ} {grid : Option (List K)} {rmax : K} {tsamples : ℤ}
    {offset : Bool} {pos : List (Frame n d K)} {r : List K × List (Option K)}
    (h : msdCompute tr skip grid rmax tsamples offset pos = .ok r) :
    ∃ g dg, setupTGrid tr.steps tr.blockSize tr.timestep g offset = .ok dg ∧
      timeCorr (Arith.nan K) msdKernel tr dg skip pos = .ok r ∧ (∀ g', grid = some g' → g = g') := by
  unfold msdCompute at h
  cases grid with
  | some g' =>
    obtain ⟨g, hg, h1⟩ := bind_ok_iff.1 h
    cases hg
    obtain ⟨dg, hdg, h2⟩ := bind_ok_iff.1 h1
    refine ⟨g', dg, hdg, h2, ?_⟩
    rintro g'' h; cases h; rfl
  | none =>
    obtain ⟨g, hg, h⟩ := bind_ok_iff.1 h
    obtain ⟨dg, hdg, h⟩ := bind_ok_iff.1 h
    exact ⟨g, dg, hdg, h, by simp⟩

theorem msdKernel_some (hn : 0 < n) (x y : Frame n d K) :
    msdKernel x y = .ok (some (sqDisp x y / (n : K))) := by
  unfold msdKernel perParticle; rw [if_neg hn.ne']

/-- **C23.** Whenever the mean square displacement is computed, there is one value per time, every
value is a non-negative number, and the value at time zero is zero (steps strictly increasing). -/
theorem C23_msd_nonneg (tr : Traj K) (skip : ℕ) (grid : Option (List K)) (rmax : K) (tsamples : ℤ)
    (offset : Bool) (pos : List (Frame n d K)) (ts : List K) (vs : List (Option K)) (hn : 0 < n)
    (hskip : 0 < skip) (hlen : pos.length ≤ tr.steps.length) (hdt : tr.timestep ≠ 0)
    (hs : tr.steps.Pairwise (· < ·))
    (h : msdCompute tr skip grid rmax tsamples offset pos = .ok (ts, vs)) :
    ts.length = vs.length ∧
    ∀ p ∈ ts.zip vs, ∃ v, p.2 = some v ∧ 0 ≤ v ∧ (p.1 = 0 → v = 0) := by
  obtain ⟨g, dg, -, h2, -⟩ := msdCompute_ok h
  refine timeCorr_forall (g := fun x y => sqDisp x y / (n : K)) hskip hlen
    (fun a _ b _ => msdKernel_some hn a b) h2
    (P := fun t v => ∃ w, v = some w ∧ 0 ≤ w ∧ (t = 0 → w = 0)) ?_
  intro δ hδ
  refine ⟨_, rfl, mean_nonneg ?_, ?_⟩
  · intro a ha
    obtain ⟨i0, i, ta, tb, xa, xb, -, -, -, -, -, -, rfl⟩ := mem_valuesAt ha
    unfold sqDisp; positivity
  · intro h0
    refine mean_const hδ ?_
    intro a ha
    obtain ⟨i0, i, ta, tb, xa, xb, -, h3, h4, h5, h6, h7, rfl⟩ := mem_valuesAt ha
    have hδ0 : δ = 0 := by
      rcases mul_eq_zero.1 h0 with h | h
      · exact_mod_cast h
      · exact absurd h hdt
    have := lag_zero_same hs h3 h4 (by rw [h7, hδ0])
    rw [this] at h5
    rw [h5] at h6
    cases h6
    simp [sqDisp]

/-- **C23**, translation invariance: adding the same vector to all positions in all frames does not
change the result (including errors). -/
theorem C23_msd_translation (tr : Traj K) (skip : ℕ) (grid : Option (List K)) (rmax : K)
    (tsamples : ℤ) (offset : Bool) (pos : List (Frame n d K)) (u : Fin d → K) :
    msdCompute tr skip grid rmax tsamples offset (pos.map fun x p c => x p c + u c)
      = msdCompute tr skip grid rmax tsamples offset pos := by
  have hk : ∀ a b : Frame n d K, msdKernel (fun p c => a p c + u c) (fun p c => b p c + u c)
      = msdKernel a b := by
    intro a b; simp only [msdKernel, sqDisp, add_sub_add_right_eq_sub]
  have hgrid : msdGrid tr rmax tsamples (pos.map fun x p c => x p c + u c)
      = msdGrid tr rmax tsamples pos := by
    unfold msdGrid
    have hg : ∀ i, pyGet (pos.map fun x p c => x p c + u c) i
        = (pyGet pos i).map fun x p c => x p c + u c := by
      intro i; unfold pyGet; rw [List.getElem?_map]; cases pos[i]? <;> rfl
    rw [List.length_map, hg, hg]
    cases h1 : pyGet pos (pos.length - 1) <;> cases h2 : pyGet pos 0 <;>
      simp only [Except.map, bind, Except.bind, hk]
  unfold msdCompute
  rw [hgrid]
  simp only [timeCorr_map, hk]

/-- Two particles in one dimension, three frames: an instance of the hypotheses of C23. -/
example :
    msdCompute (K := ℚ) (n := 2) (d := 1) ⟨[0, 1, 2], 1 / 2, 1, 1, [2, 2, 2]⟩ 1 (some [0, 1]) (-1) 30
      true [![![0], ![1]], ![![1], ![1]], ![![3], ![0]]]
      = .ok ([0, 1], [some 0, some 5]) ∧
    ([0, 1, 2] : List ℤ).Pairwise (· < ·) := by
  refine ⟨by decide +kernel, by decide⟩

/-! ## C24 -/

/-- **C24.** Uniform motion: if every particle moves with constant velocity, each value is the square
of its time multiplied by the mean square velocity. -/
theorem C24_ballistic (tr : Traj K) (skip : ℕ) (grid : Option (List K)) (rmax : K) (tsamples : ℤ)
    (offset : Bool) (r v : Frame n d K) (ts : List K) (vs : List (Option K)) (hn : 0 < n)
    (hskip : 0 < skip)
    (h : msdCompute tr skip grid rmax tsamples offset
      (tr.steps.map fun (s : ℤ) p c => r p c + v p c * ((s : K) * tr.timestep)) = .ok (ts, vs)) :
    ts.length = vs.length ∧
    ∀ p ∈ ts.zip vs, p.2 = some (p.1 ^ 2 * ((∑ q, ∑ c, v q c ^ 2) / (n : K))) := by
  obtain ⟨g, dg, -, h2, -⟩ := msdCompute_ok h
  refine timeCorr_forall (g := fun x y => sqDisp x y / (n : K)) hskip (by simp)
    (fun a _ b _ => msdKernel_some hn a b) h2
    (P := fun t w => w = some (t ^ 2 * ((∑ q, ∑ c, v q c ^ 2) / (n : K)))) ?_
  intro δ hδ
  congr 1
  refine mean_const hδ ?_
  intro a ha
  obtain ⟨i0, i, ta, tb, xa, xb, -, h3, h4, h5, h6, rfl, rfl⟩ := mem_valuesAt ha
  rw [List.getElem?_map, h3] at h5
  rw [List.getElem?_map, h4] at h6
  cases h5; cases h6
  rw [← mul_div_assoc]
  congr 1
  unfold sqDisp
  rw [Finset.mul_sum]
  refine Finset.sum_congr rfl fun q _ => ?_
  rw [Finset.mul_sum]
  refine Finset.sum_congr rfl fun c _ => ?_
  push_cast; ring

/-- Two particles with velocities 1 and -2, irregular steps in blocks of two. -/
example :
    msdCompute (K := ℚ) (n := 2) (d := 1) ⟨[0, 1, 10, 11], 1 / 2, 2, 11 / 2, [2, 2, 2, 2]⟩ 2
      (some [0, 1, 5]) (-1) 30 true
      (([0, 1, 10, 11] : List ℤ).map fun (s : ℤ) p c =>
        (![![3], ![5]] : Frame 2 1 ℚ) p c + (![![1], ![-2]] : Frame 2 1 ℚ) p c * ((s : ℚ) * (1 / 2)))
      = .ok ([0, 1 / 2, 5], [some 0, some (5 / 8), some (125 / 2)]) := by
  decide +kernel

/-! ## C25 -/

/-- **C25**, zero centre of mass in every analysed frame. -/
theorem C25_zero_cm (mass : Fin n → K) (frames ys : List (Frame n d K))
    (h : setupFixCm mass id frames = some ys) (y : Frame n d K) (hy : y ∈ ys) (c : Fin d) :
    ∑ p, mass p * y p c = 0 := by
  unfold setupFixCm at h
  induction frames generalizing ys with
  | nil => cases h; simp at hy
  | cons x frames ih =>
    rw [List.mapM_cons] at h
    simp only [bind, Option.bind_eq_some_iff, pure, Option.some.injEq] at h
    obtain ⟨a, ha, l, hl, rfl⟩ := h
    rcases List.mem_cons.1 hy with rfl | hy
    · unfold fixCm at ha
      simp only at ha
      split_ifs at ha with hm
      · cases ha
      · simp only [Option.map_some, Option.some.injEq] at ha
        subst ha
        simp only [selectFrame, id]
        have : ∀ p, mass p * (x p c - (∑ p, x p c * mass p) / ∑ p, mass p)
            = x p c * mass p - mass p * ((∑ p, x p c * mass p) / ∑ p, mass p) := by
          intro p; ring
        simp only [this]
        rw [Finset.sum_sub_distrib, ← Finset.sum_mul]
        field_simp
        ring
    · exact ih l hl hy

/-- **C25**, the correction is defined for a non-zero total mass. -/
theorem C25_defined {m : ℕ} (mass : Fin n → K) (sel : Fin m → Fin n) (frames : List (Frame n d K))
    (hm : ∑ p, mass p ≠ 0) :
    ∃ ys, setupFixCm mass sel frames = some ys ∧ ys.length = frames.length := by
  unfold setupFixCm
  induction frames with
  | nil => exact ⟨[], rfl, rfl⟩
  | cons x frames ih =>
    obtain ⟨ys, h1, h2⟩ := ih
    refine ⟨(selectFrame sel fun p c => x p c - (∑ p, x p c * mass p) / ∑ p, mass p) :: ys, ?_,
      by simp [h2]⟩
    · rw [List.mapM_cons, h1]
      unfold fixCm
      simp only [if_neg hm]; rfl

/-- **C25**, the drift is removed: adding an arbitrary vector, different in each frame, to all the
particles does not change the analysed positions of any selection of particles, hence neither the
mean square displacement nor any other function of them. -/
theorem C25_drift_removed {m : ℕ} (mass : Fin n → K) (sel : Fin m → Fin n)
    (frames : List (Frame n d K)) (drift : List (Fin d → K)) (hl : drift.length = frames.length)
    (hm : ∑ p, mass p ≠ 0) :
    setupFixCm mass sel (List.zipWith (fun x u p c => x p c + u c) frames drift)
      = setupFixCm mass sel frames := by
  unfold setupFixCm
  induction frames generalizing drift with
  | nil => simp
  | cons x frames ih =>
    cases drift with
    | nil => simp at hl
    | cons u drift =>
      rw [List.zipWith_cons_cons, List.mapM_cons, List.mapM_cons, ih drift (by simpa using hl)]
      have : fixCm mass (fun p c => x p c + u c) = fixCm mass x := by
        unfold fixCm
        simp only [if_neg hm]
        congr 1
        funext p c
        have : ∑ p, (x p c + u c) * mass p = ∑ p, x p c * mass p + u c * ∑ p, mass p := by
          rw [Finset.mul_sum, ← Finset.sum_add_distrib]
          exact Finset.sum_congr rfl fun p _ => by ring
        rw [this]
        field_simp
        ring
      rw [this]

/-- **C25** for the mean square displacement itself. -/
theorem C25_msd_drift {m : ℕ} (mass : Fin n → K) (sel : Fin m → Fin n)
    (frames : List (Frame n d K)) (drift : List (Fin d → K)) (hl : drift.length = frames.length)
    (hm : ∑ p, mass p ≠ 0) (tr : Traj K) (skip : ℕ) (grid : Option (List K)) (rmax : K)
    (tsamples : ℤ) (offset : Bool) :
    (setupFixCm mass sel (List.zipWith (fun x u p c => x p c + u c) frames drift)).map
        (msdCompute tr skip grid rmax tsamples offset)
      = (setupFixCm mass sel frames).map (msdCompute tr skip grid rmax tsamples offset) := by
  rw [C25_drift_removed mass sel frames drift hl hm]

/-- Two particles of masses 1 and 3, two frames, and the selection of the second particle. -/
example :
    setupFixCm (K := ℚ) (n := 2) (d := 1) ![1, 3] id [![![0], ![4]], ![![7], ![3]]]
      = some [![![-3], ![1]], ![![3], ![-1]]] ∧
    (∑ p, (![1, 3] : Fin 2 → ℚ) p) ≠ 0 ∧
    setupFixCm (K := ℚ) (n := 2) (d := 1) (m := 1) ![1, 3] ![1] [![![0], ![4]], ![![7], ![3]]]
      = some [![![1]], ![![-1]]] := by
  refine ⟨by decide +kernel, by decide +kernel, by decide +kernel⟩

/-! ## C26 -/

/-- Mean square velocity of a frame. -/
def _root_.PP.Spec.meanSquare (x : Frame n d K) : K := (∑ p, ∑ c, x p c ^ 2) / (n : K)

/-- **C26**, the kernel obeys the Cauchy-Schwarz inequality and is symmetric; between a frame and
itself it is the mean square velocity. -/
theorem C26_vacf_kernel (hn : 0 < n) (x y : Frame n d K) :
    ∃ v, vacfKernel x y = .ok (some v) ∧ vacfKernel y x = .ok (some v) ∧
      v ^ 2 ≤ Spec.meanSquare x * Spec.meanSquare y ∧
      vacfKernel x x = .ok (some (Spec.meanSquare x)) ∧ 0 ≤ Spec.meanSquare x := by
  refine ⟨(∑ p, ∑ c, x p c * y p c) / (n : K), ?_, ?_, ?_, ?_, ?_⟩
  · unfold vacfKernel perParticle; rw [if_neg hn.ne']
  · unfold vacfKernel perParticle; rw [if_neg hn.ne']; simp only [mul_comm]
  · unfold Spec.meanSquare
    rw [div_pow, div_mul_div_comm, ← sq]
    gcongr
    simp only [← Finset.sum_product']
    exact Finset.sum_mul_sq_le_sq_mul_sq _ _ _
  · unfold vacfKernel perParticle Spec.meanSquare; rw [if_neg hn.ne']; simp only [sq]
  · unfold Spec.meanSquare; positivity

/-- **C26.** For the whole correlation function: every value is a number; at time zero it is the mean of the
mean square velocity over the frames sampled at separation zero, hence non-negative; and no value
exceeds in modulus the largest mean square velocity. -/
theorem C26_vacf (tr : Traj K) (dg : List (ℕ × ℕ)) (vel : List (Frame n d K)) (ts : List K)
    (vs : List (Option K)) (hn : 0 < n) (hbs : 0 < tr.blockSize)
    (hlen : vel.length ≤ tr.steps.length) (hdt : tr.timestep ≠ 0) (hs : tr.steps.Pairwise (· < ·))
    (h : vacfCompute tr dg vel = .ok (ts, vs)) (M : K) (hM : ∀ x ∈ vel, Spec.meanSquare x ≤ M) :
    ts.length = vs.length ∧
    ∀ p ∈ ts.zip vs, ∃ v, p.2 = some v ∧ |v| ≤ M ∧
      (p.1 = 0 → 0 ≤ v ∧ v = Spec.mean (((Spec.sampled vel.length tr.blockSize dg).filter
        fun q => decide (q.2 = 0)).filterMap fun q => (vel[q.1]?).map Spec.meanSquare)) := by
  have hf : ∀ a ∈ vel, ∀ b ∈ vel, vacfKernel a b
      = .ok (some ((∑ p, ∑ c, a p c * b p c) / (n : K))) := by
    intro a _ b _; unfold vacfKernel perParticle; rw [if_neg hn.ne']
  refine timeCorr_forall (g := fun x y => (∑ p, ∑ c, x p c * y p c) / (n : K)) hbs hlen hf h
    (P := fun t w => ∃ v, w = some v ∧ |v| ≤ M ∧ (t = 0 → 0 ≤ v ∧ v =
      Spec.mean (((Spec.sampled vel.length tr.blockSize dg).filter
        fun q => decide (q.2 = 0)).filterMap fun q => (vel[q.1]?).map Spec.meanSquare))) ?_
  intro δ hδ
  have hsq : ∀ x : Frame n d K, (∑ p, ∑ c, x p c * x p c) / (n : K) = Spec.meanSquare x := by
    intro x; unfold Spec.meanSquare; simp only [sq]
  refine ⟨_, rfl, ?_, ?_⟩
  · have hb : ∀ a ∈ Spec.valuesAt (fun x y : Frame n d K => (∑ p, ∑ c, x p c * y p c) / (n : K))
        tr.blockSize dg tr.steps vel δ, |a| ≤ M := by
      intro a ha
      obtain ⟨i0, i, ta, tb, xa, xb, -, -, -, h5, h6, -, rfl⟩ := mem_valuesAt ha
      obtain ⟨v, hv1, -, hv2, -, hpos⟩ := C26_vacf_kernel hn xa xb
      rw [hf _ (List.mem_of_getElem? h5) _ (List.mem_of_getElem? h6)] at hv1
      simp only [Except.ok.injEq, Option.some.injEq] at hv1
      rw [hv1]
      have h1 := hM xa (List.mem_of_getElem? h5)
      have h2 := hM xb (List.mem_of_getElem? h6)
      have hM0 : 0 ≤ M := hpos.trans h1
      have h3 : (0 : K) ≤ Spec.meanSquare xb := by unfold Spec.meanSquare; positivity
      refine abs_le_of_sq_le_sq ?_ hM0
      calc v ^ 2 ≤ Spec.meanSquare xa * Spec.meanSquare xb := hv2
        _ ≤ M * M := mul_le_mul h1 h2 h3 hM0
        _ = M ^ 2 := by ring
    rw [abs_le]
    exact ⟨le_mean hδ fun a ha => (abs_le.1 (hb a ha)).1, mean_le hδ fun a ha => (abs_le.1 (hb a ha)).2⟩
  · intro h0
    have hδ0 : δ = 0 := by
      rcases mul_eq_zero.1 h0 with h | h
      · exact_mod_cast h
      · exact absurd h hdt
    subst hδ0
    refine ⟨mean_nonneg ?_, ?_⟩
    · intro a ha
      obtain ⟨i0, i, ta, tb, xa, xb, -, h3, h4, h5, h6, h7, rfl⟩ := mem_valuesAt ha
      have := lag_zero_same hs h3 h4 h7
      rw [this, h6] at h5
      cases h5
      rw [hsq]; unfold Spec.meanSquare; positivity
    · congr 1
      unfold Spec.valuesAt Spec.termsAt Spec.terms
      have hb : ∀ q ∈ Spec.sampled vel.length tr.blockSize dg, q.1 + q.2 < vel.length :=
        fun q hq => sampled_lt hq
      generalize Spec.sampled vel.length tr.blockSize dg = S at hb
      induction S with
      | nil => rfl
      | cons q S ih =>
        have ih' := ih fun r hr => hb r (by simp [hr])
        have hq := hb q (by simp)
        have ht := term_isSome (t := tr.steps) (x := vel) (p := q) (lt_of_lt_of_le hq hlen) hq
        rw [List.filterMap_cons, ht]
        by_cases hq0 : q.2 = 0
        · have e1 : tr.steps[q.1 + q.2]'(lt_of_lt_of_le hq hlen) - tr.steps[q.1]'(by omega) = 0 := by
            simp [hq0]
          rw [List.filter_cons_of_pos (by simpa using e1), List.filter_cons_of_pos (by simpa using hq0)]
          have e2 : vel[q.1]? = some vel[q.1] := List.getElem?_eq_getElem (by omega)
          rw [List.filterMap_cons, e2]
          simp only [Option.map_some, List.map_cons]
          rw [ih']
          congr 1
          have e3 : vel[q.1 + q.2]'hq = vel[q.1]'(by omega) := by simp [hq0]
          rw [e3]
          exact hsq _
        · have e1 : tr.steps[q.1 + q.2]'(lt_of_lt_of_le hq hlen) - tr.steps[q.1]'(by omega) ≠ 0 := by
            intro h
            have := lag_zero_same hs (List.getElem?_eq_getElem (lt_of_lt_of_le hq hlen))
              (List.getElem?_eq_getElem (show q.1 < tr.steps.length by omega)) h
            omega
          rw [List.filter_cons_of_neg (by simpa using e1), List.filter_cons_of_neg (by simpa using hq0)]
          exact ih'

/-- Two particles in one dimension with velocities that change sign. -/
example :
    vacfCompute (K := ℚ) (n := 2) (d := 1) ⟨[0, 1, 2], 1, 1, 2, [2, 2, 2]⟩ [(0, 0), (0, 1)]
      [![![1], ![2]], ![![-1], ![1]], ![![0], ![2]]]
      = .ok ([0, 1], [some (11 / 6), some (3 / 4)]) ∧
    ∀ x ∈ ([![![1], ![2]], ![![-1], ![1]], ![![0], ![2]]] : List (Frame 2 1 ℚ)),
      Spec.meanSquare x ≤ 5 / 2 := by
  refine ⟨by decide +kernel, by decide +kernel⟩

/-! ## C27 -/

/-- **C27 is false** for the code: with `tgrid=None` the constructor raises on every trajectory,
whatever `norigins`. -/
theorem C27_counterexample (tr : Traj K) (tsamples : ℤ) (norigins : NOrigins) (offset : Bool) :
    ∃ e, vacfInit tr none tsamples norigins offset = .error e := by
  unfold vacfInit
  cases adjustSkip tr.steps.length tr.blockSize tr.npart norigins with
  | error e => exact ⟨e, rfl⟩
  | ok s =>
    obtain ⟨d, hd, -⟩ := offSamp_inv tr.steps (if offset then List.range tr.blockSize else [0])
    simp only [bind, Except.bind]
    rw [hd]
    exact ⟨.typeError, rfl⟩

/-- **C27**, with the default `norigins` as well the exception is a `TypeError`. -/
theorem C27_counterexample_default (tr : Traj K) (tsamples : ℤ) (offset : Bool)
    (hbs : 0 < tr.blockSize) (hnp : tr.npart ≠ []) :
    vacfInit tr none tsamples .none offset = .error .typeError := by
  unfold vacfInit
  have : ∃ s, adjustSkip tr.steps.length tr.blockSize tr.npart .none = .ok s := by
    unfold adjustSkip rawSkip
    obtain ⟨a, l, h⟩ := List.exists_cons_of_ne_nil hnp
    rw [h]
    by_cases h1 : tr.blockSize = 1
    · simp [h1, pyGet, bind, Except.bind, pure, Except.pure]
    · simp [h1, hbs.ne', bind, Except.bind, pure, Except.pure]
  obtain ⟨s, hs⟩ := this
  rw [hs]
  obtain ⟨d, hd, -⟩ := offSamp_inv tr.steps (if offset then List.range tr.blockSize else [0])
  simp only [bind, Except.bind]
  rw [hd]
  rfl

/-- **C27, partial.** With an explicit time grid the constructor succeeds whenever the stride can be
computed. Missing: the default grid. -/
theorem C27_vacf_init_partial (tr : Traj K) (g : List K) (tsamples : ℤ) (norigins : NOrigins) (s : ℤ)
    (hs : tr.steps ≠ []) (hbs : 0 < tr.blockSize) (hdt : tr.timestep ≠ 0)
    (hn : adjustSkip tr.steps.length tr.blockSize tr.npart norigins = .ok s) :
    ∃ dg, vacfInit tr (some g) tsamples norigins true = .ok (g, dg) := by
  obtain ⟨dg, h, -⟩ := C19_t_grid_partial tr.steps tr.blockSize tr.timestep g hs hbs hdt
  refine ⟨dg, ?_⟩
  unfold vacfInit
  rw [hn]
  simp only [bind, Except.bind]
  rw [h]
  rfl

example : vacfInit (K := ℚ) ⟨[0, 1, 2], 1, 1, 2, [2, 2, 2]⟩ none 30 .none true = .error .typeError ∧
    vacfInit (K := ℚ) ⟨[0, 1, 2], 1, 1, 2, [2, 2, 2]⟩ (some [0, 1]) 30 .none true
      = .ok ([0, 1], [(0, 0), (0, 1)]) := by
  constructor <;> decide +kernel

end PP.Props
