import Verif.Model.Analysis
import Verif.Lemmas.TimeCorr
import Verif.Lemmas.Expo
import Verif.Props.Chi4
import Verif.Props.GrLimits
import Mathlib.Algebra.BigOperators.Field
import Mathlib.Tactic.Positivity
import Mathlib.Data.Fin.VecNotation

/-!
# C95-C97: stress autocorrelation, number of time origins, optimized chi4
-/

set_option linter.unusedSectionVars false

namespace PP.Spec

variable {K : Type} [Field K]

/-- Component `(j, k)` of the stress of a frame: interactions and kinetic part, particle by particle. -/
def stress (mass : List K) (s : Fin 3 → Fin 3 → K) (vel : List (Fin 3 → K)) (j k : Fin 3) : K :=
  s j k + (List.zipWith (fun m v => m * (v j * v k)) mass vel).sum

/-- The three off-diagonal components. -/
def shear (mass : List K) (f : (Fin 3 → Fin 3 → K) × List (Fin 3 → K)) : Fin 3 → K :=
  ![stress mass f.1 f.2 0 1, stress mass f.1 f.2 0 2, stress mass f.1 f.2 1 2]

end PP.Spec

namespace PP.Props
open PP

variable {K : Type} [Field K] [LinearOrder K] [IsStrictOrderedRing K] [FloorRing K] {n d : ℕ}

/-! ## C95 -/

theorem zipWith_same {α β : Type} (f : α → α → β) (l : List α) : List.zipWith f l l = l.map fun a => f a a := by
  induction l with
  | nil => rfl
  | cons v l ih => rw [List.zipWith_cons_cons, ih, List.map_cons]

theorem stressComponent_ok (mass : List K) (s : Fin 3 → Fin 3 → K) (vel : List (Fin 3 → K)) (j k : Fin 3)
    (hv : vel ≠ []) (hm : mass.length = vel.length) :
    stressComponent mass s vel j k = .ok (Spec.stress mass s vel j k) := by
  unfold stressComponent
  rw [dif_pos ⟨j.2, k.2⟩, if_neg hv]
  unfold kineticSum
  simp only [List.zipWith_map, List.length_zipWith, min_self]
  rw [if_pos hm]
  simp only [bind, Except.bind, pure, Except.pure, Except.ok.injEq]
  unfold Spec.stress
  rw [zipWith_same, List.zipWith_map_right]

theorem stressFrame_ok (mass : List K) (f : (Fin 3 → Fin 3 → K) × List (Fin 3 → K))
    (hm : mass ≠ []) (hf : f.2.length = mass.length) : stressFrame mass f = .ok (Spec.shear mass f) := by
  have hv : f.2 ≠ [] := by
    intro h; rw [h] at hf; exact hm (List.length_eq_zero_iff.1 hf.symm)
  unfold stressFrame
  have h := fun j k => stressComponent_ok mass f.1 f.2 j k hv hf.symm
  have h01 := h 0 1
  have h02 := h 0 2
  have h12 := h 1 2
  simp only [Fin.val_zero, Fin.val_one, Fin.val_two] at h01 h02 h12
  rw [h01, h02, h12]
  rfl

theorem mean_div (l : List K) (c : K) : Spec.mean (l.map fun x => x / c) = Spec.mean l / c := by
  unfold Spec.mean
  have : (l.map fun x => x / c).sum = l.sum / c := by
    simp only [div_eq_mul_inv]
    rw [List.sum_map_mul_right, List.map_id']
  rw [this, List.length_map]
  ring

/-- **C95.** In three dimensions and without filters, the stress autocorrelation at each sampled lag is the mean over
the pairs of frames at that lag of the sum of the products of the three off-diagonal components of the stress, divided
by three times the volume. -/
theorem C95_value_partial (tr : Traj K) (dg : List (ℕ × ℕ)) (vol : K) (mass : List K)
    (frames : List ((Fin 3 → Fin 3 → K) × List (Fin 3 → K))) (hbs : 0 < tr.blockSize)
    (hlen : frames.length ≤ tr.steps.length) (hm : mass ≠ []) (hN : ∀ f ∈ frames, f.2.length = mass.length) :
    ∃ lags : List ℤ, lags.Pairwise (· < ·) ∧
      (∀ δ, δ ∈ lags ↔ ∃ e ∈ Spec.terms tr.steps frames (Spec.sampled frames.length tr.blockSize dg), e.1 = δ) ∧
      sacfCompute tr dg vol mass frames = .ok (lags.map fun δ : ℤ => (δ : K) * tr.timestep, lags.map fun δ =>
        some (Spec.mean (Spec.valuesAt (fun a b => (∑ m, Spec.shear mass a m * Spec.shear mass b m) / (3 * vol))
          tr.blockSize dg tr.steps frames δ))) := by
  obtain ⟨lags, h1, h2, h3⟩ := timeCorr_mean (tr := tr) (dg := dg) (skip := tr.blockSize) (x := frames)
    (f := fun a b => sacfKernel (Spec.shear mass a) (Spec.shear mass b))
    (g := fun a b => (∑ m, Spec.shear mass a m * Spec.shear mass b m) / 3) hbs hlen (fun a _ b _ => rfl)
  refine ⟨lags, h1, h2, ?_⟩
  unfold sacfCompute
  rw [mapM_ok_map fun f hf => stressFrame_ok mass f hm (hN f hf)]
  simp only [bind, Except.bind]
  rw [timeCorr_map, h3]
  simp only [pure, Except.pure, Except.ok.injEq, Prod.mk.injEq, true_and, List.map_map]
  apply List.map_congr_left
  intro δ _
  simp only [Function.comp_apply, Option.map_some, Option.some.injEq]
  rw [← mean_div]
  unfold Spec.valuesAt
  rw [List.map_map]
  congr 1
  apply List.map_congr_left
  intro p _
  simp only [Function.comp_apply]
  rw [div_div]

/-- **C95**: at time zero the stress autocorrelation is not negative, and at no time it exceeds in modulus the largest
value of the mean square stress (per volume) in the frames. -/
theorem C95_bounds_partial (tr : Traj K) (dg : List (ℕ × ℕ)) (vol : K) (mass : List K)
    (frames : List ((Fin 3 → Fin 3 → K) × List (Fin 3 → K))) (ts : List K) (vs : List (Option K))
    (hbs : 0 < tr.blockSize) (hlen : frames.length ≤ tr.steps.length) (hm : mass ≠ [])
    (hN : ∀ f ∈ frames, f.2.length = mass.length) (hvol : 0 < vol) (hdt : tr.timestep ≠ 0)
    (hs : tr.steps.Pairwise (· < ·)) (M : K)
    (hM : ∀ f ∈ frames, (∑ m, Spec.shear mass f m ^ 2) / (3 * vol) ≤ M)
    (h : sacfCompute tr dg vol mass frames = .ok (ts, vs)) :
    ts.length = vs.length ∧ ∀ p ∈ ts.zip vs, ∃ v, p.2 = some v ∧ |v| ≤ M ∧ (p.1 = 0 → 0 ≤ v) := by
  obtain ⟨lags, -, h2, h3⟩ := C95_value_partial tr dg vol mass frames hbs hlen hm hN
  rw [h] at h3
  simp only [Except.ok.injEq, Prod.mk.injEq] at h3
  obtain ⟨rfl, rfl⟩ := h3
  refine ⟨by simp, ?_⟩
  intro p hp
  rw [List.zip_map'] at hp
  obtain ⟨δ, hδ, rfl⟩ := List.mem_map.1 hp
  have hpos := valuesAt_length (g := fun a b => (∑ m, Spec.shear mass a m * Spec.shear mass b m) / (3 * vol))
    ((h2 δ).1 hδ)
  have h3v : 0 < 3 * vol := by positivity
  refine ⟨_, rfl, ?_, ?_⟩
  · have hb : ∀ a ∈ Spec.valuesAt (fun a b => (∑ m, Spec.shear mass a m * Spec.shear mass b m) / (3 * vol))
        tr.blockSize dg tr.steps frames δ, |a| ≤ M := by
      intro a ha
      obtain ⟨i0, i, ta, tb, xa, xb, -, -, -, h5, h6, -, rfl⟩ := mem_valuesAt ha
      have ha' := hM xa (List.mem_of_getElem? h5)
      have hb' := hM xb (List.mem_of_getElem? h6)
      rw [div_le_iff₀ h3v] at ha' hb'
      rw [abs_div, abs_of_pos h3v, div_le_iff₀ h3v]
      have key : |∑ m, Spec.shear mass xa m * Spec.shear mass xb m| ≤
          (∑ m, Spec.shear mass xa m ^ 2 + ∑ m, Spec.shear mass xb m ^ 2) / 2 := by
        rw [← Finset.sum_add_distrib, Finset.sum_div]
        refine (Finset.abs_sum_le_sum_abs _ _).trans (Finset.sum_le_sum fun m _ => ?_)
        rw [abs_le]
        constructor <;> nlinarith [sq_nonneg (Spec.shear mass xa m + Spec.shear mass xb m),
          sq_nonneg (Spec.shear mass xa m - Spec.shear mass xb m)]
      linarith
    rw [abs_le]
    exact ⟨le_mean hpos fun a ha => (abs_le.1 (hb a ha)).1, mean_le hpos fun a ha => (abs_le.1 (hb a ha)).2⟩
  · intro h0
    apply mean_nonneg
    intro a ha
    obtain ⟨i0, i, ta, tb, xa, xb, -, h3, h4, h5, h6, h7, rfl⟩ := mem_valuesAt ha
    have hδ0 : δ = 0 := by
      rcases mul_eq_zero.1 h0 with h | h
      · exact_mod_cast h
      · exact absurd h hdt
    have := lag_zero_same hs h3 h4 (by rw [h7, hδ0])
    rw [this] at h5
    rw [h5] at h6
    cases h6
    exact div_nonneg (Finset.sum_nonneg fun m _ => mul_self_nonneg _) h3v.le

/-- **C95** is false with fewer than three dimensions: the calculation raises `IndexError` for every trajectory. -/
theorem C95_counterexample_dimensions (hd : d < 3) (tr : Traj K) (dg : List (ℕ × ℕ)) (vol : K) (mass : List K)
    (f : (Fin d → Fin d → K) × List (Fin d → K)) (frames : List ((Fin d → Fin d → K) × List (Fin d → K)))
    (hf : f.2.length = mass.length) : sacfCompute tr dg vol mass (f :: frames) = .error .indexError := by
  have key : stressFrame mass f = .error .indexError := by
    unfold stressFrame
    by_cases h2 : d = 2
    · subst h2
      have h02 : stressComponent mass f.1 f.2 0 2 = .error .indexError := by
        unfold stressComponent; rw [dif_neg (by omega)]
      by_cases hv : f.2 = []
      · have : stressComponent mass f.1 f.2 0 1 = .error .indexError := by
          unfold stressComponent; rw [dif_pos (by omega), if_pos hv]
        rw [this]; rfl
      · have : ∃ x, stressComponent mass f.1 f.2 0 1 = .ok x := by
          unfold stressComponent; rw [dif_pos (by omega), if_neg hv]
          unfold kineticSum
          simp only [List.length_zipWith, List.length_map, min_self, hf, if_true]
          exact ⟨_, rfl⟩
        obtain ⟨x, hx⟩ := this
        rw [hx, h02]; rfl
    · have : stressComponent mass f.1 f.2 0 1 = .error .indexError := by
        unfold stressComponent; rw [dif_neg (by omega)]
      rw [this]; rfl
  unfold sacfCompute
  rw [List.mapM_cons, key]
  rfl

/-- **C95** is false with filters: if two or more particles but not all of them are selected in a frame, the calculation
raises `ValueError`, because the masses are those of all particles. -/
theorem C95_counterexample_filter (tr : Traj K) (dg : List (ℕ × ℕ)) (vol : K) (mass : List K)
    (f : (Fin 3 → Fin 3 → K) × List (Fin 3 → K)) (frames : List ((Fin 3 → Fin 3 → K) × List (Fin 3 → K)))
    (hf : 2 ≤ f.2.length) (hlt : f.2.length < mass.length) :
    sacfCompute tr dg vol mass (f :: frames) = .error .valueError := by
  have hk : ∀ v w : List K, v.length = w.length → 2 ≤ v.length → v.length < mass.length →
      kineticSum mass v w = .error .valueError := by
    intro v w hvw h2 hl
    unfold kineticSum
    have hz : (List.zipWith (· * ·) v w).length = v.length := by rw [List.length_zipWith, hvw, min_self]
    simp only [hz]
    rw [if_neg (by omega)]
    match mass, hl with
    | [], hl => simp at hl
    | [m], hl => simp only [List.length_singleton] at hl; omega
    | m :: m' :: l, _ =>
      match h : List.zipWith (· * ·) v w with
      | [] => rfl
      | [x] => rw [h] at hz; simp only [List.length_singleton] at hz; omega
      | x :: y :: l => rfl
  have key : stressFrame mass f = .error .valueError := by
    have hv : f.2 ≠ [] := by intro h; rw [h] at hf; simp at hf
    unfold stressFrame
    have : stressComponent mass f.1 f.2 0 1 = .error .valueError := by
      unfold stressComponent
      rw [dif_pos (by omega), if_neg hv, hk _ _ (by simp) (by simpa using hf) (by simpa using hlt)]
      rfl
    rw [this]; rfl
  unfold sacfCompute
  rw [List.mapM_cons, key]
  rfl

/-- **C95** is false with filters: if a single particle is selected, the kinetic part of its stress is calculated with
the total mass of the system. -/
theorem C95_counterexample_single (mass : List K) (s : Fin 3 → Fin 3 → K) (v : Fin 3 → K) (j k : Fin 3)
    (hm : 2 ≤ mass.length) : stressComponent mass s [v] j k = .ok (s j k + mass.sum * (v j * v k)) := by
  unfold stressComponent
  rw [dif_pos ⟨j.2, k.2⟩, if_neg (by simp)]
  unfold kineticSum
  simp only [List.map_cons, List.map_nil, List.zipWith_cons_cons, List.zipWith_nil_left, List.length_singleton]
  rw [if_neg (by omega)]
  match mass, hm with
  | m :: m' :: l, _ =>
    simp only [bind, Except.bind, pure, Except.pure]
    congr 2
    rw [List.sum_map_mul_right, List.map_id']

/-- **C95** is false if the number of particles changes and the first frame has a single one: its mass is used for all the
particles of the other frames. -/
theorem C95_counterexample_one_mass (m : K) (s : Fin 3 → Fin 3 → K) (vel : List (Fin 3 → K)) (j k : Fin 3)
    (hv : vel ≠ []) : stressComponent [m] s vel j k = .ok (s j k + m * (vel.map fun v => v j * v k).sum) := by
  unfold stressComponent
  rw [dif_pos ⟨j.2, k.2⟩, if_neg hv]
  unfold kineticSum
  simp only [List.zipWith_map, List.length_zipWith, min_self, zipWith_same]
  match vel, hv with
  | [v], _ => simp [bind, Except.bind, pure, Except.pure]
  | v :: w :: l, _ =>
    rw [if_neg (by simp)]
    simp only [bind, Except.bind, pure, Except.pure]
    rw [List.sum_map_mul_left, List.map_id']

/-- One particle of mass 2 in the first frame, two in the second. -/
example : stressComponent (K := ℚ) [2] (fun _ _ => 1) [![1, 1, 0], ![2, 3, 1]] 0 1 = .ok 15 := by decide +kernel

/-- Two particles, two frames; with one particle selected in place of two the value changes. -/
example : sacfCompute (K := ℚ) ⟨[0, 1], 1, 1, 1, [2, 2]⟩ [(0, 0), (0, 1)] 2 [1, 2]
      [(fun _ _ => 1, [![1, 1, 0], ![0, 1, 1]]), (fun _ _ => 0, [![1, 0, 2], ![0, 0, 1]])]
      = .ok ([0, 1], [some (3 / 2), some (1 / 3)]) ∧
    sacfCompute (K := ℚ) (d := 3) ⟨[0, 1], 1, 1, 1, [2, 2]⟩ [(0, 0), (0, 1)] 2 [1, 2, 1]
      [(fun _ _ => 1, [![1, 1, 0], ![0, 1, 1]]), (fun _ _ => 0, [![1, 0, 2], ![0, 0, 1]])]
      = .error .valueError := by constructor <;> decide +kernel

/-! ## C96 -/

/-- **C96** is false for the velocity autocorrelation: the number of time origins requested has no effect on the
result (as long as it is accepted and is not the string `'1'`). -/
theorem C96_counterexample_vacf (tr : Traj K) (tgrid : Option (List K)) (tsamples : ℤ) (n1 n2 : NOrigins) (s1 s2 : ℤ)
    (h1 : adjustSkip tr.steps.length tr.blockSize tr.npart n1 = .ok s1)
    (h2 : adjustSkip tr.steps.length tr.blockSize tr.npart n2 = .ok s2) (ho : n1.offset = n2.offset)
    (vel : List (Frame n d K)) : vacfRun tr tgrid tsamples n1 vel = vacfRun tr tgrid tsamples n2 vel := by
  unfold vacfRun vacfInit
  rw [h1, h2, ho]
  rfl

/-- **C96** is false for the stress autocorrelation as well. -/
theorem C96_counterexample_sacf (tr : Traj K) (tgrid : List K) (n1 n2 : NOrigins) (s1 s2 : ℤ)
    (h1 : adjustSkip tr.steps.length tr.blockSize tr.npart n1 = .ok s1)
    (h2 : adjustSkip tr.steps.length tr.blockSize tr.npart n2 = .ok s2) (ho : n1.offset = n2.offset) (vol : K)
    (mass : List K) (frames : List ((Fin d → Fin d → K) × List (Fin d → K))) :
    sacfRun tr tgrid n1 vol mass frames = sacfRun tr tgrid n2 vol mass frames := by
  unfold sacfRun
  rw [h1, h2, ho]
  rfl

/-- **C96**, what holds: the self overlap averages over the time origins separated by the stride which corresponds to
`norigins`, and over no others. -/
theorem C96_self_overlap_partial (tr : Traj K) (tgrid : List K) (norigins : NOrigins) (a : K)
    (pos : List (Frame n d K)) (hn : 0 < n) (hlen : pos.length ≤ tr.steps.length) (skip : ℕ) (hskip : 0 < skip)
    (hs : adjustSkip tr.steps.length tr.blockSize tr.npart norigins = .ok skip) (dg : List (ℕ × ℕ))
    (hdg : setupTGrid tr.steps tr.blockSize tr.timestep tgrid norigins.offset = .ok dg) :
    ∃ lags : List ℤ, (∀ δ, δ ∈ lags ↔ ∃ e ∈ Spec.terms tr.steps pos (Spec.sampled pos.length skip dg), e.1 = δ) ∧
      qstRun tr tgrid norigins a pos = .ok (lags.map fun δ : ℤ => (δ : K) * tr.timestep, lags.map fun δ =>
        some (Spec.mean (Spec.valuesAt (fun x y => (((List.finRange n).filter fun j =>
          decide (∑ c, (x j c - y j c) ^ 2 < a ^ 2)).length : K) / n) skip dg tr.steps pos δ))) := by
  obtain ⟨lags, -, h2, h3⟩ := timeCorr_mean (tr := tr) (dg := dg) (skip := skip) (x := pos)
    (f := fun x y => .ok (perParticle n (selfOverlap x y (a ^ 2) : K)))
    (g := fun x y => (((List.finRange n).filter fun j => decide (∑ c, (x j c - y j c) ^ 2 < a ^ 2)).length : K) / n)
    hskip hlen (by
      intro x _ y _
      unfold perParticle selfOverlap
      rw [if_neg hn.ne', List.countP_map, List.countP_eq_length_filter]
      rfl)
  refine ⟨lags, h2, ?_⟩
  unfold qstRun
  rw [hs, hdg]
  simp only [bind, Except.bind, Int.toNat_natCast]
  exact h3

/-- One particle, four frames: with one time origin in place of all of them the self overlap changes, the velocity
autocorrelation does not. -/
example : qstRun (K := ℚ) (n := 1) (d := 1) ⟨[0, 1, 2, 3], 1, 1, 3, [1, 1, 1, 1]⟩ [0, 1] (.num 4) 1
      [![![0]], ![![0]], ![![2]], ![![4]]] = .ok ([0, 1], [some 1, some (1 / 3)]) ∧
    qstRun (K := ℚ) (n := 1) (d := 1) ⟨[0, 1, 2, 3], 1, 1, 3, [1, 1, 1, 1]⟩ [0, 1] (.num 1) 1
      [![![0]], ![![0]], ![![2]], ![![4]]] = .ok ([0, 1], [some 1, some 1]) ∧
    vacfRun (K := ℚ) (n := 1) (d := 1) ⟨[0, 1, 2, 3], 1, 1, 3, [1, 1, 1, 1]⟩ (some [0, 1]) 30 (.num 1)
      [![![0]], ![![0]], ![![2]], ![![4]]] = .ok ([0, 1], [some 5, some (8 / 3)]) ∧
    adjustSkip 4 1 [1, 1, 1, 1] (.num 1) = .ok 4 ∧ adjustSkip 4 1 [1, 1, 1, 1] (.num 4) = .ok 1 := by
  refine ⟨?_, ?_, ?_, ?_, ?_⟩ <;> decide +kernel

/-! ## C97 -/

theorem selfOverlapF90_eq (r0 r1 : Frame n d K) (a : K) : selfOverlapF90 r0 r1 a = selfOverlap r0 r1 a := by
  unfold selfOverlapF90 selfOverlap
  rw [List.countP_map, List.countP_eq_length_filter]
  rfl

theorem chi4OptOuter_eq (tr : Traj K) {skip : ℕ} (a : K) (s : Chi4State n d K) (g : ℕ × ℕ) (hskip : 0 < skip)
    (hpos : 0 < s.pos.length) (hg : g.1 + g.2 < tr.steps.length) :
    chi4OptOuter tr skip (a ^ 2) s g = if Spec.chi4Origins s.pos.length skip g = [] then .error .zeroDivisionError
      else chi4Outer tr skip (a ^ 2) s g := by
  have hin : chi4OptInner s.pos (a ^ 2) g.2 = chi4Inner s.pos (a ^ 2) g.2 := by
    funext acc i0
    unfold chi4OptInner chi4Inner
    simp only [selfOverlapF90_eq]
  have e0 : pyRange g.1 (s.pos.length - g.2 - skip) skip = .ok (Spec.chi4Origins s.pos.length skip g) := by
    unfold pyRange; rw [if_neg hskip.ne', chi4_range hskip]
  have hmem : ∀ i0 ∈ Spec.chi4Origins s.pos.length skip g, i0 + g.2 < s.pos.length :=
    fun i0 h => by have := mem_chi4Origins h; omega
  have e1 := chi4Inner_fold s.pos a g.2 (Spec.chi4Origins s.pos.length skip g) hmem (0, 0, 0)
  have hl : (Spec.overlaps a s.pos g.2 (Spec.chi4Origins s.pos.length skip g)).length =
      (Spec.chi4Origins s.pos.length skip g).length := by
    have : ∀ l : List ℕ, (∀ i0 ∈ l, i0 + g.2 < s.pos.length) → (Spec.overlaps a s.pos g.2 l).length = l.length := by
      intro l
      induction l with
      | nil => intro _; rfl
      | cons i0 l ih =>
        intro h
        have h1 := h i0 (by simp)
        have := ih fun i hi => h i (by simp [hi])
        unfold Spec.overlaps at this ⊢
        rw [List.filterMap_cons]
        simp only [List.getElem?_eq_getElem h1, List.getElem?_eq_getElem (show i0 < s.pos.length by omega), bind,
          Option.bind_some, List.length_cons]
        exact congrArg (· + 1) this
    exact this _ hmem
  have e2 : pyGet tr.steps (g.1 + g.2) = .ok tr.steps[g.1 + g.2] := by
    unfold pyGet; rw [List.getElem?_eq_getElem hg]
  have e3 : pyGet tr.steps g.1 = .ok (tr.steps[g.1]'(by omega)) := by
    unfold pyGet; rw [List.getElem?_eq_getElem]
  unfold chi4OptOuter chi4Outer
  rw [hin, e0, e2, e3]
  simp only [bind, Except.bind]
  rw [e1]
  simp only [zero_add]
  rw [hl]
  by_cases he : Spec.chi4Origins s.pos.length skip g = []
  · rw [if_pos he, he]
    simp [pyDiv]
  · have hc : 0 < (Spec.chi4Origins s.pos.length skip g).length := List.length_pos_iff.2 he
    have hc' : ((Spec.chi4Origins s.pos.length skip g).length : K) ≠ 0 := by exact_mod_cast hc.ne'
    rw [if_neg he]
    simp only [pyDiv, if_neg hc', gt_iff_lt, if_pos hc]

theorem chi4Opt_fold (tr : Traj K) {skip : ℕ} (a : K) (dg : List (ℕ × ℕ)) (s : Chi4State n d K) (hskip : 0 < skip)
    (hpos : 0 < s.pos.length) (hg : ∀ g ∈ dg, g.1 + g.2 < tr.steps.length) :
    dg.foldlM (chi4OptOuter tr skip (a ^ 2)) s =
      if ∃ g ∈ dg, Spec.chi4Origins s.pos.length skip g = [] then .error .zeroDivisionError
      else dg.foldlM (chi4Outer tr skip (a ^ 2)) s := by
  induction dg generalizing s with
  | nil => simp
  | cons g dg ih =>
    rw [List.foldlM_cons, List.foldlM_cons, chi4OptOuter_eq tr a s g hskip hpos (hg g (by simp))]
    by_cases he : Spec.chi4Origins s.pos.length skip g = []
    · rw [if_pos he, if_pos ⟨g, by simp, he⟩]; rfl
    · rw [if_neg he, chi4Outer_ok tr a s g hskip hpos (hg g (by simp))]
      simp only [bind, Except.bind]
      rw [ih]
      rotate_left
      · exact hpos
      · exact fun g' h => hg g' (by simp [h])
      simp only [List.mem_cons, exists_eq_or_imp, he, false_or]

/-- **C97.** If there is at least one time origin for each entry of the time grid, the optimized version gives the same
results as the plain one. -/
theorem C97_same_partial (tr : Traj K) (frames : List (Frame n d K)) {skip : ℕ} (a : K) (dg : List (ℕ × ℕ))
    (s : Chi4State n d K) (hskip : 0 < skip) (hfr : 0 < frames.length) (hg : ∀ g ∈ dg, g.1 + g.2 < tr.steps.length)
    (ho : ∀ g ∈ dg, g.1 + g.2 + skip < (s.pos ++ frames).length) :
    chi4OptComputeFull tr frames skip a dg s = chi4ComputeFull tr frames skip a dg s := by
  have hl : 0 < (s.pos ++ frames).length := by rw [List.length_append]; omega
  unfold chi4OptComputeFull chi4ComputeFull chi4Compute
  rw [chi4Opt_fold tr a dg _ hskip hl hg, if_neg]
  · have : pyGet (s.pos ++ frames) 0 = .ok ((s.pos ++ frames)[0]'hl) := by
      unfold pyGet; rw [List.getElem?_eq_getElem hl]
    simp only [this, bind, Except.bind]
  · rintro ⟨g, hgd, he⟩
    have h1 := ho g hgd
    have : g.1 ∈ Spec.chi4Origins (s.pos ++ frames).length skip g := by
      unfold Spec.chi4Origins
      simp only [List.mem_filter, List.mem_range, decide_eq_true_eq]
      refine ⟨by omega, le_rfl, by simp, by omega⟩
    rw [he] at this
    simp at this

/-- **C97** is false otherwise: where the plain version gives a value, the optimized one raises `ZeroDivisionError`. -/
theorem C97_counterexample (tr : Traj K) (frames : List (Frame n d K)) {skip : ℕ} (a : K) (dg : List (ℕ × ℕ))
    (s : Chi4State n d K) (hskip : 0 < skip) (hfr : 0 < frames.length) (hg : ∀ g ∈ dg, g.1 + g.2 < tr.steps.length)
    (g : ℕ × ℕ) (hgd : g ∈ dg) (ho : (s.pos ++ frames).length ≤ g.1 + g.2 + skip) :
    chi4OptComputeFull tr frames skip a dg s = .error .zeroDivisionError ∧
    ∃ r, chi4ComputeFull tr frames skip a dg s = .ok r := by
  have hl : 0 < (s.pos ++ frames).length := by rw [List.length_append]; omega
  refine ⟨?_, ?_⟩
  · unfold chi4OptComputeFull
    rw [chi4Opt_fold tr a dg _ hskip hl hg, if_pos]
    refine ⟨g, hgd, ?_⟩
    rw [List.eq_nil_iff_forall_not_mem]
    intro i hi
    have h1 := mem_chi4Origins hi
    unfold Spec.chi4Origins at hi
    simp only [List.mem_filter, List.mem_range, decide_eq_true_eq] at hi
    have h2 := hi.2.1
    simp only at h1
    omega
  · obtain ⟨ts, h, -⟩ := chi4ComputeFull_ok tr frames a dg s hskip hfr hg
    exact ⟨_, h⟩

/-- **C97**, consequence: with a single time origin (the stride is the number of frames) the optimized version raises
for every trajectory and time grid. -/
theorem C97_counterexample_single_origin (tr : Traj K) (frames : List (Frame n d K)) (a : K) (g : ℕ × ℕ)
    (dg : List (ℕ × ℕ)) (grid : List K) (hfr : 0 < frames.length)
    (hg : ∀ g' ∈ g :: dg, g'.1 + g'.2 < tr.steps.length) :
    chi4OptComputeFull tr frames frames.length a (g :: dg) (Chi4State.init grid) = .error .zeroDivisionError :=
  (C97_counterexample tr frames a (g :: dg) (Chi4State.init grid) hfr hfr hg g (by simp)
    (by simp [Chi4State.init])).1

/-- One particle and five frames. -/
example : chi4OptComputeFull (K := ℚ) (n := 1) (d := 1) ⟨[0, 1, 2, 3, 4], 1, 1, 4, [1]⟩
      [![![0]], ![![0]], ![![2]], ![![2]], ![![4]]] 1 1 [(0, 1)] (Chi4State.init []) =
    chi4ComputeFull (K := ℚ) (n := 1) (d := 1) ⟨[0, 1, 2, 3, 4], 1, 1, 4, [1]⟩
      [![![0]], ![![0]], ![![2]], ![![2]], ![![4]]] 1 1 [(0, 1)] (Chi4State.init []) ∧
    (∀ g ∈ [((0 : ℕ), 1)], g.1 + g.2 + 1 < 5) :=
  ⟨C97_same_partial _ _ _ _ _ (by simp) (by simp) (by simp) (by simp [Chi4State.init]), by simp⟩

end PP.Props
