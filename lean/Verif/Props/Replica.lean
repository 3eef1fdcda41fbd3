import Verif.Props.Chi4Sym

/-!
# C200: copies of a system
-/

set_option linter.unusedSectionVars false

namespace PP.Spec

/-- `k` copies of the system `x`, the copy `a` displaced by `t a`; `e` numbers the particles. -/
def copies {K : Type} [Add K] {k n N d : ℕ} (e : Fin k × Fin n ≃ Fin N) (t : Fin k → Fin d → K) (x : Fin n → Fin d → K) :
    Fin N → Fin d → K := fun p c => x (e.symm p).2 c + t (e.symm p).1 c

end PP.Spec

namespace PP.Props
open PP

variable {K : Type} [Field K] [LinearOrder K] [IsStrictOrderedRing K] [FloorRing K] {k n N d : ℕ}

theorem copies_card (e : Fin k × Fin n ≃ Fin N) : N = k * n := by
  have := Fintype.card_congr e
  simpa using this.symm

theorem sum_copies {M : Type} [Semiring M] (e : Fin k × Fin n ≃ Fin N) (F : Fin n → M) :
    ∑ p, F (e.symm p).2 = k * ∑ q, F q := by
  rw [Equiv.sum_comp e.symm (fun a : Fin k × Fin n => F a.2), Fintype.sum_prod_type]
  simp

theorem perParticle_copies (e : Fin k × Fin n ≃ Fin N) (hk : k ≠ 0) (s : K) :
    perParticle N ((k : K) * s) = perParticle n s := by
  have hN := copies_card e
  unfold perParticle
  have hk' : (k : K) ≠ 0 := by exact_mod_cast hk
  by_cases hn : n = 0
  · rw [if_pos hn, if_pos (by rw [hN, hn, mul_zero])]
  · rw [if_neg hn, if_neg (by rw [hN]; exact mul_ne_zero hk hn), hN]
    push_cast
    rw [mul_div_mul_left _ _ hk']

theorem sqDisp_copies (e : Fin k × Fin n ≃ Fin N) (t : Fin k → Fin d → K) (x y : Frame n d K) :
    sqDisp (Spec.copies e t x) (Spec.copies e t y) = k * sqDisp x y := by
  unfold sqDisp
  rw [← sum_copies e]
  refine Finset.sum_congr rfl fun p _ => Finset.sum_congr rfl fun c _ => ?_
  unfold Spec.copies
  ring

theorem selfOverlap_copies (e : Fin k × Fin n ≃ Fin N) (t : Fin k → Fin d → K) (x y : Frame n d K) (a2 : K) :
    selfOverlap (Spec.copies e t x) (Spec.copies e t y) a2 = k * selfOverlap x y a2 := by
  rw [selfOverlap_card, selfOverlap_card, Finset.card_filter, Finset.card_filter]
  have hs := sum_copies e fun q => if Spec.disp2 x y q < a2 then 1 else 0
  rw [Nat.cast_id] at hs
  rw [← hs]
  refine Finset.sum_congr rfl fun p _ => ?_
  have : Spec.disp2 (Spec.copies e t x) (Spec.copies e t y) p = Spec.disp2 x y (e.symm p).2 := by
    unfold Spec.disp2 Spec.copies
    exact Finset.sum_congr rfl fun c _ => by ring
  rw [this]

/-- **C200**: the mean square displacement, the non-Gaussian parameter and the self overlap of `k` copies of a system, each
displaced by any vector, are those of one copy, for the same times and time origins. -/
theorem C200_positions (e : Fin k × Fin n ≃ Fin N) (hk : k ≠ 0) (t : Fin k → Fin d → K) (tr : Traj K) (skip : ℕ)
    (grid : Option (List K)) (rmax : K) (tsamples : ℤ) (offset : Bool) (dg : List (ℕ × ℕ)) (a : K) (x : List (Frame n d K)) :
    msdCompute tr skip grid rmax tsamples offset (x.map (Spec.copies e t)) = msdCompute tr skip grid rmax tsamples offset x ∧
    alpha2Compute tr dg skip (x.map (Spec.copies e t)) = alpha2Compute tr dg skip x ∧
    qstCompute tr dg skip a (x.map (Spec.copies e t)) = qstCompute tr dg skip a x := by
  have hm : ∀ u v : Frame n d K, msdKernel (Spec.copies e t u) (Spec.copies e t v) = msdKernel u v := by
    intro u v
    unfold msdKernel
    rw [sqDisp_copies, perParticle_copies e hk]
  refine ⟨?_, ?_, ?_⟩
  · have hg : msdGrid tr rmax tsamples (x.map (Spec.copies e t)) = msdGrid tr rmax tsamples x := by
      unfold msdGrid
      rw [List.length_map, pyGet_mapped, pyGet_mapped]
      cases pyGet x (x.length - 1) with
      | error e => rfl
      | ok l =>
        cases pyGet x 0 with
        | error e => rfl
        | ok f => simp only [Except.map, bind, Except.bind, hm]
    unfold msdCompute
    simp only [hg, timeCorr_map, hm]
  · unfold alpha2Compute
    have hz : ((x.map (Spec.copies e t)).zipIdx.map fun e => (e.2, e.1))
        = (x.zipIdx.map fun e => (e.2, e.1)).map fun q : ℕ × Frame n d K => (q.1, Spec.copies e t q.2) := by
      rw [List.zipIdx_map, List.map_map, List.map_map]
      rfl
    rw [hz, timeCorr_map]
    congr 1
    funext u v
    unfold alpha2Kernel
    have h4 : ∑ p, (∑ c, (Spec.copies e t u.2 p c - Spec.copies e t v.2 p c) ^ 2) ^ 2 =
        k * ∑ q, (∑ c, (u.2 q c - v.2 q c) ^ 2) ^ 2 := by
      rw [← sum_copies e]
      refine Finset.sum_congr rfl fun p _ => ?_
      congr 1
      refine Finset.sum_congr rfl fun c _ => ?_
      unfold Spec.copies
      ring
    simp only [sqDisp_copies, h4, perParticle_copies e hk]
  · unfold qstCompute
    rw [timeCorr_map]
    simp only [selfOverlap_copies]
    push_cast
    simp only [perParticle_copies e hk]

/-- **C200** for the velocity autocorrelation function. -/
theorem C200_velocities (e : Fin k × Fin n ≃ Fin N) (hk : k ≠ 0) (tr : Traj K) (tgrid : Option (List K)) (tsamples : ℤ)
    (norigins : NOrigins) (v : List (Frame n d K)) :
    vacfRun tr tgrid tsamples norigins (v.map (Spec.copies e fun _ _ => 0)) = vacfRun tr tgrid tsamples norigins v := by
  have hv : ∀ x y : Frame n d K, vacfKernel (Spec.copies e (fun _ _ => 0) x) (Spec.copies e (fun _ _ => 0) y) = vacfKernel x y := by
    intro x y
    unfold vacfKernel
    rw [← perParticle_copies e hk, ← sum_copies e]
    simp only [Spec.copies, add_zero]
  unfold vacfRun vacfCompute
  simp only [timeCorr_map, hv]

/-- The attributes of `Chi4SelfOverlap` for the copies: averages are multiplied by `k`, squares by `k²`. -/
def chi4Copies (e : Fin k × Fin n ≃ Fin N) (t : Fin k → Fin d → K) (s : Chi4State n d K) : Chi4State N d K :=
  ⟨s.pos.map (Spec.copies e t), s.grid, s.value.map ((k : K) * ·), s.average.map ((k : K) * ·), s.variance.map ((k : K) ^ 2 * ·)⟩

/-- The accumulators of the loop over the origins for the copies. -/
def accCopies (k : ℕ) (acc : K × K × ℕ) : K × K × ℕ := (k * acc.1, (k : K) ^ 2 * acc.2.1, acc.2.2)

theorem chi4Inner_copies (e : Fin k × Fin n ≃ Fin N) (t : Fin k → Fin d → K) (a2 : K) (pos : List (Frame n d K)) (i : ℕ)
    (acc : K × K × ℕ) (i0 : ℕ) : chi4Inner (pos.map (Spec.copies e t)) a2 i (accCopies k acc) i0 =
      (chi4Inner pos a2 i acc i0).map (accCopies k) := by
  unfold chi4Inner
  rw [pyGet_mapL _ pos i0, pyGet_mapL _ pos (i0 + i)]
  cases pyGet pos i0 with
  | error e => rfl
  | ok x =>
    cases pyGet pos (i0 + i) with
    | error e => rfl
    | ok y =>
      simp only [Except.map, bind, Except.bind, selfOverlap_copies, accCopies, pure, Except.pure]
      push_cast
      congr 2
      · ring
      · congr 1; ring

theorem chi4OptInner_eq (pos : List (Frame n d K)) (a2 : K) (i : ℕ) : chi4OptInner pos a2 i = chi4Inner pos a2 i := by
  funext acc i0
  unfold chi4OptInner chi4Inner
  simp only [C29_self_overlap_f90]

theorem chi4Value_copies (e : Fin k × Fin n ≃ Fin N) (hk : k ≠ 0) (A A2 : K) :
    ((k : K) ^ 2 * A2 - ((k : K) * A) ^ 2) / (N : K) = k * ((A2 - A ^ 2) / (n : K)) := by
  have hk' : (k : K) ≠ 0 := by exact_mod_cast hk
  rw [copies_card e]
  push_cast
  by_cases hn : (n : K) = 0
  · rw [hn, mul_zero, div_zero, div_zero, mul_zero]
  · field_simp

theorem chi4Outer_copies (e : Fin k × Fin n ≃ Fin N) (hk : k ≠ 0) (t : Fin k → Fin d → K) (tr : Traj K) (skip : ℕ) (a2 : K)
    (s : Chi4State n d K) (g : ℕ × ℕ) :
    chi4Outer tr skip a2 (chi4Copies e t s) g = (chi4Outer tr skip a2 s g).map (chi4Copies e t) := by
  unfold chi4Outer
  simp only [chi4Copies, List.length_map]
  rw [pyGet_mapL _ s.pos 0]
  cases pyRange g.1 (s.pos.length - g.2 - skip) skip with
  | error e => rfl
  | ok r =>
    have h0 : ((0, 0, 0) : K × K × ℕ) = accCopies k (0, 0, 0) := by simp [accCopies]
    have := foldlM_map_state (accCopies k) (fun acc i0 => chi4Inner_copies e t a2 s.pos g.2 acc i0) r (0, 0, 0)
    rw [← h0] at this
    simp only [bind, Except.bind, this]
    cases r.foldlM (chi4Inner s.pos a2 g.2) ((0, 0, 0) : K × K × ℕ) with
    | error e => rfl
    | ok acc =>
      simp only [Except.map]
      cases pyGet tr.steps (g.1 + g.2) with
      | error e => rfl
      | ok ta =>
        cases pyGet tr.steps g.1 with
        | error e => rfl
        | ok tb =>
          cases pyGet s.pos 0 with
          | error e => rfl
          | ok _ =>
            by_cases hc : acc.2.2 > 0
            · have hc' : (accCopies k acc).2.2 > 0 := hc
              simp only [if_pos hc, if_pos hc', chi4Copies, pure, Except.pure, List.map_append, List.map_cons, List.map_nil]
              simp only [accCopies, mul_div_assoc]
              rw [← chi4Value_copies e hk]
            · have hc' : ¬ (accCopies k acc).2.2 > 0 := hc
              simp only [if_neg hc, if_neg hc', chi4Copies, pure, Except.pure, List.map_append, List.map_cons, List.map_nil]
              simp

theorem chi4OptOuter_copies (e : Fin k × Fin n ≃ Fin N) (hk : k ≠ 0) (t : Fin k → Fin d → K) (tr : Traj K) (skip : ℕ) (a2 : K)
    (s : Chi4State n d K) (g : ℕ × ℕ) :
    chi4OptOuter tr skip a2 (chi4Copies e t s) g = (chi4OptOuter tr skip a2 s g).map (chi4Copies e t) := by
  unfold chi4OptOuter
  simp only [chi4Copies, List.length_map, chi4OptInner_eq]
  rw [pyGet_mapL _ s.pos 0]
  cases pyRange g.1 (s.pos.length - g.2 - skip) skip with
  | error e => rfl
  | ok r =>
    have h0 : ((0, 0, 0) : K × K × ℕ) = accCopies k (0, 0, 0) := by simp [accCopies]
    have := foldlM_map_state (accCopies k) (fun acc i0 => chi4Inner_copies e t a2 s.pos g.2 acc i0) r (0, 0, 0)
    rw [← h0] at this
    simp only [bind, Except.bind, this]
    cases r.foldlM (chi4Inner s.pos a2 g.2) ((0, 0, 0) : K × K × ℕ) with
    | error e => rfl
    | ok acc =>
      simp only [Except.map]
      cases pyGet tr.steps (g.1 + g.2) with
      | error e => rfl
      | ok ta =>
        cases pyGet tr.steps g.1 with
        | error e => rfl
        | ok tb =>
          have hd : ∀ y : K, pyDiv y ((accCopies k acc).2.2 : K) = pyDiv y (acc.2.2 : K) := fun y => rfl
          simp only [hd]
          unfold pyDiv
          by_cases hc : (acc.2.2 : K) = 0
          · simp only [if_pos hc]
          · simp only [if_neg hc]
            cases pyGet s.pos 0 with
            | error e => rfl
            | ok _ =>
              simp only [chi4Copies, pure, Except.pure, List.map_append, List.map_cons, List.map_nil]
              simp only [accCopies, mul_div_assoc]
              rw [← chi4Value_copies e hk]

/-- **C200** for the dynamic susceptibility, plain and optimized: the susceptibility and the average of the overlap of `k` copies
of a system are `k` times those of one copy, the mean square of the overlap `k²` times. -/
theorem C200_chi4 (e : Fin k × Fin n ≃ Fin N) (hk : k ≠ 0) (t : Fin k → Fin d → K) (tr : Traj K) (frames : List (Frame n d K))
    (skip : ℕ) (a : K) (dg : List (ℕ × ℕ)) (grid : List K) :
    (chi4ComputeFull tr (frames.map (Spec.copies e t)) skip a dg (Chi4State.init grid)).map chi4Out =
      ((chi4ComputeFull tr frames skip a dg (Chi4State.init grid)).map chi4Out).map (fun o =>
        (o.1, o.2.1.map ((k : K) * ·), o.2.2.1.map ((k : K) * ·), o.2.2.2.map ((k : K) ^ 2 * ·))) ∧
    (chi4OptComputeFull tr (frames.map (Spec.copies e t)) skip a dg (Chi4State.init grid)).map chi4Out =
      ((chi4OptComputeFull tr frames skip a dg (Chi4State.init grid)).map chi4Out).map (fun o =>
        (o.1, o.2.1.map ((k : K) * ·), o.2.2.1.map ((k : K) * ·), o.2.2.2.map ((k : K) ^ 2 * ·))) := by
  constructor
  · unfold chi4ComputeFull chi4Compute
    simp only [Chi4State.init, List.nil_append]
    rw [pyGet_mapL _ frames 0]
    cases pyGet frames 0 with
    | error e => rfl
    | ok x =>
      have := foldlM_map_state (chi4Copies e t) (fun st g => chi4Outer_copies e hk t tr skip (a ^ 2) st g) dg
        ⟨frames, [], [], [], []⟩
      simp only [Except.map, bind, Except.bind]
      rw [show (⟨frames.map (Spec.copies e t), [], [], [], []⟩ : Chi4State N d K) = chi4Copies e t ⟨frames, [], [], [], []⟩ from rfl,
        this]
      cases dg.foldlM (chi4Outer tr skip (a ^ 2)) (⟨frames, [], [], [], []⟩ : Chi4State n d K) <;> rfl
  · unfold chi4OptComputeFull
    simp only [Chi4State.init, List.nil_append]
    have := foldlM_map_state (chi4Copies e t) (fun st g => chi4OptOuter_copies e hk t tr skip (a ^ 2) st g) dg
      ⟨frames, [], [], [], []⟩
    rw [show (⟨frames.map (Spec.copies e t), [], [], [], []⟩ : Chi4State N d K) = chi4Copies e t ⟨frames, [], [], [], []⟩ from rfl,
      this]
    cases dg.foldlM (chi4OptOuter tr skip (a ^ 2)) (⟨frames, [], [], [], []⟩ : Chi4State n d K) <;> rfl

/-- Three copies of two particles on a line, four frames. -/
example : let x : List (Frame 2 1 ℚ) := [![![0], ![5]], ![![1], ![5]], ![![1], ![7]], ![![2], ![9]]]
    let tr : Traj ℚ := ⟨[0, 1, 2, 3], 1, 1, 3, [2, 2, 2, 2]⟩
    (chi4ComputeFull tr x 1 (3 / 2) [(0, 1)] (Chi4State.init [1])).map chi4Out = .ok ([1], [1 / 8], [3 / 2], [5 / 2]) ∧
    (chi4ComputeFull tr (x.map (Spec.copies (finProdFinEquiv : Fin 3 × Fin 2 ≃ Fin 6) fun a _ => 10 * a)) 1 (3 / 2) [(0, 1)]
      (Chi4State.init [1])).map chi4Out = .ok ([1], [3 / 8], [9 / 2], [45 / 2]) := by
  intro x tr
  have h : (chi4ComputeFull tr x 1 (3 / 2) [(0, 1)] (Chi4State.init [1])).map chi4Out =
      .ok ([1], [1 / 8], [3 / 2], [5 / 2]) := by decide +kernel
  refine ⟨h, ?_⟩
  rw [(C200_chi4 (finProdFinEquiv : Fin 3 × Fin 2 ≃ Fin 6) (by decide) _ tr x 1 (3 / 2) [(0, 1)] [1]).1, h]
  norm_num [Except.map]

end PP.Props
