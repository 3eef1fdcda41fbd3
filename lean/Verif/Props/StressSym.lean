import Verif.Props.Stress
import Verif.Props.Bounds

/-!
# C175: symmetries, units and bound of the stress autocorrelation
-/

set_option linter.unusedSectionVars false

namespace PP.Props
open PP

variable {K : Type} [Field K] [LinearOrder K] [IsStrictOrderedRing K] [FloorRing K]

/-- A frame: stress of the interactions and velocities. -/
abbrev StressFrame (K : Type) := (Fin 3 → Fin 3 → K) × List (Fin 3 → K)

/-- Grid and values for any expression of the products of the stresses of two frames. -/
theorem sacf_closed (tr : Traj K) (dg : List (ℕ × ℕ)) (vol : K) (mass : List K) (frames : List (StressFrame K))
    (G : StressFrame K → StressFrame K) (g : StressFrame K → StressFrame K → K) (hbs : 0 < tr.blockSize)
    (hlen : frames.length ≤ tr.steps.length) (hm : mass ≠ []) (hN : ∀ f ∈ frames, (G f).2.length = mass.length)
    (hg : ∀ a ∈ frames, ∀ b ∈ frames, ∑ m, Spec.shear mass (G a) m * Spec.shear mass (G b) m = g a b) :
    sacfCompute tr dg vol mass (frames.map G) =
      .ok ((lagList tr.steps (Spec.sampled frames.length tr.blockSize dg)).map fun δ : ℤ => (δ : K) * tr.timestep,
        (lagList tr.steps (Spec.sampled frames.length tr.blockSize dg)).map fun δ =>
          some (Spec.mean (Spec.valuesAt g tr.blockSize dg tr.steps frames δ) / 3 / vol)) := by
  have hc := timeCorr_closed (tr := tr) (dg := dg) (skip := tr.blockSize) (x := frames)
    (f := fun a b => sacfKernel (Spec.shear mass (G a)) (Spec.shear mass (G b)))
    (g := fun a b => g a b / 3) hbs hlen (fun a ha b hb => by unfold sacfKernel; rw [hg a ha b hb])
  unfold sacfCompute
  rw [mapM_ok_map fun f hf => by
    obtain ⟨f, hf', rfl⟩ := List.mem_map.1 hf
    exact stressFrame_ok mass (G f) hm (hN f hf')]
  simp only [bind, Except.bind]
  rw [List.map_map, timeCorr_map]
  simp only [Function.comp_def]
  rw [hc]
  simp only [pure, Except.pure, Except.ok.injEq, Prod.mk.injEq, true_and, List.map_map]
  apply List.map_congr_left
  intro δ _
  simp only [Function.comp_apply, Option.map_some, Option.some.injEq]
  congr 1
  rw [← mean_div]
  unfold Spec.valuesAt
  rw [List.map_map]
  rfl

/-- Two sets of frames with the same products of stresses. -/
theorem sacf_congr (tr : Traj K) (dg : List (ℕ × ℕ)) (vol : K) (mass mass' : List K) (frames : List (StressFrame K))
    (G : StressFrame K → StressFrame K) (hbs : 0 < tr.blockSize) (hlen : frames.length ≤ tr.steps.length)
    (hm : mass ≠ []) (hm' : mass' ≠ []) (hN : ∀ f ∈ frames, f.2.length = mass.length)
    (hN' : ∀ f ∈ frames, (G f).2.length = mass'.length)
    (hg : ∀ a ∈ frames, ∀ b ∈ frames, ∑ m, Spec.shear mass' (G a) m * Spec.shear mass' (G b) m =
      ∑ m, Spec.shear mass a m * Spec.shear mass b m) :
    ∃ r, sacfCompute tr dg vol mass frames = .ok r ∧ sacfCompute tr dg vol mass' (frames.map G) = .ok r := by
  have h := sacf_closed tr dg vol mass frames (fun f => f)
    (fun a b => ∑ m, Spec.shear mass a m * Spec.shear mass b m) hbs hlen hm hN (fun _ _ _ _ => rfl)
  rw [List.map_id'] at h
  exact ⟨_, h, sacf_closed tr dg vol mass' frames G _ hbs hlen hm' hN' hg⟩

/-- **C175.** The stress autocorrelation does not change if the velocities of some frames are reversed. -/
theorem C175_reversed_velocities (tr : Traj K) (dg : List (ℕ × ℕ)) (vol : K) (mass : List K) (frames : List (StressFrame K))
    (rev : StressFrame K → Bool) (hbs : 0 < tr.blockSize) (hlen : frames.length ≤ tr.steps.length) (hm : mass ≠ [])
    (hN : ∀ f ∈ frames, f.2.length = mass.length) :
    ∃ r, sacfCompute tr dg vol mass frames = .ok r ∧
      sacfCompute tr dg vol mass (frames.map fun f => (f.1, if rev f then f.2.map fun v => -v else f.2)) = .ok r := by
  refine sacf_congr tr dg vol mass mass frames _ hbs hlen hm hm hN (fun f hf => ?_) ?_
  · dsimp only
    split_ifs
    · rw [List.length_map]; exact hN f hf
    · exact hN f hf
  · have key : ∀ f : StressFrame K, ∀ j k, Spec.stress mass f.1 (if rev f then f.2.map fun v => -v else f.2) j k =
        Spec.stress mass f.1 f.2 j k := by
      intro f j k
      split_ifs
      · unfold Spec.stress
        rw [List.zipWith_map_right]
        simp only [Pi.neg_apply, neg_mul_neg]
      · rfl
    have : ∀ f : StressFrame K, Spec.shear mass (f.1, if rev f then f.2.map fun v => -v else f.2) = Spec.shear mass f := by
      intro f
      unfold Spec.shear
      simp only [key]
    intro a _ b _
    rw [this, this]

theorem stress_zip (mass : List K) (s : Fin 3 → Fin 3 → K) (vel : List (Fin 3 → K)) (j k : Fin 3) :
    Spec.stress mass s vel j k = s j k + ((mass.zip vel).map fun e => e.1 * (e.2 j * e.2 k)).sum := by
  unfold Spec.stress
  rw [List.zip, List.map_zipWith]

/-- **C175.** Nor if the particles are listed in another order, with their masses. -/
theorem C175_labels (tr : Traj K) (dg : List (ℕ × ℕ)) (vol : K) (mass mass' : List K) (frames : List (StressFrame K))
    (vel : StressFrame K → List (Fin 3 → K)) (hbs : 0 < tr.blockSize) (hlen : frames.length ≤ tr.steps.length)
    (hm : mass ≠ []) (hN : ∀ f ∈ frames, f.2.length = mass.length) (hl : mass'.length = mass.length)
    (hN' : ∀ f ∈ frames, (vel f).length = mass'.length)
    (hp : ∀ f ∈ frames, (mass'.zip (vel f)).Perm (mass.zip f.2)) :
    ∃ r, sacfCompute tr dg vol mass frames = .ok r ∧
      sacfCompute tr dg vol mass' (frames.map fun f => (f.1, vel f)) = .ok r := by
  refine sacf_congr tr dg vol mass mass' frames _ hbs hlen hm ?_ hN hN' ?_
  · rintro rfl
    exact hm (List.length_eq_zero_iff.1 hl.symm)
  · have : ∀ f ∈ frames, Spec.shear mass' (f.1, vel f) = Spec.shear mass f := by
      intro f hf
      unfold Spec.shear
      simp only [stress_zip, ((hp f hf).map _).sum_eq]
    intro a ha b hb
    rw [this a ha, this b hb]

/-- Sum over the three off-diagonal components of two symmetric tensors. -/
theorem shear_products (A B : Fin 3 → Fin 3 → K) (hA : ∀ j k, A j k = A k j) (hB : ∀ j k, B j k = B k j) :
    ∑ m, (![A 0 1, A 0 2, A 1 2] : Fin 3 → K) m * (![B 0 1, B 0 2, B 1 2] : Fin 3 → K) m =
      (∑ j, ∑ k, A j k * B j k - ∑ j, A j j * B j j) / 2 := by
  simp only [Fin.sum_univ_three]
  show A 0 1 * B 0 1 + A 0 2 * B 0 2 + A 1 2 * B 1 2 = _
  rw [hA 1 0, hA 2 0, hA 2 1, hB 1 0, hB 2 0, hB 2 1]
  ring

/-- **C175.** Nor, for symmetric stresses, if the axes are in another order, some of them inverted. -/
theorem C175_axes (tr : Traj K) (dg : List (ℕ × ℕ)) (vol : K) (mass : List K) (frames : List (StressFrame K))
    (σ : Equiv.Perm (Fin 3)) (ε : Fin 3 → K) (hε : ∀ c, ε c = 1 ∨ ε c = -1)
    (hbs : 0 < tr.blockSize) (hlen : frames.length ≤ tr.steps.length) (hm : mass ≠ [])
    (hN : ∀ f ∈ frames, f.2.length = mass.length) (hsym : ∀ f ∈ frames, ∀ j k, f.1 j k = f.1 k j) :
    ∃ r, sacfCompute tr dg vol mass frames = .ok r ∧
      sacfCompute tr dg vol mass (frames.map fun f => (fun j k => ε j * ε k * f.1 (σ j) (σ k),
        f.2.map fun v j => ε j * v (σ j))) = .ok r := by
  refine sacf_congr tr dg vol mass mass frames _ hbs hlen hm hm hN (fun f hf => by
    rw [List.length_map]; exact hN f hf) ?_
  have hs : ∀ f ∈ frames, ∀ j k, Spec.stress mass f.1 f.2 j k = Spec.stress mass f.1 f.2 k j := by
    intro f hf j k
    unfold Spec.stress
    rw [hsym f hf j k]
    simp only [mul_comm]
  have ht : ∀ f : StressFrame K, ∀ j k, Spec.stress mass (fun j k => ε j * ε k * f.1 (σ j) (σ k))
      (f.2.map fun v j => ε j * v (σ j)) j k = ε j * ε k * Spec.stress mass f.1 f.2 (σ j) (σ k) := by
    intro f j k
    rw [stress_zip, stress_zip, mul_add, ← List.sum_map_mul_left, List.zip_map_right, List.map_map]
    congr 2
    apply List.map_congr_left
    intro e _
    simp only [Function.comp, Prod.map_fst, Prod.map_snd, id]
    ring
  have h1 : ∀ c, ε c * ε c = 1 := by
    intro c
    rcases hε c with h | h <;> rw [h] <;> ring
  intro a ha b hb
  unfold Spec.shear
  simp only
  rw [shear_products (Spec.stress mass a.1 a.2) (Spec.stress mass b.1 b.2) (hs a ha) (hs b hb),
    shear_products (Spec.stress mass (fun j k => ε j * ε k * a.1 (σ j) (σ k)) (a.2.map fun v j => ε j * v (σ j)))
      (Spec.stress mass (fun j k => ε j * ε k * b.1 (σ j) (σ k)) (b.2.map fun v j => ε j * v (σ j)))
      (fun j k => by rw [ht, ht, hs a ha, mul_comm (ε j)]) (fun j k => by rw [ht, ht, hs b hb, mul_comm (ε j)])]
  simp only [ht]
  congr 1
  have h2 : ∀ j k, ε j * ε k * Spec.stress mass a.1 a.2 (σ j) (σ k) * (ε j * ε k * Spec.stress mass b.1 b.2 (σ j) (σ k)) =
      Spec.stress mass a.1 a.2 (σ j) (σ k) * Spec.stress mass b.1 b.2 (σ j) (σ k) := by
    intro j k
    calc _ = (ε j * ε j) * (ε k * ε k) * (Spec.stress mass a.1 a.2 (σ j) (σ k) * Spec.stress mass b.1 b.2 (σ j) (σ k)) := by
          ring
      _ = _ := by rw [h1, h1]; ring
  simp only [h2]
  congr 1
  · rw [← Equiv.sum_comp σ fun j => ∑ k, Spec.stress mass a.1 a.2 j k * Spec.stress mass b.1 b.2 j k]
    refine Finset.sum_congr rfl fun j _ => ?_
    exact Equiv.sum_comp σ fun k => Spec.stress mass a.1 a.2 (σ j) k * Spec.stress mass b.1 b.2 (σ j) k
  · exact Equiv.sum_comp σ fun j => Spec.stress mass a.1 a.2 j j * Spec.stress mass b.1 b.2 j j

/-- **C175.** In other units, in which masses, velocities and volumes are multiplied by `μ`, `u` and `w` and the stresses of
the interactions by `μ u²`, the values are multiplied by `(μ u²)² / w`. -/
theorem C175_units (tr : Traj K) (dg : List (ℕ × ℕ)) (vol : K) (mass : List K) (frames : List (StressFrame K)) (μ u w : K)
    (hbs : 0 < tr.blockSize) (hlen : frames.length ≤ tr.steps.length) (hm : mass ≠ [])
    (hN : ∀ f ∈ frames, f.2.length = mass.length) :
    ∃ ts vs, sacfCompute tr dg vol mass frames = .ok (ts, vs) ∧
      sacfCompute tr dg (w * vol) (mass.map fun m => μ * m)
          (frames.map fun f => (fun j k => μ * u ^ 2 * f.1 j k, f.2.map fun v j => u * v j)) =
        .ok (ts, vs.map fun v => v.map fun x => (μ * u ^ 2) ^ 2 / w * x) := by
  have h := sacf_closed tr dg vol mass frames (fun f => f)
    (fun a b => ∑ m, Spec.shear mass a m * Spec.shear mass b m) hbs hlen hm hN (fun _ _ _ _ => rfl)
  rw [List.map_id'] at h
  have ht : ∀ f : StressFrame K, ∀ j k, Spec.stress (mass.map fun m => μ * m) (fun j k => μ * u ^ 2 * f.1 j k)
      (f.2.map fun v j => u * v j) j k = μ * u ^ 2 * Spec.stress mass f.1 f.2 j k := by
    intro f j k
    rw [stress_zip, stress_zip, mul_add, ← List.sum_map_mul_left, List.zip_map, List.map_map]
    congr 2
    apply List.map_congr_left
    intro e _
    simp only [Function.comp, Prod.map_fst, Prod.map_snd]
    ring
  have hsh : ∀ f : StressFrame K, Spec.shear (mass.map fun m => μ * m) (fun j k => μ * u ^ 2 * f.1 j k,
      f.2.map fun v j => u * v j) = fun m => μ * u ^ 2 * Spec.shear mass f m := by
    intro f
    funext m
    unfold Spec.shear
    simp only [ht]
    fin_cases m <;> rfl
  have h' := sacf_closed tr dg (w * vol) (mass.map fun m => μ * m) frames
    (fun f => (fun j k => μ * u ^ 2 * f.1 j k, f.2.map fun v j => u * v j))
    (fun a b => (μ * u ^ 2) ^ 2 * ∑ m, Spec.shear mass a m * Spec.shear mass b m) hbs hlen (by simpa using hm)
    (fun f hf => by simpa using hN f hf) (fun a _ b _ => by
      rw [hsh, hsh, Finset.mul_sum]
      exact Finset.sum_congr rfl fun m _ => by ring)
  refine ⟨_, _, h, ?_⟩
  rw [h', List.map_map]
  congr 2
  apply List.map_congr_left
  intro δ _
  simp only [Function.comp, Option.map_some, Option.some.injEq]
  have hmean : Spec.mean (Spec.valuesAt (fun a b => (μ * u ^ 2) ^ 2 * ∑ m, Spec.shear mass a m * Spec.shear mass b m)
      tr.blockSize dg tr.steps frames δ) = (μ * u ^ 2) ^ 2 * Spec.mean (Spec.valuesAt (fun a b =>
        ∑ m, Spec.shear mass a m * Spec.shear mass b m) tr.blockSize dg tr.steps frames δ) := by
    unfold Spec.valuesAt
    rw [mean_mul_map]
  rw [hmean, div_div, div_div, mul_div_assoc, div_mul_eq_mul_div, mul_div_assoc]
  congr 1
  rw [div_div]
  congr 1
  ring

/-- **C175.** On a trajectory of `N` frames with uniform steps, the value `C(m)` of the stress autocorrelation `m` frames
apart satisfies `(N - m) |C(m)| ≤ N C(0)`. -/
theorem C175_bound (tr : Traj K) (vol : K) (mass : List K) (frames : List (StressFrame K)) (s : ℤ) {δ : ℤ} (hδ : δ ≠ 0)
    (hst : tr.steps = uniformSteps frames.length s δ) (hbs : tr.blockSize = 1) (hdt : tr.timestep ≠ 0) (hvol : 0 < vol)
    (hm : mass ≠ []) (hN : ∀ f ∈ frames, f.2.length = mass.length)
    {g : List K} {offset : Bool} {dg : List (ℕ × ℕ)}
    (hg : setupTGrid tr.steps tr.blockSize tr.timestep g offset = .ok dg) :
    ∃ ts vs, sacfCompute tr dg vol mass frames = .ok (ts, vs) ∧ ts.length = vs.length ∧
      ∀ (m : ℕ) (v v0 : Option K), (((δ * m : ℤ) : K) * tr.timestep, v) ∈ ts.zip vs → (0, v0) ∈ ts.zip vs →
        ∃ w w0, v = some w ∧ v0 = some w0 ∧ ((frames.length : K) - m) * |w| ≤ frames.length * w0 := by
  have hl : frames.length ≤ tr.steps.length := by rw [hst]; simp [uniformSteps]
  have h := sacf_closed tr dg vol mass frames (fun f => f)
    (fun a b => ∑ m, Spec.shear mass a m * Spec.shear mass b m) (by omega) hl hm hN (fun _ _ _ _ => rfl)
  rw [List.map_id'] at h
  refine ⟨_, _, h, by simp, ?_⟩
  intro m v v0 hv hv0
  rw [List.zip_map'] at hv hv0
  obtain ⟨δ1, h1, e1⟩ := List.mem_map.1 hv
  obtain ⟨δ0, h0, e0⟩ := List.mem_map.1 hv0
  simp only [Prod.mk.injEq] at e1 e0
  have hd1 : δ1 = δ * m := by exact_mod_cast mul_right_cancel₀ hdt e1.1
  have hd0 : δ0 = 0 := by
    rcases mul_eq_zero.1 e0.1 with h | h
    · exact_mod_cast h
    · exact absurd h hdt
  subst hd1 hd0
  refine ⟨_, _, e1.2.symm, e0.2.symm, ?_⟩
  rw [hst, hbs] at h1 h0 ⊢
  have hne : tr.steps ≠ [] := by
    intro h
    obtain ⟨p, hp, -⟩ := mem_lagList.1 h1
    have := sampled_lt hp
    rw [h, List.length_nil] at hl
    omega
  obtain ⟨hz, hnd⟩ := tgrid_entries (Or.inl hbs) hne hdt hg
  have hm := lag_entry frames.length s hδ hz h1
  have h00 := lag_entry (m := 0) frames.length s hδ hz (by simpa using h0)
  have hpos : ∀ a b : StressFrame K, 2 * |∑ m, Spec.shear mass a m * Spec.shear mass b m| ≤
      ∑ m, Spec.shear mass a m * Spec.shear mass a m + ∑ m, Spec.shear mass b m * Spec.shear mass b m := by
    intro a b
    rw [← Finset.sum_add_distrib]
    have e : 2 * |∑ m, Spec.shear mass a m * Spec.shear mass b m| =
        |∑ m, 2 * (Spec.shear mass a m * Spec.shear mass b m)| := by
      rw [← Finset.mul_sum, abs_mul, abs_of_pos (by norm_num : (0 : K) < 2)]
    rw [e]
    refine (Finset.abs_sum_le_sum_abs _ _).trans (Finset.sum_le_sum fun m _ => ?_)
    rw [abs_le]
    constructor <;> nlinarith [sq_nonneg (Spec.shear mass a m + Spec.shear mass b m),
      sq_nonneg (Spec.shear mass a m - Spec.shear mass b m)]
  have hb := lag_zero_bound _ hpos frames s hδ hz hnd hm.1 hm.2 h00.1
  rw [abs_div, abs_div, abs_of_pos hvol, abs_of_pos (by norm_num : (0 : K) < 3), ← mul_div_assoc, ← mul_div_assoc,
    ← mul_div_assoc, ← mul_div_assoc]
  exact div_le_div_of_nonneg_right (div_le_div_of_nonneg_right hb (by norm_num)) hvol.le

/-- Two particles of different masses at three times. -/
def stressExample : List (StressFrame ℚ) :=
  [(![![5, 1, 2], ![1, 0, 3], ![2, 3, 0]], [![1, 2, 0], ![0, 1, -1]]),
    (![![0, -1, 0], ![-1, 0, 1], ![0, 1, 4]], [![2, 0, 1], ![1, 1, 1]]),
    (![![0, 0, 1], ![0, 0, 0], ![1, 0, 0]], [![0, 0, 0], ![1, 0, -1]])]

/-- The trajectory of the example. -/
def stressTraj : Traj ℚ := ⟨uniformSteps 3 0 5, 1, 1, 10, [2, 2, 2]⟩

example : sacfCompute stressTraj [(0, 0), (0, 1)] 2 [1, 3] stressExample = .ok ([0, 5], [some (31 / 9), some (1 / 2)]) := by
  decide +kernel

/-- Labels exchanged, velocities of some frames reversed, axes exchanged and inverted, other units: the conclusions and the
hypotheses hold for the example. -/
example : (∃ r, sacfCompute stressTraj [(0, 0), (0, 1)] 2 [1, 3] stressExample = .ok r ∧
      sacfCompute stressTraj [(0, 0), (0, 1)] 2 [3, 1] (stressExample.map fun f => (f.1, f.2.reverse)) = .ok r) ∧
    (∃ r, sacfCompute stressTraj [(0, 0), (0, 1)] 2 [1, 3] stressExample = .ok r ∧
      sacfCompute stressTraj [(0, 0), (0, 1)] 2 [1, 3] (stressExample.map fun f =>
        (f.1, if decide (f.1 0 0 = 5) then f.2.map fun v => -v else f.2)) = .ok r) ∧
    (∃ r, sacfCompute stressTraj [(0, 0), (0, 1)] 2 [1, 3] stressExample = .ok r ∧
      sacfCompute stressTraj [(0, 0), (0, 1)] 2 [1, 3] (stressExample.map fun f =>
        (fun j k => (![1, -1, 1] : Fin 3 → ℚ) j * (![1, -1, 1] : Fin 3 → ℚ) k * f.1 (Equiv.swap 0 2 j) (Equiv.swap 0 2 k),
          f.2.map fun v j => (![1, -1, 1] : Fin 3 → ℚ) j * v (Equiv.swap 0 2 j))) = .ok r) ∧
    (∃ ts vs, sacfCompute stressTraj [(0, 0), (0, 1)] 2 [1, 3] stressExample = .ok (ts, vs) ∧
      sacfCompute stressTraj [(0, 0), (0, 1)] (8 * 2) ([1, 3].map fun m => 2 * m)
          (stressExample.map fun f => (fun j k => 2 * 3 ^ 2 * f.1 j k, f.2.map fun v j => 3 * v j)) =
        .ok (ts, vs.map fun v => v.map fun x => (2 * 3 ^ 2) ^ 2 / 8 * x)) := by
  have hb : 0 < stressTraj.blockSize := by decide
  have hl : stressExample.length ≤ stressTraj.steps.length := by decide
  have hm : ([1, 3] : List ℚ) ≠ [] := by decide
  have hN : ∀ f ∈ stressExample, f.2.length = ([1, 3] : List ℚ).length := by
    intro f hf
    simp only [stressExample, List.mem_cons, List.not_mem_nil, or_false] at hf
    rcases hf with rfl | rfl | rfl <;> rfl
  refine ⟨C175_labels _ _ _ _ [3, 1] _ (fun f => f.2.reverse) hb hl hm hN rfl ?_ ?_,
    C175_reversed_velocities _ _ _ _ _ (fun f => decide (f.1 0 0 = 5)) hb hl hm hN,
    C175_axes _ _ _ _ _ (Equiv.swap 0 2) ![1, -1, 1] ?_ hb hl hm hN ?_, C175_units _ _ _ _ _ 2 3 8 hb hl hm hN⟩
  · intro f hf
    rw [List.length_reverse]
    exact hN f hf
  · intro f hf
    simp only [stressExample, List.mem_cons, List.not_mem_nil, or_false] at hf
    rcases hf with rfl | rfl | rfl <;> exact List.Perm.swap _ _ _
  · intro c
    fin_cases c
    · exact Or.inl rfl
    · exact Or.inr rfl
    · exact Or.inl rfl
  · intro f hf j k
    simp only [stressExample, List.mem_cons, List.not_mem_nil, or_false] at hf
    rcases hf with rfl | rfl | rfl <;> fin_cases j <;> fin_cases k <;> rfl

/-- The bound for the example: `2 * 1/2 ≤ 3 * 31/9`. -/
example : ∃ ts vs, sacfCompute stressTraj [(0, 0), (0, 1)] 2 [1, 3] stressExample = .ok (ts, vs) ∧ ts.length = vs.length ∧
      ∀ (m : ℕ) (v v0 : Option ℚ), (((5 * m : ℤ) : ℚ) * 1, v) ∈ ts.zip vs → (0, v0) ∈ ts.zip vs →
        ∃ w w0, v = some w ∧ v0 = some w0 ∧ ((stressExample.length : ℚ) - m) * |w| ≤ stressExample.length * w0 := by
  refine C175_bound stressTraj 2 [1, 3] stressExample 0 (δ := 5) (by decide) rfl rfl ?_ (by norm_num) (by decide) ?_
    (g := [0, 5]) (offset := true) (by decide +kernel)
  · show (1 : ℚ) ≠ 0
    norm_num
  · intro f hf
    simp only [stressExample, List.mem_cons, List.not_mem_nil, or_false] at hf
    rcases hf with rfl | rfl | rfl <;> rfl

end PP.Props
