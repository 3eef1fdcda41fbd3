import Verif.Props.Msd
import Verif.Props.Rest
import Verif.Props.Reversal
import Verif.Props.Gaussian
import Verif.Props.Fkt

/-!
# C208: dynamic functions of particles in uniform motion
-/

set_option linter.unusedSectionVars false

namespace PP.Props
open PP

section
variable {K : Type} [Field K] [LinearOrder K] [IsStrictOrderedRing K] [FloorRing K] {n d : ℕ}

/-- Frames at the given steps of particles that start from `r` and move with velocities `v`. -/
def _root_.PP.Spec.uniform (steps : List ℤ) (dt : K) (r v : Frame n d K) : List (Frame n d K) :=
  steps.map fun (s : ℤ) p c => r p c + v p c * ((s : K) * dt)

theorem uniform_values {steps : List ℤ} {dt : K} {r v : Frame n d K} {g : Frame n d K → Frame n d K → K} {skip : ℕ}
    {dg : List (ℕ × ℕ)} {δ : ℤ} {a : K} (ha : a ∈ Spec.valuesAt g skip dg steps (Spec.uniform steps dt r v) δ) :
    ∃ x y : Frame n d K, a = g x y ∧ ∀ p c, x p c - y p c = v p c * ((δ : K) * dt) := by
  unfold Spec.uniform at ha
  obtain ⟨i0, i, ta, tb, xa, xb, -, h3, h4, h5, h6, rfl, rfl⟩ := mem_valuesAt ha
  rw [List.getElem?_map, h3] at h5
  rw [List.getElem?_map, h4] at h6
  cases h5; cases h6
  exact ⟨_, _, rfl, fun p c => by push_cast; ring⟩

theorem uniform_disp2 {x y v : Frame n d K} {t : K} (h : ∀ p c, x p c - y p c = v p c * t) (p : Fin n) :
    Spec.disp2 x y p = (∑ c, v p c ^ 2) * t ^ 2 := by
  unfold Spec.disp2
  rw [Finset.sum_mul]
  exact Finset.sum_congr rfl fun c _ => by rw [h]; ring

/-- **C208**: the self overlap of particles in uniform motion at time `t` is the fraction of those with `|v| t < a`. -/
theorem C208_overlap (tr : Traj K) (dg : List (ℕ × ℕ)) (skip : ℕ) (a : K) (r v : Frame n d K) (ts : List K) (vs : List (Option K))
    (hn : 0 < n) (hskip : 0 < skip) (h : qstCompute tr dg skip a (Spec.uniform tr.steps tr.timestep r v) = .ok (ts, vs)) :
    ts.length = vs.length ∧ ∀ p ∈ ts.zip vs,
      p.2 = some (((Finset.univ.filter fun q => (∑ c, v q c ^ 2) * p.1 ^ 2 < a ^ 2).card : K) / n) := by
  refine timeCorr_forall (g := fun x y => (selfOverlap x y (a ^ 2) : K) / (n : K)) hskip (by simp [Spec.uniform])
    (fun x _ y _ => by simp only [perParticle, if_neg hn.ne']) h
    (P := fun t w => w = some (((Finset.univ.filter fun q => (∑ c, v q c ^ 2) * t ^ 2 < a ^ 2).card : K) / n)) ?_
  intro δ hδ
  congr 1
  refine mean_const hδ fun b hb => ?_
  obtain ⟨x, y, rfl, hxy⟩ := uniform_values hb
  simp only [selfOverlap_card, uniform_disp2 hxy]

/-- **C208**: the velocity autocorrelation function of particles in uniform motion is the mean square velocity. -/
theorem C208_vacf (tr : Traj K) (dg : List (ℕ × ℕ)) (v : Frame n d K) (ts : List K) (vs : List (Option K))
    (hn : 0 < n) (hb : 0 < tr.blockSize) (h : vacfCompute tr dg (tr.steps.map fun _ => v) = .ok (ts, vs)) :
    ts.length = vs.length ∧ ∀ p ∈ ts.zip vs, p.2 = some ((∑ q, ∑ c, v q c ^ 2) / n) := by
  refine timeCorr_forall (g := fun x y => (∑ q, ∑ c, x q c * y q c) / (n : K)) hb (by simp)
    (fun x _ y _ => by simp only [vacfKernel, perParticle, if_neg hn.ne']) h
    (P := fun t w => w = some ((∑ q, ∑ c, v q c ^ 2) / n)) ?_
  intro δ hδ
  congr 1
  refine mean_const hδ fun b hb => ?_
  obtain ⟨i0, i, ta, tb, xa, xb, -, h3, h4, h5, h6, -, rfl⟩ := mem_valuesAt hb
  rw [List.getElem?_map, h3] at h5
  rw [List.getElem?_map, h4] at h6
  cases h5; cases h6
  simp only [pow_two]

theorem uniform_nodup {steps : List ℤ} {dt : K} {r v : Frame n d K} (hs : steps.Pairwise (· < ·)) (hdt : dt ≠ 0) (hv : v ≠ 0) :
    (Spec.uniform steps dt r v).Nodup := by
  unfold Spec.uniform
  refine List.Nodup.map ?_ (hs.imp fun h => h.ne)
  intro s t h
  obtain ⟨p, hp⟩ := Function.ne_iff.1 hv
  obtain ⟨c, hc⟩ := Function.ne_iff.1 hp
  have := congrFun (congrFun h p) c
  simp only at this
  have h1 := add_left_cancel this
  have h2 := mul_right_cancel₀ hdt (mul_left_cancel₀ hc h1)
  exact_mod_cast h2

/-- **C208**: the non-Gaussian parameter of particles in uniform motion is that of the distribution of their velocities, at all times
other than zero. -/
theorem C208_alpha2 (tr : Traj K) (dg : List (ℕ × ℕ)) (skip : ℕ) (r v : Frame n d K) (hskip : 0 < skip)
    (hs : tr.steps.Pairwise (· < ·)) (hdt : tr.timestep ≠ 0) (hv : v ≠ 0) :
    ∃ ts vs, alpha2Compute tr dg skip (Spec.uniform tr.steps tr.timestep r v) = .ok (ts, vs) ∧ ts.length = vs.length ∧
      ∀ p ∈ ts.zip vs, p.2 = some (if p.1 = 0 then 0 else
        3 * ((∑ q, (∑ c, v q c ^ 2) ^ 2) / n) / (5 * ((∑ q, ∑ c, v q c ^ 2) / n) ^ 2) - 1) := by
  have hnd := uniform_nodup (r := r) hs hdt hv
  obtain ⟨lags, -, h2, h3⟩ := alpha2_mean tr dg skip _ hskip (by simp [Spec.uniform]) hnd
  refine ⟨_, _, h3, by simp, ?_⟩
  intro p hp
  rw [List.zip_map'] at hp
  obtain ⟨δ, hδ, rfl⟩ := List.mem_map.1 hp
  have hpos := valuesAt_length (g := (ratio : Frame n d K → Frame n d K → K)) ((h2 δ).1 hδ)
  simp only [mul_eq_zero, Int.cast_eq_zero, hdt, or_false]
  congr 1
  refine mean_const hpos fun b hb => ?_
  obtain ⟨x, y, rfl, hxy⟩ := uniform_values hb
  by_cases h0 : δ = 0
  · rw [if_pos h0]
    have : x = y := by
      funext p c
      have := hxy p c
      rw [h0] at this
      simpa [sub_eq_zero] using this
    unfold ratio
    rw [if_pos this]
  · rw [if_neg h0]
    have ht : (δ : K) * tr.timestep ≠ 0 := mul_ne_zero (by exact_mod_cast h0) hdt
    obtain ⟨p, hp⟩ := Function.ne_iff.1 hv
    obtain ⟨c, hc⟩ := Function.ne_iff.1 hp
    have hne : x ≠ y := by
      rintro rfl
      have := hxy p c
      rw [sub_self] at this
      exact mul_ne_zero hc ht this.symm
    have hm := (moment_one_pos x y hne).ne'
    unfold ratio
    rw [if_neg hne]
    have e1 : Spec.moment 1 x y = ((∑ q, ∑ c, v q c ^ 2) / n) * ((δ : K) * tr.timestep) ^ 2 := by
      unfold Spec.moment
      simp only [uniform_disp2 hxy, pow_one, ← Finset.sum_mul]
      ring
    have e2 : Spec.moment 2 x y = ((∑ q, (∑ c, v q c ^ 2) ^ 2) / n) * (((δ : K) * tr.timestep) ^ 2) ^ 2 := by
      unfold Spec.moment
      simp only [uniform_disp2 hxy, mul_pow, ← Finset.sum_mul]
      ring
    rw [e1] at hm
    rw [e1, e2]
    have hA : (∑ q, ∑ c, v q c ^ 2) / (n : K) ≠ 0 := left_ne_zero_of_mul hm
    generalize (∑ q, ∑ c, v q c ^ 2) / (n : K) = A at hA ⊢
    generalize (∑ q, (∑ c, v q c ^ 2) ^ 2) / (n : K) = B
    generalize (δ : K) * tr.timestep = t at ht ⊢
    field_simp

/-- **C208**: it is `-2/5` if all the particles have the same speed. -/
theorem C208_alpha2_drift (tr : Traj K) (dg : List (ℕ × ℕ)) (skip : ℕ) (r v : Frame n d K) (s : K) (hskip : 0 < skip)
    (hs : tr.steps.Pairwise (· < ·)) (hdt : tr.timestep ≠ 0) (hn : 0 < n) (hs0 : s ≠ 0) (hv : ∀ p, ∑ c, v p c ^ 2 = s) :
    ∃ ts vs, alpha2Compute tr dg skip (Spec.uniform tr.steps tr.timestep r v) = .ok (ts, vs) ∧ ts.length = vs.length ∧
      ∀ p ∈ ts.zip vs, p.2 = some (if p.1 = 0 then 0 else -2 / 5) := by
  have hnK : (n : K) ≠ 0 := by exact_mod_cast hn.ne'
  obtain ⟨ts, vs, h1, h2, h3⟩ := C208_alpha2 tr dg skip r v hskip hs hdt (by
    rintro rfl
    exact hs0 (by rw [← hv ⟨0, hn⟩]; simp))
  refine ⟨ts, vs, h1, h2, fun p hp => ?_⟩
  rw [h3 p hp]
  simp only [hv, Finset.sum_const, Finset.card_univ, Fintype.card_fin, nsmul_eq_mul]
  congr 2
  field_simp
  norm_num

/-- **C208**: the dynamic susceptibility of particles in uniform motion is zero if the frames are evenly spaced in time. -/
theorem C208_chi4 (tr : Traj K) (r v : Frame n d K) (N : ℕ) (s δ : ℤ) (skip : ℕ) (a : K) (grid : List K) (dg : List (ℕ × ℕ))
    (hn : 0 < n) (hskip : 0 < skip) (hN : 0 < N) (hst : tr.steps = uniformSteps N s δ) (hg : ∀ g ∈ dg, g.1 + g.2 < N) :
    ∃ s' : Chi4State n d K, chi4ComputeFull tr (Spec.uniform tr.steps tr.timestep r v) skip a dg (.init grid) = .ok s' ∧
      s'.value = dg.map fun _ => 0 := by
  have hlen : (Spec.uniform tr.steps tr.timestep r v).length = N := by simp [Spec.uniform, hst, uniformSteps]
  obtain ⟨s', h1, h2⟩ := C206_chi4 tr (Spec.uniform tr.steps tr.timestep r v) skip a grid dg hn hskip (by rw [hlen]; exact hN)
    (by simpa [hst, uniformSteps] using hg)
  refine ⟨s', h1, ?_⟩
  have key : ∀ (g : ℕ × ℕ) (l : List ℕ), ∀ u ∈ Spec.overlaps a (Spec.uniform tr.steps tr.timestep r v) g.2 l,
      u = ((Finset.univ.filter fun q => (∑ c, v q c ^ 2) * (((δ * g.2 : ℤ) : K) * tr.timestep) ^ 2 < a ^ 2).card : K) := by
    intro g l u hu
    unfold Spec.overlaps at hu
    obtain ⟨i0, -, h⟩ := List.mem_filterMap.1 hu
    simp only [Spec.uniform, hst, uniformSteps, List.map_map, List.getElem?_map, bind, Option.bind] at h
    cases e1 : (List.range N)[i0]? <;> simp only [e1, Option.map_none, Option.map_some] at h <;> try cases h
    cases e2 : (List.range N)[i0 + g.2]? <;> simp only [e2, Option.map_none, Option.map_some] at h <;> try cases h
    obtain ⟨-, rfl⟩ := List.getElem?_eq_some_iff.1 e1
    obtain ⟨-, rfl⟩ := List.getElem?_eq_some_iff.1 e2
    congr 2
    refine Finset.filter_congr fun q _ => ?_
    rw [uniform_disp2 (v := v) (t := -(((δ * g.2 : ℤ) : K) * tr.timestep)) (fun p c => by
      simp only [Function.comp, List.getElem_range]; push_cast; ring), neg_sq]
  refine List.ext_getElem (by simpa using h2.length_eq.symm) fun i hi hi' => ?_
  rw [List.getElem_map]
  refine ((List.forall₂_iff_get.1 h2).2 i (by simpa using hi') hi).2 fun u hu w hw => ?_
  rw [key _ _ u hu, key _ _ w hw]

end

section
variable {d : ℕ}

theorem mean_repeat {ι κ : Type} (kl : List ι) (P : List κ) (hP : P ≠ []) (f : ι → List ℝ) :
    Spec.mean (kl.flatMap fun k => P.flatMap fun _ => f k) = Spec.mean (kl.flatMap f) := by
  have hsum : ∀ l : List ℝ, (P.flatMap fun _ => l).sum = P.length * l.sum := by
    intro l
    clear hP
    induction P with
    | nil => simp
    | cons a P ih => rw [List.flatMap_cons, List.sum_append, ih, List.length_cons]; push_cast; ring
  have hlen : ∀ l : List ℝ, (P.flatMap fun _ => l).length = P.length * l.length := by
    intro l
    clear hP hsum
    induction P with
    | nil => simp
    | cons a P ih => rw [List.flatMap_cons, List.length_append, ih, List.length_cons]; ring
  have h1 : (kl.flatMap fun k => P.flatMap fun _ => f k).sum = P.length * (kl.flatMap f).sum := by
    induction kl with
    | nil => simp
    | cons k kl ih => rw [List.flatMap_cons, List.sum_append, ih, hsum, List.flatMap_cons, List.sum_append, mul_add]
  have h2 : (kl.flatMap fun k => P.flatMap fun _ => f k).length = P.length * (kl.flatMap f).length := by
    clear h1
    induction kl with
    | nil => simp
    | cons k kl ih => rw [List.flatMap_cons, List.length_append, ih, hlen, List.flatMap_cons, List.length_append, mul_add]
  have h0 : (P.length : ℝ) ≠ 0 := by
    rw [Nat.cast_ne_zero]
    exact (List.length_pos_iff.2 hP).ne'
  unfold Spec.mean
  rw [h1, h2, Nat.cast_mul, mul_div_mul_left _ _ h0]

/-- Lists of positions at the given steps of particles that start from `r` and move with velocities `v`. -/
noncomputable def _root_.PP.Spec.uniformList (steps : List ℤ) (dt : ℝ) (r v : List (Vec d ℝ)) : List (List (Vec d ℝ)) :=
  steps.map fun (s : ℤ) => List.zipWith (fun x u c => x c + u c * ((s : ℝ) * dt)) r v

theorem framePairs_steps {X : Type} {steps : List ℤ} {skip : ℕ} {dg : List (ℕ × ℕ)} {h : ℤ → X} {δ : ℤ} {e : X × X}
    (he : e ∈ Spec.framePairs steps skip dg (steps.map h) δ) : ∃ s : ℤ, e = (h (s + δ), h s) := by
  unfold Spec.framePairs Spec.termsAt Spec.terms at he
  simp only [List.mem_map, List.mem_filter, List.mem_filterMap, decide_eq_true_eq] at he
  obtain ⟨w, ⟨⟨q, -, hq⟩, hd⟩, rfl⟩ := he
  unfold Spec.term at hq
  simp only [List.getElem?_map] at hq
  cases h1 : steps[q.1 + q.2]? <;> cases h2 : steps[q.1]? <;> simp only [h1, h2, Option.map_some, Option.map_none] at hq <;> try cases hq
  rename_i a b
  refine ⟨b, ?_⟩
  have : b + δ = a := by rw [← hd]; simp
  rw [this]

theorem framePairs_sampled {X : Type} {steps : List ℤ} {skip : ℕ} {dg : List (ℕ × ℕ)} {x : List X}
    (hs : x.length ≤ steps.length) {δ : ℤ} (h : Spec.Sampled steps skip dg x.length δ) :
    Spec.framePairs steps skip dg x δ ≠ [] := by
  have h1 := pairsAt_length_pos (mem_lagList.2 h)
  cases x with
  | nil =>
    obtain ⟨p, hp, -⟩ := h
    simp [Spec.sampled] at hp
  | cons x0 xs =>
    rw [framePairs_eq _ _ _ _ hs x0]
    intro e0
    rw [List.map_eq_nil_iff] at e0
    rw [e0] at h1
    simp at h1

/-- **C208**: the self intermediate scattering function of particles in uniform motion is the mean of `cos (k · v t)` over the
particles and the wave-vectors. -/
theorem C208_fskt (o : FsObj d) (r v : List (Vec d ℝ)) (hrv : r.length = v.length) (h : FsRegular o v.length)
    (hn : o.normalize = false) (hp : o.pos = Spec.uniformList o.steps o.timestep r v) :
    ∃ lags : List ℤ, (∀ δ, δ ∈ lags ↔ Spec.Sampled o.steps o.skip o.tgrid o.steps.length δ) ∧ fsLegacy o = .ok (lags.map fun t : ℤ => (t : ℝ) * o.timestep,
      (kvectorsGet o.ks).map fun kl => lags.map fun δ => Spec.mean (kl.flatMap fun k => v.map fun u =>
        Real.cos (Spec.dot k u * ((δ : ℝ) * o.timestep)))) := by
  obtain ⟨lags, -, h2, h3⟩ := C82_definition o h hn
  have hl : o.pos.length = o.steps.length := by rw [hp, Spec.uniformList, List.length_map]
  refine ⟨lags, fun δ => by rw [h2, hl], h3.trans ?_⟩
  congr 2
  refine List.map_congr_left fun kl hkl => List.map_congr_left fun δ hδ => ?_
  have hne := framePairs_sampled h.steps ((h2 δ).1 hδ)
  have hx : ∀ k, (Spec.framePairs o.steps o.skip o.tgrid o.pos δ).flatMap (fun ab => Spec.selfTerms k ab.1 ab.2) =
      (Spec.framePairs o.steps o.skip o.tgrid o.pos δ).flatMap fun _ => v.map fun u =>
        Real.cos (Spec.dot k u * ((δ : ℝ) * o.timestep)) := by
    intro k
    refine List.flatMap_congr fun e he => ?_
    rw [hp] at he
    obtain ⟨s, rfl⟩ := framePairs_steps he
    simp only [Spec.selfTerms]
    refine List.ext_getElem (by simp [hrv]) fun i h1 h2 => ?_
    simp only [List.getElem_zipWith, List.getElem_map]
    congr 1
    unfold Spec.dot
    rw [Finset.sum_mul]
    refine Finset.sum_congr rfl fun c _ => ?_
    push_cast
    ring
  simp only [hx]
  rw [mean_repeat kl _ hne]

/-- **C208**: the intermediate scattering function, before normalisation, of a system that moves as a whole with velocity `v` is the
mean over the wave-vectors of `cos (k · v t)` times the square modulus of the density mode. -/
theorem C208_fkt (o : FkObj d) (h : FkRegular o) (r : List (Vec d ℝ)) (v : Vec d ℝ)
    (hp0 : o.pos0 = o.steps.map fun (s : ℤ) => r.map fun x c => x c + v c * ((s : ℝ) * o.timestep)) (hp1 : o.pos1 = o.pos0) :
    ∃ (lags : List ℤ) (value : List (List ℝ)), (∀ δ, δ ∈ lags ↔ Spec.Sampled o.steps o.skip o.tgrid o.steps.length δ) ∧
      fkCompute o = .ok (lags.map fun t : ℤ => (t : ℝ) * o.timestep, value,
      (kvectorsGet o.ks).map fun kl => lags.map fun δ => Spec.mean (kl.map fun k =>
        Real.cos (Spec.dot k v * ((δ : ℝ) * o.timestep)) * ‖Spec.density k r‖ ^ 2)) := by
  obtain ⟨lags, -, h2, value, nonorm, h3, h4, -⟩ := C83_definition_partial o h
  have hl : o.pos0.length = o.steps.length := by rw [hp0, List.length_map]
  refine ⟨lags, value, fun δ => by rw [h2, hl], h3.trans ?_⟩
  rw [h4]
  congr 3
  refine List.map_congr_left fun kl hkl => List.map_congr_left fun δ hδ => ?_
  set P := Spec.framePairs o.steps o.skip o.tgrid (o.pos0.zip o.pos1) δ with hP
  have hz : (o.pos0.zip o.pos1).length = o.pos0.length := by rw [hp1, List.length_zip, Nat.min_self]
  have hne : P ≠ [] := framePairs_sampled (by rw [hz]; exact h.steps) (by rw [hz]; exact (h2 δ).1 hδ)
  have key : ∀ k, P.map (fun ab => (Spec.density k ab.1.1 * star (Spec.density k ab.2.2)).re) =
      P.flatMap fun _ => [Real.cos (Spec.dot k v * ((δ : ℝ) * o.timestep)) * ‖Spec.density k r‖ ^ 2] := by
    intro k
    rw [← List.map_eq_flatMap]
    refine List.map_congr_left fun e he => ?_
    have hz : o.pos0.zip o.pos1 = o.steps.map fun (s : ℤ) => ((r.map fun x c => x c + v c * ((s : ℝ) * o.timestep)),
        (r.map fun x c => x c + v c * ((s : ℝ) * o.timestep))) := by
      rw [hp1, hp0, List.zip_map']
    rw [hP, hz] at he
    obtain ⟨s, rfl⟩ := framePairs_steps he
    have e1 : Spec.density k (r.map fun x c => x c + v c * (((s + δ : ℤ) : ℝ) * o.timestep)) = _ :=
      density_translate k (fun c => v c * (((s + δ : ℤ) : ℝ) * o.timestep)) r
    have e2 : Spec.density k (r.map fun x c => x c + v c * ((s : ℝ) * o.timestep)) = _ :=
      density_translate k (fun c => v c * ((s : ℝ) * o.timestep)) r
    have e3 : ∀ τ : ℝ, Spec.dot k (fun c => v c * τ) = Spec.dot k v * τ := by
      intro τ
      unfold Spec.dot
      rw [Finset.sum_mul]
      exact Finset.sum_congr rfl fun c _ => (mul_assoc _ _ _).symm
    simp only
    rw [e1, e2, e3, e3, star_mul', star_ccis]
    have e4 : ccis (Spec.dot k v * (((s + δ : ℤ) : ℝ) * o.timestep)) * Spec.density k r *
        (ccis (-(Spec.dot k v * ((s : ℝ) * o.timestep))) * star (Spec.density k r)) =
        ccis (Spec.dot k v * ((δ : ℝ) * o.timestep)) * ((‖Spec.density k r‖ ^ 2 : ℝ) : ℂ) := by
      have e5 : ((‖Spec.density k r‖ ^ 2 : ℝ) : ℂ) = Spec.density k r * star (Spec.density k r) := by
        rw [← Complex.normSq_eq_norm_sq]
        exact (Complex.mul_conj _).symm
      have e6 : ccis (Spec.dot k v * ((δ : ℝ) * o.timestep)) =
          ccis (Spec.dot k v * (((s + δ : ℤ) : ℝ) * o.timestep)) * ccis (-(Spec.dot k v * ((s : ℝ) * o.timestep))) := by
        rw [← ccis_add]
        congr 1
        push_cast
        ring
      rw [e5, e6]
      ring
    rw [e4, Complex.re_mul_ofReal]
    congr 1
    unfold ccis
    rw [mul_comm, Complex.exp_ofReal_mul_I_re]
  simp only [key]
  rw [mean_repeat kl _ hne, ← List.map_eq_flatMap]

end

/-! ## Examples -/

/-- Two particles in one dimension, one of which moves twice as fast as the other. -/
def exMove : Frame 2 1 ℚ := fun p _ => if p = 0 then 1 else 2

def exMoveTraj : Traj ℚ := ⟨[0, 1, 2], 1, 1, 2, [1, 1, 1]⟩

def exMoveFrames : List (Frame 2 1 ℚ) := Spec.uniform exMoveTraj.steps exMoveTraj.timestep (fun _ _ => 0) exMove

example : qstCompute exMoveTraj [(0, 0), (0, 1), (0, 2)] 1 (3 / 2) exMoveFrames = .ok ([0, 1, 2], [some 1, some (1 / 2), some 0]) ∧
    vacfCompute exMoveTraj [(0, 0), (0, 1), (0, 2)] (exMoveTraj.steps.map fun _ => exMove) =
      .ok ([0, 1, 2], [some (5 / 2), some (5 / 2), some (5 / 2)]) ∧
    alpha2Compute exMoveTraj [(0, 0), (0, 1), (0, 2)] 1 exMoveFrames =
      .ok ([0, 1, 2], [some 0, some (-23 / 125), some (-23 / 125)]) := by
  decide +kernel

example := C208_overlap exMoveTraj [(0, 0), (0, 1), (0, 2)] 1 (3 / 2) (fun _ _ => 0) exMove [0, 1, 2] [some 1, some (1 / 2), some 0]
  two_pos one_pos (by decide +kernel)

example := C208_vacf exMoveTraj [(0, 0), (0, 1), (0, 2)] exMove [0, 1, 2] [some (5 / 2), some (5 / 2), some (5 / 2)]
  two_pos one_pos (by decide +kernel)

example := C208_alpha2 exMoveTraj [(0, 0), (0, 1), (0, 2)] 1 (fun _ _ => 0) exMove one_pos (by decide) one_ne_zero
  (fun h => by simpa [exMove] using congrFun (congrFun h 0) 0)

example := C208_alpha2_drift exMoveTraj [(0, 0), (0, 1), (0, 2)] 1 (exMove) (fun p _ => if p = 0 then 2 else -2) 4 one_pos (by decide)
  one_ne_zero two_pos (by norm_num) (by decide +kernel)

example : ∃ s' : Chi4State 2 1 ℚ, chi4ComputeFull exMoveTraj exMoveFrames 1 (3 / 2) [(0, 0), (0, 1)] (.init []) = .ok s' ∧
    s'.value = [0, 0] :=
  C208_chi4 exMoveTraj (fun _ _ => 0) exMove 3 0 1 1 (3 / 2) [] [(0, 0), (0, 1)] two_pos one_pos (by norm_num) (by decide) (by decide)

/-- Steps that are not evenly spaced: the two particles move by different lengths in the two pairs of frames. -/
example : (chi4ComputeFull ⟨[0, 1, 3, 4], 1, 1, 3, [1, 1, 1, 1]⟩ (Spec.uniform [0, 1, 3, 4] 1 (fun _ _ => 0) exMove) 1 (3 / 2) [(0, 1)]
    (.init [])).map (fun s => s.value) = .ok [1 / 8] := by decide +kernel

/-- Two particles of which one is at rest and the other moves, with two shells of wave-vectors. -/
noncomputable def exMoveFs : FsObj 3 :=
  { exFs with normalize := false, pos := Spec.uniformList [0, 1, 3] (1 / 2) [![0, 0, 0], ![1, 2, 3]] [![0, 0, 0], ![1, 0, 0]] }

theorem exMoveFs_regular : FsRegular exMoveFs 2 := by
  refine ⟨by simp [exMoveFs, exFs, Spec.uniformList], by simp [exMoveFs, exFs, Spec.uniformList], by simp [exMoveFs, exFs, Spec.uniformList],
    by simp [exMoveFs, exFs, Spec.uniformList], two_pos, exKs_allowed, by simp [exMoveFs, exFs, exKs],
    by simp [exMoveFs, exFs, exKs], by simp [exMoveFs, exFs, exKs]⟩

example := C208_fskt exMoveFs [![0, 0, 0], ![1, 2, 3]] [![0, 0, 0], ![1, 0, 0]] rfl exMoveFs_regular rfl rfl

/-- The same two particles, that move together. -/
noncomputable def exMoveFk : FkObj 3 :=
  let pos := [0, 1, 3].map fun (s : ℤ) => [![0, 0, 0], ![1, 2, 3]].map fun (x : Vec 3 ℝ) c => x c + (![1, 0, 0] : Vec 3 ℝ) c * ((s : ℝ) * (1 / 2))
  { exFk with same := true, pos0 := pos, pos1 := pos }

theorem exMoveFk_regular : FkRegular exMoveFk :=
  ⟨Or.inr rfl, by simp [exMoveFk, exFk], by simp [exMoveFk, exFk], by simp [exMoveFk], by simp [exMoveFk],
    by simp [exMoveFk], by simp [exMoveFk], exKs_allowed,
    by simp [exMoveFk, exFk, exKs], by simp [exMoveFk, exFk, exKs], by simp [exMoveFk, exFk, exKs]⟩

example := C208_fkt exMoveFk exMoveFk_regular [![0, 0, 0], ![1, 2, 3]] ![1, 0, 0] rfl rfl

end PP.Props
