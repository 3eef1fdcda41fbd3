import Verif.Props.Overlap

/-!
# C121, C122: the non-Gaussian parameter and its reference value
-/

set_option linter.unusedSectionVars false

namespace PP.Spec

variable {K : Type} [Field K] {n d : ℕ}

/-- Mean over the particles of the `2m`-th power of the displacement. -/
def moment (m : ℕ) (x y : Frame n d K) : K := (∑ p, disp2 x y p ^ m) / (n : K)

/-- The second and fourth moment of the displacements are those of a Gaussian with independent components of equal
variance: `d <r^4> = (d + 2) <r^2>^2`. -/
def Gaussian (x y : Frame n d K) : Prop := (d : K) * moment 2 x y = ((d : K) + 2) * moment 1 x y ^ 2

/-- The pairs of frames, later and earlier, that are at lag `δ` and whose origin is used. -/
def framesAt (skip : ℕ) (dg : List (ℕ × ℕ)) (steps : List ℤ) (pos : List (Frame n d K)) (δ : ℤ) :
    List (Frame n d K × Frame n d K) :=
  termsAt δ (terms steps pos (sampled pos.length skip dg))

/-- The usual definition in three dimensions: both moments are averaged over particles and time origins. -/
def alpha2 (l : List (Frame n d K × Frame n d K)) : K :=
  3 * mean (l.map fun p => moment 2 p.1 p.2) / (5 * mean (l.map fun p => moment 1 p.1 p.2) ^ 2) - 1

end PP.Spec

namespace PP.Props
open PP

variable {K : Type} [Field K] [LinearOrder K] [IsStrictOrderedRing K] [FloorRing K] {n d : ℕ}

theorem valuesAt_map {T X Y K : Type} [DecidableEq T] [Sub T] (g : Y → Y → K) (h : X → Y) (skip : ℕ)
    (grid : List (ℕ × ℕ)) (t : List T) (x : List X) (δ : T) :
    Spec.valuesAt g skip grid t (x.map h) δ = Spec.valuesAt (fun a b => g (h a) (h b)) skip grid t x δ := by
  have e : Spec.term t (x.map h) = fun p => (Spec.term t x p).map fun e => (e.1, h e.2.1, h e.2.2) := by
    funext p
    unfold Spec.term
    rw [List.getElem?_map, List.getElem?_map]
    cases t[p.1 + p.2]? <;> cases t[p.1]? <;> cases x[p.1 + p.2]? <;> cases x[p.1]? <;> rfl
  unfold Spec.valuesAt Spec.termsAt Spec.terms
  rw [List.length_map, e, ← List.map_filterMap, List.filter_map, List.map_map, List.map_map, List.map_map]
  rfl

theorem moment_one (x y : Frame n d K) : Spec.moment 1 x y = sqDisp x y / n := by
  unfold Spec.moment sqDisp
  simp only [pow_one]
  rfl

theorem moment_one_pos (x y : Frame n d K) (h : x ≠ y) : 0 < Spec.moment 1 x y := by
  obtain ⟨p, hp⟩ := Function.ne_iff.1 h
  obtain ⟨c, hc⟩ := Function.ne_iff.1 hp
  have hn : (0 : K) < n := by exact_mod_cast p.pos
  refine div_pos ?_ hn
  refine Finset.sum_pos' (fun p _ => by unfold Spec.disp2; positivity) ⟨p, Finset.mem_univ p, ?_⟩
  rw [pow_one]
  refine Finset.sum_pos' (fun c _ => by positivity) ⟨c, Finset.mem_univ c, ?_⟩
  have : x p c - y p c ≠ 0 := sub_ne_zero.2 hc
  positivity

/-- One pair of frames. -/
noncomputable def ratio (x y : Frame n d K) : K :=
  open Classical in if x = y then 0 else 3 * Spec.moment 2 x y / (5 * Spec.moment 1 x y ^ 2) - 1

theorem alpha2Kernel_ratio (pos : List (Frame n d K)) (hnd : pos.Nodup) :
    ∀ a ∈ (pos.zipIdx.map fun e : Frame n d K × ℕ => (e.2, e.1)), ∀ b ∈ (pos.zipIdx.map fun e : Frame n d K × ℕ => (e.2, e.1)),
      alpha2Kernel a b = .ok (some (ratio a.2 b.2)) := by
  have hmem : ∀ a ∈ (pos.zipIdx.map fun e : Frame n d K × ℕ => (e.2, e.1)), pos[a.1]? = some a.2 := by
    intro a ha
    obtain ⟨e, he, rfl⟩ := List.mem_map.1 ha
    exact List.mem_zipIdx_iff_getElem?.1 he
  intro a ha b hb
  have h1 := hmem a ha
  have h2 := hmem b hb
  by_cases hab : a.1 = b.1
  · have : a.2 = b.2 := by
      rw [hab, h2] at h1
      exact (Option.some.inj h1).symm
    unfold alpha2Kernel ratio
    rw [if_pos hab, if_pos this]
  · have hne : a.2 ≠ b.2 := by
      intro e
      obtain ⟨l1, e1⟩ := List.getElem?_eq_some_iff.1 h1
      obtain ⟨l2, e2⟩ := List.getElem?_eq_some_iff.1 h2
      exact hab ((hnd.getElem_inj_iff (hi := l1) (hj := l2)).1 (by rw [e1, e2, e]))
    have hn : n ≠ 0 := by
      obtain ⟨p, -⟩ := Function.ne_iff.1 hne
      exact p.pos.ne'
    have h0 : sqDisp a.2 b.2 / (n : K) ≠ 0 := by
      rw [← moment_one]
      exact (moment_one_pos _ _ hne).ne'
    unfold alpha2Kernel ratio perParticle
    simp only [if_neg hab, if_neg hne, if_neg hn, if_neg h0]
    rw [moment_one]
    rfl

/-- If some particle moves between any two frames, the value at a lag is the mean of the values of the pairs. -/
theorem alpha2_mean (tr : Traj K) (dg : List (ℕ × ℕ)) (skip : ℕ) (pos : List (Frame n d K))
    (hskip : 0 < skip) (hlen : pos.length ≤ tr.steps.length) (hnd : pos.Nodup) :
    ∃ lags : List ℤ, lags.Pairwise (· < ·) ∧
      (∀ δ, δ ∈ lags ↔ ∃ e ∈ Spec.terms tr.steps pos (Spec.sampled pos.length skip dg), e.1 = δ) ∧
      alpha2Compute tr dg skip pos = .ok (lags.map fun δ : ℤ => (δ : K) * tr.timestep,
        lags.map fun δ => some (Spec.mean (Spec.valuesAt ratio skip dg tr.steps pos δ))) := by
  set x : List (ℕ × Frame n d K) := pos.zipIdx.map fun e => (e.2, e.1) with hx
  have hxp : x.map Prod.snd = pos := by
    rw [hx, List.map_map]
    exact List.zipIdx_map_fst 0 pos
  have hxl : x.length = pos.length := by simp [hx]
  have hf : ∀ a ∈ x, ∀ b ∈ x, alpha2Kernel a b = .ok (some (ratio a.2 b.2)) := alpha2Kernel_ratio pos hnd
  obtain ⟨lags, h1, h2, h3⟩ := timeCorr_mean (dg := dg) (tr := tr) (x := x) hskip (by rw [hxl]; exact hlen) hf
  have hval : ∀ δ, Spec.valuesAt (fun a b : ℕ × Frame n d K => ratio a.2 b.2) skip dg tr.steps x δ
      = Spec.valuesAt ratio skip dg tr.steps pos δ := by
    intro δ
    rw [← valuesAt_map, hxp]
  refine ⟨lags, h1, ?_, ?_⟩
  · intro δ
    rw [h2]
    have := fun δ => congrArg List.length (hval δ)
    have key : ∀ {X : Type} (y : List X) (r : X → X → K), (∃ e ∈ Spec.terms tr.steps y (Spec.sampled y.length skip dg), e.1 = δ)
        ↔ 0 < (Spec.valuesAt r skip dg tr.steps y δ).length := by
      intro X y r
      refine ⟨valuesAt_length, ?_⟩
      intro h
      unfold Spec.valuesAt Spec.termsAt at h
      rw [List.length_map, List.length_map, List.length_pos_iff_exists_mem] at h
      obtain ⟨e, he⟩ := h
      obtain ⟨h1, h2⟩ := List.mem_filter.1 he
      exact ⟨e, h1, of_decide_eq_true h2⟩
    rw [key x (fun a b : ℕ × Frame n d K => ratio a.2 b.2), key pos ratio, hval]
  · unfold alpha2Compute
    rw [← hx, h3]
    simp only [hval]

/-- The frames of a pair at lag `δ ≠ 0` are different frames. -/
theorem framesAt_ne {steps : List ℤ} {pos : List (Frame n d K)} {skip : ℕ} {dg : List (ℕ × ℕ)} {δ : ℤ}
    (hnd : pos.Nodup) (hδ : δ ≠ 0) {q : Frame n d K × Frame n d K}
    (hq : q ∈ Spec.framesAt skip dg steps pos δ) : q.1 ∈ pos ∧ q.2 ∈ pos ∧ q.1 ≠ q.2 := by
  unfold Spec.framesAt Spec.termsAt Spec.terms at hq
  simp only [List.mem_map, List.mem_filter, List.mem_filterMap, decide_eq_true_eq] at hq
  obtain ⟨e, ⟨⟨s, -, hse⟩, hd⟩, rfl⟩ := hq
  unfold Spec.term at hse
  cases h1 : steps[s.1 + s.2]? <;> cases h2 : steps[s.1]? <;> cases h3 : pos[s.1 + s.2]? <;>
    cases h4 : pos[s.1]? <;> simp only [h1, h2, h3, h4] at hse <;> try cases hse
  obtain ⟨l1, e1⟩ := List.getElem?_eq_some_iff.1 h3
  obtain ⟨l2, e2⟩ := List.getElem?_eq_some_iff.1 h4
  refine ⟨List.mem_of_getElem? h3, List.mem_of_getElem? h4, ?_⟩
  intro e
  have := (hnd.getElem_inj_iff (hi := l1) (hj := l2)).1 (by rw [e1, e2]; exact e)
  rw [this] at h1
  rw [h1] at h2
  cases h2
  exact hδ (by rw [← hd]; exact sub_self _)

/-- The frames of a pair at lag zero are the same frame. -/
theorem framesAt_zero {steps : List ℤ} {pos : List (Frame n d K)} {skip : ℕ} {dg : List (ℕ × ℕ)}
    (hs : steps.Pairwise (· < ·)) {q : Frame n d K × Frame n d K}
    (hq : q ∈ Spec.framesAt skip dg steps pos 0) : q.1 = q.2 := by
  unfold Spec.framesAt Spec.termsAt Spec.terms at hq
  simp only [List.mem_map, List.mem_filter, List.mem_filterMap, decide_eq_true_eq] at hq
  obtain ⟨e, ⟨⟨s, -, hse⟩, hd⟩, rfl⟩ := hq
  unfold Spec.term at hse
  cases h1 : steps[s.1 + s.2]? <;> cases h2 : steps[s.1]? <;> cases h3 : pos[s.1 + s.2]? <;>
    cases h4 : pos[s.1]? <;> simp only [h1, h2, h3, h4] at hse <;> try cases hse
  have := lag_zero_same hs h1 h2 hd
  rw [this, h4] at h3
  exact (Option.some.inj h3).symm

theorem ratio_gaussian (x y : Frame n d K) (hne : x ≠ y) (h : Spec.Gaussian x y) :
    ratio x y = (6 - 2 * (d : K)) / (5 * d) := by
  have h0 := (moment_one_pos x y hne).ne'
  have hd : (d : K) ≠ 0 := by
    obtain ⟨p, hp⟩ := Function.ne_iff.1 hne
    obtain ⟨c, -⟩ := Function.ne_iff.1 hp
    exact_mod_cast c.pos.ne'
  unfold Spec.Gaussian at h
  unfold ratio
  rw [if_neg hne]
  have : Spec.moment 2 x y = ((d : K) + 2) * Spec.moment 1 x y ^ 2 / d := by
    rw [eq_div_iff hd, mul_comm]
    exact h
  rw [this]
  field_simp
  ring

/-- **C121, partial.** If between any two frames the moments of the displacements are those of a Gaussian, every value at
a time other than zero is `(6 - 2d) / (5d)`, where `d` is the number of spatial dimensions. -/
theorem C121_value_partial (tr : Traj K) (dg : List (ℕ × ℕ)) (skip : ℕ) (pos : List (Frame n d K))
    (hskip : 0 < skip) (hlen : pos.length ≤ tr.steps.length) (hs : tr.steps.Pairwise (· < ·)) (hdt : tr.timestep ≠ 0)
    (hG : pos.Pairwise fun x y => x ≠ y ∧ Spec.Gaussian x y) :
    ∃ ts vs, alpha2Compute tr dg skip pos = .ok (ts, vs) ∧ ts.length = vs.length ∧
      ∀ p ∈ ts.zip vs, p.2 = some (if p.1 = 0 then 0 else (6 - 2 * (d : K)) / (5 * d)) := by
  have hnd : pos.Nodup := hG.imp fun h => h.1
  obtain ⟨lags, -, h2, h3⟩ := alpha2_mean tr dg skip pos hskip hlen hnd
  refine ⟨_, _, h3, by simp, ?_⟩
  intro p hp
  rw [List.zip_map'] at hp
  obtain ⟨δ, hδ, rfl⟩ := List.mem_map.1 hp
  have hpos := valuesAt_length (g := (ratio : Frame n d K → Frame n d K → K)) ((h2 δ).1 hδ)
  simp only [mul_eq_zero, Int.cast_eq_zero, hdt, or_false]
  congr 1
  by_cases h0 : δ = 0
  · rw [if_pos h0]
    subst h0
    refine mean_const hpos ?_
    intro a ha
    obtain ⟨q, hq, rfl⟩ := List.mem_map.1 ha
    have := framesAt_zero hs hq
    unfold ratio
    rw [if_pos this]
  · rw [if_neg h0]
    refine mean_const hpos ?_
    intro a ha
    obtain ⟨q, hq, rfl⟩ := List.mem_map.1 ha
    obtain ⟨m1, m2, hne⟩ := framesAt_ne hnd h0 hq
    refine ratio_gaussian _ _ hne ?_
    have hsymm : ∀ x y : Frame n d K, Spec.Gaussian x y → Spec.Gaussian y x := by
      intro x y h
      have : Spec.disp2 y x = Spec.disp2 x y := by
        funext p
        exact Finset.sum_congr rfl fun c _ => by ring
      unfold Spec.Gaussian Spec.moment at *
      rw [this]
      exact h
    haveI : Std.Symm fun x y : Frame n d K => x ≠ y ∧ Spec.Gaussian x y := ⟨fun _ _ h => ⟨h.1.symm, hsymm _ _ h.2⟩⟩
    exact (hG.forall m1 m2 hne).2

/-- **C121, partial.** In three dimensions the non-Gaussian parameter of Gaussian displacements is zero at all times. -/
theorem C121_three_partial (tr : Traj K) (dg : List (ℕ × ℕ)) (skip : ℕ) (pos : List (Frame n 3 K))
    (hskip : 0 < skip) (hlen : pos.length ≤ tr.steps.length) (hs : tr.steps.Pairwise (· < ·)) (hdt : tr.timestep ≠ 0)
    (hG : pos.Pairwise fun x y => x ≠ y ∧ Spec.Gaussian x y) :
    ∃ ts vs, alpha2Compute tr dg skip pos = .ok (ts, vs) ∧ ts.length = vs.length ∧ ∀ v ∈ vs, v = some 0 := by
  obtain ⟨ts, vs, h, hl, hv⟩ := C121_value_partial tr dg skip pos hskip hlen hs hdt hG
  refine ⟨ts, vs, h, hl, ?_⟩
  intro v hm
  obtain ⟨i, hi, rfl⟩ := List.getElem_of_mem hm
  have := hv (ts[i]'(by omega), vs[i]) (by
    rw [← List.getElem_zip (h := by rw [List.length_zip]; omega)]
    exact List.getElem_mem _)
  rw [show vs[i] = _ from this]
  norm_num

/-- **C121, false.** In any other number of dimensions it is not zero, at any time other than zero. -/
theorem C121_counterexample (tr : Traj K) (dg : List (ℕ × ℕ)) (skip : ℕ) (pos : List (Frame n d K)) (hd : d ≠ 3)
    (hskip : 0 < skip) (hlen : pos.length ≤ tr.steps.length) (hs : tr.steps.Pairwise (· < ·)) (hdt : tr.timestep ≠ 0)
    (hG : pos.Pairwise fun x y => x ≠ y ∧ Spec.Gaussian x y) (h2 : 2 ≤ pos.length) :
    ∃ ts vs, alpha2Compute tr dg skip pos = .ok (ts, vs) ∧ ts.length = vs.length ∧
      ∀ p ∈ ts.zip vs, p.1 ≠ 0 → ∃ v, p.2 = some v ∧ v ≠ 0 := by
  obtain ⟨ts, vs, h, hl, hv⟩ := C121_value_partial tr dg skip pos hskip hlen hs hdt hG
  refine ⟨ts, vs, h, hl, ?_⟩
  intro p hp h0
  refine ⟨_, hv p hp, ?_⟩
  rw [if_neg h0]
  have hd0 : (d : K) ≠ 0 := by
    match pos, h2, hG with
    | a :: b :: _, _, hG =>
      have := (List.pairwise_cons.1 hG).1 b (by simp)
      obtain ⟨p, hp⟩ := Function.ne_iff.1 this.1
      obtain ⟨c, -⟩ := Function.ne_iff.1 hp
      exact_mod_cast c.pos.ne'
  refine div_ne_zero ?_ (mul_ne_zero (by norm_num) hd0)
  intro e
  have : (d : K) = (3 : ℕ) := by push_cast; linarith
  exact hd (by exact_mod_cast this)

instance [DecidableEq K] (x y : Frame n d K) : Decidable (Spec.Gaussian x y) :=
  inferInstanceAs (Decidable (_ = _))

/-- Two of six particles move, in opposite directions on a line. -/
def exGauss1 (c : ℚ) : Frame 6 1 ℚ := ![![0], ![0], ![0], ![0], ![c], ![-c]]

/-- Three of five particles move in space, each along an axis. -/
def exGauss3 (c : ℚ) : Frame 5 3 ℚ := ![![0, 0, 0], ![c, 0, 0], ![0, c, 0], ![0, 0, c], ![1, 2, 3]]

example :
    alpha2Compute (K := ℚ) ⟨[0, 1, 2], 1, 1, 2, [6, 6, 6]⟩ [(0, 0), (0, 1), (0, 2)] 1 ([0, 1, 2].map exGauss1)
      = .ok ([0, 1, 2], [some 0, some (4 / 5), some (4 / 5)]) ∧
    ([0, 1, 2].map exGauss1).Pairwise (fun x y => x ≠ y ∧ Spec.Gaussian x y) ∧
    alpha2Compute (K := ℚ) ⟨[0, 1, 2], 1, 1, 2, [5, 5, 5]⟩ [(0, 0), (0, 1), (0, 2)] 1 ([0, 1, 2].map exGauss3)
      = .ok ([0, 1, 2], [some 0, some 0, some 0]) ∧
    ([0, 1, 2].map exGauss3).Pairwise (fun x y => x ≠ y ∧ Spec.Gaussian x y) := by
  refine ⟨?_, ?_, ?_, ?_⟩ <;> decide +kernel

/-! ## C122 -/

/-- **C122, partial.** If the mean square displacement is the same for all time origins, e.g. if there is a single one,
the values are those of the usual definition. -/
theorem C122_partial (tr : Traj K) (dg : List (ℕ × ℕ)) (skip : ℕ) (pos : List (Frame n d K))
    (hskip : 0 < skip) (hlen : pos.length ≤ tr.steps.length) (hnd : pos.Nodup)
    (hm : ∀ δ, ∀ p ∈ Spec.framesAt skip dg tr.steps pos δ, ∀ q ∈ Spec.framesAt skip dg tr.steps pos δ,
      Spec.moment 1 p.1 p.2 = Spec.moment 1 q.1 q.2) :
    ∃ lags : List ℤ, lags.Pairwise (· < ·) ∧ (∀ δ, δ ∈ lags ↔ Spec.framesAt skip dg tr.steps pos δ ≠ []) ∧
      ∃ vs, alpha2Compute tr dg skip pos = .ok (lags.map fun δ : ℤ => (δ : K) * tr.timestep, vs) ∧
        vs.length = lags.length ∧
        ∀ p ∈ lags.zip vs, p.1 ≠ 0 → p.2 = some (Spec.alpha2 (Spec.framesAt skip dg tr.steps pos p.1)) := by
  obtain ⟨lags, h1, h2, h3⟩ := alpha2_mean tr dg skip pos hskip hlen hnd
  have hne : ∀ δ, δ ∈ lags ↔ Spec.framesAt skip dg tr.steps pos δ ≠ [] := by
    intro δ
    rw [h2]
    unfold Spec.framesAt Spec.termsAt
    rw [ne_eq, List.map_eq_nil_iff, List.filter_eq_nil_iff]
    simp
  refine ⟨lags, h1, hne, _, h3, by simp, ?_⟩
  intro p hp h0
  rw [show lags.zip (lags.map fun δ => some (Spec.mean (Spec.valuesAt ratio skip dg tr.steps pos δ)))
    = lags.map fun δ => (δ, some (Spec.mean (Spec.valuesAt ratio skip dg tr.steps pos δ))) from by
      conv_lhs => rw [← List.map_id lags, List.map_map]
      rw [List.zip_map']
      rfl] at hp
  obtain ⟨δ, hδ, rfl⟩ := List.mem_map.1 hp
  simp only at h0 ⊢
  congr 1
  set L := Spec.framesAt skip dg tr.steps pos δ with hL
  have hLne : L ≠ [] := (hne δ).1 hδ
  obtain ⟨q0, hq0⟩ := List.exists_mem_of_ne_nil _ hLne
  set m := Spec.moment 1 q0.1 q0.2 with hmd
  have hmpos : m ≠ 0 := (moment_one_pos _ _ (framesAt_ne hnd h0 hq0).2.2).ne'
  have hlen' : (L.length : K) ≠ 0 := by exact_mod_cast (List.length_pos_of_ne_nil hLne).ne'
  have e1 : Spec.mean (L.map fun p => Spec.moment 1 p.1 p.2) = m := by
    refine mean_const (by rw [List.length_map]; exact List.length_pos_of_ne_nil hLne) ?_
    intro a ha
    obtain ⟨q, hq, rfl⟩ := List.mem_map.1 ha
    exact hm δ q hq q0 hq0
  have e2 : Spec.valuesAt ratio skip dg tr.steps pos δ
      = L.map fun p => 3 / (5 * m ^ 2) * Spec.moment 2 p.1 p.2 + -1 := by
    unfold Spec.valuesAt
    refine List.map_congr_left ?_
    intro q hq
    have hq' : q ∈ L := hq
    unfold ratio
    rw [if_neg (framesAt_ne hnd h0 hq').2.2, hm δ q hq' q0 hq0]
    ring
  unfold Spec.alpha2
  rw [e1, e2]
  unfold Spec.mean
  rw [List.length_map, List.length_map, List.sum_map_add, List.sum_map_mul_left, List.map_const', List.sum_replicate]
  field_simp
  simp
  ring

/-- **C122, false.** With a single particle the value is `-2/5` at all times other than zero, however the particle
moves; the usual definition gives other values (see the example). -/
theorem C122_counterexample (tr : Traj K) (dg : List (ℕ × ℕ)) (skip : ℕ) (pos : List (Frame 1 d K))
    (hskip : 0 < skip) (hlen : pos.length ≤ tr.steps.length) (hs : tr.steps.Pairwise (· < ·)) (hdt : tr.timestep ≠ 0)
    (hnd : pos.Nodup) :
    ∃ ts vs, alpha2Compute tr dg skip pos = .ok (ts, vs) ∧ ts.length = vs.length ∧
      ∀ p ∈ ts.zip vs, p.1 ≠ 0 → p.2 = some (-2 / 5) := by
  obtain ⟨lags, -, h2, h3⟩ := alpha2_mean tr dg skip pos hskip hlen hnd
  refine ⟨_, _, h3, by simp, ?_⟩
  intro p hp h0
  rw [List.zip_map'] at hp
  obtain ⟨δ, hδ, rfl⟩ := List.mem_map.1 hp
  have hδ0 : δ ≠ 0 := by
    rintro rfl
    simp at h0
  simp only
  congr 1
  refine mean_const (valuesAt_length ((h2 δ).1 hδ)) ?_
  intro a ha
  obtain ⟨q, hq, rfl⟩ := List.mem_map.1 ha
  have hne := (framesAt_ne hnd hδ0 hq).2.2
  have h1 := (moment_one_pos _ _ hne).ne'
  have e : Spec.moment 2 q.1 q.2 = Spec.moment 1 q.1 q.2 ^ 2 := by
    unfold Spec.moment
    simp
  unfold ratio
  rw [if_neg hne, e]
  field_simp
  norm_num

/-- A particle at 0, 1 and 3: the value after one step should be -23/125. With two particles that move by 1 and 2 in
each of the steps, the mean square displacement is the same for the two origins and the values are right. -/
example :
    alpha2Compute (K := ℚ) (n := 1) (d := 1) ⟨[0, 1, 2], 1, 1, 2, [1, 1, 1]⟩ [(0, 0), (0, 1)] 1 [![![0]], ![![1]], ![![3]]]
      = .ok ([0, 1], [some 0, some (-2 / 5)]) ∧
    Spec.alpha2 (Spec.framesAt 1 [(0, 0), (0, 1)] [0, 1, 2] [(![![0]] : Frame 1 1 ℚ), ![![1]], ![![3]]] 1) = -23 / 125 ∧
    alpha2Compute (K := ℚ) (n := 2) (d := 1) ⟨[0, 1, 2], 1, 1, 2, [2, 2, 2]⟩ [(0, 0), (0, 1)] 1
      [![![0], ![0]], ![![1], ![2]], ![![3], ![3]]] = .ok ([0, 1], [some 0, some (-23 / 125)]) ∧
    (∀ p ∈ Spec.framesAt 1 [(0, 0), (0, 1)] [0, 1, 2] [(![![0], ![0]] : Frame 2 1 ℚ), ![![1], ![2]], ![![3], ![3]]] 1,
      Spec.moment 1 p.1 p.2 = 5 / 2) := by
  refine ⟨?_, ?_, ?_, ?_⟩ <;> decide +kernel

end PP.Props
