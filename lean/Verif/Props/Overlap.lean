import Verif.Props.Msd

/-!
# C28-C33: non-Gaussian parameter, overlaps, four-point susceptibility, repeated calls
-/

set_option linter.unusedSectionVars false

namespace PP.Props
open PP

variable {K : Type} [Field K] [LinearOrder K] [IsStrictOrderedRing K] [FloorRing K] {n d : ℕ}

/-! ## C28 -/

/-- Squared displacement of particle `p`. -/
def _root_.PP.Spec.disp2 (x y : Frame n d K) (p : Fin n) : K := ∑ c, (x p c - y p c) ^ 2

/-- **C28**, kernel: between two distinct frames in which at least one particle moved, the non-Gaussian
parameter is a number `≥ -2/5`, with equality if and only if all displacements have the same length. -/
theorem C28_alpha2_bound (i j : ℕ) (x y : Frame n d K) (hij : i ≠ j) (hne : x ≠ y) :
    ∃ v, alpha2Kernel (i, x) (j, y) = .ok (some v) ∧ -2 / 5 ≤ v ∧
      (v = -2 / 5 ↔ ∀ p q, Spec.disp2 x y p = Spec.disp2 x y q) := by
  have hn : 0 < n := by
    rcases Nat.eq_zero_or_pos n with rfl | h
    · exact absurd (funext fun p => p.elim0) hne
    · exact h
  have hn' : (0 : K) < n := by exact_mod_cast hn
  have hpos : 0 < sqDisp x y := by
    have h0 : 0 ≤ sqDisp x y := by unfold sqDisp; positivity
    refine lt_of_le_of_ne h0 fun h => hne ?_
    funext p c
    unfold sqDisp at h
    have h1 := (Finset.sum_eq_zero_iff_of_nonneg (fun p _ => by positivity)).1 h.symm p (Finset.mem_univ p)
    have h2 := (Finset.sum_eq_zero_iff_of_nonneg (fun c _ => by positivity)).1 h1 c (Finset.mem_univ c)
    have := pow_eq_zero_iff (two_ne_zero) |>.1 h2
    linarith
  set a : Fin n → K := Spec.disp2 x y with ha
  have hS : sqDisp x y = ∑ p, a p := rfl
  set S := ∑ p, a p with hSdef
  set Q := ∑ p, a p ^ 2 with hQ
  have hSpos : 0 < S := by rw [← hS]; exact hpos
  have hdr2 : S / (n : K) ≠ 0 := by positivity
  refine ⟨3 * (Q / n) / (5 * (S / n) ^ 2) - 1, ?_, ?_, ?_⟩
  · unfold alpha2Kernel perParticle
    simp only [if_neg hij, if_neg hn.ne']
    rw [hS, if_neg hdr2]
    rfl
  · have hcs : S ^ 2 ≤ n * Q := by
      have := sq_sum_le_card_mul_sum_sq (s := Finset.univ) (f := a)
      simpa using this
    have e : 3 * (Q / n) / (5 * (S / n) ^ 2) = 3 / 5 * (n * Q / S ^ 2) := by field_simp
    rw [e]
    have : 1 ≤ n * Q / S ^ 2 := by rw [one_le_div (by positivity)]; exact hcs
    linarith
  · have e : 3 * (Q / n) / (5 * (S / n) ^ 2) - 1 = -2 / 5 + 3 / 5 * ((n * Q - S ^ 2) / S ^ 2) := by
      field_simp; ring
    rw [e]
    have hvar : ∑ p, (n * a p - S) ^ 2 = n * (n * Q - S ^ 2) := by
      have : ∀ p, (n * a p - S) ^ 2 = n ^ 2 * a p ^ 2 - 2 * n * S * a p + S ^ 2 := by intro p; ring
      simp only [this]
      rw [Finset.sum_add_distrib, Finset.sum_sub_distrib, ← Finset.mul_sum, ← Finset.mul_sum]
      simp only [Finset.sum_const, Finset.card_univ, Fintype.card_fin, nsmul_eq_mul]
      rw [← hQ, ← hSdef]; ring
    constructor
    · intro h
      have h1 : (n * Q - S ^ 2) / S ^ 2 = 0 := by linarith
      have h2 : n * Q - S ^ 2 = 0 := by
        rcases div_eq_zero_iff.1 h1 with h | h
        · exact h
        · exact absurd h (by positivity)
      rw [h2, mul_zero] at hvar
      have h3 : ∀ p, (n : K) * a p = S := by
        intro p
        have := (Finset.sum_eq_zero_iff_of_nonneg (fun p _ => sq_nonneg _)).1 hvar p (Finset.mem_univ p)
        have := pow_eq_zero_iff (two_ne_zero) |>.1 this
        linarith
      intro p q
      exact mul_left_cancel₀ hn'.ne' ((h3 p).trans (h3 q).symm)
    · intro h
      have h3 : ∀ p, (n : K) * a p = S := by
        intro p
        rw [hSdef, Finset.sum_congr rfl fun q _ => h q p]
        simp
      have : ∑ p, ((n : K) * a p - S) ^ 2 = 0 :=
        Finset.sum_eq_zero fun p _ => by rw [h3 p]; ring
      rw [hvar] at this
      have : (n : K) * Q - S ^ 2 = 0 := by
        rcases mul_eq_zero.1 this with h | h
        · exact absurd h hn'.ne'
        · exact h
      rw [this]; ring

theorem foldl_nan_some {l : List (Option K)} {a w : K}
    (h : l.foldl (Arith.nan K).add (some a) = some w) : ∃ l' : List K, l = l'.map some ∧ w = a + l'.sum := by
  induction l generalizing a with
  | nil => cases h; exact ⟨[], rfl, by simp⟩
  | cons b l ih =>
    cases b with
    | none =>
      exfalso
      have hn : ∀ l : List (Option K), l.foldl (Arith.nan K).add none = none := by
        intro l
        induction l with
        | nil => rfl
        | cons c l ih => rw [List.foldl_cons]; exact ih
      rw [List.foldl_cons] at h
      have : (Arith.nan K).add (some a) none = none := rfl
      rw [this, hn] at h; cases h
    | some b =>
      rw [List.foldl_cons] at h
      obtain ⟨l', rfl, rfl⟩ := ih (a := a + b) h
      exact ⟨b :: l', rfl, by simp [add_assoc]⟩

/-- The numbered frames used for `x is y`. -/
theorem numbered_getElem? {X : Type} (pos : List X) (i : ℕ) :
    (pos.zipIdx.map fun e => (e.2, e.1))[i]? = (pos[i]?).map fun x => (i, x) := by
  rw [List.getElem?_map, List.getElem?_zipIdx]
  cases pos[i]? <;> simp

/-- **C28.** Every value of the non-Gaussian parameter that is a number is `≥ -2/5`; at time zero the
value is 0. -/
theorem C28_alpha2 (tr : Traj K) (dg : List (ℕ × ℕ)) (skip : ℕ) (pos : List (Frame n d K))
    (ts : List K) (vs : List (Option K)) (hskip : 0 < skip) (hlen : pos.length ≤ tr.steps.length)
    (hdt : tr.timestep ≠ 0) (hs : tr.steps.Pairwise (· < ·))
    (h : alpha2Compute tr dg skip pos = .ok (ts, vs)) :
    ts.length = vs.length ∧
    ∀ p ∈ ts.zip vs, (∀ v, p.2 = some v → -2 / 5 ≤ v) ∧ (p.1 = 0 → p.2 = some 0) := by
  set x : List (ℕ × Frame n d K) := pos.zipIdx.map fun e => (e.2, e.1) with hx
  set o : ℕ × Frame n d K → ℕ × Frame n d K → Option K := fun a b =>
    match alpha2Kernel a b with
    | .ok v => v
    | .error _ => none with ho
  have hf : ∀ a ∈ x, ∀ b ∈ x, alpha2Kernel a b = .ok (o a b) := by
    intro a _ b _
    simp only [ho]
    unfold alpha2Kernel
    split_ifs <;> rfl
  have hxl : x.length = pos.length := by simp [hx]
  unfold alpha2Compute timeCorr at h
  obtain ⟨r, hr, h⟩ := bind_ok_iff.1 h
  obtain ⟨lags, -, h2, h3⟩ := C01_gcf_offset_mean (Arith.nan K) alpha2Kernel o dg skip tr.steps x hskip
    (by rw [hxl]; exact hlen) hf
  rw [← hx, h3] at hr
  cases hr
  cases h
  refine ⟨by simp, ?_⟩
  intro p hp
  simp only at hp
  rw [List.zip_map'] at hp
  obtain ⟨δ, hδ, rfl⟩ := List.mem_map.1 hp
  simp only
  set L := Spec.termsAt δ (Spec.terms tr.steps x (Spec.sampled x.length skip dg)) with hL
  have hpos : 0 < L.length := termsAt_length_pos ((h2 δ).1 hδ)
  -- where the terms come from
  have hmem : ∀ q ∈ L, ∃ i j, ∃ (hi : i < pos.length) (hj : j < pos.length),
      q = ((i, pos[i]), (j, pos[j])) ∧ (δ = 0 → i = j) := by
    intro q hq
    rw [hL] at hq
    unfold Spec.termsAt Spec.terms at hq
    simp only [List.mem_map, List.mem_filter, List.mem_filterMap, decide_eq_true_eq] at hq
    obtain ⟨e, ⟨⟨s, hsm, hse⟩, hd⟩, rfl⟩ := hq
    unfold Spec.term at hse
    cases h1 : tr.steps[s.1 + s.2]? <;> cases h2 : tr.steps[s.1]? <;> cases h3 : x[s.1 + s.2]? <;>
      cases h4 : x[s.1]? <;> simp only [h1, h2, h3, h4] at hse <;> try cases hse
    rw [hx, numbered_getElem?] at h3 h4
    simp only [Option.map_eq_some_iff] at h3 h4
    obtain ⟨a, ha, rfl⟩ := h3
    obtain ⟨b, hb, rfl⟩ := h4
    obtain ⟨ha1, rfl⟩ := List.getElem?_eq_some_iff.1 ha
    obtain ⟨hb1, rfl⟩ := List.getElem?_eq_some_iff.1 hb
    exact ⟨s.1 + s.2, s.1, ha1, hb1, rfl, fun h0 => lag_zero_same hs h1 h2 (by rw [← h0]; exact hd)⟩
  have hval : ∀ w : Option K, (Arith.nan K).div w L.length = w.map fun v => v / (L.length : K) :=
    fun w => rfl
  rw [hval]
  constructor
  · intro v hv
    simp only [Option.map_eq_some_iff] at hv
    obtain ⟨w, hw, rfl⟩ := hv
    obtain ⟨l', hl', hwl⟩ := foldl_nan_some hw
    rw [zero_add] at hwl
    have hlen' : l'.length = L.length := by
      have := congrArg List.length hl'
      simpa using this.symm
    have hb : ∀ a ∈ l', -2 / 5 ≤ a := by
      intro a ha
      have : some a ∈ L.map fun p => o p.1 p.2 := by rw [hl']; exact List.mem_map_of_mem ha
      obtain ⟨q, hq, hqo⟩ := List.mem_map.1 this
      obtain ⟨i, j, hi, hj, rfl, -⟩ := hmem q hq
      by_cases hij : i = j
      · simp only [ho, alpha2Kernel, if_pos hij] at hqo
        cases hqo; norm_num
      · by_cases hxy : pos[i] = pos[j]
        · simp only [ho, alpha2Kernel, if_neg hij, hxy, sqDisp, sub_self] at hqo
          unfold perParticle at hqo
          split_ifs at hqo <;> simp at hqo
        · obtain ⟨u, hu, hub, -⟩ := C28_alpha2_bound i j pos[i] pos[j] hij hxy
          simp only [ho, hu] at hqo
          cases hqo; exact hub
    have := le_mean (l := l') (by omega) hb
    unfold Spec.mean at this
    rw [hlen', ← hwl] at this
    exact this
  · intro h0
    have hδ0 : δ = 0 := by
      rcases mul_eq_zero.1 h0 with h | h
      · exact_mod_cast h
      · exact absurd h hdt
    have e : L.map (fun p => o p.1 p.2) = (List.replicate L.length (0 : K)).map some := by
      rw [List.map_replicate, List.eq_replicate_iff]
      refine ⟨by simp, ?_⟩
      intro b hb
      obtain ⟨q, hq, rfl⟩ := List.mem_map.1 hb
      obtain ⟨i, j, hi, hj, rfl, hij⟩ := hmem q hq
      simp only [ho, alpha2Kernel, if_pos (hij hδ0)]
    rw [e]
    have z : (Arith.nan K).zero = some 0 := rfl
    rw [z, foldl_nan]
    simp

/-- Particles displaced by 1 and 3 in one dimension. -/
example :
    alpha2Compute (K := ℚ) (n := 2) (d := 1) ⟨[0, 1], 1, 1, 1, [2, 2]⟩ [(0, 0), (0, 1)] 1
      [![![0], ![0]], ![![1], ![3]]] = .ok ([0, 1], [some 0, some (-2 / 125)]) ∧
    (![![0], ![0]] : Frame 2 1 ℚ) ≠ ![![1], ![3]] := by
  refine ⟨by decide +kernel, by decide +kernel⟩

/-! ## C29 -/

theorem selfOverlap_card (x y : Frame n d K) (a2 : K) :
    selfOverlap x y a2 = (Finset.univ.filter fun p => Spec.disp2 x y p < a2).card := by
  unfold selfOverlap
  rw [List.countP_map, List.countP_eq_length_filter, Finset.card_def, Finset.filter_val]
  rw [show (Finset.univ : Finset (Fin n)).val = ((List.finRange n : List (Fin n)) : Multiset (Fin n)) from rfl]
  rw [Multiset.filter_coe, Multiset.coe_card]
  rfl

/-- The Fortran routine counts the same particles. -/
theorem C29_self_overlap_f90 (x y : Frame n d K) (a2 : K) :
    selfOverlapF90 x y a2 = selfOverlap x y a2 := by
  unfold selfOverlapF90 selfOverlap
  rw [List.countP_map, List.countP_eq_length_filter]
  rfl

/-- Fraction of particles whose squared displacement is below `a²`. -/
def _root_.PP.Spec.fractionBelow (a : K) (x y : Frame n d K) : K :=
  ((Finset.univ.filter fun p => Spec.disp2 x y p < a ^ 2).card : K) / (n : K)

theorem fractionBelow_le_one (hn : 0 < n) (a : K) (x y : Frame n d K) : Spec.fractionBelow a x y ≤ 1 := by
  unfold Spec.fractionBelow
  have hn' : (0 : K) < n := by exact_mod_cast hn
  rw [div_le_one hn']
  have := Finset.card_filter_le (Finset.univ : Finset (Fin n)) fun p => Spec.disp2 x y p < a ^ 2
  rw [Finset.card_univ, Fintype.card_fin] at this
  exact_mod_cast this

theorem fractionBelow_mono {a b : K} (h : |a| ≤ |b|) (x y : Frame n d K) :
    Spec.fractionBelow a x y ≤ Spec.fractionBelow b x y := by
  unfold Spec.fractionBelow
  have : (Finset.univ.filter fun p => Spec.disp2 x y p < a ^ 2).card
      ≤ (Finset.univ.filter fun p => Spec.disp2 x y p < b ^ 2).card := by
    apply Finset.card_le_card
    intro p
    simp only [Finset.mem_filter, Finset.mem_univ, true_and]
    intro hp
    exact lt_of_lt_of_le hp (sq_le_sq.2 h)
  gcongr

theorem fractionBelow_self (hn : 0 < n) {a : K} (ha : a ≠ 0) (x : Frame n d K) :
    Spec.fractionBelow a x x = 1 := by
  unfold Spec.fractionBelow
  have hn' : (n : K) ≠ 0 := by exact_mod_cast hn.ne'
  have : (Finset.univ.filter fun p => Spec.disp2 x x p < a ^ 2) = Finset.univ := by
    rw [Finset.filter_eq_self]
    intro p _
    simp only [Spec.disp2, sub_self]
    have : 0 < a ^ 2 := by positivity
    simpa using this
  rw [this, Finset.card_univ, Fintype.card_fin, div_self hn']

/-- **C29.** The self overlap is, at every reported time, the average over the sampled frame pairs of the
fraction of particles displaced by less than `a`; it lies between 0 and 1 and is 1 at time zero for
`a ≠ 0`. -/
theorem C29_self_overlap (tr : Traj K) (dg : List (ℕ × ℕ)) (skip : ℕ) (a : K)
    (pos : List (Frame n d K)) (ts : List K) (vs : List (Option K)) (hn : 0 < n) (hskip : 0 < skip)
    (hlen : pos.length ≤ tr.steps.length) (hdt : tr.timestep ≠ 0) (hs : tr.steps.Pairwise (· < ·))
    (h : qstCompute tr dg skip a pos = .ok (ts, vs)) :
    ts.length = vs.length ∧
    ∀ p ∈ ts.zip vs, ∃ v, p.2 = some v ∧ 0 ≤ v ∧ v ≤ 1 ∧ (p.1 = 0 → a ≠ 0 → v = 1) ∧
      ∃ δ : ℤ, p.1 = δ * tr.timestep ∧
        v = Spec.mean (Spec.valuesAt (Spec.fractionBelow a) skip dg tr.steps pos δ) := by
  have hf : ∀ x ∈ pos, ∀ y ∈ pos, (fun x y => (.ok (perParticle n (selfOverlap x y (a ^ 2) : K)) :
      Py (Option K))) x y = .ok (some (Spec.fractionBelow a x y)) := by
    intro x _ y _
    simp only [perParticle, if_neg hn.ne', Spec.fractionBelow, selfOverlap_card]
  refine timeCorr_forall hskip hlen hf h (P := fun t w => ∃ v, w = some v ∧ 0 ≤ v ∧ v ≤ 1 ∧
    (t = 0 → a ≠ 0 → v = 1) ∧ ∃ δ : ℤ, t = δ * tr.timestep ∧
        v = Spec.mean (Spec.valuesAt (Spec.fractionBelow a) skip dg tr.steps pos δ)) ?_
  intro δ hδ
  refine ⟨_, rfl, mean_nonneg ?_, mean_le hδ ?_, ?_, δ, rfl, rfl⟩
  · intro v hv
    obtain ⟨i0, i, ta, tb, xa, xb, -, -, -, -, -, -, rfl⟩ := mem_valuesAt hv
    unfold Spec.fractionBelow; positivity
  · intro v hv
    obtain ⟨i0, i, ta, tb, xa, xb, -, -, -, -, -, -, rfl⟩ := mem_valuesAt hv
    exact fractionBelow_le_one hn a xa xb
  · intro h0 ha
    have hδ0 : δ = 0 := by
      rcases mul_eq_zero.1 h0 with h | h
      · exact_mod_cast h
      · exact absurd h hdt
    refine mean_const hδ ?_
    intro v hv
    obtain ⟨i0, i, ta, tb, xa, xb, -, h3, h4, h5, h6, h7, rfl⟩ := mem_valuesAt hv
    have := lag_zero_same hs h3 h4 (by rw [h7, hδ0])
    rw [this, h6] at h5
    cases h5
    exact fractionBelow_self hn ha xa

/-- **C29**, monotonicity: a larger cut-off gives the same times and values that are not smaller. -/
theorem C29_self_overlap_mono (tr : Traj K) (dg : List (ℕ × ℕ)) (skip : ℕ) (a b : K)
    (pos : List (Frame n d K)) (hn : 0 < n) (hskip : 0 < skip) (hlen : pos.length ≤ tr.steps.length)
    (hab : |a| ≤ |b|) :
    ∃ (ts va vb : List K), qstCompute tr dg skip a pos = .ok (ts, va.map some) ∧
      qstCompute tr dg skip b pos = .ok (ts, vb.map some) ∧ List.Forall₂ (· ≤ ·) va vb := by
  have hf : ∀ a : K, ∀ x ∈ pos, ∀ y ∈ pos, (fun x y => (.ok (perParticle n (selfOverlap x y (a ^ 2) : K)) :
      Py (Option K))) x y = .ok (some (Spec.fractionBelow a x y)) := by
    intro a x _ y _
    simp only [perParticle, if_neg hn.ne', Spec.fractionBelow, selfOverlap_card]
  obtain ⟨la, h1, h2, h3⟩ := timeCorr_mean (dg := dg) (tr := tr) hskip hlen (hf a)
  obtain ⟨lb, h4, h5, h6⟩ := timeCorr_mean (dg := dg) (tr := tr) hskip hlen (hf b)
  have hl : lb = la := sorted_unique h4 h1 fun δ => by rw [h2, h5]
  subst hl
  refine ⟨lb.map fun δ : ℤ => (δ : K) * tr.timestep,
    lb.map fun δ => Spec.mean (Spec.valuesAt (Spec.fractionBelow a) skip dg tr.steps pos δ),
    lb.map fun δ => Spec.mean (Spec.valuesAt (Spec.fractionBelow b) skip dg tr.steps pos δ),
    ?_, ?_, ?_⟩
  · unfold qstCompute; rw [h3, List.map_map]; rfl
  · unfold qstCompute; rw [h6, List.map_map]; rfl
  · rw [List.forall₂_map_left_iff, List.forall₂_map_right_iff, List.forall₂_same]
    intro δ _
    unfold Spec.mean Spec.valuesAt
    rw [List.length_map, List.length_map]
    gcongr
    apply List.sum_le_sum
    intro p _
    exact fractionBelow_mono hab p.1 p.2

/-- Three particles, one of which moves beyond the cut-off. -/
example :
    qstCompute (K := ℚ) (n := 3) (d := 1) ⟨[0, 1], 1, 1, 1, [3, 3]⟩ [(0, 0), (0, 1)] 1 (3 / 10)
      [![![0], ![0], ![5]], ![![1 / 10], ![3], ![5]]] = .ok ([0, 1], [some 1, some (2 / 3)]) := by
  decide +kernel

/-! ## C30 -/

/-- Number of ordered pairs (particle of the first frame, particle of the second frame) closer than
`a`. -/
def _root_.PP.Spec.pairsBelow (a : K) (x y : Frame n d K) : ℕ :=
  (Finset.univ.filter fun q : Fin n × Fin n => ∑ c, (x q.1 c - y q.2 c) ^ 2 < a ^ 2).card

theorem collectiveOverlap_card (x y : Frame n d K) (a : K) :
    collectiveOverlap x y (a ^ 2) = Spec.pairsBelow a x y := by
  unfold collectiveOverlap Spec.pairsBelow
  rw [List.countP_flatMap]
  have h1 : ∀ i : Fin n, List.countP (fun v => decide (v < a ^ 2))
      ((List.finRange n).map fun j => sqDist (x j) (y i))
      = (Finset.univ.filter fun j : Fin n => ∑ c, (x j c - y i c) ^ 2 < a ^ 2).card := by
    intro i
    rw [List.countP_map, List.countP_eq_length_filter, Finset.card_def, Finset.filter_val]
    rw [show (Finset.univ : Finset (Fin n)).val = ((List.finRange n : List (Fin n)) : Multiset (Fin n)) from rfl]
    rw [Multiset.filter_coe, Multiset.coe_card]
    rfl
  simp only [Function.comp_def, h1]
  have h2 : ∀ f : Fin n → ℕ, ((List.finRange n).map f).sum = ∑ i, f i := by
    intro f
    rw [← List.ofFn_eq_map, List.sum_ofFn]
  rw [h2]
  simp only [Finset.card_filter]
  rw [Fintype.sum_prod_type_right]

/-- **C30.** The collective overlap at every reported time is the average over the sampled frame pairs of the
number of ordered pairs closer than `a`, divided by `N`; it lies between 0 and `N`. -/
theorem C30_collective_overlap (tr : Traj K) (dg : List (ℕ × ℕ)) (skip : ℕ) (a : K)
    (pos : List (Frame n d K)) (ts : List K) (vs : List (Option K)) (hn : 0 < n) (hskip : 0 < skip)
    (hlen : pos.length ≤ tr.steps.length) (h : qtCompute tr dg skip a pos = .ok (ts, vs)) :
    ts.length = vs.length ∧
    ∀ p ∈ ts.zip vs, ∃ v, p.2 = some v ∧ 0 ≤ v ∧ v ≤ n ∧ ∃ δ : ℤ, p.1 = δ * tr.timestep ∧
      v = Spec.mean (Spec.valuesAt (fun x y : Frame n d K => (Spec.pairsBelow a x y : K) / (n : K))
        skip dg tr.steps pos δ) := by
  have hn' : (0 : K) < n := by exact_mod_cast hn
  have hf : ∀ x ∈ pos, ∀ y ∈ pos, (fun x y => (.ok (perParticle n (collectiveOverlap x y (a ^ 2) : K)) :
      Py (Option K))) x y = .ok (some ((Spec.pairsBelow a x y : K) / (n : K))) := by
    intro x _ y _
    simp only [perParticle, if_neg hn.ne', collectiveOverlap_card]
  refine timeCorr_forall hskip hlen hf h (P := fun t w => ∃ v, w = some v ∧ 0 ≤ v ∧ v ≤ n ∧
    ∃ δ : ℤ, t = δ * tr.timestep ∧
      v = Spec.mean (Spec.valuesAt (fun x y : Frame n d K => (Spec.pairsBelow a x y : K) / (n : K))
        skip dg tr.steps pos δ)) ?_
  intro δ hδ
  refine ⟨_, rfl, mean_nonneg ?_, mean_le hδ ?_, δ, rfl, rfl⟩
  · intro v hv
    obtain ⟨i0, i, ta, tb, xa, xb, -, -, -, -, -, -, rfl⟩ := mem_valuesAt hv
    positivity
  · intro v hv
    obtain ⟨i0, i, ta, tb, xa, xb, -, -, -, -, -, -, rfl⟩ := mem_valuesAt hv
    rw [div_le_iff₀ hn']
    have := Finset.card_filter_le (Finset.univ : Finset (Fin n × Fin n))
      fun q => ∑ c, (xa q.1 c - xb q.2 c) ^ 2 < a ^ 2
    rw [Finset.card_univ, Fintype.card_prod, Fintype.card_fin] at this
    unfold Spec.pairsBelow
    exact_mod_cast this

/-- **C30**, comparison with the self overlap of the same configurations, at every time. -/
theorem C30_dominates_self (tr : Traj K) (dg : List (ℕ × ℕ)) (skip : ℕ) (a : K)
    (pos : List (Frame n d K)) (hn : 0 < n) (hskip : 0 < skip) (hlen : pos.length ≤ tr.steps.length) :
    ∃ (ts vs vc : List K), qstCompute tr dg skip a pos = .ok (ts, vs.map some) ∧
      qtCompute tr dg skip a pos = .ok (ts, vc.map some) ∧ List.Forall₂ (· ≤ ·) vs vc := by
  have hfs : ∀ x ∈ pos, ∀ y ∈ pos, (fun x y => (.ok (perParticle n (selfOverlap x y (a ^ 2) : K)) :
      Py (Option K))) x y = .ok (some (Spec.fractionBelow a x y)) := by
    intro x _ y _
    simp only [perParticle, if_neg hn.ne', Spec.fractionBelow, selfOverlap_card]
  have hfc : ∀ x ∈ pos, ∀ y ∈ pos, (fun x y => (.ok (perParticle n (collectiveOverlap x y (a ^ 2) : K)) :
      Py (Option K))) x y = .ok (some ((Spec.pairsBelow a x y : K) / (n : K))) := by
    intro x _ y _
    simp only [perParticle, if_neg hn.ne', collectiveOverlap_card]
  obtain ⟨la, h1, h2, h3⟩ := timeCorr_mean (dg := dg) (tr := tr) hskip hlen hfs
  obtain ⟨lb, h4, h5, h6⟩ := timeCorr_mean (dg := dg) (tr := tr) hskip hlen hfc
  have hl : lb = la := sorted_unique h4 h1 fun δ => by rw [h2, h5]
  subst hl
  refine ⟨lb.map fun δ : ℤ => (δ : K) * tr.timestep,
    lb.map fun δ => Spec.mean (Spec.valuesAt (Spec.fractionBelow a) skip dg tr.steps pos δ),
    lb.map fun δ => Spec.mean (Spec.valuesAt (fun x y : Frame n d K =>
      (Spec.pairsBelow a x y : K) / (n : K)) skip dg tr.steps pos δ), ?_, ?_, ?_⟩
  · unfold qstCompute; rw [h3, List.map_map]; rfl
  · unfold qtCompute; rw [h6, List.map_map]; rfl
  · rw [List.forall₂_map_left_iff, List.forall₂_map_right_iff, List.forall₂_same]
    intro δ _
    unfold Spec.mean Spec.valuesAt
    rw [List.length_map, List.length_map]
    gcongr
    apply List.sum_le_sum
    intro p _
    unfold Spec.fractionBelow Spec.pairsBelow
    refine div_le_div_of_nonneg_right ?_ (Nat.cast_nonneg n)
    refine Nat.cast_le.2 ?_
    refine Finset.card_le_card_of_injOn (fun q => (q, q)) ?_ ?_
    · intro q hq
      simp only [Finset.coe_filter, Finset.mem_univ, true_and, Set.mem_ofPred_eq] at hq ⊢
      exact hq
    · intro q _ q' _ h; exact (Prod.mk.injEq _ _ _ _ ▸ h).1

/-- Two particles exchanging their places: the collective overlap remains 1, the self overlap is 0. -/
example :
    qtCompute (K := ℚ) (n := 2) (d := 1) ⟨[0, 1], 1, 1, 1, [2, 2]⟩ [(0, 0), (0, 1)] 1 (3 / 10)
      [![![0], ![5]], ![![5], ![0]]] = .ok ([0, 1], [some 1, some 1]) ∧
    qstCompute (K := ℚ) (n := 2) (d := 1) ⟨[0, 1], 1, 1, 1, [2, 2]⟩ [(0, 0), (0, 1)] 1 (3 / 10)
      [![![0], ![5]], ![![5], ![0]]] = .ok ([0, 1], [some 1, some 0]) := by
  refine ⟨by decide +kernel, by decide +kernel⟩

end PP.Props
