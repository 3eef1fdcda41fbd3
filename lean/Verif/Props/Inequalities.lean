import Verif.Props.Msd
import Verif.Props.Overlap
import Verif.Props.FourierSym
import Mathlib.Algebra.BigOperators.Field
import Mathlib.Analysis.SpecialFunctions.Trigonometric.Bounds

/-!
# C162-C164: relations between correlation functions of the same trajectory

C162: displacements relative to the centre of mass. C163: self intermediate scattering function and mean square
displacement. C164: self overlap and mean square displacement.
-/

set_option linter.unusedSectionVars false

namespace PP.Props
open PP

section
variable {K : Type} [Field K] [LinearOrder K] [IsStrictOrderedRing K] [FloorRing K] {n d : ℕ}

theorem terms_lag {X : Type} (steps : List ℤ) (x : List X) (skip : ℕ) (grid : List (ℕ × ℕ)) (h : x.length ≤ steps.length)
    (δ : ℤ) : (∃ e ∈ Spec.terms steps x (Spec.sampled x.length skip grid), e.1 = δ) ↔
      δ ∈ lagList steps (Spec.sampled x.length skip grid) := by
  rw [mem_lagList]
  unfold Spec.terms
  constructor
  · rintro ⟨e, he, rfl⟩
    obtain ⟨p, hp, hpe⟩ := List.mem_filterMap.1 he
    have hlt := sampled_lt hp
    rw [term_isSome (by omega) hlt] at hpe
    refine ⟨p, hp, ?_⟩
    rw [← Option.some.inj hpe]
    unfold stepDiff
    rw [List.getD_eq_getElem _ _ (by omega), List.getD_eq_getElem _ _ (by omega)]
  · rintro ⟨p, hp, rfl⟩
    have hlt := sampled_lt hp
    refine ⟨_, List.mem_filterMap.2 ⟨p, hp, term_isSome (by omega) hlt⟩, ?_⟩
    unfold stepDiff
    rw [List.getD_eq_getElem _ _ (by omega), List.getD_eq_getElem _ _ (by omega)]

/-- Closed form of the correlators with exact numbers. -/
theorem timeCorr_closed {X : Type} {f : X → X → Py (Option K)} {g : X → X → K} {tr : Traj K}
    {dg : List (ℕ × ℕ)} {skip : ℕ} {x : List X} (hskip : 0 < skip)
    (ht : x.length ≤ tr.steps.length) (hf : ∀ a ∈ x, ∀ b ∈ x, f a b = .ok (some (g a b))) :
    timeCorr (Arith.nan K) f tr dg skip x =
      .ok ((lagList tr.steps (Spec.sampled x.length skip dg)).map fun δ : ℤ => (δ : K) * tr.timestep,
        (lagList tr.steps (Spec.sampled x.length skip dg)).map fun δ =>
          some (Spec.mean (Spec.valuesAt g skip dg tr.steps x δ))) := by
  obtain ⟨lags, h1, h2, h3⟩ := timeCorr_mean (dg := dg) (tr := tr) hskip ht hf
  have : lags = lagList tr.steps (Spec.sampled x.length skip dg) := by
    refine List.Perm.eq_of_pairwise (le := (· < ·)) ?_ h1 (lagList_sorted _ _) ?_
    · intro a b _ _ hab hba
      exact absurd (lt_trans hab hba) (lt_irrefl _)
    · rw [List.perm_ext_iff_of_nodup (h1.imp ne_of_lt) ((lagList_sorted _ _).imp ne_of_lt)]
      intro δ
      rw [h2, terms_lag _ _ _ _ ht]
  rw [h3, this]

theorem valuesAt_pos {X : Type} (g : X → X → K) (steps : List ℤ) (x : List X) (skip : ℕ) (grid : List (ℕ × ℕ))
    (h : x.length ≤ steps.length) {δ : ℤ} (hδ : δ ∈ lagList steps (Spec.sampled x.length skip grid)) :
    0 < (Spec.valuesAt g skip grid steps x δ).length :=
  valuesAt_length ((terms_lag steps x skip grid h δ).2 hδ)

theorem valuesAt_framePairs {X : Type} (g : X → X → K) (steps : List ℤ) (x : List X) (skip : ℕ) (grid : List (ℕ × ℕ))
    (δ : ℤ) : Spec.valuesAt g skip grid steps x δ = (Spec.framePairs steps skip grid x δ).map fun p => g p.1 p.2 := rfl

theorem framePairs_mapped {X Y : Type} (h : X → Y) (steps : List ℤ) (skip : ℕ) (grid : List (ℕ × ℕ)) (x : List X)
    (hl : x.length ≤ steps.length) (δ : ℤ) :
    Spec.framePairs steps skip grid (x.map h) δ =
      (Spec.framePairs steps skip grid x δ).map fun p => (h p.1, h p.2) := by
  rcases x with _ | ⟨x0, r⟩
  · have : Spec.sampled 0 skip grid = [] := by
      unfold Spec.sampled
      rw [List.flatMap_eq_nil_iff]
      intro g _
      simp
    unfold Spec.framePairs Spec.terms Spec.termsAt
    simp [this]
  · rw [framePairs_eq _ _ _ _ (by simpa using hl) (h x0), framePairs_eq _ _ _ _ hl x0, List.map_map, List.length_map]
    apply List.map_congr_left
    intro p hp
    have hlt := sampled_lt (List.mem_filter.1 hp).1
    simp only [Function.comp]
    rw [List.getD_eq_getElem _ _ (by simpa using hlt), List.getD_eq_getElem _ _ (by rw [List.length_map]; omega),
      List.getD_eq_getElem _ _ hlt, List.getD_eq_getElem _ _ (by omega), List.getElem_map, List.getElem_map]

theorem mean_add_map {α : Type} (l : List α) (f g : α → K) :
    Spec.mean (l.map fun a => f a + g a) = Spec.mean (l.map f) + Spec.mean (l.map g) := by
  unfold Spec.mean
  rw [List.sum_map_add, List.length_map, List.length_map, List.length_map, add_div]

theorem mean_le_map {α : Type} (l : List α) (f g : α → K) (h : ∀ a ∈ l, f a ≤ g a) :
    Spec.mean (l.map f) ≤ Spec.mean (l.map g) := by
  unfold Spec.mean
  rw [List.length_map, List.length_map]
  exact div_le_div_of_nonneg_right (List.sum_le_sum h) (Nat.cast_nonneg _)

theorem mean_mul_map {α : Type} (c : K) (l : List α) (f : α → K) :
    Spec.mean (l.map fun a => c * f a) = c * Spec.mean (l.map f) := by
  unfold Spec.mean
  rw [List.length_map, List.length_map, List.sum_map_mul_left, mul_div_assoc]

/-- The mean square displacement on a given grid. -/
theorem msd_closed {tr : Traj K} {skip : ℕ} {g : List K} {rmax : K} {tsamples : ℤ} {offset : Bool} {dg : List (ℕ × ℕ)}
    {pos : List (Frame n d K)} (hg : setupTGrid tr.steps tr.blockSize tr.timestep g offset = .ok dg) (hskip : 0 < skip)
    (hn : 0 < n) (hlen : pos.length ≤ tr.steps.length) :
    msdCompute tr skip (some g) rmax tsamples offset pos =
      .ok ((lagList tr.steps (Spec.sampled pos.length skip dg)).map fun δ : ℤ => (δ : K) * tr.timestep,
        (lagList tr.steps (Spec.sampled pos.length skip dg)).map fun δ =>
          some (Spec.mean (Spec.valuesAt (fun x y : Frame n d K => sqDisp x y / (n : K)) skip dg tr.steps pos δ))) := by
  unfold msdCompute
  show Except.bind (setupTGrid tr.steps tr.blockSize tr.timestep g offset) _ = _
  rw [hg]
  exact timeCorr_closed hskip hlen fun a _ b _ => msdKernel_some hn a b

/-! ### C162 -/

/-- The centre of mass of particles of equal masses, as a frame of one particle. -/
def cmFrame (x : Frame n d K) : Frame 1 d K := fun _ c => (∑ p, x p c) / (n : K)

/-- The positions relative to it. -/
def relFrame (x : Frame n d K) : Frame n d K := fun p c => x p c - (∑ q, x q c) / (n : K)

theorem fixCm_equal (hn : 0 < n) {m : K} (hm : m ≠ 0) (x : Frame n d K) :
    fixCm (fun _ => m) x = some (relFrame x) := by
  have hn' : (n : K) ≠ 0 := by exact_mod_cast hn.ne'
  have hs : ∑ _p : Fin n, m = n * m := by
    rw [Finset.sum_const, Finset.card_univ, Fintype.card_fin, nsmul_eq_mul]
  unfold fixCm
  simp only [hs]
  rw [if_neg (mul_ne_zero hn' hm)]
  congr 1
  funext p c
  unfold relFrame
  rw [← Finset.sum_mul]
  congr 1
  rw [mul_div_mul_right _ _ hm]

theorem sqDisp_split (hn : 0 < n) (x y : Frame n d K) :
    sqDisp x y / (n : K) =
      sqDisp (relFrame x) (relFrame y) / (n : K) + sqDisp (cmFrame x) (cmFrame y) / ((1 : ℕ) : K) := by
  have hn' : (n : K) ≠ 0 := by exact_mod_cast hn.ne'
  unfold sqDisp relFrame cmFrame
  rw [Nat.cast_one, div_one, Fin.sum_univ_one, Finset.sum_comm, Finset.sum_comm (γ := Fin n), Finset.sum_div,
    Finset.sum_div, ← Finset.sum_add_distrib]
  refine Finset.sum_congr rfl fun c _ => ?_
  set X := ∑ q, x q c with hX
  set Y := ∑ q, y q c with hY
  have e : ∀ p, (x p c - X / n - (y p c - Y / n)) ^ 2 =
      (x p c - y p c) ^ 2 - 2 * ((X - Y) / n) * (x p c - y p c) + ((X - Y) / n) ^ 2 := by
    intro p; ring
  simp only [e]
  rw [Finset.sum_add_distrib, Finset.sum_sub_distrib, ← Finset.mul_sum, Finset.sum_sub_distrib, ← hX, ← hY,
    Finset.sum_const, Finset.card_univ, Fintype.card_fin, nsmul_eq_mul]
  field_simp
  ring

theorem setupFixCm_equal (hn : 0 < n) {m : K} (hm : m ≠ 0) (pos : List (Frame n d K)) :
    setupFixCm (fun _ => m) (id : Fin n → Fin n) pos = some (pos.map relFrame) := by
  unfold setupFixCm
  induction pos with
  | nil => rfl
  | cons x r ih =>
    rw [List.mapM_cons, ih, fixCm_equal hn hm]
    rfl

/-- **C162.** Particles of equal masses: with `fix_cm` the mean square displacement is the one without it minus the
mean square displacement of the centre of mass, at every time. All three are computed at the same times. Hence `fix_cm`
never makes the mean square displacement larger. -/
theorem C162_fix_cm_splits (tr : Traj K) (skip : ℕ) (g : List K) (rmax : K) (tsamples : ℤ) (offset : Bool)
    (dg : List (ℕ × ℕ)) (m : K) (pos : List (Frame n d K)) (hm : m ≠ 0)
    (hg : setupTGrid tr.steps tr.blockSize tr.timestep g offset = .ok dg) (hskip : 0 < skip) (hn : 0 < n)
    (hlen : pos.length ≤ tr.steps.length) :
    ∃ fixed ts vfix vcm, setupFixCm (fun _ => m) (id : Fin n → Fin n) pos = some fixed ∧
      msdCompute tr skip (some g) rmax tsamples offset fixed = .ok (ts, vfix.map some) ∧
      msdCompute tr skip (some g) rmax tsamples offset
        (pos.map fun x => ((fun _ c => (∑ p, x p c) / (n : K)) : Frame 1 d K)) = .ok (ts, vcm.map some) ∧
      msdCompute tr skip (some g) rmax tsamples offset pos =
        .ok (ts, (List.zipWith (· + ·) vfix vcm).map some) ∧
      vfix.length = ts.length ∧ vcm.length = ts.length ∧
      List.Forall₂ (· ≤ ·) vfix (List.zipWith (· + ·) vfix vcm) := by
  have h1 := msd_closed (rmax := rmax) (tsamples := tsamples) (pos := pos.map relFrame) hg hskip hn (by simpa using hlen)
  have h2 := msd_closed (rmax := rmax) (tsamples := tsamples) (pos := pos.map cmFrame) hg hskip one_pos (by simpa using hlen)
  have h3 := msd_closed (rmax := rmax) (tsamples := tsamples) (pos := pos) hg hskip hn hlen
  simp only [List.length_map, valuesAt_framePairs, framePairs_mapped _ _ _ _ _ hlen, List.map_map, Function.comp_def] at h1 h2 h3
  set L := lagList tr.steps (Spec.sampled pos.length skip dg) with hL
  refine ⟨_, L.map fun δ : ℤ => (δ : K) * tr.timestep,
    L.map fun δ => Spec.mean ((Spec.framePairs tr.steps skip dg pos δ).map fun p =>
      sqDisp (relFrame p.1) (relFrame p.2) / (n : K)),
    L.map fun δ => Spec.mean ((Spec.framePairs tr.steps skip dg pos δ).map fun p =>
      sqDisp (cmFrame p.1) (cmFrame p.2) / ((1 : ℕ) : K)), setupFixCm_equal hn hm pos, ?_, ?_, ?_, by simp, by simp, ?_⟩
  · rw [h1, List.map_map]; rfl
  · rw [List.map_map]; exact h2
  · rw [h3, List.zipWith_map, List.zipWith_self, List.map_map]
    refine congrArg Except.ok (Prod.ext rfl ?_)
    apply List.map_congr_left
    intro δ _
    simp only [Function.comp]
    rw [← mean_add_map]
    refine congrArg some (congrArg Spec.mean ?_)
    apply List.map_congr_left
    intro p _
    exact sqDisp_split hn p.1 p.2
  · rw [List.zipWith_map, List.zipWith_self, List.forall₂_map_left_iff, List.forall₂_map_right_iff, List.forall₂_same]
    intro δ _
    refine le_add_of_nonneg_right ?_
    refine mean_nonneg ?_
    intro a ha
    obtain ⟨p, -, rfl⟩ := List.mem_map.1 ha
    exact div_nonneg (Finset.sum_nonneg fun _ _ => Finset.sum_nonneg fun _ _ => sq_nonneg _) (Nat.cast_nonneg _)

/-! ### C164 -/

/-- The fraction of particles that moved by `a` or more, and the squared displacements. -/
theorem chebyshev (hn : 0 < n) {a : K} (ha : a ≠ 0) (x y : Frame n d K) :
    1 - Spec.fractionBelow a x y ≤ sqDisp x y / (n : K) / a ^ 2 := by
  have hn' : (0 : K) < n := by exact_mod_cast hn
  have ha' : 0 < a ^ 2 := by positivity
  have hc : (n : K) - ((Finset.univ.filter fun p => Spec.disp2 x y p < a ^ 2).card : K) ≤ sqDisp x y / a ^ 2 := by
    have e : (n : K) - ((Finset.univ.filter fun p => Spec.disp2 x y p < a ^ 2).card : K) =
        ∑ p : Fin n, if Spec.disp2 x y p < a ^ 2 then (0 : K) else 1 := by
      have : ∀ p : Fin n, (if Spec.disp2 x y p < a ^ 2 then (0 : K) else 1) =
          1 - if Spec.disp2 x y p < a ^ 2 then (1 : K) else 0 := by
        intro p; split <;> simp
      simp only [this]
      rw [Finset.sum_sub_distrib, Finset.sum_const, Finset.card_univ, Fintype.card_fin, Finset.sum_boole]
      simp
    rw [e]
    unfold sqDisp
    rw [Finset.sum_div]
    refine Finset.sum_le_sum fun p _ => ?_
    have hnn : 0 ≤ ∑ c, (x p c - y p c) ^ 2 := Finset.sum_nonneg fun _ _ => sq_nonneg _
    split
    · exact div_nonneg hnn ha'.le
    · rename_i h
      rw [le_div_iff₀ ha', one_mul]
      exact not_lt.1 h
  unfold Spec.fractionBelow
  rw [div_div, mul_comm (n : K), ← div_div, le_div_iff₀ hn', sub_mul, div_mul_cancel₀ _ hn'.ne', one_mul]
  exact hc

/-- **C164.** The fraction of particles that are no longer within the distance `a` is at most the mean square
displacement in units of `a²`, at every time; both functions are computed at the same times. The collective overlap is
bounded in the same way. -/
theorem C164_overlap_msd (tr : Traj K) (skip : ℕ) (g : List K) (rmax : K) (tsamples : ℤ) (offset : Bool)
    (dg : List (ℕ × ℕ)) (a : K) (pos : List (Frame n d K)) (ha : a ≠ 0)
    (hg : setupTGrid tr.steps tr.blockSize tr.timestep g offset = .ok dg) (hskip : 0 < skip) (hn : 0 < n)
    (hlen : pos.length ≤ tr.steps.length) :
    ∃ ts qs qc msd, qstCompute tr dg skip a pos = .ok (ts, qs.map some) ∧
      qtCompute tr dg skip a pos = .ok (ts, qc.map some) ∧
      msdCompute tr skip (some g) rmax tsamples offset pos = .ok (ts, msd.map some) ∧
      List.Forall₂ (fun q m => 1 - q ≤ m / a ^ 2) qs msd ∧ List.Forall₂ (fun q m => 1 - q ≤ m / a ^ 2) qc msd := by
  have hfs : ∀ x ∈ pos, ∀ y ∈ pos, (fun x y => (.ok (perParticle n (selfOverlap x y (a ^ 2) : K)) :
      Py (Option K))) x y = .ok (some (Spec.fractionBelow a x y)) := by
    intro x _ y _
    simp only [perParticle, if_neg hn.ne', Spec.fractionBelow, selfOverlap_card]
  have h1 := timeCorr_closed (dg := dg) (tr := tr) hskip hlen hfs
  have h2 := msd_closed (rmax := rmax) (tsamples := tsamples) (pos := pos) hg hskip hn hlen
  obtain ⟨ts, vs, vc, e1, e2, e3⟩ := C30_dominates_self tr dg skip a pos hn hskip hlen
  have key : List.Forall₂ (fun q m => 1 - q ≤ m / a ^ 2)
      ((lagList tr.steps (Spec.sampled pos.length skip dg)).map fun δ =>
        Spec.mean (Spec.valuesAt (Spec.fractionBelow a) skip dg tr.steps pos δ))
      ((lagList tr.steps (Spec.sampled pos.length skip dg)).map fun δ =>
        Spec.mean (Spec.valuesAt (fun x y : Frame n d K => sqDisp x y / (n : K)) skip dg tr.steps pos δ)) := by
    rw [List.forall₂_map_left_iff, List.forall₂_map_right_iff, List.forall₂_same]
    intro δ hδ
    have hpos := valuesAt_pos (Spec.fractionBelow a) tr.steps pos skip dg hlen hδ
    rw [valuesAt_framePairs] at hpos
    rw [valuesAt_framePairs, valuesAt_framePairs, div_eq_mul_inv, mul_comm, ← mean_mul_map]
    have hone : Spec.mean ((Spec.framePairs tr.steps skip dg pos δ).map fun _ => (1 : K)) = 1 :=
      mean_const (by simpa using hpos) fun b hb => by
        obtain ⟨p, -, rfl⟩ := List.mem_map.1 hb
        rfl
    rw [sub_le_iff_le_add, ← mean_add_map, ← hone]
    refine mean_le_map _ _ _ fun p _ => ?_
    have := chebyshev hn ha p.1 p.2
    rw [div_eq_mul_inv _ (a ^ 2), mul_comm] at this
    linarith
  have hts : (ts, vs.map some) = ((lagList tr.steps (Spec.sampled pos.length skip dg)).map fun δ : ℤ => (δ : K) * tr.timestep,
      ((lagList tr.steps (Spec.sampled pos.length skip dg)).map fun δ =>
        Spec.mean (Spec.valuesAt (Spec.fractionBelow a) skip dg tr.steps pos δ)).map some) := by
    have : qstCompute tr dg skip a pos = _ := h1
    rw [e1] at this
    rw [List.map_map]
    exact Except.ok.inj this
  obtain ⟨ht, hv⟩ := Prod.mk.inj hts
  have hv' := List.map_injective_iff.2 (Option.some_injective K) hv
  refine ⟨ts, vs, vc, (lagList tr.steps (Spec.sampled pos.length skip dg)).map fun δ =>
    Spec.mean (Spec.valuesAt (fun x y : Frame n d K => sqDisp x y / (n : K)) skip dg tr.steps pos δ), e1, e2,
    by rw [h2, ht, List.map_map]; rfl, ?_, ?_⟩
  · rw [hv']; exact key
  · rw [hv'] at e3
    have : ∀ {l1 l2 l3 : List K}, List.Forall₂ (fun q m => 1 - q ≤ m / a ^ 2) l1 l3 → List.Forall₂ (· ≤ ·) l1 l2 →
        List.Forall₂ (fun q m => 1 - q ≤ m / a ^ 2) l2 l3 := by
      intro l1 l2 l3 h
      induction h generalizing l2 with
      | nil => intro h; cases h; exact .nil
      | cons h1 _ ih =>
        intro h
        cases h with
        | cons h2 h3 => exact .cons (le_trans (sub_le_sub_left h2 1) h1) (ih h3)
    exact this key e3

end

/-! ### C163 -/

section
variable {d : ℕ}

theorem cos_phase_le (κ2 : ℝ) (k Δ : Vec d ℝ) (hk : ∑ c, k c ^ 2 ≤ κ2) :
    1 - κ2 / 2 * ∑ c, Δ c ^ 2 ≤ Real.cos (Spec.dot k Δ) := by
  have h1 := Real.one_sub_sq_div_two_le_cos (x := Spec.dot k Δ)
  have h2 : (Spec.dot k Δ) ^ 2 ≤ (∑ c, k c ^ 2) * ∑ c, Δ c ^ 2 := Finset.sum_mul_sq_le_sq_mul_sq _ _ _
  have h3 : (∑ c, k c ^ 2) * ∑ c, Δ c ^ 2 ≤ κ2 * ∑ c, Δ c ^ 2 :=
    mul_le_mul_of_nonneg_right hk (Finset.sum_nonneg fun _ _ => sq_nonneg _)
  linarith

theorem selfTerms_ge {N : ℕ} (κ2 : ℝ) (k : Vec d ℝ) (hk : ∑ c, k c ^ 2 ≤ κ2) (x y : Frame N d ℝ) :
    (N : ℝ) - κ2 / 2 * sqDisp x y ≤ (Spec.selfTerms k (List.ofFn x) (List.ofFn y)).sum := by
  have e : Spec.selfTerms k (List.ofFn x) (List.ofFn y) =
      List.ofFn fun p : Fin N => Real.cos (Spec.dot k fun c => x p c - y p c) := by
    unfold Spec.selfTerms
    apply List.ext_getElem
    · simp
    · intro p h1 h2
      simp only [List.getElem_zipWith, List.getElem_ofFn]
  rw [e, List.sum_ofFn]
  have : (N : ℝ) - κ2 / 2 * sqDisp x y = ∑ p : Fin N, (1 - κ2 / 2 * ∑ c, (x p c - y p c) ^ 2) := by
    unfold sqDisp
    rw [Finset.sum_sub_distrib, Finset.mul_sum, Finset.sum_const, Finset.card_univ, Fintype.card_fin]
    simp
  rw [this]
  exact Finset.sum_le_sum fun p _ => cos_phase_le κ2 k _ hk

theorem flatMap_sum_ge {α β : Type} (kl : List α) (P : List β) (f : α → β → List ℝ) (B : β → ℝ)
    (h : ∀ v ∈ kl, ∀ p ∈ P, B p ≤ (f v p).sum) :
    (kl.length : ℝ) * (P.map B).sum ≤ (kl.flatMap fun v => P.flatMap (f v)).sum := by
  induction kl with
  | nil => simp
  | cons v kl ih =>
    rw [List.flatMap_cons, List.sum_append, List.length_cons]
    have h1 : (P.map B).sum ≤ (P.flatMap (f v)).sum := by
      rw [sum_flatMap_map]
      exact List.sum_le_sum fun p hp => h v (by simp) p hp
    have h2 := ih fun w hw => h w (by simp [hw])
    push_cast
    linarith

/-- One value of the self intermediate scattering function and one of the mean square displacement. -/
theorem self_value_ge (o : FsObj d) {N : ℕ} (h : FsRegular o N) (frames : List (Frame N d ℝ))
    (hpos : o.pos = frames.map List.ofFn) {kl : List (KVec d)} (hkl : kl ∈ o.ks.kvectors) {κ2 : ℝ}
    (hk : ∀ v ∈ kl, ∑ c, kvecOf o.ks v c ^ 2 ≤ κ2) {δ : ℤ} (hδ : δ ∈ fsLags o) :
    1 - κ2 * Spec.mean (Spec.valuesAt (fun x y : Frame N d ℝ => sqDisp x y / (N : ℝ)) o.skip o.tgrid o.steps frames δ) / 2 ≤
      Spec.mean (selfList o kl δ) := by
  have hlen : frames.length ≤ o.steps.length := by simpa [hpos] using h.steps
  have hNpos : (0 : ℝ) < N := by exact_mod_cast h.npart_pos
  have hlpos := selfList_pos o h hkl hδ
  rw [valuesAt_framePairs]
  have hP : Spec.framePairs o.steps o.skip o.tgrid o.pos δ =
      (Spec.framePairs o.steps o.skip o.tgrid frames δ).map fun p => (List.ofFn p.1, List.ofFn p.2) := by
    rw [hpos, framePairs_mapped _ _ _ _ _ hlen]
  set P := Spec.framePairs o.steps o.skip o.tgrid frames δ with hPdef
  have hsl : selfList o kl δ = kl.flatMap fun v => P.flatMap fun p =>
      Spec.selfTerms (kvecOf o.ks v) (List.ofFn p.1) (List.ofFn p.2) := by
    unfold selfList
    rw [hP]
    simp only [List.flatMap_map]
  have hlength : (selfList o kl δ).length = kl.length * (P.length * N) := by
    rw [hsl, length_flatMap_const _ _ (P.length * N)]
    intro v _
    rw [length_flatMap_const _ _ N]
    intro p _
    simp [Spec.selfTerms]
  have hsum := flatMap_sum_ge kl P (fun v p => Spec.selfTerms (kvecOf o.ks v) (List.ofFn p.1) (List.ofFn p.2))
    (fun p => (N : ℝ) - κ2 / 2 * sqDisp p.1 p.2) fun v hv p _ => selfTerms_ge κ2 _ (hk v hv) p.1 p.2
  rw [← hsl] at hsum
  have hkp : 0 < kl.length := by
    rcases Nat.eq_zero_or_pos kl.length with h0 | h0
    · rw [hlength, h0] at hlpos; simp at hlpos
    · exact h0
  have hPp : 0 < P.length := by
    rcases Nat.eq_zero_or_pos P.length with h0 | h0
    · rw [hlength, h0] at hlpos; simp at hlpos
    · exact h0
  have hkp' : (0 : ℝ) < kl.length := by exact_mod_cast hkp
  have hPp' : (0 : ℝ) < P.length := by exact_mod_cast hPp
  have e1 : (P.map fun p => (N : ℝ) - κ2 / 2 * sqDisp p.1 p.2).sum =
      P.length * N - κ2 / 2 * (P.map fun p => sqDisp p.1 p.2).sum := by
    have : ∀ l : List (Frame N d ℝ × Frame N d ℝ), (l.map fun p => (N : ℝ) - κ2 / 2 * sqDisp p.1 p.2).sum =
        l.length * N - κ2 / 2 * (l.map fun p => sqDisp p.1 p.2).sum := by
      intro l
      induction l with
      | nil => simp
      | cons p l ih =>
        simp only [List.map_cons, List.sum_cons, ih, List.length_cons]
        push_cast
        ring
    exact this P
  have e2 : (P.map fun p => sqDisp p.1 p.2 / (N : ℝ)).sum = (P.map fun p => sqDisp p.1 p.2).sum / N := by
    rw [div_eq_mul_inv, ← List.sum_map_mul_right]
    rfl
  unfold Spec.mean
  rw [List.length_map, e2, hlength]
  rw [e1] at hsum
  push_cast
  rw [le_div_iff₀ (by positivity)]
  refine le_trans (le_of_eq ?_) hsum
  field_simp

/-- **C163.** The self intermediate scattering function and the mean square displacement of the same frames, sampled at
the same pairs: `1 - κ² MSD(t)/2 ≤ F_s(k,t) ≤ 1` at every time and every grid point, where `κ` bounds the norms of the
wave-vectors of the grid point. The times are the same. Positions are those of the frames: unfolded positions, or, by
C117, folded ones for the scattering function. -/
theorem C163_self_msd (o : FsObj d) {N : ℕ} (h : FsRegular o N) (frames : List (Frame N d ℝ))
    (hpos : o.pos = frames.map List.ofFn)
    (hn : o.normalize = true → o.steps.Pairwise (· < ·) ∧ Spec.Sampled o.steps o.skip o.tgrid o.pos.length 0)
    (tr : Traj ℝ) (hsteps : tr.steps = o.steps) (hdt : tr.timestep = o.timestep) (g : List ℝ) (rmax : ℝ) (tsamples : ℤ)
    (offset : Bool) (hg : setupTGrid tr.steps tr.blockSize tr.timestep g offset = .ok o.tgrid) :
    ∃ ts fs msd, fsLegacy o = .ok (ts, fs) ∧
      msdCompute tr o.skip (some g) rmax tsamples offset frames = .ok (ts, msd.map some) ∧
      ts.length = msd.length ∧ fs.length = o.ks.kvectors.length ∧
      ∀ (i : ℕ) (kl : List (KVec d)) (row : List ℝ), o.ks.kvectors[i]? = some kl → fs[i]? = some row → ∀ κ : ℝ,
        (∀ v ∈ kl, √(∑ c, kvecOf o.ks v c ^ 2) ≤ κ) →
        List.Forall₂ (fun F m => 1 - κ ^ 2 * m / 2 ≤ F ∧ F ≤ 1) row msd := by
  have hlen : frames.length ≤ tr.steps.length := by rw [hsteps]; simpa [hpos] using h.steps
  have hfl : o.pos.length = frames.length := by simp [hpos]
  have h2 := msd_closed (rmax := rmax) (tsamples := tsamples) (pos := frames) hg h.skip_pos h.npart_pos hlen
  have hlags : lagList tr.steps (Spec.sampled frames.length o.skip o.tgrid) = fsLags o := by
    unfold fsLags; rw [hsteps, hfl]
  rw [hlags, hdt, hsteps] at h2
  have hF : fsLegacy o = .ok ((fsLags o).map (fun t : ℤ => (t : ℝ) * o.timestep), fsRaw o) := by
    rw [fsLegacy_eq o h]
    by_cases hb : o.normalize = true
    · rw [if_pos hb, fsRaw_norm o h (hn hb).1 (hn hb).2]
    · rw [if_neg hb]
  refine ⟨_, _, (fsLags o).map fun δ => Spec.mean (Spec.valuesAt (fun x y : Frame N d ℝ => sqDisp x y / (N : ℝ))
    o.skip o.tgrid o.steps frames δ), hF, by rw [h2, List.map_map]; rfl, by simp, by simp [fsRaw], ?_⟩
  intro i kl row hkl hrow κ hκ
  have hrow' : row = (fsLags o).map fun δ => Spec.mean (selfList o kl δ) := by
    unfold fsRaw at hrow
    rw [List.getElem?_map, hkl] at hrow
    exact (Option.some.inj hrow).symm
  have hmem := List.mem_of_getElem? hkl
  rw [hrow', List.forall₂_map_left_iff, List.forall₂_map_right_iff, List.forall₂_same]
  intro δ hδ
  refine ⟨self_value_ge o h frames hpos hmem (fun v hv => ?_) hδ, ?_⟩
  · rw [← Real.sq_sqrt (Finset.sum_nonneg fun c _ => sq_nonneg (kvecOf o.ks v c))]
    exact pow_le_pow_left₀ (Real.sqrt_nonneg _) (hκ v hv) 2
  · have := C53_bounded o h hn hF _ (List.mem_map.2 ⟨kl, hmem, rfl⟩) (Spec.mean (selfList o kl δ))
      (List.mem_map.2 ⟨δ, hδ, rfl⟩)
    exact (abs_le.1 this).2

end

/-! ### Cases that meet the hypotheses -/

/-- Three frames of two particles on a line. -/
def relExample : List (Frame 2 1 ℚ) := [![![0], ![4]], ![![1], ![4]], ![![1], ![8]]]

/-- Their steps. -/
def relTraj : Traj ℚ := { steps := [0, 1, 2], timestep := 1 / 2, blockSize := 1, totalTime := 1, npart := [2, 2, 2] }

/-- With masses 3: at the last time 17/2 without `fix_cm`, 9/4 with it, 25/4 for the centre of mass. -/
example : msdCompute relTraj 1 (some [0, 1 / 2, 1]) 0 3 false relExample =
      .ok ([0, 1 / 2, 1], [some 0, some (17 / 4), some (17 / 2)]) ∧
    ((setupFixCm (fun _ => 3) (id : Fin 2 → Fin 2) relExample).map fun f =>
      msdCompute relTraj 1 (some [0, 1 / 2, 1]) 0 3 false f) =
        some (.ok ([0, 1 / 2, 1], [some 0, some (17 / 8), some (9 / 4)])) ∧
    msdCompute relTraj 1 (some [0, 1 / 2, 1]) 0 3 false (relExample.map cmFrame) =
      .ok ([0, 1 / 2, 1], [some 0, some (17 / 8), some (25 / 4)]) := by decide +kernel

example : setupTGrid relTraj.steps relTraj.blockSize relTraj.timestep [0, 1 / 2, 1] false = .ok [(0, 0), (0, 1), (0, 2)] ∧
    relExample.length ≤ relTraj.steps.length := by decide +kernel

/-- Self overlap with `a = 2` of the same frames: one particle of the two has moved by 4 at the last time. -/
example : qstCompute relTraj [(0, 0), (0, 1), (0, 2)] 1 2 relExample =
      .ok ([0, 1 / 2, 1], [some 1, some (3 / 4), some (1 / 2)]) ∧
    (1 - 3 / 4 : ℚ) ≤ 17 / 4 / 2 ^ 2 ∧ (1 - 1 / 2 : ℚ) ≤ 17 / 2 / 2 ^ 2 := by decide +kernel

/-- The frames of `exFs`, with the grid of the times 0, 1/2 and 3/2. -/
example : ∃ (dg : List (ℕ × ℕ)) (ts : List ℝ) (fs : List (List ℝ)) (msd : List ℝ),
    fsLegacy { exFs with tgrid := dg } = .ok (ts, fs) ∧ ts.length = msd.length ∧ fs.length = 2 ∧
      ∀ row, fs[0]? = some row → List.Forall₂ (fun F m => 1 - 1 ^ 2 * m / 2 ≤ F ∧ F ≤ 1) row msd := by
  have hs : exFs.steps.Pairwise (· < ·) := by simp [exFs]
  obtain ⟨dg, h1, off, h2, h3⟩ := setupTGrid_zero ⟨exFs.steps, exFs.timestep, 1, 1, [2]⟩ hs (by simp [exFs]) one_pos
    (by norm_num [exFs]) false [0, 1 / 2, 3 / 2] 0 (by simp) le_rfl
  have hr : FsRegular { exFs with tgrid := dg } 2 :=
    ⟨exFs_regular.frames_ne, exFs_regular.skip_pos, exFs_regular.steps, exFs_regular.npart, exFs_regular.npart_pos,
      exFs_regular.allowed, exFs_regular.kgrid, exFs_regular.shells_ne, exFs_regular.shells⟩
  have hp : ({ exFs with tgrid := dg } : FsObj 3).pos = ([![![0, 0, 0], ![1, 2, 3]], ![![0, 1, 0], ![1, 2, 2]],
      ![![1, 1, 1], ![1, 4, 2]]] : List (Frame 2 3 ℝ)).map List.ofFn := by
    simp [exFs, List.ofFn_succ]
  obtain ⟨ts, fs, msd, e1, -, e3, e4, e5⟩ := C163_self_msd { exFs with tgrid := dg } hr _ hp
    (fun _ => ⟨hs, sampled_zero h2 (by simpa [exFs] using h3)⟩) _ rfl rfl _ 0 3 false h1
  refine ⟨dg, ts, fs, msd, e1, e3, by rw [e4]; simp [exFs, exKs], fun row hrow => ?_⟩
  refine e5 0 [![3, 2, 2]] row (by simp [exFs, exKs]) hrow 1 ?_
  intro v hv
  rw [List.mem_singleton] at hv
  subst hv
  have e : ∑ c, kvecOf exFs.ks ![3, 2, 2] c ^ 2 = 1 := by
    have e2 : kvecOf exFs.ks ![3, 2, 2] 2 = 0 := by
      show (1 : ℝ) * (((2 : ℤ) - 2 : ℤ) : ℝ) = 0
      simp
    rw [Fin.sum_univ_three, e2]
    norm_num [exFs, exKs, kvecOf]
  show √(∑ c, kvecOf exFs.ks ![3, 2, 2] c ^ 2) ≤ 1
  rw [e, Real.sqrt_one]

end PP.Props
