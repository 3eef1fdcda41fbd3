import Verif.Lemmas.Shells
import Mathlib.Algebra.Order.Archimedean.Basic
import Mathlib.Tactic.IntervalCases
import Mathlib.Tactic.NormNum

/-!
# C47, C48: shells of wave-vectors
-/

namespace PP.Props

open PP

set_option linter.unusedSectionVars false

variable {d : ℕ}

theorem widen_length {dk : List ℝ} {kvec : List (List (KVec d))} (h : kvec.length = dk.length) :
    (widen dk kvec).length = dk.length := by
  unfold widen; simp [h]

theorem widen_getD {dk : List ℝ} {kvec : List (List (KVec d))} (h : kvec.length = dk.length) {i : ℕ}
    (hi : i < dk.length) : (widen dk kvec).getD i 0 =
      if kvec.getD i [] = [] then dk.getD i 0 * (6 / 5) else dk.getD i 0 := by
  unfold widen
  rw [List.getD_eq_getElem _ _ (by simp [h]; exact hi), List.getElem_zipWith,
    List.getD_eq_getElem _ _ (by omega), List.getD_eq_getElem _ _ hi]
  simp [List.isEmpty_iff]

/-- The result comes from one pass with the final widths, and no shell is empty. -/
theorem setup_ok {k0 : Vec d ℝ} (hk0 : ∀ c, 0 < k0 c) {kgrid : List ℝ} {depth : ℕ} {dk0 : List ℝ}
    (hl : dk0.length = kgrid.length) (hdk : ∀ i < kgrid.length, 0 ≤ dk0.getD i 0)
    {kvec : List (List (KVec d))} {kbin : ℤ} {dk : List ℝ}
    (h : setupGridSphere Real.sqrt k0 kgrid depth dk0 = .ok (kvec, kbin, dk)) :
    kgrid ≠ [] ∧ (d = 2 ∨ d = 3) ∧ dk.length = kgrid.length ∧
      (∀ i < kgrid.length, ∃ m : ℕ, dk.getD i 0 = dk0.getD i 0 * (6 / 5) ^ m) ∧
      fillShells Real.sqrt k0 kgrid dk = .ok (kvec, kbin) ∧ ∀ s ∈ kvec, s ≠ [] := by
  induction depth generalizing dk0 with
  | zero => cases h
  | succ depth ih =>
    rw [setupGridSphere] at h
    have hn : kgrid ≠ [] := by
      rintro rfl
      unfold fillShells at h
      cases h
    have hd : d = 2 ∨ d = 3 := by
      cases hf : fillShells Real.sqrt k0 kgrid dk0 with
      | error e => rw [hf] at h; cases h
      | ok r =>
        unfold fillShells at hf
        have hlen : 0 < kgrid.length := List.length_pos_iff.2 hn
        rw [pyGet_ok (by omega), pyGet_ok (by omega)] at hf
        simp only [bind, Except.bind] at hf
        cases hm : pyMin (List.ofFn k0) with
        | error e => rw [hm] at hf; cases hf
        | ok m =>
          rw [hm] at hf
          simp only [] at hf
          split at hf
          · cases hf
          · rename_i it hit
            exact (kIter_ok hit).2.1
    obtain ⟨kv, kb, hf, hkl, -, -⟩ := fillShells_spec hk0 hd hn hl
    rw [hf] at h
    simp only [bind, Except.bind] at h
    by_cases hall : (kv.all fun s => !s.isEmpty) = true
    · rw [if_pos hall] at h
      cases h
      refine ⟨hn, hd, hl, fun i hi => ⟨0, by simp⟩, hf, ?_⟩
      intro s hs
      have := List.all_eq_true.1 hall s hs
      simpa using this
    · rw [if_neg hall] at h
      have hlw : (widen dk0 kv).length = kgrid.length := by rw [widen_length (by omega), hl]
      have hw : ∀ i < kgrid.length, ∃ m : ℕ, (widen dk0 kv).getD i 0 = dk0.getD i 0 * (6 / 5) ^ m := by
        intro i hi
        rw [widen_getD (by omega) (by omega)]
        split_ifs
        · exact ⟨1, by simp⟩
        · exact ⟨0, by simp⟩
      obtain ⟨_, _, h3, h4, h5⟩ := ih hlw (fun i hi => by
        obtain ⟨m, hm⟩ := hw i hi
        rw [hm]; exact mul_nonneg (hdk i hi) (by positivity)) h
      refine ⟨hn, hd, h3, ?_, h5⟩
      intro i hi
      obtain ⟨m, hm⟩ := hw i hi
      obtain ⟨m', hm'⟩ := h4 i hi
      exact ⟨m + m', by rw [hm', hm, pow_add]; ring⟩

/-- **C47**. When `_setup_grid_sphere(dk0, kgrid, k0)` returns the lists `kvec` with offset `kbin` and final widths
`dk`, which are the requested ones times powers of 1.2, then no list is empty or has repetitions, and a
wave-vector with integer components `v` belongs to list `i` iff its norm does not exceed the last grid point plus
its width, it lies within `dk i` of grid point `i`, and not within the width of any previous grid point. In
particular it belongs to one list at most. -/
theorem C47_shells {k0 : Vec d ℝ} (hk0 : ∀ c, 0 < k0 c) {kgrid dk0 : List ℝ} {depth : ℕ}
    (hl : dk0.length = kgrid.length) (hdk : ∀ i < kgrid.length, 0 ≤ dk0.getD i 0)
    (hk : ∀ i < kgrid.length, 0 ≤ kgrid.getD i 0)
    {kvec : List (List (KVec d))} {kbin : ℤ} {dk : List ℝ}
    (h : setupGridSphere Real.sqrt k0 kgrid depth dk0 = .ok (kvec, kbin, dk)) :
    kvec.length = kgrid.length ∧ dk.length = kgrid.length ∧
      (∀ i < kgrid.length, ∃ m : ℕ, dk.getD i 0 = dk0.getD i 0 * (6 / 5) ^ m) ∧
      (∀ i < kgrid.length, kvec.getD i [] ≠ [] ∧ (kvec.getD i []).Nodup ∧
        ∀ v : Fin d → ℤ, (fun c => v c + kbin) ∈ kvec.getD i [] ↔ Spec.First kgrid dk i (Spec.knorm k0 v)) ∧
      ∀ i < kgrid.length, ∀ j < kgrid.length, ∀ w, w ∈ kvec.getD i [] → w ∈ kvec.getD j [] → i = j := by
  obtain ⟨hn, hd, hdl, hpow, hf, hne⟩ := setup_ok hk0 hl hdk h
  obtain ⟨kv, kb, hf', hkl, -, hspec⟩ := fillShells_spec hk0 hd hn hdl
  rw [hf] at hf'
  cases hf'
  have hlen : 0 < kgrid.length := List.length_pos_iff.2 hn
  have hdk' : ∀ i < kgrid.length, 0 ≤ dk.getD i 0 := by
    intro i hi
    obtain ⟨m, hm⟩ := hpow i hi
    rw [hm]; exact mul_nonneg (hdk i hi) (by positivity)
  have htop : 0 ≤ Spec.kTop kgrid dk := by
    unfold Spec.kTop
    exact add_nonneg (hk _ (by omega)) (by rw [hdl]; exact hdk' _ (by omega))
  refine ⟨hkl, hdl, hpow, ?_, ?_⟩
  · intro i hi
    refine ⟨?_, (hspec i hi).1, ?_⟩
    · rw [List.getD_eq_getElem _ _ (by omega)]
      exact hne _ (List.getElem_mem _)
    · intro v
      rw [(hspec i hi).2.1 htop]
      simp
  · intro i hi j hj w h1 h2
    rw [(hspec i hi).2.1 htop] at h1
    rw [(hspec j hj).2.1 htop] at h2
    rcases lt_trichotomy i j with h | h | h
    · exact absurd h1.2.1 (h2.2.2 i h)
    · exact h
    · exact absurd h2.2.1 (h1.2.2 j h)

/-- Shells that grow by 20% as long as they are empty are eventually all non-empty. `norms` is the set of norms,
`w t i` the width of shell `i` at step `t`. -/
theorem all_filled (n : ℕ) (hn : 0 < n) (norms : Set ℝ) (h0 : ∀ x ∈ norms, 0 ≤ x)
    (hub : ∀ R : ℝ, ∃ x ∈ norms, R < x) (k : ℕ → ℝ) (w : ℕ → ℕ → ℝ) (hw : ∀ i < n, 0 < w 0 i)
    (E : ℕ → ℕ → Prop)
    (hE : ∀ t, ∀ i < n, E t i ↔ ∃ x ∈ norms, x ≤ k (n - 1) + w t (n - 1) ∧ |x - k i| < w t i ∧
      ∀ j < i, ¬ |x - k j| < w t j)
    (hstep : ∀ t, ∀ i < n, (E t i → w (t + 1) i = w t i) ∧ (¬ E t i → w (t + 1) i = w t i * (6 / 5))) :
    ∃ t, ∀ i < n, E t i := by
  have hpos : ∀ t, ∀ i < n, 0 < w t i := by
    intro t
    induction t with
    | zero => exact hw
    | succ t ih =>
      intro i hi
      by_cases h : E t i
      · rw [(hstep t i hi).1 h]; exact ih i hi
      · rw [(hstep t i hi).2 h]; exact mul_pos (ih i hi) (by norm_num)
  have hmono : ∀ t, ∀ i < n, w t i ≤ w (t + 1) i := by
    intro t i hi
    by_cases h : E t i
    · rw [(hstep t i hi).1 h]
    · rw [(hstep t i hi).2 h]; linarith [hpos t i hi]
  -- a shell that stays empty becomes arbitrarily wide
  have grow : ∀ i < n, ∀ T, (∀ t ≥ T, ¬ E t i) → ∀ R, ∃ S ≥ T, ∀ t ≥ S, R < w t i := by
    intro i hi T hT R
    have hpow : ∀ s, w (T + s) i = w T i * (6 / 5) ^ s := by
      intro s
      induction s with
      | zero => simp
      | succ s ih =>
        rw [← Nat.add_assoc, (hstep _ i hi).2 (hT _ (by omega)), ih, pow_succ]; ring
    obtain ⟨s, hs⟩ := pow_unbounded_of_one_lt (R / w T i) (show (1 : ℝ) < 6 / 5 by norm_num)
    refine ⟨T + s, by omega, ?_⟩
    intro t ht
    obtain ⟨r, rfl⟩ : ∃ r, t = T + (s + r) := ⟨t - T - s, by omega⟩
    rw [hpow, pow_add]
    have h1 : R < w T i * (6 / 5) ^ s := by
      rw [div_lt_iff₀ (hpos T i hi)] at hs; linarith
    have h2 : (1 : ℝ) ≤ (6 / 5) ^ r := one_le_pow₀ (by norm_num)
    have h3 : 0 < w T i * (6 / 5) ^ s := mul_pos (hpos T i hi) (by positivity)
    calc R < w T i * (6 / 5) ^ s := h1
      _ ≤ w T i * (6 / 5) ^ s * (6 / 5) ^ r := le_mul_of_one_le_right h3.le h2
      _ = _ := by ring
  have main : ∀ m ≤ n, ∃ T, ∀ t ≥ T, ∀ j < m, E t j := by
    intro m
    induction m with
    | zero => intro _; exact ⟨0, fun t _ j hj => absurd hj (by omega)⟩
    | succ m ih =>
      intro hm
      obtain ⟨T, hT⟩ := ih (by omega)
      have hconst : ∀ s, ∀ j < m, w (T + s) j = w T j := by
        intro s
        induction s with
        | zero => simp
        | succ s ihs =>
          intro j hj
          rw [← Nat.add_assoc, (hstep _ j (by omega)).1 (hT _ (by omega) j hj), ihs j hj]
      -- a norm beyond all previous shells
      obtain ⟨B, hB⟩ : ∃ B, ∀ j < m, k j + w T j ≤ B := by
        have : ∀ m', ∃ B, ∀ j < m', k j + w T j ≤ B := by
          intro m'
          induction m' with
          | zero => exact ⟨0, fun j hj => absurd hj (by omega)⟩
          | succ m' ih' =>
            obtain ⟨B, hB⟩ := ih'
            refine ⟨max B (k m' + w T m'), fun j hj => ?_⟩
            rcases Nat.lt_succ_iff_lt_or_eq.1 hj with h | h
            · exact (hB j h).trans (le_max_left _ _)
            · rw [h]; exact le_max_right _ _
        exact this m
      obtain ⟨x, hx, hBx⟩ := hub B
      have hout : ∀ t ≥ T, ∀ j < m, ¬ |x - k j| < w t j := by
        intro t ht j hj hlt
        obtain ⟨s, rfl⟩ : ∃ s, t = T + s := ⟨t - T, by omega⟩
        rw [hconst s j hj, abs_lt] at hlt
        linarith [hB j hj]
      have hex : ∃ t ≥ T, E t m := by
        by_contra hno
        have hno' : ∀ t ≥ T, ¬ E t m := fun t ht h => hno ⟨t, ht, h⟩
        obtain ⟨S, hS, hwide⟩ := grow m (by omega) T hno' (x + |k m|)
        have hcov : ∀ t ≥ S, ∀ y, 0 ≤ y → y ≤ x → |y - k m| < w t m := by
          intro t ht y hy0 hyx
          have h1 := hwide t ht
          have h2 := abs_sub y (k m)
          rw [abs_of_nonneg hy0] at h2
          linarith
        have hlow : ∀ t ≥ S, k (n - 1) + w t (n - 1) < x := by
          intro t ht
          by_contra hc
          push Not at hc
          exact hno' t (by omega) ((hE t m (by omega)).2
            ⟨x, hx, hc, hcov t ht x (h0 x hx) le_rfl, hout t (by omega)⟩)
        have hlast : ∀ t ≥ S, ¬ E t (n - 1) := by
          intro t ht hEl
          by_cases hmn : m = n - 1
          · exact hno' t (by omega) (hmn ▸ hEl)
          · obtain ⟨y, hy, hy1, -, hy3⟩ := (hE t (n - 1) (by omega)).1 hEl
            exact hy3 m (by omega) (hcov t ht y (h0 y hy) (hy1.trans (hlow t ht).le))
        obtain ⟨S', hS', hw'⟩ := grow (n - 1) (by omega) S hlast (x - k (n - 1))
        have := hw' S' le_rfl
        have := hlow S' hS'
        linarith
      obtain ⟨t1, ht1, hE1⟩ := hex
      refine ⟨t1, ?_⟩
      have hkeep : ∀ s, E (t1 + s) m := by
        intro s
        induction s with
        | zero => exact hE1
        | succ s ihs =>
          obtain ⟨y, hy, h1, h2, h3⟩ := (hE _ m (by omega)).1 ihs
          refine (hE _ m (by omega)).2 ⟨y, hy, ?_, ?_, ?_⟩
          · have := hmono (t1 + s) (n - 1) (by omega)
            rw [← Nat.add_assoc]
            linarith
          · rw [← Nat.add_assoc, (hstep _ m (by omega)).1 ihs]; exact h2
          · intro j hj
            have e1 := hconst (t1 + s - T) j hj
            have e2 := hconst (t1 + (s + 1) - T) j hj
            rw [show T + (t1 + s - T) = t1 + s by omega] at e1
            rw [show T + (t1 + (s + 1) - T) = t1 + (s + 1) by omega] at e2
            rw [e2, ← e1]
            exact h3 j hj
      intro t ht j hj
      rcases Nat.lt_succ_iff_lt_or_eq.1 hj with h | h
      · exact hT t (by omega) j h
      · subst h
        have := hkeep (t - t1)
        rwa [show t1 + (t - t1) = t by omega] at this
  obtain ⟨T, hT⟩ := main n le_rfl
  exact ⟨T, hT T le_rfl⟩

/-- Norms of wave-vectors are unbounded. -/
theorem knorm_unbounded {k0 : Vec d ℝ} (hk0 : ∀ c, 0 < k0 c) (hd : 0 < d) (R : ℝ) :
    ∃ v : Fin d → ℤ, R < Spec.knorm k0 v := by
  obtain ⟨N, hN⟩ := exists_nat_gt (R / k0 ⟨0, hd⟩)
  refine ⟨fun _ => N, ?_⟩
  have h1 : |k0 ⟨0, hd⟩ * ((N : ℤ) : ℝ)| ≤ Spec.knorm k0 fun _ => (N : ℤ) := by
    apply Real.abs_le_sqrt
    exact Finset.single_le_sum (f := fun c => (k0 c * ((N : ℤ) : ℝ)) ^ 2) (fun c _ => sq_nonneg _)
      (Finset.mem_univ (⟨0, hd⟩ : Fin d))
  rw [div_lt_iff₀ (hk0 _)] at hN
  refine lt_of_lt_of_le ?_ ((le_abs_self _).trans h1)
  push_cast
  linarith

/-- Widths of the shells after `t` passes. -/
noncomputable def widths (k0 : Vec d ℝ) (kgrid dk0 : List ℝ) : ℕ → List ℝ
  | 0 => dk0
  | t + 1 => match fillShells Real.sqrt k0 kgrid (widths k0 kgrid dk0 t) with
    | .ok (kvec, _) => widen (widths k0 kgrid dk0 t) kvec
    | .error _ => []

/-- **C48**. For positive widths, a non-negative non-empty k grid (sorted or not) and positive cell sides, in two
or three dimensions, the search for wave-vectors terminates successfully after finitely many restarts. -/
theorem C48_terminates {k0 : Vec d ℝ} (hk0 : ∀ c, 0 < k0 c) (hd : d = 2 ∨ d = 3) {kgrid dk0 : List ℝ}
    (hn : kgrid ≠ []) (hl : dk0.length = kgrid.length) (hdk : ∀ i < kgrid.length, 0 < dk0.getD i 0)
    (hk : ∀ i < kgrid.length, 0 ≤ kgrid.getD i 0) :
    ∃ depth r, setupGridSphere Real.sqrt k0 kgrid depth dk0 = .ok r := by
  set D := widths k0 kgrid dk0 with hD
  have hlen : 0 < kgrid.length := List.length_pos_iff.2 hn
  have base : ∀ t, (D t).length = kgrid.length ∧ ∀ i < kgrid.length, 0 < (D t).getD i 0 := by
    intro t
    induction t with
    | zero => exact ⟨hl, hdk⟩
    | succ t ih =>
      obtain ⟨kv, kb, hf, hkl, -, -⟩ := fillShells_spec hk0 hd hn ih.1
      have e : D (t + 1) = widen (D t) kv := by
        rw [hD, widths, ← hD, hf]
      refine ⟨by rw [e, widen_length (by omega), ih.1], ?_⟩
      intro i hi
      rw [e, widen_getD (by omega) (by omega)]
      split_ifs
      · exact mul_pos (ih.2 i hi) (by norm_num)
      · exact ih.2 i hi
  have htop : ∀ t, 0 ≤ Spec.kTop kgrid (D t) := by
    intro t
    unfold Spec.kTop
    rw [(base t).1]
    exact add_nonneg (hk _ (by omega)) ((base t).2 _ (by omega)).le
  choose kv kb hf hkl _hkb hsp using fun t => fillShells_spec hk0 hd hn (base t).1
  have hD1 : ∀ t, D (t + 1) = widen (D t) (kv t) := by
    intro t; rw [hD, widths, ← hD, hf]
  obtain ⟨t, ht⟩ := all_filled kgrid.length hlen (Set.range (Spec.knorm k0))
    (by rintro x ⟨v, rfl⟩; exact Real.sqrt_nonneg _)
    (fun R => by
      obtain ⟨v, hv⟩ := knorm_unbounded hk0 (by omega) R
      exact ⟨_, ⟨v, rfl⟩, hv⟩)
    (fun i => kgrid.getD i 0) (fun t i => (D t).getD i 0) hdk (fun t i => (kv t).getD i [] ≠ [])
    (by
      intro t i hi
      constructor
      · intro hne
        obtain ⟨u, hu⟩ := List.exists_mem_of_ne_nil _ hne
        obtain ⟨h1, h2, h3⟩ := ((hsp t i hi).2.1 (htop t) u).1 hu
        refine ⟨_, ⟨_, rfl⟩, ?_, h2, h3⟩
        unfold Spec.kTop at h1
        rwa [(base t).1] at h1
      · rintro ⟨x, ⟨v, rfl⟩, h1, h2, h3⟩
        refine List.ne_nil_of_mem (a := fun c => v c + kb t) (((hsp t i hi).2.1 (htop t) _).2 ⟨?_, ?_, ?_⟩)
        · unfold Spec.kTop; rw [(base t).1]; simpa using h1
        · simpa [Spec.Fits] using h2
        · intro j hj; simpa [Spec.Fits] using h3 j hj)
    (by
      intro t i hi
      have := widen_getD (dk := D t) (kvec := kv t) (by rw [hkl, (base t).1]) (i := i) (by rw [(base t).1]; exact hi)
      rw [hD1, this]
      constructor
      · intro h; rw [if_neg h]
      · intro h; rw [if_pos (not_not.1 h)])
  have run : ∀ s ≤ t, ∃ depth r, setupGridSphere Real.sqrt k0 kgrid depth (D (t - s)) = .ok r := by
    intro s
    induction s with
    | zero =>
      intro _
      refine ⟨1, (kv t, kb t, D t), ?_⟩
      rw [setupGridSphere, Nat.sub_zero, hf]
      have : ((kv t).all fun s => !s.isEmpty) = true := by
        rw [List.all_eq_true]
        intro s hs
        obtain ⟨i, hi, rfl⟩ := List.getElem_of_mem hs
        have := ht i (by rw [← hkl t]; exact hi)
        rw [List.getD_eq_getElem _ _ hi] at this
        simpa using this
      simp only [bind, Except.bind]
      rw [if_pos this]
      rfl
    | succ s ih =>
      intro hs
      by_cases hall : ((kv (t - (s + 1))).all fun s => !s.isEmpty) = true
      · refine ⟨1, (kv (t - (s + 1)), kb (t - (s + 1)), D (t - (s + 1))), ?_⟩
        rw [setupGridSphere, hf]
        simp only [bind, Except.bind]
        rw [if_pos hall]
        rfl
      · obtain ⟨depth, r, h⟩ := ih (by omega)
        refine ⟨depth + 1, r, ?_⟩
        rw [setupGridSphere, hf]
        simp only [bind, Except.bind]
        rw [if_neg hall, ← hD1, show t - (s + 1) + 1 = t - s by omega]
        exact h
  have := run t le_rfl
  rwa [Nat.sub_self] at this

theorem knorm_zero_or_one (v : Fin 2 → ℤ) : Spec.knorm ![1, 1] v = 0 ∨ 1 ≤ Spec.knorm ![1, 1] v := by
  have e : ∑ c, ((![1, 1] : Fin 2 → ℝ) c * (v c : ℝ)) ^ 2 = ((v 0 ^ 2 + v 1 ^ 2 : ℤ) : ℝ) := by
    rw [Fin.sum_univ_two]; simp
  unfold Spec.knorm
  rw [e]
  by_cases h : v 0 ^ 2 + v 1 ^ 2 = 0
  · left; rw [h]; simp
  · right
    have : (1 : ℤ) ≤ v 0 ^ 2 + v 1 ^ 2 := by
      have := sq_nonneg (v 0); have := sq_nonneg (v 1); omega
    rw [Real.one_le_sqrt]
    exact_mod_cast this

/-- Below the width 1/2 the shell around 1/2 is empty in a cell with smallest wave-vector 1. -/
theorem setup_half (depth : ℕ) (w : ℝ) (hw : 0 ≤ w) (h : w * (6 / 5) ^ depth ≤ 1 / 2) :
    setupGridSphere Real.sqrt (![1, 1] : Vec 2 ℝ) [1 / 2] depth [w] = .error .recursionError := by
  induction depth generalizing w with
  | zero => rfl
  | succ depth ih =>
    have hw2 : w ≤ 1 / 2 := by
      have : w * 1 ≤ w * (6 / 5) ^ (depth + 1) := mul_le_mul_of_nonneg_left (one_le_pow₀ (by norm_num)) hw
      linarith
    have hk0 : ∀ c, 0 < (![1, 1] : Vec 2 ℝ) c := by intro c; fin_cases c <;> norm_num
    obtain ⟨kv, kb, hf, hkl, -, hsp⟩ := fillShells_spec (k0 := (![1, 1] : Vec 2 ℝ)) hk0 (Or.inl rfl)
      (kgrid := [1 / 2]) (dk := [w]) (by simp) rfl
    have hempty : kv.getD 0 [] = [] := by
      by_contra hne
      obtain ⟨u, hu⟩ := List.exists_mem_of_ne_nil _ hne
      have htop : 0 ≤ Spec.kTop [1 / 2] [w] := by simp [Spec.kTop]; linarith
      obtain ⟨-, h2, -⟩ := ((hsp 0 (by simp)).2.1 htop u).1 hu
      simp only [Spec.Fits, List.getD_cons_zero] at h2
      rw [abs_lt] at h2
      rcases knorm_zero_or_one (fun c => u c - kb) with h | h
      · linarith [h2.1]
      · linarith [h2.2]
    have hkv : kv = [[]] := by
      match kv, hkl, hempty with
      | [a], _, h => simpa using h
    rw [setupGridSphere, hf, hkv]
    simp only [bind, Except.bind]
    rw [if_neg (by simp)]
    have : widen [w] ([[]] : List (List (KVec 2))) = [w * (6 / 5)] := by simp [widen]
    rw [this]
    refine ih _ (by linarith) ?_
    rw [pow_succ] at h
    linarith

/-- No bound on the number of restarts holds for all positive widths: for every recursion limit some positive width
exceeds it. (The limit of the python interpreter is about 1000 calls, so that widths below about `1e-80` raise
`RecursionError`.) -/
theorem C48_depth_unbounded (limit : ℕ) : ∃ w : ℝ, 0 < w ∧
    setupGridSphere Real.sqrt (![1, 1] : Vec 2 ℝ) [1 / 2] limit [w] = .error .recursionError := by
  refine ⟨1 / 2 / (6 / 5) ^ limit, by positivity, setup_half limit _ (by positivity) ?_⟩
  rw [div_mul_cancel₀ _ (by positivity)]

/-- The hypothesis that the width is positive cannot be dropped: with `dk = 0` the function never returns. -/
theorem C48_zero_width (limit : ℕ) :
    setupGridSphere Real.sqrt (![1, 1] : Vec 2 ℝ) [1 / 2] limit [0] = .error .recursionError :=
  setup_half limit 0 le_rfl (by norm_num)

/-- A non-trivial case of C48 and C47: an unsorted grid with a repeated entry and an empty shell in an elongated
three-dimensional cell. The first shell has
to be widened. -/
example : ∃ depth kvec kbin dk, setupGridSphere Real.sqrt (![1, 2, 3] : Vec 3 ℝ) [3 / 2, 5, 5, 1 / 10] depth
      [1 / 10, 1 / 10, 1 / 10, 1 / 10] = .ok (kvec, kbin, dk) ∧
    kvec.length = 4 ∧ (∀ i < 4, kvec.getD i [] ≠ []) ∧
    dk.getD 0 0 ≠ 1 / 10 := by
  have hk0 : ∀ c, 0 < (![1, 2, 3] : Vec 3 ℝ) c := by intro c; fin_cases c <;> norm_num
  have hdk : ∀ i < 4, 0 < ([1 / 10, 1 / 10, 1 / 10, 1 / 10] : List ℝ).getD i 0 := by
    intro i hi; interval_cases i <;> norm_num
  have hk : ∀ i < 4, 0 ≤ ([3 / 2, 5, 5, 1 / 10] : List ℝ).getD i 0 := by
    intro i hi; interval_cases i <;> norm_num
  obtain ⟨depth, ⟨kvec, kbin, dk⟩, h⟩ := C48_terminates hk0 (Or.inr rfl) (kgrid := [3 / 2, 5, 5, 1 / 10])
    (dk0 := [1 / 10, 1 / 10, 1 / 10, 1 / 10]) (by simp) rfl hdk hk
  obtain ⟨h1, -, -, h4, -⟩ := C47_shells (kgrid := [3 / 2, 5, 5, 1 / 10]) (dk0 := [1 / 10, 1 / 10, 1 / 10, 1 / 10])
    hk0 rfl (fun i hi => (hdk i hi).le) hk h
  refine ⟨depth, kvec, kbin, dk, h, h1, fun i hi => (h4 i hi).1, ?_⟩
  intro hd0
  obtain ⟨hne, -, hmem⟩ := h4 0 (by simp)
  obtain ⟨u, hu⟩ := List.exists_mem_of_ne_nil _ hne
  have := (hmem fun c => u c - kbin).1 (by simpa using hu)
  have h2 := this.2.1
  simp only [Spec.Fits, hd0, List.getD_cons_zero] at h2
  -- the squared norm is an integer between 1.96 and 2.56
  have e : Spec.knorm (![1, 2, 3] : Vec 3 ℝ) (fun c => u c - kbin) ^ 2 =
      (((u 0 - kbin) ^ 2 + 4 * (u 1 - kbin) ^ 2 + 9 * (u 2 - kbin) ^ 2 : ℤ) : ℝ) := by
    unfold Spec.knorm
    rw [Real.sq_sqrt (Finset.sum_nonneg fun c _ => sq_nonneg _), Fin.sum_univ_three]
    simp; ring
  have hn0 : 0 ≤ Spec.knorm (![1, 2, 3] : Vec 3 ℝ) (fun c => u c - kbin) := Real.sqrt_nonneg _
  generalize Spec.knorm (![1, 2, 3] : Vec 3 ℝ) (fun c => u c - kbin) = x at *
  generalize u 0 - kbin = a at *
  generalize u 1 - kbin = b at *
  generalize u 2 - kbin = f at *
  rw [abs_lt] at h2
  have lo : (1 : ℝ) < ((a ^ 2 + 4 * b ^ 2 + 9 * f ^ 2 : ℤ) : ℝ) := by rw [← e]; nlinarith
  have hi : ((a ^ 2 + 4 * b ^ 2 + 9 * f ^ 2 : ℤ) : ℝ) < 3 := by rw [← e]; nlinarith
  have lo' : (1 : ℤ) < a ^ 2 + 4 * b ^ 2 + 9 * f ^ 2 := by exact_mod_cast lo
  have hi' : a ^ 2 + 4 * b ^ 2 + 9 * f ^ 2 < (3 : ℤ) := by exact_mod_cast hi
  have hb : b = 0 := by
    have : b ^ 2 < 1 := by nlinarith [sq_nonneg a, sq_nonneg f]
    nlinarith [sq_nonneg b, sq_nonneg (b - 1), sq_nonneg (b + 1), Int.le_self_sq b, Int.le_self_sq (-b)]
  have hf : f = 0 := by
    have : f ^ 2 < 1 := by nlinarith [sq_nonneg a, sq_nonneg b]
    nlinarith [Int.le_self_sq f, Int.le_self_sq (-f)]
  subst hb hf
  have ha : a ≤ 1 := by nlinarith
  have ha' : -1 ≤ a := by nlinarith
  interval_cases a <;> omega

end PP.Props
