import Verif.Props.GrFilter
import Verif.Props.GrMerge
import Mathlib.Data.Int.ModEq
import Mathlib.Analysis.SpecialFunctions.Trigonometric.Basic
import Mathlib.Tactic.FinCases
import Mathlib.Algebra.BigOperators.Fin

/-!
# C201: g(r) of a cell repeated along the axes
-/

set_option linter.unusedSectionVars false

namespace PP.Spec

/-- The list `X` has the particles of `x`, in a cell of sides `L`, repeated `m c` times along each axis `c`, in any order and up to
periodic images of the large cell of sides `m c * L c`. -/
def Repeated {K : Type} [Field K] {d : ℕ} (m : Fin d → ℕ) (L : Fin d → K) (x X : List (Fin d → K)) : Prop :=
  ∃ e : ((c : Fin d) → Fin (m c)) × Fin x.length ≃ Fin X.length, ∀ q i c, ∃ z : ℤ,
    X[e (q, i)] c = x[i] c + (((q c : ℕ) + m c * z : ℤ) : K) * L c

end PP.Spec

namespace PP.Props
open PP Classical

section
variable {K : Type} [Field K] [LinearOrder K] [IsStrictOrderedRing K] [FloorRing K] {d : ℕ}

theorem image_unique {L a b : K} (k : ℤ) (ha : |a| < L / 2) (hb : |b| ≤ L / 2) (h : a - b = k * L) : k = 0 := by
  rw [abs_le] at hb
  rw [abs_lt] at ha
  have hL : 0 < L := by linarith
  rcases lt_trichotomy k 0 with hk | hk | hk
  · have : (k : K) ≤ -1 := by exact_mod_cast (by omega : k ≤ -1)
    nlinarith
  · exact hk
  · have : (1 : K) ≤ k := by exact_mod_cast (by omega : 1 ≤ k)
    nlinarith

theorem component_lt (sq : K → K) (hsq : ∀ x, 0 ≤ sq x) (hsq2 : ∀ x, 0 ≤ x → sq x * sq x = x) (r : Vec d K) {b : K}
    (h : sq (∑ c, r c ^ 2) < b) (c : Fin d) : |r c| < b := by
  have h0 : 0 ≤ ∑ c, r c ^ 2 := Finset.sum_nonneg fun c _ => sq_nonneg _
  have h1 : r c ^ 2 ≤ ∑ c, r c ^ 2 := Finset.single_le_sum (f := fun c => r c ^ 2) (fun c _ => sq_nonneg _) (Finset.mem_univ c)
  have h2 := hsq2 _ h0
  have h3 := hsq (∑ c, r c ^ 2)
  have h4 : |r c| ^ 2 ≤ sq (∑ c, r c ^ 2) ^ 2 := by rw [_root_.sq_abs, pow_two (sq _), h2]; exact h1
  exact lt_of_le_of_lt (le_of_sq_le_sq h4 h3) h

/-- Distances in the large cell that are below half the sides of the small one. -/
theorem grDist_repeated (sq : K → K) (hsq : ∀ x, 0 ≤ sq x) (hsq2 : ∀ x, 0 ≤ x → sq x * sq x = x) (m : Fin d → ℕ)
    (hm : ∀ c, 0 < m c) (L M u v U V : Vec d K) (hL : ∀ c, 0 < L c) (hM : ∀ c, M c = m c * L c) (s s' : Fin d → ℤ)
    (hU : ∀ c, U c = u c + s c * L c) (hV : ∀ c, V c = v c + s' c * L c) (B : K → Prop) (hB : ∀ r, B r → ∀ c, r < L c / 2) :
    B (grDist sq M U V) ↔ B (grDist sq L u v) ∧ ∀ c, (m c : ℤ) ∣ pyRound ((u c - v c) / L c) + s c - s' c := by
  set a := minImage L (fun c => u c - v c) with ha
  set A := minImage M (fun c => U c - V c) with hA
  have hmK : ∀ c, (1 : K) ≤ m c := fun c => by exact_mod_cast hm c
  have hMp : ∀ c, 0 < M c := fun c => by rw [hM]; exact mul_pos (by linarith [hmK c]) (hL c)
  have e : ∀ c, A c - a c = ((pyRound ((u c - v c) / L c) + s c - s' c - m c * pyRound ((U c - V c) / M c) : ℤ) : K) * L c := by
    intro c
    show (U c - V c - (pyRound ((U c - V c) / M c) : K) * M c) - (u c - v c - (pyRound ((u c - v c) / L c) : K) * L c) = _
    generalize pyRound ((U c - V c) / M c) = R
    generalize pyRound ((u c - v c) / L c) = R'
    rw [hU, hV, hM]
    push_cast
    ring
  constructor
  · intro h
    have hlt : ∀ c, |A c| < L c / 2 := fun c => component_lt sq hsq hsq2 A (hB _ h c) c
    have hk : ∀ c, pyRound ((u c - v c) / L c) + s c - s' c - m c * pyRound ((U c - V c) / M c) = 0 :=
      fun c => image_unique _ (hlt c) (minImage_abs (hL c)) (e c)
    have hAa : A = a := by
      funext c
      have := e c
      rw [hk c] at this
      push_cast at this
      linarith
    refine ⟨?_, fun c => ⟨_, by have := hk c; linarith⟩⟩
    have : grDist sq L u v = grDist sq M U V := by
      show sq (∑ c, a c ^ 2) = sq (∑ c, A c ^ 2)
      rw [hAa]
    rw [this]
    exact h
  · rintro ⟨h, hdiv⟩
    have hlt : ∀ c, |a c| < L c / 2 := fun c => component_lt sq hsq hsq2 a (hB _ h c) c
    have hAa : A = a := by
      funext c
      obtain ⟨z, hz⟩ := hdiv c
      have hk : (pyRound ((U c - V c) / M c) - z) = 0 := by
        refine image_unique (L := M c) (a := a c) (b := A c) _ (lt_of_lt_of_le (hlt c) ?_) (minImage_abs (hMp c)) ?_
        · have := hmK c
          have := hL c
          rw [hM]
          nlinarith
        · have := e c
          rw [hz] at this
          push_cast at this ⊢
          generalize (pyRound ((U c - V c) / M c) : K) = R at *
          rw [hM]
          linarith
      have := e c
      rw [hz, show pyRound ((U c - V c) / M c) = z by omega] at this
      push_cast at this
      linarith
    have : grDist sq M U V = grDist sq L u v := by
      show sq (∑ c, A c ^ 2) = sq (∑ c, a c ^ 2)
      rw [hAa]
    rw [this]
    exact h

/-- One copy only is the nearest. -/
theorem one_copy (m : Fin d → ℕ) (hm : ∀ c, 0 < m c) (T : Fin d → ℤ) (z : ((c : Fin d) → Fin (m c)) → Fin d → ℤ) :
    (Finset.univ.filter fun q : (c : Fin d) → Fin (m c) => ∀ c, (m c : ℤ) ∣ T c - ((q c : ℕ) + m c * z q c)).card = 1 := by
  rw [Finset.card_eq_one]
  refine ⟨fun c => ⟨(T c % m c).toNat, ?_⟩, ?_⟩
  · have h1 := Int.emod_lt_of_pos (T c) (show (0 : ℤ) < m c by exact_mod_cast hm c)
    have := hm c
    omega
  · ext q
    simp only [Finset.mem_filter, Finset.mem_univ, true_and, Finset.mem_singleton]
    have hc : ∀ c, ((m c : ℤ) ∣ T c - ((q c : ℕ) + m c * z q c)) ↔ ((q c : ℕ) : ℤ) = T c % m c := by
      intro c
      rw [show T c - (((q c : ℕ) : ℤ) + m c * z q c) = (T c - (q c : ℕ)) - m c * z q c by ring,
        dvd_sub_left (Dvd.intro _ rfl), ← Int.modEq_iff_dvd]
      have hq : ((q c : ℕ) : ℤ) % m c = (q c : ℕ) := Int.emod_eq_of_lt (by positivity) (by exact_mod_cast (q c).isLt)
      unfold Int.ModEq
      rw [hq]
    constructor
    · intro h
      funext c
      apply Fin.ext
      have := (hc c).1 (h c)
      show (q c : ℕ) = (T c % m c).toNat
      omega
    · intro h c
      rw [hc, h]
      have := Int.emod_nonneg (T c) (show (m c : ℤ) ≠ 0 by have := hm c; omega)
      show (((T c % m c).toNat : ℕ) : ℤ) = _
      omega

theorem crossPairs_repeated (sq : K → K) (hsq : ∀ x, 0 ≤ sq x) (hsq2 : ∀ x, 0 ≤ x → sq x * sq x = x) (m : Fin d → ℕ)
    (hm : ∀ c, 0 < m c) (L M : Vec d K) (hL : ∀ c, 0 < L c) (hM : ∀ c, M c = m c * L c) (x y X Y : List (Vec d K))
    (hX : Spec.Repeated m L x X) (hY : Spec.Repeated m L y Y) (B : K → Prop) (hB : ∀ r, B r → ∀ c, r < L c / 2) :
    Spec.crossPairs (fun u v => B (grDist sq M u v)) X Y = (∏ c, m c) * Spec.crossPairs (fun u v => B (grDist sq L u v)) x y := by
  obtain ⟨e, he⟩ := hX
  obtain ⟨e', he'⟩ := hY
  choose z hz using he
  choose z' hz' using he'
  rw [crossPairs_eq_double, crossPairs_eq_double]
  rw [← Equiv.sum_comp e, Fintype.sum_prod_type]
  have hin : ∀ q i, ∑ J : Fin Y.length, (if B (grDist sq M X[e (q, i)] Y[J]) then 1 else 0)
      = ∑ j : Fin y.length, if B (grDist sq L x[i] y[j]) then 1 else 0 := by
    intro q i
    rw [← Equiv.sum_comp e', Fintype.sum_prod_type, Finset.sum_comm]
    refine Finset.sum_congr rfl fun j _ => ?_
    have hiff : ∀ q', B (grDist sq M X[e (q, i)] Y[e' (q', j)]) ↔ B (grDist sq L x[i] y[j]) ∧
        ∀ c, (m c : ℤ) ∣ pyRound ((x[i] c - y[j] c) / L c) + ((q c : ℕ) + m c * z q i c) - ((q' c : ℕ) + m c * z' q' j c) :=
      fun q' => grDist_repeated sq hsq hsq2 m hm L M _ _ _ _ hL hM _ _ (hz q i) (hz' q' j) B hB
    simp only [hiff]
    by_cases hb : B (grDist sq L x[i] y[j])
    · simp only [hb, true_and, if_true]
      rw [← Finset.card_filter]
      exact one_copy m hm _ fun q' => z' q' j
    · simp only [hb, false_and, if_false, Finset.sum_const_zero]
  simp only [hin, Finset.sum_const, Finset.card_univ, Fintype.card_pi, Fintype.card_fin, smul_eq_mul]

theorem repeated_length {m : Fin d → ℕ} {L : Vec d K} {x X : List (Vec d K)} (h : Spec.Repeated m L x X) :
    X.length = (∏ c, m c) * x.length := by
  obtain ⟨e, -⟩ := h
  have := Fintype.card_congr e
  simpa [Fintype.card_prod, Fintype.card_pi] using this.symm

theorem pairCount_repeated (sq : K → K) (hsq : ∀ x, 0 ≤ sq x) (hsq2 : ∀ x, 0 ≤ x → sq x * sq x = x) (m : Fin d → ℕ)
    (hm : ∀ c, 0 < m c) (o : GrObj d K) (f F : GrFrame d K) (hL : ∀ c, 0 < f.side c) (hM : ∀ c, F.side c = m c * f.side c)
    (h0 : Spec.Repeated m f.side f.pos0 F.pos0) (h1 : Spec.Repeated m f.side f.pos1 F.pos1) (B : K → Prop)
    (hB : ∀ r, B r → ∀ c, r < f.side c / 2) (O : GrObj d K) (hO : O.same = o.same) :
    pairCount O (grDist sq) F B = (∏ c, m c) * pairCount o (grDist sq) f B := by
  have hMp : ∀ c, 0 < F.side c := fun c => by rw [hM]; exact mul_pos (by exact_mod_cast hm c) (hL c)
  unfold pairCount
  rw [hO]
  cases o.same
  · exact crossPairs_repeated sq hsq hsq2 m hm f.side F.side hL hM _ _ _ _ h0 h1 B hB
  · have hz : sq 0 = 0 := by simpa using hsq2 0 le_rfl
    have hc := crossPairs_repeated sq hsq hsq2 m hm f.side F.side hL hM _ _ _ _ h0 h0 B hB
    have a := crossPairs_self (fun u v => B (grDist sq f.side u v)) (fun u v => by rw [grDist_comm sq _ u v hL]) f.pos0
      (decide (B 0)) (fun u _ => by rw [grDist_self sq hz]; simp)
    have b := crossPairs_self (fun u v => B (grDist sq F.side u v)) (fun u v => by rw [grDist_comm sq _ u v hMp]) F.pos0
      (decide (B 0)) (fun u _ => by rw [grDist_self sq hz]; simp)
    have e1 : (fun u v => B (grDist sq f.side v u)) = fun u v => B (grDist sq f.side u v) := by
      funext u v; rw [grDist_comm sq _ u v hL]
    have e2 : (fun u v => B (grDist sq F.side v u)) = fun u v => B (grDist sq F.side u v) := by
      funext u v; rw [grDist_comm sq _ u v hMp]
    rw [a, b, repeated_length h0] at hc
    simp only [if_true, e1, e2]
    cases hd : decide (B 0)
    · rw [hd] at hc
      simp only [Bool.false_eq_true, if_false, add_zero] at hc
      linarith
    · rw [hd] at hc
      simp only [if_true] at hc
      linarith

/-- **C201**: the values of g(r) of a cell repeated any number of times along the axes are those of the single cell, up to half its
smallest side. -/
theorem C201_repeated (sq : K → K) (hsq : ∀ x, 0 ≤ sq x) (hsq2 : ∀ x, 0 ≤ x → sq x * sq x = x) {pi : K} (hpi : 0 < pi)
    (o : GrObj d K) {w : K} {n0 n1 : ℕ} {f0 : GrFrame d K} (h : GrRegular sq o w n0 n1 f0) (m : Fin d → ℕ) (hm : ∀ c, 0 < m c)
    (φ : GrFrame d K → GrFrame d K) (hside : ∀ f ∈ o.frames, ∀ c, (φ f).side c = m c * f.side c)
    (hrep : ∀ f ∈ o.frames, Spec.Repeated m f.side f.pos0 (φ f).pos0 ∧ Spec.Repeated m f.side f.pos1 (φ f).pos1)
    (hsame : o.same = true → ∀ f ∈ o.frames, (φ f).pos0 = (φ f).pos1) :
    ∃ t T, grLegacy sq pi o = .ok t ∧ grLegacy sq pi { o with frames := o.frames.map φ } = .ok T ∧
      ∀ p ∈ t, (∀ f ∈ o.frames, ∀ c, p.1 + w / 2 ≤ f.side c / 2) → p ∈ T := by
  have hd : 0 < d := h.system.dim_pos
  have hw := h.w_pos
  have hMn : 0 < ∏ c, m c := Finset.prod_pos fun c _ => hm c
  have hmK : ∀ c, (1 : K) ≤ m c := fun c => by exact_mod_cast hm c
  set O : GrObj d K := { o with frames := o.frames.map φ } with hO
  have hf0 : f0 ∈ o.frames := List.mem_of_getElem? h.first
  have H : GrRegular sq O w ((∏ c, m c) * n0) ((∏ c, m c) * n1) (φ f0) :=
    { first := by rw [hO]; simp [List.getElem?_map, h.first]
      skip_pos := h.skip_pos
      w_pos := hw
      rgrid := h.rgrid
      dr := h.dr
      fit := by
        obtain ⟨c, hc⟩ := h.fit
        refine ⟨c, hc.trans (mul_le_mul_of_nonneg_right ?_ (hsq _))⟩
        rw [hside f0 hf0]
        nlinarith [hmK c, h.side_pos f0 hf0 c]
      side_pos := by
        intro F hF c
        obtain ⟨f, hf, rfl⟩ := List.mem_map.1 hF
        rw [hside f hf]
        exact mul_pos (by linarith [hmK c]) (h.side_pos f hf c)
      n0_pos := Nat.mul_pos hMn h.n0_pos
      n1_pos := Nat.mul_pos hMn h.n1_pos
      len0 := by
        intro F hF
        obtain ⟨f, hf, rfl⟩ := List.mem_map.1 hF
        rw [repeated_length (hrep f hf).1, h.len0 f hf]
      len1 := by
        intro F hF
        obtain ⟨f, hf, rfl⟩ := List.mem_map.1 hF
        rw [repeated_length (hrep f hf).2, h.len1 f hf]
      same := by
        intro hs F hF
        obtain ⟨f, hf, rfl⟩ := List.mem_map.1 hF
        exact hsame hs f hf }
  obtain ⟨n, hn, hg, hn2⟩ := grSetupGrid_default sq hsq o f0.side h.w_pos h.rgrid h.dr h.fit
  have hL := grLegacy_closed sq hpi o h.system hn hg
  obtain ⟨n', hn', hg', hn2'⟩ := grSetupGrid_default sq hsq O (φ f0).side H.w_pos H.rgrid H.dr H.fit
  have hL' := grLegacy_closed sq hpi O H.system hn' hg'
  have hlast := lastFrame_mem h.first h.skip_pos
  have hlast' : (originFrames O.frames O.skip).getLastD (φ f0) = φ ((originFrames o.frames o.skip).getLastD f0) := by
    rw [show O.frames = o.frames.map φ from rfl, originFrames_map, List.getLastD_eq_getLast?, List.getLastD_eq_getLast?,
      List.getLast?_map]
    show _ = φ (Option.getD _ _)
    cases (originFrames o.frames o.skip).getLast? <;> rfl
  rw [hlast'] at hL'
  set g := (originFrames o.frames o.skip).getLastD f0 with hgdef
  obtain ⟨r, hr1, -, -, hr⟩ := grCrop_ok (rmax := o.rmax) (side := g.side) hd
  obtain ⟨r', hr1', -, hr3', hr'⟩ := grCrop_ok (rmax := o.rmax) (side := (φ g).side) hd
  rw [hr] at hL
  rw [show O.rmax = o.rmax from rfl, hr'] at hL'
  refine ⟨_, _, hL, hL', fun p hp hlim => ?_⟩
  rw [List.mem_filter, List.mem_map] at hp ⊢
  obtain ⟨⟨j, hj, rfl⟩, hcut⟩ := hp
  rw [List.mem_range] at hj
  have hlim' : ∀ f ∈ o.frames, ∀ c, ((j : K) + 1) * w ≤ f.side c / 2 := by
    intro f hf c
    have := hlim f hf c
    simp only at this
    linarith
  have hsd : (1 : K) ≤ sq (d : K) := by
    have h1 := hsq2 (d : K) (Nat.cast_nonneg d)
    have h2 := hsq (d : K)
    have h3 : (1 : K) ≤ d := by exact_mod_cast hd
    by_contra hc
    push Not at hc
    nlinarith
  obtain ⟨c0, -⟩ := h.fit
  have hjn : j + 1 < n := by
    have h1 := hn2 c0
    have h2 := hlim' f0 hf0 c0
    have h3 := h.side_pos f0 hf0 c0
    have h4 : (j : K) + 1 < n := by
      refine lt_of_mul_lt_mul_right (lt_of_le_of_lt ?_ h1) hw.le
      have hj0 : (0 : K) ≤ j := Nat.cast_nonneg j
      nlinarith
    exact_mod_cast h4
  have hjn' : j + 1 < n' := by
    have h1 := hn2' c0
    have h2 := hlim' f0 hf0 c0
    have h3 := h.side_pos f0 hf0 c0
    rw [hside f0 hf0] at h1
    have h4 : (j : K) + 1 < n' := by
      refine lt_of_mul_lt_mul_right (lt_of_le_of_lt ?_ h1) hw.le
      have hj0 : (0 : K) ≤ j := Nat.cast_nonneg j
      have h5 : f0.side c0 ≤ m c0 * f0.side c0 := by nlinarith [hmK c0]
      nlinarith
    exact_mod_cast h4
  have hbin : ∀ k, j + 1 < k → Spec.InBin (defaultEdges w k) j = fun r => (j : K) * w ≤ r ∧ r < ((j : K) + 1) * w := by
    intro k hk
    funext r
    apply propext
    rw [inBin_default (by omega)]
    constructor
    · rintro ⟨a, b | b⟩
      · exact ⟨a, b⟩
      · omega
    · rintro ⟨a, b⟩; exact ⟨a, Or.inl b⟩
  refine ⟨⟨j, List.mem_range.2 (by omega), ?_⟩, ?_⟩
  · refine Prod.ext rfl ?_
    simp only [Option.some.injEq]
    rw [hbin n hjn, hbin n' hjn']
    have hcount : ∀ f ∈ o.frames, pairCount O (grDist sq) (φ f) (fun r => (j : K) * w ≤ r ∧ r < ((j : K) + 1) * w) =
        (∏ c, m c) * pairCount o (grDist sq) f (fun r => (j : K) * w ≤ r ∧ r < ((j : K) + 1) * w) := fun f hf =>
      pairCount_repeated sq hsq hsq2 m hm o f (φ f) (h.side_pos f hf) (hside f hf) (hrep f hf).1 (hrep f hf).2 _
        (fun r hr c => lt_of_lt_of_le hr.2 (hlim' f hf c)) O rfl
    have hmean : meanCount (originFrames O.frames O.skip)
        (fun f => pairCount O (grDist sq) f fun r => (j : K) * w ≤ r ∧ r < ((j : K) + 1) * w) =
        ((∏ c, m c : ℕ) : K) * meanCount (originFrames o.frames o.skip)
        (fun f => pairCount o (grDist sq) f fun r => (j : K) * w ≤ r ∧ r < ((j : K) + 1) * w) := by
      unfold meanCount
      rw [show originFrames O.frames O.skip = (originFrames o.frames o.skip).map φ from originFrames_map φ _ _,
        List.length_map, List.map_map, ← mul_div_assoc, ← List.sum_map_mul_left]
      congr 2
      refine List.map_congr_left fun f hf => ?_
      simp only [Function.comp_apply]
      rw [hcount f (originFrames_mem hf)]
      push_cast
      ring
    have hvol : cellVolume (φ g).side = ((∏ c, m c : ℕ) : K) * cellVolume g.side := by
      unfold cellVolume
      push_cast
      rw [← Finset.prod_mul_distrib]
      exact Finset.prod_congr rfl fun c _ => hside g hlast c
    unfold grVal
    rw [hmean, hvol, show O.same = o.same from rfl]
    have q : ((∏ c, m c : ℕ) : K) ≠ 0 := by exact_mod_cast hMn.ne'
    have hv := (cellVolume_pos (h.side_pos g hlast)).ne'
    have hn0 : (n0 : K) ≠ 0 := by exact_mod_cast h.n0_pos.ne'
    have hn1 : (n1 : K) ≠ 0 := by exact_mod_cast h.n1_pos.ne'
    rw [Nat.cast_mul, Nat.cast_mul]
    generalize ((∏ c, m c : ℕ) : K) = M at *
    generalize meanCount (originFrames o.frames o.skip) _ = A
    generalize shellVol pi d _ _ = s
    generalize (if o.same = true then (1 / 2 : K) else 1) = u
    rw [mul_div_mul_left _ _ q, show (n1 : K) / cellVolume g.side * s * (M * n0) * u = M * (n1 / cellVolume g.side * s * n0 * u) by ring,
      mul_div_mul_left _ _ q]
  · rw [decide_eq_true_eq] at hcut ⊢
    by_cases hrm : 0 < o.rmax
    · rw [hr1' hrm]; rw [hr1 hrm] at hcut; exact hcut
    · obtain ⟨c, hc⟩ := hr3' hrm
      rw [← hc, hside g hlast]
      have h1 := hlim' g hlast c
      have h2 : g.side c ≤ m c * g.side c := by nlinarith [hmK c, h.side_pos g hlast c]
      show ((j : K) + 1 / 2) * w ≤ _
      nlinarith

end

/-- The particles repeated twice along each axis. -/
def repeatTwice {K : Type} [Field K] {d : ℕ} (L : Vec d K) (x : List (Vec d K)) : List (Vec d K) :=
  List.ofFn fun I : Fin (2 ^ d * x.length) => fun c =>
    x.get (finProdFinEquiv.symm I).2 c + ((finFunctionFinEquiv.symm (finProdFinEquiv.symm I).1 c : Fin 2) : ℕ) * L c

theorem repeatTwice_repeated {K : Type} [Field K] {d : ℕ} (L : Vec d K) (x : List (Vec d K)) :
    Spec.Repeated (fun _ => 2) L x (repeatTwice L x) := by
  refine ⟨((finFunctionFinEquiv.prodCongr (Equiv.refl _)).trans finProdFinEquiv).trans (finCongr (by simp [repeatTwice])),
    fun q i c => ⟨0, ?_⟩⟩
  have e : ∀ (n : ℕ) (f : Fin n → Vec d K) (I : Fin n) (h : n = (List.ofFn f).length), (List.ofFn f)[(finCongr h) I] = f I := by
    intro n f I h
    simp
  refine (congrFun (e _ _ (finProdFinEquiv (finFunctionFinEquiv q, i)) (by simp)) c).trans ?_
  have hs : finProdFinEquiv.symm (finProdFinEquiv (finFunctionFinEquiv q, i)) = (finFunctionFinEquiv q, i) :=
    Equiv.symm_apply_apply _ _
  show x.get (finProdFinEquiv.symm (finProdFinEquiv (finFunctionFinEquiv q, i))).2 c +
    ((finFunctionFinEquiv.symm (finProdFinEquiv.symm (finProdFinEquiv (finFunctionFinEquiv q, i))).1 c : Fin 2) : ℕ) * L c = _
  rw [hs]
  simp

/-- Two particles in a square cell, repeated. -/
noncomputable def exSquare : GrObj 2 ℝ :=
  ⟨[⟨![4, 4], fun _ => true, [![0, 0], ![1, 1]], [![0, 0], ![1, 1]]⟩], true, 1, none, .float 1, -1⟩

example : ∃ t T, grLegacy Real.sqrt Real.pi exSquare = .ok t ∧
    grLegacy Real.sqrt Real.pi { exSquare with frames := exSquare.frames.map fun f =>
      ⟨fun c => 2 * f.side c, f.periodic, repeatTwice f.side f.pos0, repeatTwice f.side f.pos1⟩ } = .ok T ∧
    ∀ p ∈ t, (∀ f ∈ exSquare.frames, ∀ c, p.1 + 1 / 2 ≤ f.side c / 2) → p ∈ T := by
  have h : GrRegular Real.sqrt exSquare 1 2 2 ⟨![4, 4], fun _ => true, [![0, 0], ![1, 1]], [![0, 0], ![1, 1]]⟩ :=
    { first := rfl
      skip_pos := by decide
      w_pos := one_pos
      rgrid := rfl
      dr := rfl
      fit := ⟨0, by
        have : (1 : ℝ) ≤ Real.sqrt ((2 : ℕ) : ℝ) := by rw [Real.one_le_sqrt]; norm_num
        exact le_trans (by norm_num) (mul_le_mul_of_nonneg_left this (by norm_num : (0 : ℝ) ≤ 4))⟩
      side_pos := by
        intro f hf c
        simp only [exSquare, List.mem_singleton] at hf
        subst hf
        fin_cases c <;> norm_num
      n0_pos := by decide
      n1_pos := by decide
      len0 := by intro f hf; simp only [exSquare, List.mem_singleton] at hf; subst hf; rfl
      len1 := by intro f hf; simp only [exSquare, List.mem_singleton] at hf; subst hf; rfl
      same := by intro _ f hf; simp only [exSquare, List.mem_singleton] at hf; subst hf; rfl }
  refine C201_repeated Real.sqrt Real.sqrt_nonneg (fun x hx => Real.mul_self_sqrt hx) Real.pi_pos exSquare h (fun _ => 2)
    (fun _ => by norm_num) _ (fun f _ c => by norm_num) (fun f _ => ⟨repeatTwice_repeated _ _, repeatTwice_repeated _ _⟩) ?_
  intro _ f hf
  simp only [exSquare, List.mem_singleton] at hf
  subst hf
  rfl

end PP.Props
