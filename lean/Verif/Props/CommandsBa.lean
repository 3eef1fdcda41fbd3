import Verif.Model.CommandsBa
import Verif.Props.CommandsGr
import Verif.Props.BaLabels
import Verif.Props.Peaks

/-!
# C223: the command ba
-/

namespace PP.Spec

/-- Mean number of pairs at distances from `j*dr` to `(j+1)*dr`, divided by that of an ideal gas of the same density. -/
noncomputable def pairRatio {d : ℕ} (L : Fin d → ℝ) (dr : ℝ) (N : ℕ) (x : List (List (Fin d → ℝ))) (j : ℕ) : ℝ :=
  mean (x.map fun f => (pairsBetween L (j * dr) ((j + 1) * dr) f : ℝ)) /
    ((N : ℝ) / 2 * (N / ∏ c, L c) * (ballVolume Real.pi d ((j + 1) * dr) - ballVolume Real.pi d (j * dr)))

/-- The angles at all the particles between pairs of neighbours closer than `rc`. -/
noncomputable def angles {d : ℕ} (L : Fin d → ℝ) (rc : ℝ) (x : List (Fin d → ℝ)) : List ℝ :=
  (List.range x.length).flatMap fun i => bondAngles L (x.getD i 0) x (fun _ => 0) fun _ => rc

open Classical in
/-- Number of particles, including the particle itself, closer to particle `i` than `rc`. -/
noncomputable def within {d : ℕ} (L : Fin d → ℝ) (rc : ℝ) (x : List (Fin d → ℝ)) (i : ℕ) : ℕ :=
  (List.range x.length).countP fun j => decide (Closer L rc (x.getD i 0) (x.getD j 0))

end PP.Spec

namespace PP.Props
open PP

variable {d : ℕ}

theorem baFirstMin_exists {grid value : List ℝ} {m : ℝ} (hlen : grid.length = value.length) {q : ℕ} {g a b : ℝ}
    (hq : grid[q]? = some g) (hm : m ≤ g) (ha : value[q]? = some a) (hb : value[q + 1]? = some b) (hab : a ≤ b) :
    ∀ k s, s ≤ q → q < s + k → ∃ r, baFirstMin grid value m (List.range' s k) = .ok (some r) := by
  intro k
  induction k with
  | zero => intro s h1 h2; omega
  | succ k ih =>
    intro s h1 h2
    have hql : q + 1 < value.length := (List.getElem?_eq_some_iff.1 hb).1
    have hs : s < grid.length := by omega
    have hs0 : s < value.length := by omega
    have hs1 : s + 1 < value.length := by omega
    rw [List.range'_succ]
    unfold baFirstMin pyGet
    simp only [List.getElem?_eq_getElem hs, List.getElem?_eq_getElem hs0, List.getElem?_eq_getElem hs1, bind, Except.bind]
    by_cases hsq : s = q
    · subst hsq
      rw [List.getElem?_eq_getElem hs] at hq
      rw [List.getElem?_eq_getElem hs0] at ha
      rw [List.getElem?_eq_getElem hs1] at hb
      cases hq; cases ha; cases hb
      rw [if_pos hm, if_pos (by linarith)]
      exact ⟨_, rfl⟩
    · split_ifs
      · exact ⟨_, rfl⟩
      · exact ih (s + 1) (by omega) (by omega)
      · exact ih (s + 1) (by omega) (by omega)

/-- The input with which the command is expected to work: that of the command gr with spacing 0.1 and the defaults of the other options,
and a spacing of the angles up to 180 degrees. -/
structure BaInput (dtheta : ℝ) (n : NOrigins) (bs : ℕ) (side : Vec d ℝ) (x : List (List (Vec d ℝ))) (N : ℕ) (skip skip0 : ℤ) (M : ℝ) :
    Prop where
  gr : GrInput (1 / 10) (-1) .none bs side x N skip0 M
  dtheta_pos : 0 < dtheta
  dtheta_le : dtheta ≤ 180
  skip : adjustSkip x.length bs (x.map List.length) n = .ok skip

/-- The whole table of g(r) without `rmax`. -/
theorem gr_table {n : NOrigins} {bs : ℕ} {dr : ℝ} {side : Vec d ℝ} {x : List (List (Vec d ℝ))} {N : ℕ} {skip : ℤ} {M : ℝ}
    (h : GrInput dr (-1) n bs side x N skip M) (legacy : Bool) (huge : ℝ) :
    grCommand legacy dr (-1) n bs huge (x.map fun f => (side, fun _ => true, f)) =
      .ok ((List.range ⌊M / dr + 1 / 2⌋₊).map fun j : ℕ =>
        (((j : ℝ) + 1 / 2) * dr, some (Spec.pairRatio side dr N (Spec.everyNth skip.toNat x) j))) := by
  obtain ⟨t, h1, h2, h3, h4⟩ := C221_definition h legacy huge
  have hw := h.dr_pos
  rw [h1]
  congr 1
  have hM0 : 0 ≤ M := by
    obtain ⟨⟨c, hc⟩, -⟩ := h.default (by norm_num)
    have := h.side_pos c
    rw [hc]; linarith
  have hiff : ∀ j : ℕ, j < ⌊M / dr + 1 / 2⌋₊ ↔ ((j : ℝ) + 1 / 2) * dr ≤ M := by
    intro j
    rw [← Nat.succ_le_iff, Nat.le_floor_iff (by positivity), ← le_div_iff₀ hw]
    push_cast
    constructor <;> intro h <;> linarith
  set T := (List.range ⌊M / dr + 1 / 2⌋₊).map fun j : ℕ =>
    (((j : ℝ) + 1 / 2) * dr, some (Spec.pairRatio side dr N (Spec.everyNth skip.toNat x) j)) with hT
  have hTs : T.Pairwise fun p q => p.1 < q.1 := by
    rw [hT, List.pairwise_map]
    refine List.pairwise_lt_range.imp ?_
    intro a b hab
    have : (a : ℝ) < b := by exact_mod_cast hab
    simp only
    nlinarith
  have hts : t.Pairwise fun p q => p.1 < q.1 := List.pairwise_map.1 h2
  have hsub : ∀ p ∈ T, p ∈ t := by
    intro p hp
    obtain ⟨j, hj, rfl⟩ := List.mem_map.1 hp
    exact h4 j ((hiff j).1 (List.mem_range.1 hj)) (Or.inr (Or.inl (by norm_num)))
  have hinj : ∀ p ∈ t, ∀ q ∈ t, p.1 = q.1 → p = q := by
    exact fun p hp q hq e => List.inj_on_of_nodup_map (h2.imp ne_of_lt) hp hq e
  have hmem : ∀ p, p ∈ t ↔ p ∈ T := by
    refine fun p => ⟨fun hp => ?_, hsub p⟩
    obtain ⟨j, e, hj⟩ := h3 p hp
    have hq : (((j : ℝ) + 1 / 2) * dr, some (Spec.pairRatio side dr N (Spec.everyNth skip.toNat x) j)) ∈ T :=
      List.mem_map.2 ⟨j, List.mem_range.2 ((hiff j).2 (by rw [← e]; exact hj)), rfl⟩
    rw [hinj p hp _ (hsub _ hq) e]
    exact hq
  have hnd : ∀ l : List (ℝ × Option ℝ), (l.Pairwise fun p q => p.1 < q.1) → l.Nodup :=
    fun l hl => hl.imp fun {a b} hab e => by rw [e] at hab; exact lt_irrefl _ hab
  exact ((List.perm_ext_iff_of_nodup (hnd _ hts) (hnd _ hTs)).2 hmem).eq_of_pairwise
    (fun a b _ _ h1 h2 => absurd h1 (not_lt.2 h2.le)) hts hTs

/-- What `baDefaultRcut` finds in a table at the centres of the bins up to `M`. -/
theorem rcut_of_table {M : ℝ} (hM0 : 0 ≤ M) (g : ℕ → ℝ) {p : ℕ} (hp : ((p : ℝ) + 1 / 2) * (1 / 10) ≤ M)
    (hmax : ∀ j : ℕ, ((j : ℝ) + 1 / 2) * (1 / 10) ≤ M → g j ≤ g p) (hfirst : ∀ j < p, g j < g p) :
    ((∃ q : ℕ, p < q ∧ ((q : ℝ) + 3 / 2) * (1 / 10) ≤ M ∧ g q ≤ g (q + 1)) →
      ∃ i : ℕ, p ≤ i ∧ ((i : ℝ) + 3 / 2) * (1 / 10) ≤ M ∧ g i ≤ g (i + 1) ∧ (∀ j, p < j → j < i → g (j + 1) < g j) ∧
        baDefaultRcut ((List.range ⌊M / (1 / 10) + 1 / 2⌋₊).map fun j : ℕ => ((j : ℝ) + 1 / 2) * (1 / 10))
          ((List.range ⌊M / (1 / 10) + 1 / 2⌋₊).map g) = .ok (some (((i : ℝ) + 1 / 2) * (1 / 10)))) ∧
    ((∀ q : ℕ, p ≤ q → ((q : ℝ) + 3 / 2) * (1 / 10) ≤ M → g (q + 1) < g q) →
      baDefaultRcut ((List.range ⌊M / (1 / 10) + 1 / 2⌋₊).map fun j : ℕ => ((j : ℝ) + 1 / 2) * (1 / 10))
        ((List.range ⌊M / (1 / 10) + 1 / 2⌋₊).map g) = .error .indexError) := by
  set n0 := ⌊M / (1 / 10) + 1 / 2⌋₊ with hn0
  have hiff : ∀ j : ℕ, j < n0 ↔ ((j : ℝ) + 1 / 2) * (1 / 10) ≤ M := by
    intro j
    rw [hn0, ← Nat.succ_le_iff, Nat.le_floor_iff (by positivity), ← le_div_iff₀ (by norm_num)]
    push_cast
    constructor <;> intro h <;> linarith
  have hiff1 : ∀ j : ℕ, j + 1 < n0 ↔ ((j : ℝ) + 3 / 2) * (1 / 10) ≤ M := by
    intro j
    rw [hiff]
    push_cast
    constructor <;> intro h <;> linarith
  set grid : List ℝ := (List.range n0).map fun j : ℕ => ((j : ℝ) + 1 / 2) * (1 / 10) with hgrid
  set value : List ℝ := (List.range n0).map g with hvalue
  have hpn : p < n0 := (hiff p).2 hp
  have hgg : ∀ j < n0, grid[j]? = some (((j : ℝ) + 1 / 2) * (1 / 10)) := by
    intro j hj
    simp [hgrid, hj]
  have hvg : ∀ j < n0, value[j]? = some (g j) := by
    intro j hj
    simp [hvalue, hj]
  have hgl : grid.length = n0 := by simp [hgrid]
  have hvl : value.length = n0 := by simp [hvalue]
  have hsorted : grid.Pairwise (· < ·) := by
    rw [hgrid, List.pairwise_map]
    refine List.pairwise_lt_range.imp ?_
    intro a b hab
    have : (a : ℝ) < b := by exact_mod_cast hab
    linarith
  obtain ⟨lo, hi, hab, -, i0, xi, fi, e1, e2, e3, e4, e5, e6⟩ := C10_ifabsmm grid value (by omega)
    (by intro e; rw [e] at hvl; simp at hvl; omega) hsorted
  have hi0 : i0 < n0 := by
    have := (List.getElem?_eq_some_iff.1 e2).1
    omega
  rw [hgg i0 hi0] at e1
  rw [hvg i0 hi0] at e2
  cases e1; cases e2
  have hpi : i0 = p := by
    rcases lt_trichotomy i0 p with hlt | rfl | hlt
    · have := hfirst i0 hlt
      have := e3 (g p) (List.mem_of_getElem? (hvg p hpn))
      linarith
    · rfl
    · have := e4 p hlt _ (hvg p hpn)
      have := hmax i0 ((hiff i0).1 hi0)
      linarith
  subst hpi
  have hlow : ∀ j < i0, ((j : ℝ) + 1 / 2) * (1 / 10) < hi.1 := by
    intro j hj
    have hj' : (j : ℝ) + 1 ≤ i0 := by exact_mod_cast hj
    by_cases hb : i0 + 1 < n0
    · have := (e6 (by omega) (by omega) _ _ (hgg (i0 - 1) (by omega)) (hgg (i0 + 1) hb)).1
      have hc : ((i0 - 1 : ℕ) : ℝ) = (i0 : ℝ) - 1 := by
        rw [Nat.cast_sub (by omega)]; simp
      rw [hc] at this
      linarith
    · rw [e5 (Or.inr (by omega))]
      simp only
      linarith
  have hup : ∀ j, i0 < j → j < n0 → hi.1 ≤ ((j : ℝ) + 1 / 2) * (1 / 10) := by
    intro j hj hjn
    have hj' : (i0 : ℝ) + 1 ≤ j := by exact_mod_cast hj
    by_cases hb : 0 < i0
    · have := (e6 hb (by omega) _ _ (hgg (i0 - 1) (by omega)) (hgg (i0 + 1) (by omega))).2.1
      push_cast at this
      linarith
    · rw [e5 (Or.inl (by omega))]
      simp only
      linarith
  refine ⟨?_, ?_⟩
  · rintro ⟨q, hq1, hq2, hq3⟩
    have hqn := (hiff1 q).2 hq2
    obtain ⟨r, hr⟩ := baFirstMin_exists (grid := grid) (value := value) (by omega) (hgg q (by omega)) (hup q hq1 (by omega))
      (hvg q (by omega)) (hvg (q + 1) hqn) hq3 n0 0 (by omega) (by omega)
    have hr' : baDefaultRcut grid value = .ok (some r) := by
      unfold baDefaultRcut
      rw [hab]
      simp only [bind, Except.bind, hgl, List.range_eq_range', hr]
    obtain ⟨lo', hi', i, v0, v1, c1, c2, c3, c4, c5, c6, c7⟩ := C91_default_rcut_partial grid value r hr'
    rw [hab] at c1
    cases c1
    have hin : i + 1 < n0 := by
      have := (List.getElem?_eq_some_iff.1 c5).1
      omega
    rw [hgg i (by omega)] at c2
    rw [hvg i (by omega)] at c4
    rw [hvg (i + 1) hin] at c5
    cases c2; cases c4; cases c5
    refine ⟨i, ?_, (hiff1 i).1 hin, c6, ?_, ?_⟩
    · by_contra hc
      have := hlow i (by omega)
      linarith
    · intro j hj1 hj2
      obtain ⟨a, b, d1, d2, d3⟩ := c7 j hj2 _ (hgg j (by omega)) (hup j hj1 (by omega))
      rw [hvg j (by omega)] at d1
      rw [hvg (j + 1) (by omega)] at d2
      cases d1; cases d2
      exact d3
    · exact hr'
  · intro hdec
    refine C91_counterexample_monotonic grid value lo hi (n0 - 1) (by omega) (by omega) hab ?_ ?_
    · intro y hy
      rw [hgg _ (by omega)] at hy
      cases hy
      by_cases hb : i0 = n0 - 1
      · rw [e5 (Or.inr (by omega)), hb]
      · exact hup _ (by omega) (by omega)
    · intro j hj y a b h1 h2 h3 h4
      rw [hgg j (by omega)] at h1
      rw [hvg j (by omega)] at h3
      rw [hvg (j + 1) (by omega)] at h4
      cases h1; cases h3; cases h4
      refine hdec j ?_ ((hiff1 j).1 (by omega))
      by_contra hc
      have := hlow j (by omega)
      linarith

/-- The cut-off: the first point from the peak on that is not followed by a decrease. -/
theorem baCutoff_spec {n : NOrigins} {bs : ℕ} {dtheta : ℝ} {side : Vec d ℝ} {x : List (List (Vec d ℝ))} {N : ℕ} {skip skip0 : ℤ} {M : ℝ}
    (h : BaInput dtheta n bs side x N skip skip0 M) (huge uninit : ℝ) {p : ℕ} (hp : ((p : ℝ) + 1 / 2) * (1 / 10) ≤ M)
    (hmax : ∀ j : ℕ, ((j : ℝ) + 1 / 2) * (1 / 10) ≤ M → Spec.pairRatio side (1 / 10) N (Spec.everyNth skip0.toNat x) j ≤
      Spec.pairRatio side (1 / 10) N (Spec.everyNth skip0.toNat x) p)
    (hfirst : ∀ j < p, Spec.pairRatio side (1 / 10) N (Spec.everyNth skip0.toNat x) j <
      Spec.pairRatio side (1 / 10) N (Spec.everyNth skip0.toNat x) p) :
    ((∃ q : ℕ, p < q ∧ ((q : ℝ) + 3 / 2) * (1 / 10) ≤ M ∧ Spec.pairRatio side (1 / 10) N (Spec.everyNth skip0.toNat x) q ≤
      Spec.pairRatio side (1 / 10) N (Spec.everyNth skip0.toNat x) (q + 1)) →
      ∃ i : ℕ, p ≤ i ∧ ((i : ℝ) + 3 / 2) * (1 / 10) ≤ M ∧ Spec.pairRatio side (1 / 10) N (Spec.everyNth skip0.toNat x) i ≤
        Spec.pairRatio side (1 / 10) N (Spec.everyNth skip0.toNat x) (i + 1) ∧
        (∀ j, p < j → j < i → Spec.pairRatio side (1 / 10) N (Spec.everyNth skip0.toNat x) (j + 1) <
          Spec.pairRatio side (1 / 10) N (Spec.everyNth skip0.toNat x) j) ∧
        baCutoff bs huge uninit (x.map fun f => (side, fun _ => true, f)) = .ok (((i : ℝ) + 1 / 2) * (1 / 10))) ∧
    ((∀ q : ℕ, p ≤ q → ((q : ℝ) + 3 / 2) * (1 / 10) ≤ M → Spec.pairRatio side (1 / 10) N (Spec.everyNth skip0.toNat x) (q + 1) <
      Spec.pairRatio side (1 / 10) N (Spec.everyNth skip0.toNat x) q) →
      baCutoff bs huge uninit (x.map fun f => (side, fun _ => true, f)) = .error .indexError) := by
  have hM0 : 0 ≤ M := by
    obtain ⟨⟨c, hc⟩, -⟩ := h.gr.default (by norm_num)
    have := h.gr.side_pos c
    rw [hc]; linarith
  have hg := gr_table h.gr false huge
  generalize hG : Spec.pairRatio side (1 / 10) N (Spec.everyNth skip0.toNat x) = g at *
  set n0 := ⌊M / (1 / 10) + 1 / 2⌋₊ with hn0
  set grid : List ℝ := (List.range n0).map fun j : ℕ => ((j : ℝ) + 1 / 2) * (1 / 10) with hgrid
  set value : List ℝ := (List.range n0).map g with hvalue
  have hcut : baCutoff bs huge uninit (x.map fun f => (side, fun _ => true, f)) =
      (baDefaultRcut grid value).map fun r => r.getD uninit := by
    unfold baCutoff
    rw [hg]
    simp only [bind, Except.bind, List.mapM_map, Function.comp_def]
    rw [show (List.range n0).mapM (fun x => (Except.ok (g x) : Py ℝ)) = .ok value from mapM_ok_map fun _ _ => rfl]
    simp only [List.map_map, Function.comp_def]
    rw [← hgrid]
    cases baDefaultRcut grid value <;> rfl
  obtain ⟨h1, h2⟩ := rcut_of_table hM0 g hp hmax hfirst
  refine ⟨fun hq => ?_, fun hdec => ?_⟩
  · obtain ⟨i, c1, c2, c3, c4, c5⟩ := h1 hq
    refine ⟨i, c1, c2, c3, c4, ?_⟩
    rw [hcut, c5]
    rfl
  · rw [hcut, h2 hdec]
    rfl

/-- **C223**: let `p` be the first maximum of g(r), computed with spacing 0.1 up to half of the smallest side, and let there be a point
after it that is not followed by a decrease. The cut-off of the command ba is then at one of these points, up to which g(r) decreases
from the one after the maximum on; and if no particle has more than 50 particles, including itself, within the cut-off, the command
succeeds and each of its values is the fraction of the angles between neighbours that are in the bin, divided by its width, where
angles from the last multiple of `dtheta` on are left out. -/
theorem C223_definition {n : NOrigins} {bs : ℕ} {dtheta : ℝ} {side : Vec d ℝ} {x : List (List (Vec d ℝ))} {N : ℕ} {skip skip0 : ℤ} {M : ℝ}
    (h : BaInput dtheta n bs side x N skip skip0 M) (huge uninit : ℝ) {p q : ℕ} (hp : ((p : ℝ) + 1 / 2) * (1 / 10) ≤ M)
    (hmax : ∀ j : ℕ, ((j : ℝ) + 1 / 2) * (1 / 10) ≤ M → Spec.pairRatio side (1 / 10) N (Spec.everyNth skip0.toNat x) j ≤
      Spec.pairRatio side (1 / 10) N (Spec.everyNth skip0.toNat x) p)
    (hfirst : ∀ j < p, Spec.pairRatio side (1 / 10) N (Spec.everyNth skip0.toNat x) j <
      Spec.pairRatio side (1 / 10) N (Spec.everyNth skip0.toNat x) p)
    (hq : p < q) (hqM : ((q : ℝ) + 3 / 2) * (1 / 10) ≤ M) (hrise : Spec.pairRatio side (1 / 10) N (Spec.everyNth skip0.toNat x) q ≤
      Spec.pairRatio side (1 / 10) N (Spec.everyNth skip0.toNat x) (q + 1)) :
    ∃ (i : ℕ) (rc : ℝ), rc = ((i : ℝ) + 1 / 2) * (1 / 10) ∧ p ≤ i ∧ i ≤ q ∧ Spec.pairRatio side (1 / 10) N (Spec.everyNth skip0.toNat x) i ≤
        Spec.pairRatio side (1 / 10) N (Spec.everyNth skip0.toNat x) (i + 1) ∧
      (∀ j, p < j → j < i → Spec.pairRatio side (1 / 10) N (Spec.everyNth skip0.toNat x) (j + 1) <
        Spec.pairRatio side (1 / 10) N (Spec.everyNth skip0.toNat x) j) ∧
      ((∀ f ∈ Spec.everyNth skip.toNat x, ∀ k < f.length, Spec.within side rc f k ≤ 50) →
        baCommand dtheta n bs huge uninit (x.map fun f => (side, fun _ => true, f)) = .ok
          ((List.range ⌊180 / dtheta⌋₊).map fun b : ℕ => ((b : ℝ) + 1 / 2) * dtheta,
          (List.range ⌊180 / dtheta⌋₊).map fun b : ℕ =>
            if Spec.between 0 (⌊180 / dtheta⌋₊ * dtheta) ((Spec.everyNth skip.toNat x).flatMap (Spec.angles side rc)) = 0 then none
            else some ((Spec.between (b * dtheta) ((b + 1) * dtheta) ((Spec.everyNth skip.toNat x).flatMap (Spec.angles side rc)) : ℝ) /
              (Spec.between 0 (⌊180 / dtheta⌋₊ * dtheta) ((Spec.everyNth skip.toNat x).flatMap (Spec.angles side rc)) * dtheta)))) := by
  obtain ⟨i, h1, h2, h3, h4, h5⟩ := (baCutoff_spec h huge uninit hp hmax hfirst).1 ⟨q, hq, hqM, hrise⟩
  refine ⟨i, ((i : ℝ) + 1 / 2) * (1 / 10), rfl, h1, ?_, h3, h4, ?_⟩
  · by_contra hc
    have := h4 q hq (by omega)
    linarith
  intro hbuf
  generalize ((i : ℝ) + 1 / 2) * (1 / 10) = rc at *
  have hsk : 0 < skip.toNat := adjustSkip_pos (List.length_pos_iff.2 h.gr.frames) h.skip
  set F : List (Vec d ℝ) → BaFrame d := fun f => ⟨side, f, List.replicate f.length 0, f, List.replicate f.length 0⟩ with hF
  have hev : Spec.everyNth skip.toNat (x.map F) = (Spec.everyNth skip.toNat x).map F := everyNth_map _ _ _
  have hmem : ∀ f ∈ Spec.everyNth skip.toNat x, f ∈ x := fun f hf => everyNth_mem hf
  have hang : ∀ f, Spec.frameAngles (fun _ _ => rc) (F f) = Spec.angles side rc f := fun f => rfl
  obtain ⟨grid, r, g1, g2, g3, g4⟩ := C70_values (rcut := [[rc]]) (rc := fun _ _ => rc) (nsp := 1) hsk h.dtheta_pos h.dtheta_le (x.map F)
    (by
      intro i hi
      obtain rfl : i = 0 := by omega
      exact ⟨[rc], rfl, by simp⟩)
    (by
      intro f' hf'
      rw [hev] at hf'
      obtain ⟨f, hf, rfl⟩ := List.mem_map.1 hf'
      refine ⟨by simp [hF], by simp [hF], h.gr.side_pos, ?_, ?_⟩
      · intro u hu v hv c
        have a1 := h.gr.inside f (hmem f hf) u hu c
        have a2 := h.gr.inside f (hmem f hf) v hv c
        have a3 := h.gr.side_pos c
        rw [abs_lt]
        constructor <;> show _ < _ <;> simp only [hF] <;> linarith
      · intro i hi
        simp only [hF, List.mem_replicate] at hi
        refine ⟨[rc], by rw [hi.2]; rfl, ?_⟩
        intro j hj
        simp only [hF, List.mem_replicate] at hj
        rw [hj.2]; rfl)
    (by
      intro f' hf' k hk
      rw [hev] at hf'
      obtain ⟨f, hf, rfl⟩ := List.mem_map.1 hf'
      exact hbuf f hf k hk)
    (by
      rw [hev]
      obtain ⟨f, hf⟩ := List.exists_mem_of_ne_nil (Spec.everyNth skip.toNat x)
        (by rw [← originFrames_eq _ hsk]; exact originFrames_ne_nil h.gr.frames hsk)
      refine ⟨F f, List.mem_map_of_mem hf, ?_⟩
      intro e
      have := h.gr.number f (hmem f hf)
      have := h.gr.number_pos
      rw [show f = [] from e] at *
      simp at *
      omega)
  unfold baCommand
  simp only [bind, Except.bind, List.map_map, List.length_map, Function.comp_def]
  rw [show (x.map fun f => f.length) = x.map List.length from rfl, h.skip]
  simp only [g1, h5]
  rw [hev, List.flatMap_map] at g4
  simp only [hang] at g4
  refine Eq.trans g2 ?_
  rw [← g3]
  congr 1
  refine Prod.ext rfl ?_
  rw [g4]

/-- **C223**: there is an `IndexError` if g(r) decreases from its first maximum to half of the smallest side. -/
theorem C223_no_minimum {n : NOrigins} {bs : ℕ} {dtheta : ℝ} {side : Vec d ℝ} {x : List (List (Vec d ℝ))} {N : ℕ} {skip skip0 : ℤ} {M : ℝ}
    (h : BaInput dtheta n bs side x N skip skip0 M) (huge uninit : ℝ) {p : ℕ} (hp : ((p : ℝ) + 1 / 2) * (1 / 10) ≤ M)
    (hmax : ∀ j : ℕ, ((j : ℝ) + 1 / 2) * (1 / 10) ≤ M → Spec.pairRatio side (1 / 10) N (Spec.everyNth skip0.toNat x) j ≤
      Spec.pairRatio side (1 / 10) N (Spec.everyNth skip0.toNat x) p)
    (hfirst : ∀ j < p, Spec.pairRatio side (1 / 10) N (Spec.everyNth skip0.toNat x) j <
      Spec.pairRatio side (1 / 10) N (Spec.everyNth skip0.toNat x) p)
    (hdec : ∀ q : ℕ, p ≤ q → ((q : ℝ) + 3 / 2) * (1 / 10) ≤ M → Spec.pairRatio side (1 / 10) N (Spec.everyNth skip0.toNat x) (q + 1) <
      Spec.pairRatio side (1 / 10) N (Spec.everyNth skip0.toNat x) q) :
    baCommand dtheta n bs huge uninit (x.map fun f => (side, fun _ => true, f)) = .error .indexError := by
  have h5 := (baCutoff_spec h huge uninit hp hmax hfirst).2 hdec
  unfold baCommand
  simp only [bind, Except.bind, List.map_map, List.length_map, Function.comp_def]
  rw [show (x.map fun f => f.length) = x.map List.length from rfl, h.skip]
  simp only [baGrid_ok h.dtheta_pos, h5]

/-! ### Examples -/

theorem imageDist_near {L u v : Fin d → ℝ} (hL : ∀ c, 0 < L c) (hnear : ∀ c, |u c - v c| ≤ L c / 2) (r : ℝ) :
    Spec.ImageDist L u v r ↔ r = √(∑ c, (u c - v c) ^ 2) := by
  have hle : ∀ m : Fin d → ℤ, √(∑ c, (u c - v c) ^ 2) ≤ √(∑ c, (u c - v c + m c * L c) ^ 2) := by
    intro m
    refine Real.sqrt_le_sqrt (Finset.sum_le_sum fun c _ => ?_)
    rw [sq_le_sq]
    rcases eq_or_ne (m c) 0 with e | e
    · simp [e]
    · have h1 : (1 : ℝ) ≤ |(m c : ℝ)| := by exact_mod_cast Int.one_le_abs e
      have h2 : |(m c : ℝ) * L c| = |(m c : ℝ)| * L c := by rw [abs_mul, abs_of_pos (hL c)]
      have h3 := abs_sub_abs_le_abs_sub ((m c : ℝ) * L c) (-(u c - v c))
      rw [abs_neg, sub_neg_eq_add, add_comm ((m c : ℝ) * L c)] at h3
      have := hnear c
      have := hL c
      nlinarith
  have h0 : √(∑ c, (u c - v c) ^ 2) = √(∑ c, (u c - v c + ((0 : Fin d → ℤ) c : ℝ) * L c) ^ 2) := by simp
  constructor
  · rintro ⟨⟨m, rfl⟩, h⟩
    exact le_antisymm (by rw [h0]; exact h 0) (hle m)
  · rintro rfl
    exact ⟨⟨0, h0⟩, hle⟩

/-- An equilateral triangle. -/
noncomputable def exTriangle : List (Vec 2 ℝ) := [![0, 0], ![21 / 20, 0], ![21 / 40, 21 / 40 * √3]]

theorem exTriangle_dist (q : Fin exTriangle.length × Fin exTriangle.length) (hq : q.1 < q.2) (r : ℝ) :
    Spec.ImageDist exGrSide exTriangle[q.1] exTriangle[q.2] r ↔ r = 21 / 20 := by
  have h3 : √(3 : ℝ) ^ 2 = 3 := Real.sq_sqrt (by norm_num)
  have h3' : (0 : ℝ) ≤ √3 := Real.sqrt_nonneg _
  have h3u : √(3 : ℝ) ≤ 2 := by nlinarith
  have hpos : ∀ c, 0 < exGrSide c := by intro c; fin_cases c <;> simp [exGrSide]
  have key : ∀ u v : Vec 2 ℝ, |u 0 - v 0| ≤ 3 → |u 1 - v 1| ≤ 3 → (u 0 - v 0) ^ 2 + (u 1 - v 1) ^ 2 = (21 / 20) ^ 2 →
      (Spec.ImageDist exGrSide u v r ↔ r = 21 / 20) := by
    intro u v h0 h1 h2
    rw [imageDist_near hpos]
    · rw [Fin.sum_univ_two, h2, Real.sqrt_sq (by norm_num)]
    · intro c
      fin_cases c
      · show |u 0 - v 0| ≤ exGrSide 0 / 2
        simp [exGrSide]; linarith
      · show |u 1 - v 1| ≤ exGrSide 1 / 2
        simp [exGrSide]; linarith
  obtain ⟨⟨a, ha⟩, ⟨b, hb⟩⟩ := q
  have ha' : a < 3 := ha
  have hb' : b < 3 := hb
  have hab : a < b := hq
  interval_cases a <;> interval_cases b <;> try omega
  · refine key ![0, 0] ![21 / 20, 0] ?_ ?_ ?_ <;> norm_num [abs_le]
  · refine key ![0, 0] ![21 / 40, 21 / 40 * √3] ?_ ?_ ?_
    · norm_num [abs_le]
    · simp only [Matrix.cons_val_one, Matrix.cons_val_zero]
      rw [abs_le]; constructor <;> nlinarith
    · simp only [Matrix.cons_val_one, Matrix.cons_val_zero]
      nlinarith
  · refine key ![21 / 20, 0] ![21 / 40, 21 / 40 * √3] ?_ ?_ ?_
    · norm_num [abs_le]
    · simp only [Matrix.cons_val_one, Matrix.cons_val_zero]
      rw [abs_le]; constructor <;> nlinarith
    · simp only [Matrix.cons_val_one, Matrix.cons_val_zero]
      nlinarith

theorem exTriangle_pairs (j : ℕ) :
    Spec.pairsBetween exGrSide (j * (1 / 10)) ((j + 1) * (1 / 10)) exTriangle = if j = 10 then 3 else 0 := by
  unfold Spec.pairsBetween Spec.selfPairs
  have hP : ∀ q : Fin exTriangle.length × Fin exTriangle.length, (q.1 < q.2 ∧ ∃ r, Spec.ImageDist exGrSide exTriangle[q.1] exTriangle[q.2] r ∧
      (j : ℝ) * (1 / 10) ≤ r ∧ r < ((j : ℝ) + 1) * (1 / 10)) ↔ (q.1 < q.2 ∧ j = 10) := by
    intro q
    refine and_congr_right fun hq => ?_
    constructor
    · rintro ⟨r, hr, h1, h2⟩
      rw [exTriangle_dist q hq] at hr
      subst hr
      have a1 : (j : ℝ) < 11 := by linarith
      have a2 : (9 : ℝ) < j := by linarith
      have a1' : j < 11 := by exact_mod_cast a1
      have a2' : 9 < j := by exact_mod_cast a2
      omega
    · rintro rfl
      exact ⟨21 / 20, (exTriangle_dist q hq _).2 rfl, by norm_num, by norm_num⟩
  simp only [hP]
  by_cases hj : j = 10
  · simp only [hj, and_true, if_true]
    have : (Finset.univ.filter fun q : Fin 3 × Fin 3 => q.1 < q.2).card = 3 := by decide
    convert this <;> rfl
  · simp [hj]

theorem exTriangle_ratio (j : ℕ) : (j ≠ 10 → Spec.pairRatio exGrSide (1 / 10) 3 [exTriangle] j = 0) ∧
    (j = 10 → 0 < Spec.pairRatio exGrSide (1 / 10) 3 [exTriangle] j) := by
  unfold Spec.pairRatio Spec.mean
  simp only [List.map_cons, List.map_nil, exTriangle_pairs]
  refine ⟨fun h => by simp [h], ?_⟩
  rintro rfl
  have hv : ∏ c, exGrSide c = 48 := by
    rw [Fin.prod_univ_two]
    simp [exGrSide]
    norm_num
  have hb : ∀ r, Spec.ballVolume Real.pi 2 r = Real.pi * r ^ 2 := by
    intro r
    simp [Spec.ballVolume]
  have := Real.pi_pos
  rw [hv, hb, hb]
  refine div_pos (by norm_num) (mul_pos (by norm_num) ?_)
  push_cast
  nlinarith

theorem exBaInput : BaInput 4 .none 1 exGrSide [exTriangle] 3 1 1 3 := by
  have h0 : exGrSide 0 = 8 := by simp [exGrSide]
  have h01 : exGrSide 1 = 6 := by simp [exGrSide]
  have h3 : √(3 : ℝ) ^ 2 = 3 := Real.sq_sqrt (by norm_num)
  have h3' : (0 : ℝ) ≤ √3 := Real.sqrt_nonneg _
  have h3u : √(3 : ℝ) ≤ 2 := by nlinarith
  refine ⟨⟨Or.inl rfl, by norm_num, ?_, by simp, by simp [exTriangle], by norm_num, ?_, by decide +kernel, by norm_num, ?_,
    ⟨0, exGr_fits (by norm_num)⟩⟩, by norm_num, by norm_num, by decide +kernel⟩
  · intro c
    fin_cases c <;> simp [exGrSide]
  · intro f hf u hu c
    rw [List.mem_singleton] at hf
    subst hf
    simp only [exTriangle, List.mem_cons, List.not_mem_nil, or_false] at hu
    fin_cases c <;> rcases hu with rfl | rfl | rfl <;> simp [exGrSide] <;> norm_num <;> constructor <;> linarith
  · intro _
    refine ⟨⟨1, by rw [h01]; norm_num⟩, fun c => ?_⟩
    fin_cases c
    · show 3 ≤ exGrSide 0 / 2
      rw [h0]; norm_num
    · show 3 ≤ exGrSide 1 / 2
      rw [h01]; norm_num

/-- A non-trivial case: an equilateral triangle of side 1.05. The maximum of g(r) is at 1.05, and the cut-off of the command ba at
1.15. -/
example : ∃ grid value, baCommand 4 .none 1 1000000 0 [(exGrSide, fun _ => true, exTriangle)] = .ok (grid, value) ∧
    value.getD 15 none = (if Spec.between 0 180 (Spec.angles exGrSide (23 / 20) exTriangle) = 0 then none
      else some ((Spec.between 60 64 (Spec.angles exGrSide (23 / 20) exTriangle) : ℝ) /
        (Spec.between 0 180 (Spec.angles exGrSide (23 / 20) exTriangle) * 4))) := by
  have hr := exTriangle_ratio
  have he : Spec.everyNth (Int.toNat 1) [exTriangle] = [exTriangle] := by simp [Spec.everyNth]
  have h10 := (hr 10).2 rfl
  obtain ⟨i, rc, h1, h2, h3, h4, h5, h6⟩ := C223_definition exBaInput 1000000 0 (p := 10) (q := 11) (by norm_num)
    (by
      intro j _
      rw [he]
      rcases eq_or_ne j 10 with rfl | hj
      · exact le_rfl
      · rw [(hr j).1 hj]; exact h10.le)
    (by
      intro j hj
      rw [he, (hr j).1 (by omega)]
      exact h10)
    (by norm_num) (by norm_num)
    (by rw [he, (hr 11).1 (by omega), (hr 12).1 (by omega)])
  have hi : i = 11 := by
    have : i ≠ 10 := by
      rintro rfl
      rw [he, (hr 11).1 (by omega)] at h4
      linarith
    omega
  subst hi
  have hrc : rc = 23 / 20 := by rw [h1]; norm_num
  subst hrc
  refine ⟨_, _, h6 ?_, ?_⟩
  · intro f hf k hk
    rw [he, List.mem_singleton] at hf
    subst hf
    exact le_trans List.countP_le_length (by simp [exTriangle])
  · have h45 : ⌊(180 : ℝ) / 4⌋₊ = 45 := by norm_num
    rw [h45, he]
    simp only [List.flatMap_cons, List.flatMap_nil, List.append_nil]
    rw [List.getD_eq_getElem _ _ (by simp)]
    simp only [List.getElem_map, List.getElem_range]
    norm_num

/-- Two particles at distance 2.95, in the last bin of g(r). -/
noncomputable def exPair : List (Vec 2 ℝ) := [![0, 0], ![59 / 20, 0]]

theorem exPair_pairs (j : ℕ) :
    Spec.pairsBetween exGrSide (j * (1 / 10)) ((j + 1) * (1 / 10)) exPair = if j = 29 then 1 else 0 := by
  have hpos : ∀ c, 0 < exGrSide c := by intro c; fin_cases c <;> simp [exGrSide]
  have hd : ∀ (q : Fin exPair.length × Fin exPair.length), q.1 < q.2 → ∀ r, Spec.ImageDist exGrSide exPair[q.1] exPair[q.2] r ↔ r = 59 / 20 := by
    rintro ⟨⟨a, ha⟩, ⟨b, hb⟩⟩ hq r
    have ha' : a < 2 := ha
    have hb' : b < 2 := hb
    have hab : a < b := hq
    obtain rfl : a = 0 := by omega
    obtain rfl : b = 1 := by omega
    show Spec.ImageDist exGrSide ![0, 0] ![59 / 20, 0] r ↔ _
    rw [imageDist_near hpos]
    · rw [Fin.sum_univ_two, show (![0, 0] : Vec 2 ℝ) 0 - (![59 / 20, 0] : Vec 2 ℝ) 0 = -(59 / 20) by simp,
        show (![0, 0] : Vec 2 ℝ) 1 - (![59 / 20, 0] : Vec 2 ℝ) 1 = 0 by simp,
        show (-(59 / 20 : ℝ)) ^ 2 + 0 ^ 2 = (59 / 20) ^ 2 by norm_num, Real.sqrt_sq (by norm_num)]
    · intro c
      fin_cases c <;> norm_num [exGrSide, abs_le]
  unfold Spec.pairsBetween Spec.selfPairs
  have hP : ∀ q : Fin exPair.length × Fin exPair.length, (q.1 < q.2 ∧ ∃ r, Spec.ImageDist exGrSide exPair[q.1] exPair[q.2] r ∧
      (j : ℝ) * (1 / 10) ≤ r ∧ r < ((j : ℝ) + 1) * (1 / 10)) ↔ (q.1 < q.2 ∧ j = 29) := by
    intro q
    refine and_congr_right fun hq => ?_
    constructor
    · rintro ⟨r, hr, h1, h2⟩
      rw [hd q hq] at hr
      subst hr
      have a1 : (j : ℝ) < 30 := by linarith
      have a2 : (28 : ℝ) < j := by linarith
      have a1' : j < 30 := by exact_mod_cast a1
      have a2' : 28 < j := by exact_mod_cast a2
      omega
    · rintro rfl
      exact ⟨59 / 20, (hd q hq _).2 rfl, by norm_num, by norm_num⟩
  simp only [hP]
  by_cases hj : j = 29
  · simp only [hj, and_true, if_true]
    have : (Finset.univ.filter fun q : Fin 2 × Fin 2 => q.1 < q.2).card = 1 := by decide
    convert this <;> rfl
  · simp [hj]

theorem exPair_ratio (j : ℕ) : (j ≠ 29 → Spec.pairRatio exGrSide (1 / 10) 2 [exPair] j = 0) ∧
    (j = 29 → 0 < Spec.pairRatio exGrSide (1 / 10) 2 [exPair] j) := by
  unfold Spec.pairRatio Spec.mean
  simp only [List.map_cons, List.map_nil, exPair_pairs]
  refine ⟨fun h => by simp [h], ?_⟩
  rintro rfl
  have hv : ∏ c, exGrSide c = 48 := by
    rw [Fin.prod_univ_two]
    simp [exGrSide]
    norm_num
  have hb : ∀ r, Spec.ballVolume Real.pi 2 r = Real.pi * r ^ 2 := by
    intro r
    simp [Spec.ballVolume]
  have := Real.pi_pos
  rw [hv, hb, hb]
  refine div_pos (by norm_num) (mul_pos (by norm_num) ?_)
  push_cast
  nlinarith

theorem exPairInput : BaInput 4 .none 1 exGrSide [exPair] 2 1 1 3 := by
  have h0 : exGrSide 0 = 8 := by simp [exGrSide]
  have h01 : exGrSide 1 = 6 := by simp [exGrSide]
  refine ⟨⟨Or.inl rfl, by norm_num, ?_, by simp, by simp [exPair], by norm_num, ?_, by decide +kernel, by norm_num, ?_,
    ⟨0, exGr_fits (by norm_num)⟩⟩, by norm_num, by norm_num, by decide +kernel⟩
  · intro c
    fin_cases c <;> simp [exGrSide]
  · intro f hf u hu c
    rw [List.mem_singleton] at hf
    subst hf
    simp only [exPair, List.mem_cons, List.not_mem_nil, or_false] at hu
    fin_cases c <;> rcases hu with rfl | rfl <;> norm_num [exGrSide]
  · intro _
    refine ⟨⟨1, by rw [h01]; norm_num⟩, fun c => ?_⟩
    fin_cases c
    · show 3 ≤ exGrSide 0 / 2
      rw [h0]; norm_num
    · show 3 ≤ exGrSide 1 / 2
      rw [h01]; norm_num

/-- The command fails for two particles at the largest distance, since the maximum of g(r) is at its last point. -/
example : baCommand 4 .none 1 1000000 0 [(exGrSide, fun _ => true, exPair)] = .error .indexError := by
  have hr := exPair_ratio
  have he : Spec.everyNth (Int.toNat 1) [exPair] = [exPair] := by simp [Spec.everyNth]
  have h29 := (hr 29).2 rfl
  refine C223_no_minimum exPairInput 1000000 0 (p := 29) (by norm_num) ?_ ?_ ?_
  · intro j _
    rw [he]
    rcases eq_or_ne j 29 with rfl | hj
    · exact le_rfl
    · rw [(hr j).1 hj]; exact h29.le
  · intro j hj
    rw [he, (hr j).1 (by omega)]
    exact h29
  · intro q hq hM
    have : (29 : ℝ) ≤ q := by exact_mod_cast hq
    linarith

end PP.Props
