import Verif.Props.GrPartial
import Verif.Props.GrCells

/-!
# C76: radial distribution function of filtered particles
-/

set_option linter.unusedSectionVars false

namespace PP.Props
open PP Classical

section
variable {K : Type} [Field K] [LinearOrder K] [IsStrictOrderedRing K] [FloorRing K] {d : ℕ} {P : Type}

/-- Pairs of a group with itself: each pair is counted twice, and each particle with itself. -/
theorem crossPairs_self {V : Type} (Q : V → V → Prop) (hQ : ∀ u v, Q u v ↔ Q v u) (x : List V) (b : Bool)
    (hb : ∀ u ∈ x, Q u u ↔ b = true) :
    Spec.crossPairs Q x x = 2 * Spec.selfPairs Q x + if b then x.length else 0 := by
  rw [crossPairs_eq_double, selfPairs_eq_double]
  have hsplit : ∑ i : Fin x.length, ∑ j : Fin x.length, (if Q x[i] x[j] then 1 else 0)
      = ∑ i : Fin x.length, ∑ j : Fin x.length, ((if i < j ∧ Q x[i] x[j] then 1 else 0)
        + (if j < i ∧ Q x[j] x[i] then 1 else 0) + if i = j then (if b then 1 else 0) else 0) := by
    apply Finset.sum_congr rfl
    intro i _
    apply Finset.sum_congr rfl
    intro j _
    rcases lt_trichotomy i j with h | h | h
    · have h1 := h.ne
      have h2 := not_lt_of_gt h
      simp only [h, h1, h2, true_and, false_and, if_false, add_zero]
    · subst h
      have := hb x[i] (List.getElem_mem _)
      simp only [lt_irrefl, false_and, if_false, zero_add, if_true, this]
    · have h1 := h.ne'
      have h2 := not_lt_of_gt h
      simp only [h, h1, h2, true_and, false_and, if_false, add_zero, zero_add, hQ x[i] x[j]]
  rw [hsplit]
  simp only [Finset.sum_add_distrib]
  rw [Finset.sum_comm (f := fun i j : Fin x.length => if j < i ∧ Q x[j] x[i] then 1 else 0)]
  simp only [Finset.sum_ite_eq, Finset.mem_univ, if_true, Finset.sum_const, Finset.card_univ, Fintype.card_fin,
    smul_eq_mul]
  cases b <;> simp <;> omega

theorem pyRound_zero : pyRound (0 : K) = 0 := by
  unfold pyRound; simp

theorem grDist_self (sq : K → K) (h0 : sq 0 = 0) (L u : Vec d K) : grDist sq L u u = 0 := by
  unfold grDist minImage
  simp [pyRound_zero, h0]

/-- **C76** is false: with a condition that all the particles satisfy, `Filter` adds to the first point of g(r) the
contribution of each particle being at distance zero from itself, the inverse of the number of particles expected
in the first bin. -/
theorem C76_counterexample_filter_all (sq : K → K) (hsq : ∀ x, 0 ≤ sq x) (hsq0 : sq 0 = 0) {pi : K} (hpi : 0 < pi)
    (pos : P → Vec d K) (traj : List (System P (CellInfo d K))) (o : GrObj d K) {w : K} {n : ℕ}
    {s0 : System P (CellInfo d K)} (h0 : traj[0]? = some s0)
    (h : GrRegular sq (twobodyObj pos [] traj o) w n n (twobodyFrame pos [] s0))
    (hcut : if 0 < o.rmax then w ≤ 2 * o.rmax else ∀ s ∈ traj, ∀ c, w ≤ s.other.side c)
    (cond : P → Bool) (hcond : ∀ s ∈ traj, ∀ p ∈ s.particle, cond p = true) :
    ∃ (cbk : _) (points : List ℕ) (g : ℕ → K) (extra : K), filterCallbacks [cond] = .ok cbk ∧
      0 ∈ points ∧ 0 < extra ∧
      grLegacy sq pi (twobodyObj pos [] traj o)
        = .ok (points.map fun j : ℕ => (((j : K) + 1 / 2) * w, some (g j))) ∧
      grLegacy sq pi (twobodyObj pos cbk traj o)
        = .ok (points.map fun j : ℕ => (((j : K) + 1 / 2) * w, some (g j + if j = 0 then extra else 0))) ∧
      ∃ s ∈ traj, extra * ((n : K) / (∏ c, s.other.side c) * shellVol pi d 0 w) = 1 := by
  have hd : 0 < d := by obtain ⟨c, -⟩ := h.fit; exact lt_of_le_of_lt (Nat.zero_le _) c.isLt
  obtain ⟨m, hm, hg, -⟩ := grSetupGrid_default sq hsq _ _ h.w_pos h.rgrid h.dr h.fit
  have hw := h.w_pos
  have hne : traj ≠ [] := by intro hc; rw [hc] at h0; simp at h0
  have hskip : 0 < o.skip := h.skip_pos
  set G := originFrames traj o.skip with hG
  set sl := G.getLastD s0 with hsl
  have hGne : G ≠ [] := originFrames_ne_nil hne hskip
  have hGm : ∀ s ∈ G, s ∈ traj := fun s hs => originFrames_mem hs
  have hslm : sl ∈ traj := by
    obtain ⟨a, ha⟩ := List.getLast?_isSome.2 hGne |> Option.isSome_iff_exists.1
    rw [hsl, List.getLastD_eq_getLast?, ha]
    exact hGm _ (List.mem_of_getLast? ha)
  have hlen : ∀ s ∈ traj, s.particle.length = n := by
    intro s hs
    have := h.len0 (twobodyFrame pos [] s) (by simp only [twobodyObj, List.mem_map]; exact ⟨s, hs, rfl⟩)
    simpa [twobodyFrame] using this
  have hsp : ∀ s ∈ traj, ∀ c, 0 < s.other.side c := by
    intro s hs
    exact h.side_pos (twobodyFrame pos [] s) (by simp only [twobodyObj, List.mem_map]; exact ⟨s, hs, rfl⟩)
  set cbk : List (System P (CellInfo d K) → System P (CellInfo d K)) := [filterGeneric cond, id] with hcbk
  have hfr : ∀ s ∈ traj, twobodyFrame pos cbk s = twobodyFrame pos [] s := by
    intro s hs
    have : filterGeneric cond s = s := by
      unfold filterGeneric
      rw [List.filter_eq_self.2 (hcond s hs)]
    simp [hcbk, twobodyFrame, this]
  have hframes : (twobodyObj pos cbk traj o).frames = (twobodyObj pos [] traj o).frames := by
    show traj.map _ = traj.map _
    exact List.map_congr_left hfr
  have hreg : GrRegular sq (twobodyObj pos cbk traj o) w n n (twobodyFrame pos [] s0) := by
    refine ⟨?_, h.skip_pos, h.w_pos, h.rgrid, h.dr, h.fit, ?_, h.n0_pos, h.n1_pos, ?_, ?_, ?_⟩
    · rw [hframes]; exact h.first
    · rw [hframes]; exact h.side_pos
    · rw [hframes]; exact h.len0
    · rw [hframes]; exact h.len1
    · intro hs; simp [twobodyObj, hcbk] at hs
  obtain ⟨cut, hc1, -, hc2, hcut'⟩ := grCrop_ok (rmax := o.rmax) (side := (twobodyFrame pos [] sl).side) hd
  have ef : originFrames (twobodyObj pos [] traj o).frames o.skip = G.map (twobodyFrame pos []) :=
    originFrames_map _ _ _
  have key : ∀ ob : GrObj d K, GrRegular sq ob w n n (twobodyFrame pos [] s0) →
      ob.frames = (twobodyObj pos [] traj o).frames → ob.skip = o.skip → ob.rmax = o.rmax →
      ob.rgrid = o.rgrid → ob.dr = o.dr →
      grLegacy sq pi ob = .ok
        (((List.range m).filter fun j : ℕ => decide (((j : K) + 1 / 2) * w ≤ cut)).map fun j : ℕ =>
          (((j : K) + 1 / 2) * w, some (grVal ob pi w n n
            (G.map (twobodyFrame pos [])) (cellVolume (twobodyFrame pos [] sl).side) j
            fun f => pairCount ob (grDist sq) f (Spec.InBin (defaultEdges w m) j)))) := by
    intro ob hr hf hs hrm hrg hdr
    have hg' : grSetupGrid sq ob (twobodyFrame pos [] s0).side = .ok (defaultGrid w m) := by
      rw [← hg]; unfold grSetupGrid; rw [hrg, hdr]; rfl
    have hc := grLegacy_closed sq hpi _ hr.system hm hg'
    rw [hf, hs, ef, getLastD_map, ← hsl, hrm, hcut', List.filter_map] at hc
    exact hc
  set V := cellVolume (twobodyFrame pos [] sl).side with hV
  have hVpos : 0 < V := Finset.prod_pos fun c _ => hsp sl hslm c
  have hnpos : (0 : K) < n := by exact_mod_cast h.n0_pos
  have hshell : 0 < shellVol pi d 0 w := shellVol_pos hpi hd le_rfl hw
  have hx : 0 < (n : K) / V * shellVol pi d 0 w := mul_pos (div_pos hnpos hVpos) hshell
  refine ⟨cbk, _, _, 1 / ((n : K) / V * shellVol pi d 0 w), rfl, ?_, one_div_pos.2 hx,
    key _ h rfl rfl rfl rfl rfl, ?_, sl, hslm, ?_⟩
  · rw [List.mem_filter, List.mem_range, decide_eq_true_iff]
    refine ⟨by omega, ?_⟩
    push_cast
    split_ifs at hcut with hr
    · rw [hc1 hr]; linarith
    · obtain ⟨c, hc⟩ := hc2 hr
      have h1 := hcut sl hslm c
      have h2 : (twobodyFrame pos [] sl).side c = sl.other.side c := rfl
      rw [← hc, h2]; linarith
  · rw [key _ hreg hframes rfl rfl rfl rfl]
    congr 1
    apply List.map_congr_left
    intro j hj
    have hjm : j < m := List.mem_range.1 (List.mem_filter.1 hj).1
    congr 2
    have hcount : ∀ f ∈ G.map (twobodyFrame pos []),
        pairCount (twobodyObj pos cbk traj o) (grDist sq) f (Spec.InBin (defaultEdges w m) j)
        = 2 * pairCount (twobodyObj pos [] traj o) (grDist sq) f (Spec.InBin (defaultEdges w m) j)
          + if j = 0 then n else 0 := by
      intro f hf
      rw [List.mem_map] at hf
      obtain ⟨s, hs, rfl⟩ := hf
      have hs' := hGm s hs
      have hcomm : ∀ u v, grDist sq s.other.side u v = grDist sq s.other.side v u :=
        fun u v => grDist_comm sq _ u v (hsp s hs')
      have e1 : pairCount (twobodyObj pos cbk traj o) (grDist sq) (twobodyFrame pos [] s)
            (Spec.InBin (defaultEdges w m) j)
          = Spec.crossPairs (fun u v => Spec.InBin (defaultEdges w m) j (grDist sq s.other.side v u))
            (s.particle.map pos) (s.particle.map pos) := by
        unfold pairCount
        rw [if_neg (by simp [twobodyObj, hcbk])]
        apply crossPairs_congr
        intro u _ v _
        rw [hcomm v u]
        rfl
      have e2 : pairCount (twobodyObj pos [] traj o) (grDist sq) (twobodyFrame pos [] s)
            (Spec.InBin (defaultEdges w m) j)
          = Spec.selfPairs (fun u v => Spec.InBin (defaultEdges w m) j (grDist sq s.other.side v u))
            (s.particle.map pos) := by
        unfold pairCount
        rw [if_pos (by simp [twobodyObj])]
        rfl
      rw [e1, e2, crossPairs_self _ (fun u v => by rw [hcomm]) _ (decide (j = 0)) ?_]
      · simp [hlen s hs']
      · intro u _
        rw [grDist_self sq hsq0, inBin_default hjm, decide_eq_true_iff]
        constructor
        · rintro ⟨h1, -⟩
          by_contra hj0
          have : (1 : K) ≤ j := by exact_mod_cast Nat.one_le_iff_ne_zero.2 hj0
          nlinarith
        · rintro rfl
          exact ⟨by simp, Or.inl (by simpa using hw)⟩
    have hmean : meanCount (G.map (twobodyFrame pos []))
        (fun f => pairCount (twobodyObj pos cbk traj o) (grDist sq) f (Spec.InBin (defaultEdges w m) j))
        = 2 * meanCount (G.map (twobodyFrame pos []))
        (fun f => pairCount (twobodyObj pos [] traj o) (grDist sq) f (Spec.InBin (defaultEdges w m) j))
          + if j = 0 then (n : K) else 0 := by
      have hlenG : ((G.map (twobodyFrame pos [])).length : K) ≠ 0 := by
        simp only [List.length_map]
        exact_mod_cast (List.length_pos_iff.2 hGne).ne'
      have : ∀ (F : List (GrFrame d K)) (H H' : GrFrame d K → ℕ) (e : ℕ), (∀ f ∈ F, H f = 2 * H' f + e) →
          (F.map fun f => (H f : K)).sum = 2 * (F.map fun f => (H' f : K)).sum + F.length * (e : K) := by
        intro F H H' e hF
        induction F with
        | nil => simp
        | cons f F ih =>
          rw [List.map_cons, List.sum_cons, ih fun f hf => hF f (by simp [hf]), hF f (by simp), List.map_cons,
            List.sum_cons, List.length_cons]
          push_cast
          ring
      unfold meanCount
      rw [this _ _ _ _ hcount]
      rw [add_div, mul_div_assoc, mul_div_cancel_left₀ _ hlenG]
      split_ifs <;> simp
    unfold grVal
    rw [hmean]
    have hs1 : (twobodyObj pos cbk traj o).same = false := by simp [twobodyObj, hcbk]
    have hs2 : (twobodyObj pos [] traj o).same = true := by simp [twobodyObj]
    rw [hs1, hs2]
    simp only [Bool.false_eq_true, if_false, if_true, mul_one]
    by_cases hj0 : j = 0
    · subst hj0
      simp only [if_true, Nat.cast_zero, zero_mul, zero_add, one_mul]
      field_simp
    · simp only [hj0, if_false, add_zero]
      rw [mul_one_div, div_div_eq_mul_div, mul_comm]
  · show _ * ((n : K) / V * _) = 1
    field_simp

/-- The hypotheses hold; the values of the first point. -/
example : (grLegacy Rat.sqrt 3 (twobodyObj Prod.snd [] partExample partParams)).toOption.bind (·.head?)
      = some (1 / 2, some 0) ∧
    ((do
      let cbk ← filterCallbacks [fun _ : ℕ × Vec 2 ℚ => true]
      grLegacy Rat.sqrt 3 (twobodyObj Prod.snd cbk partExample partParams)) : Py _).toOption.bind (·.head?)
      = some (1 / 2, some (16 / 5)) ∧ Rat.sqrt 0 = 0 ∧
    (if 0 < partParams.rmax then (1 : ℚ) ≤ 2 * partParams.rmax else ∀ s ∈ partExample, ∀ c, 1 ≤ s.other.side c) := by
  refine ⟨by decide +kernel, by decide +kernel, by decide +kernel, by decide +kernel⟩

end
end PP.Props
