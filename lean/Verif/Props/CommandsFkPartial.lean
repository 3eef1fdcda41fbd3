import Verif.Model.CommandsFkPartial
import Verif.Props.CommandsFsPartial

/-!
# C229: the partial functions of the command fkt
-/

namespace PP.Spec

/-- The correlations of the densities of two groups of particles: one row for each list of wave-vectors, one value for each lag, the mean
over the wave-vectors and over the pairs of frames of the real part of the density of the first group at the later time and the conjugate of
that of the second group at the earlier time. -/
noncomputable def cohMeans {d : ℕ} {F : Type} (steps : List ℤ) (skip : ℕ) (dg : List (ℕ × ℕ)) (lags : List ℤ)
    (Q : List (List (Fin d → ℝ))) (x : List F) (A B : F → List (Fin d → ℝ)) : List (List ℝ) :=
  Q.map fun kl => lags.map fun δ => Spec.mean (kl.flatMap fun w => (Spec.framePairs steps skip dg x δ).map fun ab =>
    (Spec.density w (A ab.1) * star (Spec.density w (B ab.2))).re)

/-- Each row divided by its first value. -/
noncomputable def normalised (rows : List (List ℝ)) : List (List ℝ) := rows.map fun row => row.map fun y => y / row.getD 0 0

end PP.Spec

namespace PP.Props
open PP Classical

variable {d : ℕ}

section
variable {S : Type} [DecidableEq S]

/-- The values of one object. -/
theorem fkt_run {F : Type} {tr : Traj ℝ} {skip : ℕ} {dg : List (ℕ × ℕ)} {same : Bool} {s : KState d ℝ} (x : List F)
    (hx : x.length = tr.steps.length) (A B : F → List (Vec d ℝ))
    (h : FkRegular (⟨tr.steps, tr.timestep, skip, dg, same, x.map A, x.map B, s, true⟩ : FkObj d)) :
    fkCompute ⟨tr.steps, tr.timestep, skip, dg, same, x.map A, x.map B, s, true⟩ =
      .ok ((lagList tr.steps (Spec.sampled tr.steps.length skip dg)).map fun t : ℤ => (t : ℝ) * tr.timestep,
        Spec.normalised (Spec.cohMeans tr.steps skip dg (lagList tr.steps (Spec.sampled tr.steps.length skip dg)) (kvectorsGet s) x A B),
        Spec.cohMeans tr.steps skip dg (lagList tr.steps (Spec.sampled tr.steps.length skip dg)) (kvectorsGet s) x A B) := by
  rw [fkCompute_eq _ h]
  have hl : fkLags (⟨tr.steps, tr.timestep, skip, dg, same, x.map A, x.map B, s, true⟩ : FkObj d) =
      lagList tr.steps (Spec.sampled tr.steps.length skip dg) := by
    unfold fkLags
    simp only [List.length_map, hx]
  have hr : fkRaw (⟨tr.steps, tr.timestep, skip, dg, same, x.map A, x.map B, s, true⟩ : FkObj d) =
      Spec.cohMeans tr.steps skip dg (lagList tr.steps (Spec.sampled tr.steps.length skip dg)) (kvectorsGet s) x A B := by
    unfold fkRaw Spec.cohMeans
    rw [hl, kvectorsGet_map, List.map_map]
    refine List.map_congr_left fun kl _ => List.map_congr_left fun δ _ => ?_
    unfold cohList
    simp only [List.flatMap_map]
    congr 1
    refine List.flatMap_congr fun v _ => ?_
    have hz : (x.map A).zip (x.map B) = x.map fun f => (A f, B f) := by
      rw [List.zip_map', List.map_congr_left fun f _ => rfl]
    rw [hz, framePairs_mapped _ _ _ _ x hx.le, List.map_map]
    rfl
  rw [hl, hr]
  rfl

/-- What the objects of a command have in common. -/
theorem fkt_common {o : TimeOptions} {q : KOptions} {tr : Traj ℝ} {side : Vec d ℝ} {k : List ℝ} {skip : ℤ}
    (h : ScatteringInput o q tr side k skip) (pick : ℕ → List (KVec d) → ℕ → List (KVec d)) (hpick : IsSample pick) :
    ∃ depth0 dg s0, 0 < skip.toNat ∧ Spec.Sampled tr.steps skip.toNat dg tr.steps.length 0 ∧
      (∀ lags : List ℤ, lags.Pairwise (· < ·) → (∀ δ, δ ∈ lags ↔ Spec.Sampled tr.steps skip.toNat dg tr.steps.length δ) →
        ∀ row : List ℝ, row.length = lags.length →
          Spec.TimesUpTo tr.steps tr.timestep (max tr.timestep (if 0 < o.tmax then o.tmax else o.fraction * tr.totalTime))
            (lags.map fun δ : ℤ => (δ : ℝ) * tr.timestep, row)) ∧
      Allowed s0 ∧ s0.kgrid.length = s0.kvectors.length ∧ s0.kvectors ≠ [] ∧ (∀ l ∈ s0.kvectors, l ≠ []) ∧
      s0.kvectors.length = k.length ∧
      kSetup Real.sqrt Real.pi depth0 pick q.params side (some k) = .ok s0 ∧
      (∀ y r, fkCompute ⟨tr.steps, tr.timestep, skip.toNat, dg, true, y, y, s0, true⟩ = .ok r →
        fktCommand o q depth0 pick tr side y = .ok (s0.kgrid, r)) ∧
      ∀ (x : List (List (S × Vec d ℝ))) depth k' s (filters : List S) (A B : List (S × Vec d ℝ) → List (Vec d ℝ)) r,
        kSetup Real.sqrt Real.pi depth pick q.params side (some k') = .ok s →
        (∀ f : List (S × Vec d ℝ), twobodyFrame Prod.snd (filters.map fun a s => filterSpecies Prod.fst s (some a))
          (⟨f, ⟨side, fun _ => true⟩⟩ : System (S × Vec d ℝ) (CellInfo d ℝ)) = ⟨side, fun _ => true, A f, B f⟩) →
        fkCompute ⟨tr.steps, tr.timestep, skip.toNat, dg, decide (filters.length ≤ 1), x.map A, x.map B, s, true⟩ = .ok r →
        fktFrom o q depth pick tr side x k' filters = .ok (s.kgrid, r) := by
  obtain ⟨depth, dg, s, e, hsk, hz, htimes, a1, a2, a3, a4, a5, -, -, a6⟩ := scatteringSetup_ok (c := .fkt) (Or.inl rfl) h pick hpick
  have e0 := e
  unfold scatteringSetup at e
  obtain ⟨f, hf, e⟩ := bind_ok_iff.1 e
  obtain ⟨g, hg, e⟩ := bind_ok_iff.1 e
  obtain ⟨k', hk, e⟩ := bind_ok_iff.1 e
  obtain ⟨skip', hskip, e⟩ := bind_ok_iff.1 e
  obtain ⟨dg', hdg, e⟩ := bind_ok_iff.1 e
  obtain ⟨s', hs, e⟩ := bind_ok_iff.1 e
  have e := Except.ok.inj e
  obtain ⟨e1, e2⟩ := Prod.ext_iff.1 e
  obtain ⟨e3, e4⟩ := Prod.ext_iff.1 e2
  simp only at e1 e3 e4
  subst e3 e4
  have hkk : k' = k := by rw [h.klist.list] at hk; exact (Except.ok.inj hk).symm
  subst hkk
  refine ⟨depth, dg', s', hsk, hz, htimes, a1, a2, a3, a4, a5, hs, fun y r hr => ?_, fun x depth' k' s filters A B r hs' hAB hr => ?_⟩
  · unfold fktCommand
    rw [e0]
    show (fkCompute ⟨tr.steps, tr.timestep, skip.toNat, dg', true, y, y, s', true⟩ >>= _) = _
    rw [hr]
    rfl
  · unfold fktFrom
    simp only [hf, hg, hskip, hdg, hs', bind, Except.bind, e1, hAB, List.map_map, Function.comp_def]
    rw [show fkCompute ⟨tr.steps, tr.timestep, skip.toNat, dg', decide (filters.length ≤ 1), x.map (fun f => A f), x.map (fun f => B f), s, true⟩ = .ok r from hr]
    rfl

/-- The pairs that are computed. -/
theorem mem_pairsComputed {ids : List S} (hnd : ids.Nodup) {a b : S} (ha : a ∈ ids) (hb : b ∈ ids) :
    (a, b) ∈ pairsComputed ids ↔ ids.idxOf a ≤ ids.idxOf b := by
  induction ids with
  | nil => simp at ha
  | cons c l ih =>
    obtain ⟨hc, hl⟩ := List.nodup_cons.1 hnd
    simp only [pairsComputed, List.mem_append, List.mem_map]
    by_cases hac : a = c
    · subst hac
      simp only [List.idxOf_cons_self, Nat.zero_le, iff_true]
      exact Or.inl ⟨b, hb, rfl⟩
    · have ha' : a ∈ l := by simpa [hac] using ha
      by_cases hbc : b = c
      · subst hbc
        rw [List.idxOf_cons_self, List.idxOf_cons_ne _ (Ne.symm hac)]
        constructor
        · rintro (⟨y, -, e⟩ | e)
          · exact absurd (Prod.ext_iff.1 e).1.symm hac
          · exact absurd (pairsComputed_subset l _ e).2 hc
        · omega
      · have hb' : b ∈ l := by simpa [hbc] using hb
        rw [List.idxOf_cons_ne _ (Ne.symm hac), List.idxOf_cons_ne _ (Ne.symm hbc), Nat.succ_le_succ_iff, ← ih hl ha' hb']
        constructor
        · rintro (⟨y, -, e⟩ | e)
          · exact absurd (Prod.ext_iff.1 e).1.symm hac
          · exact e
        · exact Or.inr

theorem cohMeans_getD {F : Type} {steps : List ℤ} {skip : ℕ} {dg : List (ℕ × ℕ)} {lags : List ℤ} {Q : List (List (Fin d → ℝ))}
    (x : List F) (A B : F → List (Fin d → ℝ)) {i j : ℕ} (hi : i < Q.length) (hj : j < lags.length) :
    ((Spec.cohMeans steps skip dg lags Q x A B).getD i []).getD j 0 = Spec.mean ((Q.getD i []).flatMap fun w =>
      (Spec.framePairs steps skip dg x (lags.getD j 0)).map fun ab => (Spec.density w (A ab.1) * star (Spec.density w (B ab.2))).re) := by
  unfold Spec.cohMeans
  simp [List.getD_eq_getElem?_getD, List.getElem?_map, List.getElem?_eq_getElem hi, List.getElem?_eq_getElem hj]

theorem initialGrid_some {o : TimeOptions} {q : KOptions} {tr : Traj ℝ} {side : Vec d ℝ} {k : List ℝ} {skip : ℤ}
    (h : ScatteringInput o q tr side k skip) :
    initialGrid q.params (smallestK Real.pi side) (some k) = .ok (pySorted k) ∧ ∀ i < (pySorted k).length, 0 ≤ (pySorted k).getD i 0 := by
  have hperm : (pySorted k).Perm k := List.perm_insertionSort _ _
  have hsort : pySorted k ≠ [] := by
    intro e
    rw [e] at hperm
    exact h.k_ne (List.nil_perm.1 hperm)
  refine ⟨?_, fun i hi => ?_⟩
  · unfold initialGrid
    cases hs' : pySorted k with
    | nil => exact absurd hs' hsort
    | cons a r =>
      have : 0 ≤ a := h.k_nonneg a (hperm.subset (by rw [hs']; simp))
      simp only [hs', if_neg (not_lt.2 this)]
  · rw [List.getD_eq_getElem _ _ hi]
    exact h.k_nonneg _ (hperm.subset (List.getElem_mem _))

/-- **C229**, the part that holds: the command fkt calculates the function of the whole system from the correlations of the densities. If
the wave-numbers at which it is given are those requested, the command gives the function of each ordered pair of species at the same
wave-numbers and times, with or without the option `total`. Of two different species the function calculated is that of the order in which
they are listed, and the other one is a copy without `value_nonorm`. Before the normalisation the first values of the functions of the pairs
add up to that of the whole system, and they do not depend on the order of the species. -/
theorem C229_pairs_partial {o : TimeOptions} {q : KOptions} {tr : Traj ℝ} {side : Vec d ℝ} {k : List ℝ} {skip : ℤ}
    (h : ScatteringInput o q tr side k skip) (pick : ℕ → List (KVec d) → ℕ → List (KVec d)) (hpick : IsSample pick)
    (x : List (List (S × Vec d ℝ))) (hx : x.length = tr.steps.length) (ids : List S) (hids : 1 < ids.length) (hnd : ids.Nodup)
    (hpres : ∀ a ∈ ids, ∀ f ∈ x, Spec.posOf a f ≠ []) (hall : ∀ f ∈ x, ∀ p ∈ f, p.1 ∈ ids) :
    ∃ depth dg lags Q ks,
      lags.Pairwise (· < ·) ∧ lags.head? = some 0 ∧ (∀ δ, δ ∈ lags ↔ Spec.Sampled tr.steps skip.toNat dg tr.steps.length δ) ∧
      ks.length = k.length ∧ Spec.Waves side q.nk ks Q ∧
      ∀ F : (List (S × Vec d ℝ) → List (Fin d → ℝ)) → (List (S × Vec d ℝ) → List (Fin d → ℝ)) → List (List ℝ),
        F = Spec.cohMeans tr.steps skip.toNat dg lags Q x → ∀ ts, (ts = lags.map fun δ : ℤ => (δ : ℝ) * tr.timestep) →
      ∀ all, (all = fun f : List (S × Vec d ℝ) => f.map Prod.snd) →
      fktCommand o q depth pick tr side (x.map all) = .ok (ks, ts, Spec.normalised (F all all), F all all) ∧
      (ks.Perm k → ∃ D,
        (∀ total : Bool, fktWithPartials o q total false depth pick tr side ids x =
          .ok (if total then some (ks, ts, Spec.normalised (F all all), F all all) else none, D)) ∧
        ∀ a ∈ ids, ∀ b ∈ ids, dictGet D (a, b) =
          if ids.idxOf a ≤ ids.idxOf b then
            .ok (ks, ts, Spec.normalised (F (Spec.posOf a) (Spec.posOf b)), some (F (Spec.posOf a) (Spec.posOf b)))
          else .ok (ks, ts, Spec.normalised (F (Spec.posOf b) (Spec.posOf a)), none)) ∧
      (∀ a b, ∀ i < k.length, ((F (Spec.posOf a) (Spec.posOf b)).getD i []).getD 0 0 = ((F (Spec.posOf b) (Spec.posOf a)).getD i []).getD 0 0) ∧
      ∀ i < k.length, ((F all all).getD i []).getD 0 0 =
        ∑ a ∈ ids.toFinset, ∑ b ∈ ids.toFinset, ((F (Spec.posOf a) (Spec.posOf b)).getD i []).getD 0 0 := by
  obtain ⟨depth, dg, s, hsk, hz, -, a1, a2, a3, a4, a5, hs, hcmd, hfrom⟩ := fkt_common (S := S) h pick hpick
  obtain ⟨hreq, hnn⟩ := initialGrid_some h
  obtain ⟨r, hr⟩ := lagList_head h.sorted (fun p hp => sampled_lt hp) hz
  have hQl : (kvectorsGet s).length = k.length := by rw [kvectorsGet_map, List.length_map, a5]
  have hne : ∀ f ∈ x, f.map Prod.snd ≠ [] := by
    intro f hf e
    obtain ⟨a, ha⟩ := List.exists_mem_of_length_pos (by omega : 0 < ids.length)
    rw [List.map_eq_nil_iff] at e
    exact hpres a ha f hf (by rw [e]; rfl)
  refine ⟨depth, dg, lagList tr.steps (Spec.sampled tr.steps.length skip.toNat dg), kvectorsGet s, s.kgrid, lagList_sorted _ _,
    by rw [hr]; rfl, fun δ => mem_lagList, by rw [a2, a5], setup_waves hpick h.nk (le_of_lt h.dk) h.side_pos hs hreq hnn, ?_⟩
  intro F hF ts hts all hal
  have hregular : ∀ (same : Bool) (A B : List (S × Vec d ℝ) → List (Vec d ℝ)), (same = true → B = A) → (∀ f ∈ x, A f ≠ []) →
      (∀ f ∈ x, B f ≠ []) →
      FkRegular (⟨tr.steps, tr.timestep, skip.toNat, dg, same, x.map A, x.map B, s, true⟩ : FkObj d) := by
    intro same A B hsame hA hB
    refine ⟨h.dims, hsk, by simp [hx], by simp, fun e => by simp only [hsame e], ?_, ?_, a1, a2, a3, a4⟩
    · intro f hf
      obtain ⟨f', hf', rfl⟩ := List.mem_map.1 hf
      exact hA f' hf'
    · intro f hf
      obtain ⟨f', hf', rfl⟩ := List.mem_map.1 hf
      exact hB f' hf'
  have hrun : ∀ (same : Bool) (A B : List (S × Vec d ℝ) → List (Vec d ℝ)), (same = true → B = A) → (∀ f ∈ x, A f ≠ []) →
      (∀ f ∈ x, B f ≠ []) →
      fkCompute ⟨tr.steps, tr.timestep, skip.toNat, dg, same, x.map A, x.map B, s, true⟩ = .ok (ts, Spec.normalised (F A B), F A B) := by
    intro same A B hsame hA hB
    rw [fkt_run x hx A B (hregular same A B hsame hA hB), hts, hF]
  have hall' := hrun true all all (fun _ => rfl) (by rw [hal]; exact hne) (by rw [hal]; exact hne)
  refine ⟨hcmd _ _ hall', fun hp => ?_, fun a b i hi => ?_, fun i hi => ?_⟩
  · have hs' : kSetup Real.sqrt Real.pi depth pick q.params side (some s.kgrid) = .ok s := by rw [kSetup_perm hp, hs]
    have hpair : ∀ (k' : List ℝ), k'.Perm k → ∀ p ∈ pairsComputed ids, fktFrom o q depth pick tr side x k' (pairFilters p.1 p.2) =
        .ok (s.kgrid, ts, Spec.normalised (F (Spec.posOf p.1) (Spec.posOf p.2)), F (Spec.posOf p.1) (Spec.posOf p.2)) := by
      intro k' hk' p hp
      obtain ⟨m1, m2⟩ := pairsComputed_subset ids p hp
      refine hfrom x depth k' s (pairFilters p.1 p.2) (Spec.posOf p.1) (Spec.posOf p.2) _ (by rw [kSetup_perm hk', hs])
        (twobodyFrame_pair side p.1 p.2) (hrun _ _ _ ?_ (hpres _ m1) (hpres _ m2))
      intro e
      have e := of_decide_eq_true e
      by_cases e' : p.1 = p.2
      · rw [e']
      · simp [pairFilters, e'] at e
    have hseq : ∀ (l : List (S × S)), (∀ p ∈ l, p ∈ pairsComputed ids) → ∀ k' : List ℝ, k'.Perm k →
        fktSequence (fktFrom o q depth pick tr side x) k' (l.map fun p => pairFilters p.1 p.2) =
          .ok (l.map fun p => (ts, Spec.normalised (F (Spec.posOf p.1) (Spec.posOf p.2)), F (Spec.posOf p.1) (Spec.posOf p.2)),
            if l = [] then k' else s.kgrid) := by
      intro l
      induction l with
      | nil => intro _ k' _; rfl
      | cons p l ih =>
        intro hl k' hk'
        have h1 := hpair k' hk' p (hl p (by simp))
        have h2 := ih (fun p hp => hl p (by simp [hp])) s.kgrid hp
        simp only [List.map_cons, fktSequence, h1, bind, Except.bind, h2, ite_self]
        rfl
    have hPne : pairsComputed ids ≠ [] := by
      obtain ⟨a, ha⟩ := List.exists_mem_of_length_pos (by omega : 0 < ids.length)
      have := (mem_pairsComputed hnd ha ha).2 le_rfl
      intro e
      rw [e] at this
      simp at this
    set R : S × S → List ℝ × List (List ℝ) × List (List ℝ) := fun p =>
      (ts, Spec.normalised (F (Spec.posOf p.1) (Spec.posOf p.2)), F (Spec.posOf p.1) (Spec.posOf p.2)) with hR
    refine ⟨fktPairs (pairsComputed ids) ((pairsComputed ids).map R) s.kgrid, fun total => ?_, fun a ha b hb => ?_⟩
    · have ht : fktFrom o q depth pick tr side x k [] = .ok (s.kgrid, ts, Spec.normalised (F all all), F all all) :=
        hfrom x depth k s [] all all _ hs (fun f => by rw [hal]; rfl) hall'
      unfold fktWithPartials
      rw [h.klist.list]
      have hq1 := hseq _ (fun p hp => hp) k (List.Perm.refl k)
      have hq2 := hseq _ (fun p hp => hp) s.kgrid hp
      rw [if_neg hPne] at hq1 hq2
      simp only [bind, Except.bind, pure, Except.pure]
      cases total with
      | true =>
        rw [if_pos (Or.inl rfl)]
        simp only [ht]
        rw [if_pos ⟨hids, trivial⟩]
        simp only [hq2, if_true]
      | false =>
        rw [if_neg (by simp; omega)]
        rw [if_pos ⟨hids, trivial⟩]
        simp only [hq1]
        rfl
    · have hmem : ∀ e, e ∈ fktPairs (pairsComputed ids) ((pairsComputed ids).map R) s.kgrid ↔
          ∃ p ∈ pairsComputed ids, e = (p, (s.kgrid, (R p).1, (R p).2.1, some (R p).2.2)) ∨
            (p.1 ≠ p.2 ∧ e = ((p.2, p.1), (s.kgrid, (R p).1, (R p).2.1, none))) := by
        intro e
        unfold fktPairs
        rw [← List.map_prod_left_eq_zip, List.mem_flatMap]
        constructor
        · rintro ⟨y, hy, he⟩
          obtain ⟨p, hp, rfl⟩ := List.mem_map.1 hy
          refine ⟨p, hp, ?_⟩
          rcases List.mem_cons.1 he with he | he
          · exact Or.inl he
          · simp only at he
            split at he
            · simp at he
            · rename_i hne
              exact Or.inr ⟨hne, by simpa using he⟩
        · rintro ⟨p, hp, he⟩
          refine ⟨(p, R p), List.mem_map.2 ⟨p, hp, rfl⟩, ?_⟩
          rcases he with he | ⟨hne, he⟩
          · rw [he]; simp
          · simp only [if_neg hne]
            rw [he]; simp
      obtain ⟨v, h1, h2⟩ := dictGet_entry (fktPairs (pairsComputed ids) ((pairsComputed ids).map R) s.kgrid) (a, b) (by
        by_cases hab : ids.idxOf a ≤ ids.idxOf b
        · exact ⟨_, (hmem _).2 ⟨(a, b), (mem_pairsComputed hnd ha hb).2 hab, Or.inl rfl⟩⟩
        · exact ⟨_, (hmem _).2 ⟨(b, a), (mem_pairsComputed hnd hb ha).2 (by omega), Or.inr ⟨fun e => hab (by rw [show b = a from e]), rfl⟩⟩⟩)
      obtain ⟨p, hp, e | ⟨hne', e⟩⟩ := (hmem _).1 h2
      · obtain ⟨e1, e2⟩ := Prod.ext_iff.1 e
        simp only at e1 e2
        subst e1
        rw [h1, e2, if_pos ((mem_pairsComputed hnd ha hb).1 hp)]
      · obtain ⟨e1, e2⟩ := Prod.ext_iff.1 e
        simp only [Prod.mk.injEq] at e1 e2
        obtain ⟨p1, p2⟩ := p
        simp only at e1 hne'
        obtain ⟨rfl, rfl⟩ := e1
        have hle := (mem_pairsComputed hnd hb ha).1 hp
        have hlt : ¬ ids.idxOf a ≤ ids.idxOf b := by
          intro hle'
          exact hne' ((List.idxOf_inj hb).1 (le_antisymm hle hle'))
        rw [h1, e2, if_neg hlt]
  · rw [hF, cohMeans_getD x _ _ (by rw [hQl]; exact hi) (by rw [hr]; simp), cohMeans_getD x _ _ (by rw [hQl]; exact hi) (by rw [hr]; simp),
      hr, List.getD_cons_zero]
    congr 1
    refine List.flatMap_congr fun w _ => List.map_congr_left fun ab hab => ?_
    have hxne : ∃ f0 r0, x = f0 :: r0 := by
      refine List.exists_cons_of_ne_nil ?_
      rintro rfl
      exact h.steps_ne (List.length_eq_zero_iff.1 hx.symm)
    obtain ⟨f0, -, -⟩ := hxne
    rw [framePairs_eq _ _ _ x hx.le f0] at hab
    obtain ⟨p, hp, rfl⟩ := List.mem_map.1 hab
    obtain ⟨hp1, hp2⟩ := List.mem_filter.1 hp
    rw [decide_eq_true_eq] at hp2
    rw [stepDiff_eq_zero h.sorted (by rw [← hx]; exact sampled_lt hp1) hp2, Nat.add_zero]
    simp only [Complex.star_def, Complex.mul_re, Complex.conj_re, Complex.conj_im]
    ring
  · rw [hF, cohMeans_getD x _ _ (by rw [hQl]; exact hi) (by rw [hr]; simp)]
    simp only [cohMeans_getD x _ _ (show i < (kvectorsGet s).length by rw [hQl]; exact hi)
      (show 0 < (lagList tr.steps (Spec.sampled tr.steps.length skip.toNat dg)).length by rw [hr]; simp)]
    rw [← mean_flatMap_sum]
    congr 1
    refine List.flatMap_congr fun w _ => List.map_congr_left fun ab hab => ?_
    obtain ⟨m1, m2⟩ := framePairs_mem hx.le hab
    rw [hal]
    simp only []
    rw [density_posOf w ab.1 ids (hall _ m1), density_posOf w ab.2 ids (hall _ m2), star_sum, Finset.sum_mul_sum]
    simp only [Complex.re_sum]

/-- **C229**, when the hypothesis on the wave-numbers holds: they are not closer than `2*dk` and the wave-vectors of the cell within `dk` of
each of them have exactly this norm. -/
theorem C229_exact_partial {o : TimeOptions} {q : KOptions} {tr : Traj ℝ} {side : Vec d ℝ} {k : List ℝ} {skip : ℤ}
    (h : ScatteringInput o q tr side k skip) (hD : Distinct q side k)
    (hex : ∀ y ∈ k, ∀ v : Fin d → ℤ, |√(∑ c, (2 * Real.pi / side c * v c) ^ 2) - y| < q.dk → √(∑ c, (2 * Real.pi / side c * v c) ^ 2) = y)
    {pick : ℕ → List (KVec d) → ℕ → List (KVec d)} (hpick : IsSample pick) {depth : ℕ} {x : List (List (Vec d ℝ))} {ks ts : List ℝ}
    {vs ws : List (List ℝ)} (hc : fktCommand o q depth pick tr side x = .ok (ks, ts, vs, ws)) : ks = pySorted k := by
  unfold fktCommand at hc
  obtain ⟨⟨skip', dg, s⟩, e, hc⟩ := bind_ok_iff.1 hc
  obtain ⟨r, -, hc⟩ := bind_ok_iff.1 hc
  have hks := (Prod.ext_iff.1 (Except.ok.inj hc)).1
  simp only at hks
  subst hks
  unfold scatteringSetup at e
  obtain ⟨f, hf, e⟩ := bind_ok_iff.1 e
  obtain ⟨g, hg, e⟩ := bind_ok_iff.1 e
  obtain ⟨k', hk, e⟩ := bind_ok_iff.1 e
  obtain ⟨skip', hskip, e⟩ := bind_ok_iff.1 e
  obtain ⟨dg', hdg, e⟩ := bind_ok_iff.1 e
  obtain ⟨s', hs, e⟩ := bind_ok_iff.1 e
  have e := Except.ok.inj e
  obtain ⟨-, e2⟩ := Prod.ext_iff.1 e
  obtain ⟨-, e4⟩ := Prod.ext_iff.1 e2
  simp only at e4
  subst e4
  have hkk : k' = k := by rw [h.klist.list] at hk; exact (Except.ok.inj hk).symm
  subst hkk
  exact kgrid_exact h hD hex hpick hs

end

/-- **C229**, systems of one species and the option `no_partial`: the command gives the function of the whole system only, the one of
`fktCommand`; with one species it does not depend on the options `total` and `no_partial`. -/
theorem C229_total_partial {S : Type} [DecidableEq S] {o : TimeOptions} {q : KOptions} {tr : Traj ℝ} {side : Vec d ℝ} {k : List ℝ} {skip : ℤ}
    (h : ScatteringInput o q tr side k skip) (pick : ℕ → List (KVec d) → ℕ → List (KVec d)) (hpick : IsSample pick)
    (x : List (List (S × Vec d ℝ))) (hx : x.length = tr.steps.length) (hne : ∀ f ∈ x, f ≠ []) :
    ∃ depth r, fktCommand o q depth pick tr side (x.map fun f => f.map Prod.snd) = .ok r ∧
      (∀ (a : S) (all noPartial : Bool), fktWithPartials o q all noPartial depth pick tr side [a] x = .ok (some r, [])) ∧
      ∀ ids : List S, fktWithPartials o q true true depth pick tr side ids x = .ok (some r, []) := by
  obtain ⟨depth, dg, s, hsk, -, -, a1, a2, a3, a4, -, hs, hcmd, hfrom⟩ := fkt_common (S := S) h pick hpick
  have hp : ∀ f ∈ x.map (fun f => f.map Prod.snd), f ≠ [] := by
    intro f hf
    obtain ⟨f', hf', rfl⟩ := List.mem_map.1 hf
    simpa using hne f' hf'
  have hr := fkt_run x hx (fun f => f.map Prod.snd) (fun f => f.map Prod.snd)
    (⟨h.dims, hsk, by simp [hx], rfl, fun _ => rfl, hp, hp, a1, a2, a3, a4⟩ :
      FkRegular (⟨tr.steps, tr.timestep, skip.toNat, dg, true, x.map fun f => f.map Prod.snd, x.map fun f => f.map Prod.snd, s, true⟩ : FkObj d))
  have h3 := hfrom x depth k s [] (fun f => f.map Prod.snd) (fun f => f.map Prod.snd) _ hs (fun f => rfl) hr
  refine ⟨depth, _, hcmd _ _ hr, fun a all noPartial => ?_, fun ids => ?_⟩
  · unfold fktWithPartials
    rw [h.klist.list]
    simp only [bind, Except.bind, pure, Except.pure, List.length_cons, List.length_nil]
    rw [if_pos (Or.inr (by norm_num))]
    simp only [h3]
    rw [if_neg (by norm_num)]
  · unfold fktWithPartials
    rw [h.klist.list]
    simp only [bind, Except.bind, pure, Except.pure]
    rw [if_pos (Or.inl trivial)]
    simp only [h3]
    rw [if_neg (by simp)]

/-- Ten frames with the option `no_partial`. -/
example (x : List (List (Char × Vec 2 ℝ))) (hx : x.length = 10) (hn : ∀ f ∈ x, f ≠ []) :
    ∃ depth r, fktWithPartials exTOpt exKOpt true true depth (fun _ l n => l.take n) exTTraj exKSide ['A', 'B'] x = .ok (some r, []) := by
  obtain ⟨depth, r, -, -, h⟩ := C229_total_partial exScattering _ isSample_take x (by rw [hx]; rfl) hn
  exact ⟨depth, r, h _⟩

/-- Ten frames of five particles of two species, the wave-numbers 2 and 1 of a square cell of side 2π: the functions are given at 1 and 2,
the one of B and A has the values of that of A and B, and the first values add up. -/
example (x : List (List (Char × Vec 2 ℝ))) (hx : x.length = 10) (hsp : ∀ f ∈ x, f.map Prod.fst = ['A', 'B', 'B', 'A', 'B']) :
    ∃ depth ts v w D vaa vab vbb waa wab wbb,
      fktWithPartials exTOpt exKOpt true false depth (fun _ l n => l.take n) exTTraj exKSide ['A', 'B'] x = .ok (some ([1, 2], ts, v, w), D) ∧
      dictGet D ('A', 'A') = .ok ([1, 2], ts, vaa, some waa) ∧ dictGet D ('A', 'B') = .ok ([1, 2], ts, vab, some wab) ∧
      dictGet D ('B', 'A') = .ok ([1, 2], ts, vab, none) ∧ dictGet D ('B', 'B') = .ok ([1, 2], ts, vbb, some wbb) ∧
      ∀ i < 2, (w.getD i []).getD 0 0 = (waa.getD i []).getD 0 0 + 2 * (wab.getD i []).getD 0 0 + (wbb.getD i []).getD 0 0 := by
  have hmem : ∀ f ∈ x, ∀ p ∈ f, p.1 ∈ (['A', 'B'] : List Char) := by
    intro f hf p hp
    have : p.1 ∈ f.map Prod.fst := List.mem_map_of_mem hp
    rw [hsp f hf] at this
    simp only [List.mem_cons, List.not_mem_nil, or_false] at this ⊢
    tauto
  have hpres : ∀ a ∈ (['A', 'B'] : List Char), ∀ f ∈ x, Spec.posOf a f ≠ [] := by
    intro a ha f hf e
    have h1 : a ∈ f.map Prod.fst := by
      rw [hsp f hf]
      simp only [List.mem_cons, List.not_mem_nil, or_false] at ha ⊢
      tauto
    obtain ⟨p, hp, rfl⟩ := List.mem_map.1 h1
    unfold Spec.posOf at e
    rw [List.map_eq_nil_iff, List.filter_eq_nil_iff] at e
    exact e p hp (by simp)
  obtain ⟨depth, dg, lags, Q, ks, -, -, -, -, -, h1⟩ := C229_pairs_partial exScattering _ isSample_take x (by rw [hx]; rfl) ['A', 'B']
    (by simp) (by decide) hpres hmem
  obtain ⟨h2, h3, h4, h5⟩ := h1 _ rfl _ rfl _ rfl
  have hk := C229_exact_partial exScattering exDistinct exExact isSample_take h2
  have hsort : pySorted [2, (1 : ℝ)] = [1, 2] := by
    unfold pySorted
    norm_num [List.insertionSort, List.orderedInsert]
  obtain ⟨D, h6, h7⟩ := h3 (by rw [hk]; exact List.perm_insertionSort _ _)
  rw [hk, hsort] at h6 h7
  refine ⟨depth, _, _, _, D, _, _, _, _, _, _, h6 true, h7 'A' (by simp) 'A' (by simp), h7 'A' (by simp) 'B' (by simp),
    h7 'B' (by simp) 'A' (by simp), h7 'B' (by simp) 'B' (by simp), fun i hi => ?_⟩
  rw [h5 i hi, show (['A', 'B'] : List Char).toFinset = {'A', 'B'} from rfl, Finset.sum_pair (by decide), Finset.sum_pair (by decide),
    Finset.sum_pair (by decide), h4 'B' 'A' i hi]
  ring

/-- The correlations at the time between the two frames of `frames34`, for groups of `N` particles that move together. -/
theorem coh34 {skip : ℕ} {dg : List (ℕ × ℕ)} {Q : List (List (Fin 2 → ℝ))} (hQ : 0 < Q.length)
    (h3 : 3 ∈ lagList traj34.steps (Spec.sampled traj34.steps.length skip dg)) (A B : List (Char × Vec 2 ℝ) → List (Fin 2 → ℝ)) {N M : ℕ}
    (hA : A [('A', ![Real.pi / 3, 0]), ('B', ![Real.pi / 3, 0])] = List.replicate N ![Real.pi / 3, 0])
    (hB : B [('A', ![0, 0]), ('B', ![0, 0])] = List.replicate M ![0, 0]) :
    ((Spec.cohMeans traj34.steps skip dg (lagList traj34.steps (Spec.sampled traj34.steps.length skip dg)) Q frames34 A B).getD 0 []).getD
      ((lagList traj34.steps (Spec.sampled traj34.steps.length skip dg)).idxOf 3) 0 =
      Spec.mean ((Q.getD 0 []).map fun w => N * M * (Spec.density w [![Real.pi / 3, 0]]).re) := by
  have hi := List.idxOf_lt_length_of_mem h3
  rw [cohMeans_getD _ _ _ hQ hi, List.getD_eq_getElem _ _ hi, List.getElem_idxOf hi]
  obtain ⟨m, hm, hp⟩ := pairs34 h3 [('A', (![0, 0] : Vec 2 ℝ)), ('B', ![0, 0])] [('A', ![Real.pi / 3, 0]), ('B', ![Real.pi / 3, 0])]
  have hp' : Spec.framePairs traj34.steps skip dg frames34 3 = List.replicate m
    ([('A', ![Real.pi / 3, 0]), ('B', ![Real.pi / 3, 0])], [('A', (![0, 0] : Vec 2 ℝ)), ('B', ![0, 0])]) := hp
  rw [hp', ← mean_repeated _ (fun w => N * M * (Spec.density w [![Real.pi / 3, 0]]).re) hm]
  congr 1
  refine List.flatMap_congr fun w _ => ?_
  rw [List.map_replicate]
  congr 1
  simp only [hA, hB]
  have hrep : ∀ (n : ℕ) (y : Fin 2 → ℝ), Spec.density w (List.replicate n y) = n * Spec.density w [y] := by
    intro n y
    simp [Spec.density]
  rw [hrep, hrep, phase34_zero]
  simp
  ring

/-- **C229** is false if the norms of the wave-vectors used are not the wave-number requested: whatever the random draws, for two
particles that move together the function of the whole system is given at 17/4 and those of the pairs of species at 14/3. At the time 3 the
values before the normalisation are -2, and -1/3 for each pair: they do not add up. -/
theorem C229_counterexample {pick : ℕ → List (KVec 2) → ℕ → List (KVec 2)} (hpick : IsSample pick) (depth : ℕ) :
    ∃ ts v w D vaa vab vbb waa wab wbb,
      fktWithPartials tOpt34 kOpt34 true false (depth + 1) pick traj34 cell34 ['A', 'B'] frames34 = .ok (some ([17 / 4], ts, v, w), D) ∧
      dictGet D ('A', 'A') = .ok ([14 / 3], ts, vaa, some waa) ∧ dictGet D ('A', 'B') = .ok ([14 / 3], ts, vab, some wab) ∧
      dictGet D ('B', 'A') = .ok ([14 / 3], ts, vab, none) ∧ dictGet D ('B', 'B') = .ok ([14 / 3], ts, vbb, some wbb) ∧
      ∃ j, ts.getD j 0 = 3 ∧ (w.getD 0 []).getD j 0 = -2 ∧ (waa.getD 0 []).getD j 0 = -1 / 3 ∧ (wab.getD 0 []).getD j 0 = -1 / 3 ∧
        (wbb.getD 0 []).getD j 0 = -1 / 3 := by
  obtain ⟨s0, S0, g0, M0⟩ := setups34 hpick depth (4, 17 / 4, ring345) (by simp)
  obtain ⟨s1, S1, g1, M1⟩ := setups34 hpick depth (17 / 4, 14 / 3, ring345.drop 2) (by simp)
  obtain ⟨s2, S2, g2, M2⟩ := setups34 hpick depth (14 / 3, 14 / 3, ring345.drop 2) (by simp)
  obtain ⟨depth0, dg, z0, hsk, -, htimes, -, -, -, -, -, -, -, hfrom⟩ := fkt_common (S := Char) exScattering34 pick hpick
  have h3 := lag34 htimes
  have hval : ∀ {k : ℝ} {s : KState 2 ℝ}, SkSetup opt34 (depth + 1) pick cell34 (some [k]) s 1 → ∀ (filters : List Char)
      (A B : List (Char × Vec 2 ℝ) → List (Vec 2 ℝ)),
      (∀ f : List (Char × Vec 2 ℝ), twobodyFrame Prod.snd (filters.map fun a s => filterSpecies Prod.fst s (some a))
          (⟨f, ⟨cell34, fun _ => true⟩⟩ : System (Char × Vec 2 ℝ) (CellInfo 2 ℝ)) = ⟨cell34, fun _ => true, A f, B f⟩) →
      (filters.length ≤ 1 → B = A) → (∀ f ∈ frames34, A f ≠ []) → (∀ f ∈ frames34, B f ≠ []) → ∀ N M : ℕ,
      A [('A', ![Real.pi / 3, 0]), ('B', ![Real.pi / 3, 0])] = List.replicate N ![Real.pi / 3, 0] →
      B [('A', ![0, 0]), ('B', ![0, 0])] = List.replicate M ![0, 0] →
      ∃ v w, fktFrom tOpt34 kOpt34 (depth + 1) pick traj34 cell34 frames34 [k] filters = .ok (s.kgrid,
          (lagList traj34.steps (Spec.sampled traj34.steps.length (1 : ℤ).toNat dg)).map (fun t : ℤ => (t : ℝ) * traj34.timestep), v, w) ∧
        (w.getD 0 []).getD ((lagList traj34.steps (Spec.sampled traj34.steps.length (1 : ℤ).toNat dg)).idxOf 3) 0 =
          Spec.mean (((kvectorsGet s).getD 0 []).map fun u => N * M * (Spec.density u [![Real.pi / 3, 0]]).re) := by
    intro k s hS filters A B hAB hsame hA hB N M hAN hBM
    have hk1 : s.kvectors.length = 1 := hS.shells.1
    have hreg : FkRegular (⟨traj34.steps, traj34.timestep, (1 : ℤ).toNat, dg, decide (filters.length ≤ 1), frames34.map A, frames34.map B,
        s, true⟩ : FkObj 2) := by
      refine ⟨Or.inl rfl, hsk, by simp [frames34, traj34], by simp, fun e => by simp only [hsame (of_decide_eq_true e)], ?_, ?_, hS.allowed,
        by rw [hS.len, hk1], ?_, hS.shells.2⟩
      · intro f hf
        obtain ⟨f', hf', rfl⟩ := List.mem_map.1 hf
        exact hA f' hf'
      · intro f hf
        obtain ⟨f', hf', rfl⟩ := List.mem_map.1 hf
        exact hB f' hf'
      · intro e
        simp only at e
        rw [e] at hk1
        simp at hk1
    exact ⟨_, _, hfrom frames34 (depth + 1) [k] s filters A B _ hS.setup hAB (fkt_run frames34 rfl A B hreg),
      coh34 (by rw [kvectorsGet_map, List.length_map, hk1]; norm_num) h3 A B hAN hBM⟩
  have hpos : ∀ a ∈ (['A', 'B'] : List Char), (∀ f ∈ frames34, Spec.posOf a f ≠ []) ∧
      Spec.posOf a [('A', (![Real.pi / 3, 0] : Vec 2 ℝ)), ('B', ![Real.pi / 3, 0])] = List.replicate 1 ![Real.pi / 3, 0] ∧
      Spec.posOf a [('A', (![0, 0] : Vec 2 ℝ)), ('B', ![0, 0])] = List.replicate 1 ![0, 0] := by
    intro a ha
    simp only [List.mem_cons, List.not_mem_nil, or_false] at ha
    rcases ha with rfl | rfl <;> refine ⟨?_, by simp [Spec.posOf], by simp [Spec.posOf]⟩ <;>
    · intro f hf
      simp only [frames34, List.mem_cons, List.not_mem_nil, or_false] at hf
      rcases hf with rfl | rfl <;> simp [Spec.posOf]
  have hpair : ∀ {k : ℝ} {s : KState 2 ℝ}, SkSetup opt34 (depth + 1) pick cell34 (some [k]) s 1 → ∀ a ∈ (['A', 'B'] : List Char),
      ∀ b ∈ (['A', 'B'] : List Char), _ := fun hS a ha b hb => hval hS (pairFilters a b) (Spec.posOf a) (Spec.posOf b)
        (twobodyFrame_pair cell34 a b) (by
          intro hle
          by_cases e : a = b
          · rw [e]
          · simp [pairFilters, e] at hle) (hpos a ha).1 (hpos b hb).1 1 1 (hpos a ha).2.1 (hpos b hb).2.2
  obtain ⟨vt, wt, t1, t2⟩ := hval S0 [] (fun f => f.map Prod.snd) (fun f => f.map Prod.snd) (fun f => rfl) (fun _ => rfl)
    (by simp [frames34]) (by simp [frames34]) 2 2 rfl rfl
  obtain ⟨vaa, waa, a1, a2⟩ := hpair S1 'A' (by simp) 'A' (by simp)
  obtain ⟨vab, wab, b1, b2⟩ := hpair S2 'A' (by simp) 'B' (by simp)
  obtain ⟨vbb, wbb, c1, c2⟩ := hpair S2 'B' (by simp) 'B' (by simp)
  rw [g0] at t1
  rw [g1] at a1
  rw [g2] at b1 c1
  rw [M0] at t2
  rw [M1] at a2
  rw [M2] at b2 c2
  have hre : ∀ v : Fin 2 → ℤ, (Spec.density ![3 * (v 0 : ℝ), 4 * (v 1 : ℝ)] [![Real.pi / 3, 0]]).re = (-1) ^ v 0 := by
    intro v
    rw [phase34]
    have : ((-1 : ℂ) ^ v 0) = (((-1 : ℝ) ^ v 0 : ℝ) : ℂ) := by push_cast; rfl
    rw [this, Complex.ofReal_re]
  simp only [hre, ring345, List.drop_succ_cons, List.drop_zero, List.map_cons, List.map_nil] at t2 a2 b2 c2
  have hP : (pairsComputed ['A', 'B']) = [('A', 'A'), ('A', 'B'), ('B', 'B')] := rfl
  refine ⟨(lagList traj34.steps (Spec.sampled traj34.steps.length (1 : ℤ).toNat dg)).map (fun t : ℤ => (t : ℝ) * traj34.timestep), vt, wt,
    fktPairs [('A', 'A'), ('A', 'B'), ('B', 'B')]
    [(_, vaa, waa), (_, vab, wab), (_, vbb, wbb)] [14 / 3], vaa, vab, vbb, waa, wab, wbb, ?_, rfl, rfl, rfl, rfl,
    (lagList traj34.steps (Spec.sampled traj34.steps.length (1 : ℤ).toNat dg)).idxOf 3, ?_, ?_, ?_, ?_, ?_⟩
  · unfold fktWithPartials
    rw [exScattering34.klist.list, hP]
    simp only [bind, Except.bind, pure, Except.pure, t1, true_or, if_true, List.length_cons, List.length_nil]
    rw [if_pos ⟨by norm_num, trivial⟩]
    simp only [fktSequence, a1, b1, c1, bind, Except.bind, pure, Except.pure, List.map_cons, List.map_nil]
  · have hi := List.idxOf_lt_length_of_mem h3
    rw [List.getD_eq_getElem _ _ (by simpa using hi), List.getElem_map, List.getElem_idxOf hi]
    norm_num [traj34]
  · rw [t2]; norm_num
  · rw [a2]; norm_num
  · rw [b2]; norm_num
  · rw [c2]; norm_num

end PP.Props
