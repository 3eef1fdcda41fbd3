import Verif.Model.CommandsFsPartial
import Verif.Props.CommandsSkPartial

/-!
# C228: the partial functions of the command fskt
-/

namespace PP.Props
open PP Classical

variable {d : ℕ}

section
variable {S : Type} [DecidableEq S]

theorem pySorted_perm {l m : List ℝ} (h : l.Perm m) : pySorted l = pySorted m := by
  refine List.Perm.eq_of_pairwise (le := (· ≤ ·)) (fun a b _ _ => le_antisymm) ?_ ?_
    ((List.perm_insertionSort _ _).trans (h.trans (List.perm_insertionSort _ _).symm))
  · exact List.pairwise_insertionSort _ _
  · exact List.pairwise_insertionSort _ _

/-- The order of the wave-numbers requested does not matter. -/
theorem kSetup_perm {depth : ℕ} {pick : ℕ → List (KVec d) → ℕ → List (KVec d)} {p : KParams ℝ} {side : Vec d ℝ} {l m : List ℝ}
    (h : l.Perm m) : kSetup Real.sqrt Real.pi depth pick p side (some l) = kSetup Real.sqrt Real.pi depth pick p side (some m) := by
  have e : initialGrid p (smallestK Real.pi side) (some l) = initialGrid p (smallestK Real.pi side) (some m) := by
    unfold initialGrid
    simp only [pySorted_perm h]
  unfold kSetup
  simp only [e]

/-- The values of one object. -/
theorem fskt_run {impl : Impl} {o : FsObj d} {N : ℕ} (h : FsRegular o N) (hs : o.steps.Pairwise (· < ·))
    (h0 : Spec.Sampled o.steps o.skip o.tgrid o.pos.length 0) (hm : impl = .fast → o.lookupMb ≠ 0) :
    (match impl with
      | .legacy => fsLegacy o
      | .fast => fsFast o) = .ok ((fsLags o).map fun t : ℤ => (t : ℝ) * o.timestep, fsRaw o) := by
  have hl : fsLegacy o = .ok ((fsLags o).map fun t : ℤ => (t : ℝ) * o.timestep, fsRaw o) := by
    rw [fsLegacy_eq o h, fsRaw_norm o h hs h0, ite_self]
  cases impl with
  | legacy => exact hl
  | fast =>
    show fsFast o = _
    rw [C54_fast_eq_legacy o h (hm rfl), hl]

/-- The object of the command. -/
noncomputable def fsOb (tr : Traj ℝ) (q : KOptions) (skip : ℕ) (dg : List (ℕ × ℕ)) (s : KState d ℝ) (y : List (List (Vec d ℝ))) : FsObj d :=
  ⟨tr.steps, tr.timestep, skip, dg, y, s, q.lookupMb, true⟩

/-- What the objects of a command have in common. -/
theorem fskt_common {o : TimeOptions} {q : KOptions} {tr : Traj ℝ} {side : Vec d ℝ} {k : List ℝ} {skip : ℤ}
    (h : ScatteringInput o q tr side k skip) (pick : ℕ → List (KVec d) → ℕ → List (KVec d)) (hpick : IsSample pick) :
    ∃ depth0 dg s0, 0 < skip.toNat ∧ Spec.Sampled tr.steps skip.toNat dg tr.steps.length 0 ∧
      (∀ lags : List ℤ, lags.Pairwise (· < ·) → (∀ δ, δ ∈ lags ↔ Spec.Sampled tr.steps skip.toNat dg tr.steps.length δ) →
        ∀ row : List ℝ, row.length = lags.length →
          Spec.TimesUpTo tr.steps tr.timestep (max tr.timestep (if 0 < o.tmax then o.tmax else o.fraction * tr.totalTime))
            (lags.map fun δ : ℤ => (δ : ℝ) * tr.timestep, row)) ∧
      Allowed s0 ∧ s0.kgrid.length = s0.kvectors.length ∧ s0.kvectors ≠ [] ∧ (∀ l ∈ s0.kvectors, l ≠ []) ∧
      s0.kvectors.length = k.length ∧
      kSetup Real.sqrt Real.pi depth0 pick q.params side (some k) = .ok s0 ∧
      ∀ impl x N, x.length = tr.steps.length → 0 < N → (∀ f ∈ x, f.length = N) → (impl = .fast → q.lookupMb ≠ 0) →
        (fsktCommand impl o q depth0 pick tr side x = .ok (s0.kgrid,
          (lagList tr.steps (Spec.sampled tr.steps.length skip.toNat dg)).map (fun t : ℤ => (t : ℝ) * tr.timestep),
          fsRaw (fsOb tr q skip.toNat dg s0 x))) ∧
        ∀ depth k' s, kSetup Real.sqrt Real.pi depth pick q.params side (some k') = .ok s →
          Allowed s → s.kgrid.length = s.kvectors.length → s.kvectors ≠ [] → (∀ l ∈ s.kvectors, l ≠ []) →
          fsktFrom impl o q depth pick tr side k' x = .ok (s.kgrid,
            (lagList tr.steps (Spec.sampled tr.steps.length skip.toNat dg)).map (fun t : ℤ => (t : ℝ) * tr.timestep),
            fsRaw (fsOb tr q skip.toNat dg s x)) := by
  obtain ⟨depth, dg, s, e, hsk, hz, htimes, a1, a2, a3, a4, a5, -, -, a6⟩ := scatteringSetup_ok (c := .fskt) (Or.inr rfl) h pick hpick
  have e0 := e
  unfold scatteringSetup at e
  obtain ⟨f, hf, e⟩ := bind_ok_iff.1 e
  obtain ⟨g, hg, e⟩ := bind_ok_iff.1 e
  obtain ⟨k', hk, e⟩ := bind_ok_iff.1 e
  obtain ⟨skip', hskip, e⟩ := bind_ok_iff.1 e
  obtain ⟨dg', hdg, e⟩ := bind_ok_iff.1 e
  obtain ⟨s', hs, e⟩ := bind_ok_iff.1 e
  have e := Except.ok.inj e
  obtain ⟨e1, e2⟩ := Prod.ext_iff.1 e
  obtain ⟨e3, e4⟩ := Prod.ext_iff.1 e2
  simp only at e1 e3 e4
  subst e3 e4
  have hkk : k' = k := by rw [h.klist.list] at hk; exact (Except.ok.inj hk).symm
  subst hkk
  have hval : ∀ (impl : Impl) (x : List (List (Vec d ℝ))) (N : ℕ), x.length = tr.steps.length → 0 < N → (∀ f ∈ x, f.length = N) →
      (impl = .fast → q.lookupMb ≠ 0) → ∀ s : KState d ℝ, Allowed s → s.kgrid.length = s.kvectors.length → s.kvectors ≠ [] →
      (∀ l ∈ s.kvectors, l ≠ []) →
      (match impl with
        | .legacy => fsLegacy (fsOb tr q skip.toNat dg' s x)
        | .fast => fsFast (fsOb tr q skip.toNat dg' s x)) = .ok
          ((lagList tr.steps (Spec.sampled tr.steps.length skip.toNat dg')).map (fun t : ℤ => (t : ℝ) * tr.timestep),
          fsRaw (fsOb tr q skip.toNat dg' s x)) := by
    intro impl x N hx hN hn hm s c1 c2 c3 c4
    have hne : x ≠ [] := by
      rintro rfl
      exact h.steps_ne (List.length_eq_zero_iff.1 hx.symm)
    have := fskt_run (impl := impl) (o := fsOb tr q skip.toNat dg' s x) (N := N) ⟨hne, hsk, hx.le, hn, hN, c1, c2, c3, c4⟩ h.sorted
      (by unfold fsOb; rw [hx]; exact hz) hm
    rw [this]
    unfold fsLags fsOb
    simp only [hx]
  refine ⟨depth, dg', s', hsk, hz, htimes, a1, a2, a3, a4, a5, hs, fun impl x N hx hN hn hm => ⟨?_, fun depth' k' s hs' c1 c2 c3 c4 => ?_⟩⟩
  · have hv := hval impl x N hx hN hn hm s' a1 a2 a3 a4
    unfold fsktCommand
    rw [e0]
    cases impl with
    | legacy =>
      show (fsLegacy (fsOb tr q skip.toNat dg' s' x) >>= _) = _
      rw [show fsLegacy (fsOb tr q skip.toNat dg' s' x) = _ from hv]
      rfl
    | fast =>
      show (fsFast (fsOb tr q skip.toNat dg' s' x) >>= _) = _
      rw [show fsFast (fsOb tr q skip.toNat dg' s' x) = _ from hv]
      rfl
  · have hv := hval impl x N hx hN hn hm s c1 c2 c3 c4
    unfold fsktFrom
    simp only [hf, hg, hskip, hdg, hs', bind, Except.bind, e1]
    cases impl with
    | legacy =>
      show (fsLegacy (fsOb tr q skip.toNat dg' s x) >>= _) = _
      rw [show fsLegacy (fsOb tr q skip.toNat dg' s x) = _ from hv]
      rfl
    | fast =>
      show (fsFast (fsOb tr q skip.toNat dg' s x) >>= _) = _
      rw [show fsFast (fsOb tr q skip.toNat dg' s x) = _ from hv]
      rfl

omit [DecidableEq S] in
theorem sum_map_finset {Y : Type} (l : List Y) (I : Finset S) (g : S → Y → ℝ) :
    (l.map fun y => ∑ a ∈ I, g a y).sum = ∑ a ∈ I, (l.map (g a)).sum := by
  induction l with
  | nil => simp
  | cons y l ih => simp only [List.map_cons, List.sum_cons, ih, Finset.sum_add_distrib]

theorem sum_flatMap_list {Y : Type} (l : List Y) (f : Y → List ℝ) : (l.flatMap f).sum = (l.map fun y => (f y).sum).sum := by
  induction l with
  | nil => rfl
  | cons y l ih => simp only [List.flatMap_cons, List.sum_append, List.map_cons, List.sum_cons, ih]

/-- The cosines of all particles are those of the species. -/
theorem selfTerms_species (w : Fin d → ℝ) (ids : List S) (A B : List (S × Vec d ℝ)) (hAB : A.map Prod.fst = B.map Prod.fst)
    (hA : ∀ p ∈ A, p.1 ∈ ids) :
    (Spec.selfTerms w (A.map Prod.snd) (B.map Prod.snd)).sum =
      ∑ a ∈ ids.toFinset, (Spec.selfTerms w (Spec.posOf a A) (Spec.posOf a B)).sum := by
  induction A generalizing B with
  | nil => simp [Spec.selfTerms, Spec.posOf]
  | cons p A ih =>
    cases B with
    | nil => simp at hAB
    | cons p' B =>
      simp only [List.map_cons, List.cons.injEq] at hAB
      have ih' := ih B hAB.2 fun r hr => hA r (by simp [hr])
      have e : ∀ a, (Spec.selfTerms w (Spec.posOf a (p :: A)) (Spec.posOf a (p' :: B))).sum =
          (if a = p.1 then Real.cos (Spec.dot w fun c => p.2 c - p'.2 c) else 0) + (Spec.selfTerms w (Spec.posOf a A) (Spec.posOf a B)).sum := by
        intro a
        unfold Spec.posOf
        by_cases h : a = p.1
        · have h1 : decide (p.1 = a) = true := by simp [h]
          have h2 : decide (p'.1 = a) = true := by simp [h, hAB.1]
          rw [List.filter_cons_of_pos (by exact h1), List.filter_cons_of_pos (by exact h2), if_pos h]
          simp [Spec.selfTerms]
        · have h1 : ¬ decide (p.1 = a) = true := by simpa using fun e => h e.symm
          have h2 : ¬ decide (p'.1 = a) = true := by rw [← hAB.1]; exact h1
          rw [List.filter_cons_of_neg (by exact h1), List.filter_cons_of_neg (by exact h2), if_neg h, zero_add]
      simp only [e, Finset.sum_add_distrib, ← ih', Finset.sum_ite_eq', List.mem_toFinset]
      rw [if_pos (hA p (by simp))]
      simp [Spec.selfTerms]

theorem framePairs_mem {X : Type} {steps : List ℤ} {skip : ℕ} {grid : List (ℕ × ℕ)} {x : List X} (hl : x.length ≤ steps.length)
    {δ : ℤ} {p : X × X} (hp : p ∈ Spec.framePairs steps skip grid x δ) : p.1 ∈ x ∧ p.2 ∈ x := by
  rcases x with _ | ⟨x0, r⟩
  · have : Spec.framePairs steps skip grid ([] : List X) δ = [] := by
      have := framePairs_mapped (fun e : Empty => (e.elim : X)) steps skip grid [] (by simp) δ
      rw [List.map_nil] at this
      rw [this]
      cases h : Spec.framePairs steps skip grid ([] : List Empty) δ with
      | nil => rfl
      | cons a => exact a.1.elim
    rw [this] at hp
    simp at hp
  · rw [framePairs_eq steps skip grid _ hl x0] at hp
    obtain ⟨e, he, rfl⟩ := List.mem_map.1 hp
    have hlt := sampled_lt (List.mem_of_mem_filter he)
    exact ⟨getD_mem hlt, getD_mem (by omega)⟩

/-- **C228**, the part that holds: if the command fskt gives the function of the whole system at the wave-numbers requested (and not
at others near them), then it also gives that of each species, with or without the option `total`, at the same wave-numbers and times.
They are those that the command would give for the particles of the species alone. The function of the whole system is the average of
those of the species, weighted with their numbers of particles. The species of the particles do not change with time. -/
theorem C228_sum_partial (impl : Impl) {o : TimeOptions} {q : KOptions} {tr : Traj ℝ} {side : Vec d ℝ} {k : List ℝ} {skip : ℤ}
    (h : ScatteringInput o q tr side k skip) (hm : impl = .fast → q.lookupMb ≠ 0)
    (pick : ℕ → List (KVec d) → ℕ → List (KVec d)) (hpick : IsSample pick)
    (x : List (List (S × Vec d ℝ))) (hx : x.length = tr.steps.length) (sp : List S) (hsp : ∀ f ∈ x, f.map Prod.fst = sp)
    (ids : List S) (hids : ∀ a, a ∈ ids ↔ a ∈ sp) (h2 : 1 < ids.length) :
    ∃ depth ks ts total, fsktCommand impl o q depth pick tr side (x.map fun f => f.map Prod.snd) = .ok (ks, ts, total) ∧
      total.length = k.length ∧ (∀ row ∈ total, row.length = ts.length) ∧
      (ks.Perm k → ∃ part : S → List (List ℝ),
        (∀ all : Bool, fsktWithPartials impl o q all false depth pick tr side ids x =
          .ok (if all then some (ks, ts, total) else none, ids.map fun a => (a, ks, ts, part a))) ∧
        (∀ a ∈ ids, fsktCommand impl o q depth pick tr side (x.map (Spec.posOf a)) = .ok (ks, ts, part a)) ∧
        ∀ i < k.length, ∀ j < ts.length, (sp.length : ℝ) * (total.getD i []).getD j 0 =
          ∑ a ∈ ids.toFinset, (sp.count a : ℝ) * ((part a).getD i []).getD j 0) := by
  obtain ⟨depth, dg, s, hsk, hz, -, a1, a2, a3, a4, a5, hs, hrun⟩ := fskt_common h pick hpick
  have hne : x ≠ [] := by
    rintro rfl
    exact h.steps_ne (List.length_eq_zero_iff.1 hx.symm)
  have hspne : 0 < sp.length := by
    obtain ⟨a, ha⟩ := List.exists_mem_of_length_pos (by omega : 0 < ids.length)
    exact List.length_pos_of_mem ((hids a).1 ha)
  generalize hL : lagList tr.steps (Spec.sampled tr.steps.length skip.toNat dg) = L at hrun
  have hmap : ∀ (G : List (S × Vec d ℝ) → List (Vec d ℝ)) (N : ℕ), (∀ f ∈ x, (G f).length = N) → ∀ f ∈ x.map G, f.length = N := by
    intro G N hG f hf
    obtain ⟨f', hf', rfl⟩ := List.mem_map.1 hf
    exact hG f' hf'
  have hreg : ∀ (G : List (S × Vec d ℝ) → List (Vec d ℝ)) (N : ℕ), 0 < N → (∀ f ∈ x, (G f).length = N) →
      FsRegular (fsOb tr q skip.toNat dg s (x.map G)) N := by
    intro G N hN hG
    exact ⟨by simpa [fsOb] using hne, hsk, by simp [fsOb, hx], hmap G N hG, hN, a1, a2, a3, a4⟩
  have hlags : ∀ G : List (S × Vec d ℝ) → List (Vec d ℝ), fsLags (fsOb tr q skip.toNat dg s (x.map G)) = L := by
    intro G
    rw [← hL]
    simp [fsLags, fsOb, hx]
  have hfrom : ∀ (G : List (S × Vec d ℝ) → List (Vec d ℝ)) (N : ℕ), 0 < N → (∀ f ∈ x, (G f).length = N) → ∀ k', k'.Perm k →
      fsktFrom impl o q depth pick tr side k' (x.map G) =
        .ok (s.kgrid, L.map (fun t : ℤ => (t : ℝ) * tr.timestep), fsRaw (fsOb tr q skip.toNat dg s (x.map G))) := by
    intro G N hN hG k' hk'
    exact (hrun impl (x.map G) N (by simpa using hx) hN (hmap G N hG) hm).2 depth k' s (by rw [kSetup_perm hk', hs]) a1 a2 a3 a4
  have hcmd : ∀ (G : List (S × Vec d ℝ) → List (Vec d ℝ)) (N : ℕ), 0 < N → (∀ f ∈ x, (G f).length = N) →
      fsktCommand impl o q depth pick tr side (x.map G) =
        .ok (s.kgrid, L.map (fun t : ℤ => (t : ℝ) * tr.timestep), fsRaw (fsOb tr q skip.toNat dg s (x.map G))) := by
    intro G N hN hG
    exact (hrun impl (x.map G) N (by simpa using hx) hN (hmap G N hG) hm).1
  have hall : ∀ f ∈ x, (f.map Prod.snd).length = sp.length := by
    intro f hf
    rw [← hsp f hf, List.length_map, List.length_map]
  have hcount : ∀ a, ∀ f ∈ x, (Spec.posOf a f).length = sp.count a := by
    intro a f hf
    rw [← hsp f hf]
    unfold Spec.posOf
    rw [List.length_map, ← List.countP_eq_length_filter, List.count, List.countP_map]
    refine List.countP_congr fun p _ => ?_
    simp
  have hpos : ∀ a ∈ ids, 0 < sp.count a := fun a ha => List.count_pos_iff.2 ((hids a).1 ha)
  have hT := hcmd (fun f => f.map Prod.snd) sp.length hspne hall
  have hF := hfrom (fun f => f.map Prod.snd) sp.length hspne hall k (List.Perm.refl k)
  have hlen : (fsRaw (fsOb tr q skip.toNat dg s (x.map fun f => f.map Prod.snd))).length = k.length := by
    unfold fsRaw
    rw [List.length_map]
    exact a5
  refine ⟨depth, s.kgrid, L.map fun t : ℤ => (t : ℝ) * tr.timestep, _, hT, hlen, ?_,
    fun hperm => ⟨fun a => fsRaw (fsOb tr q skip.toNat dg s (x.map (Spec.posOf a))), ?_, ?_, ?_⟩⟩
  · intro row hrow
    unfold fsRaw at hrow
    obtain ⟨kl, -, rfl⟩ := List.mem_map.1 hrow
    rw [hlags]
    simp
  · intro all
    have hseq : ∀ l : List S, (∀ a ∈ l, a ∈ ids) → ∀ k', k'.Perm k → fsktSequence (fun k a => fsktFrom impl o q depth pick tr side k
        (x.map (speciesPositions a))) k' l = .ok (l.map fun a => (a, L.map (fun t : ℤ => (t : ℝ) * tr.timestep),
          fsRaw (fsOb tr q skip.toNat dg s (x.map (Spec.posOf a)))), if l = [] then k' else s.kgrid) := by
      intro l hl
      induction l with
      | nil => intro k' _; rfl
      | cons a l ih =>
        intro k' hk'
        have e := hfrom (Spec.posOf a) (sp.count a) (hpos a (hl a (by simp))) (hcount a) k' hk'
        have e' : fsktFrom impl o q depth pick tr side k' (x.map (speciesPositions a)) = _ := e
        simp only [fsktSequence, e', bind, Except.bind, ih (fun b hb => hl b (by simp [hb])) s.kgrid hperm, ite_self]
        rfl
    have hne' : ids ≠ [] := by rintro rfl; simp at h2
    have hone : ids.length ≠ 1 := by omega
    unfold fsktWithPartials
    rw [h.klist.list]
    cases all with
    | true =>
      simp only [bind, Except.bind, hF, true_or, if_true, pure, Except.pure]
      rw [if_pos ⟨h2, trivial⟩, hseq ids (fun a ha => ha) s.kgrid hperm]
      simp only [ite_self, List.map_map]
      rfl
    | false =>
      simp only [bind, Except.bind, Bool.false_eq_true, hone, or_self, if_false, pure, Except.pure]
      rw [if_pos ⟨h2, trivial⟩, hseq ids (fun a ha => ha) k (List.Perm.refl k)]
      simp only [if_neg hne', List.map_map]
      rfl
  · intro a ha
    exact hcmd (Spec.posOf a) (sp.count a) (hpos a ha) (hcount a)
  · intro i hi j hj
    have hi' : i < s.kvectors.length := by omega
    have hj' : j < L.length := by simpa using hj
    have hraw : ∀ G : List (S × Vec d ℝ) → List (Vec d ℝ), ((fsRaw (fsOb tr q skip.toNat dg s (x.map G))).getD i []).getD j 0 =
        Spec.mean (selfList (fsOb tr q skip.toNat dg s (x.map G)) s.kvectors[i] L[j]) := by
      intro G
      have e : (fsRaw (fsOb tr q skip.toNat dg s (x.map G))).getD i [] =
          L.map fun δ => Spec.mean (selfList (fsOb tr q skip.toNat dg s (x.map G)) s.kvectors[i] δ) := by
        unfold fsRaw
        rw [hlags G, List.getD_eq_getElem _ _ (by rw [List.length_map]; exact hi'), List.getElem_map]
        rfl
      rw [e, List.getD_eq_getElem _ _ (by simpa using hj'), List.getElem_map]
    have hlist : ∀ G : List (S × Vec d ℝ) → List (Vec d ℝ), (selfList (fsOb tr q skip.toNat dg s (x.map G)) s.kvectors[i] L[j]).sum =
        (s.kvectors[i].map fun v => ((Spec.framePairs tr.steps skip.toNat dg x L[j]).map fun ab =>
          (Spec.selfTerms (kvecOf s v) (G ab.1) (G ab.2)).sum).sum).sum := by
      intro G
      unfold selfList
      rw [sum_flatMap_list]
      refine congrArg List.sum (List.map_congr_left fun v _ => ?_)
      show ((Spec.framePairs tr.steps skip.toNat dg (x.map G) L[j]).flatMap _).sum = _
      rw [framePairs_mapped _ _ _ _ _ hx.le, sum_flatMap_list, List.map_map]
      rfl
    set c : ℕ := s.kvectors[i].length * (pairsAt tr.steps (Spec.sampled tr.steps.length skip.toNat dg) L[j]).length with hc
    have hmean : ∀ (G : List (S × Vec d ℝ) → List (Vec d ℝ)) (N : ℕ), 0 < N → (∀ f ∈ x, (G f).length = N) →
        (N : ℝ) * Spec.mean (selfList (fsOb tr q skip.toNat dg s (x.map G)) s.kvectors[i] L[j]) = (selfList (fsOb tr q skip.toNat dg s (x.map G)) s.kvectors[i] L[j]).sum / c := by
      intro G N hN hG
      have hl := selfList_length (fsOb tr q skip.toNat dg s (x.map G)) (hreg G N hN hG) s.kvectors[i] L[j]
      have hl' : (selfList (fsOb tr q skip.toNat dg s (x.map G)) s.kvectors[i] L[j]).length = c * N := by
        rw [hl, hc]
        simp [fsOb, hx]
      unfold Spec.mean
      rw [hl']
      push_cast
      have : (N : ℝ) ≠ 0 := by exact_mod_cast hN.ne'
      rcases eq_or_ne (c : ℝ) 0 with h0 | h0
      · rw [h0]; simp
      · field_simp
    rw [hraw (fun f => f.map Prod.snd), hmean (fun f => f.map Prod.snd) sp.length hspne hall, hlist (fun f => f.map Prod.snd)]
    have e1 : ∀ a ∈ ids.toFinset, (sp.count a : ℝ) * ((fsRaw (fsOb tr q skip.toNat dg s (x.map (Spec.posOf a)))).getD i []).getD j 0 =
        (s.kvectors[i].map fun v => ((Spec.framePairs tr.steps skip.toNat dg x L[j]).map fun ab =>
          (Spec.selfTerms (kvecOf s v) (Spec.posOf a ab.1) (Spec.posOf a ab.2)).sum).sum).sum / c := by
      intro a ha
      rw [hraw (Spec.posOf a), hmean (Spec.posOf a) (sp.count a) (hpos a (List.mem_toFinset.1 ha)) (hcount a), hlist (Spec.posOf a)]
    rw [Finset.sum_congr rfl e1, ← Finset.sum_div, ← sum_map_finset]
    congr 2
    refine List.map_congr_left fun v _ => ?_
    rw [← sum_map_finset]
    refine congrArg List.sum (List.map_congr_left fun ab hab => ?_)
    obtain ⟨m1, m2⟩ := framePairs_mem hx.le hab
    refine selfTerms_species _ ids _ _ ((hsp _ m1).trans (hsp _ m2).symm) fun p hp => ?_
    refine (hids _).2 ?_
    rw [← hsp _ m1]
    exact List.mem_map_of_mem hp

end

/-- The wave-numbers found, if all the wave-vectors around those requested have exactly these norms. -/
theorem kgrid_exact {o : TimeOptions} {q : KOptions} {tr : Traj ℝ} {side : Vec d ℝ} {k' : List ℝ} {skip : ℤ}
    (h : ScatteringInput o q tr side k' skip) (hD : Distinct q side k')
    (hex : ∀ y ∈ k', ∀ v : Fin d → ℤ, |√(∑ c, (2 * Real.pi / side c * v c) ^ 2) - y| < q.dk → √(∑ c, (2 * Real.pi / side c * v c) ^ 2) = y)
    {pick : ℕ → List (KVec d) → ℕ → List (KVec d)} (hpick : IsSample pick) {depth : ℕ} {s' : KState d ℝ}
    (hs : kSetup Real.sqrt Real.pi depth pick q.params side (some k') = .ok s') : s'.kgrid = pySorted k' := by
  have hperm : (pySorted k').Perm k' := List.perm_insertionSort _ _
  have hsort : pySorted k' ≠ [] := by
    intro e
    rw [e] at hperm
    exact h.k_ne (List.nil_perm.1 hperm)
  have hreq : initialGrid q.params (smallestK Real.pi side) (some k') = .ok (pySorted k') := by
    unfold initialGrid
    cases hs' : pySorted k' with
    | nil => exact absurd hs' hsort
    | cons a r =>
      have : 0 ≤ a := h.k_nonneg a (hperm.subset (by rw [hs']; simp))
      simp only [hs', if_neg (not_lt.2 this)]
  have hnn : ∀ i < (pySorted k').length, 0 ≤ (pySorted k').getD i 0 := by
    intro i hi
    rw [List.getD_eq_getElem _ _ hi]
    exact h.k_nonneg _ (hperm.subset (List.getElem_mem _))
  obtain ⟨hk0, hl1, hl2, dk, -, hsel⟩ := setup_selection hpick (p := q.params) h.nk (le_of_lt h.dk) h.side_pos hs hreq hnn
  apply List.ext_getElem hl1
  intro i hi hi'
  obtain ⟨-, b1, -, -, -, b4, -⟩ := hsel i hi'
  have hn := setup_near hpick (p := q.params) h.dk h.side_pos (fun y hy => h.k_nonneg y (hperm.subset hy)) hD.apart
    (fun y hy => hD.around y (hperm.subset hy)) hreq hs (i := i) hi' h.nk
  rw [← List.getD_eq_getElem _ 0 hi, ← List.getD_eq_getElem _ 0 hi', b4]
  have hw : ∀ w ∈ s'.kvectors.getD i [], Spec.knorm s'.k0 (fun c => w c - s'.koffset) = (pySorted k').getD i 0 := by
    intro w hw
    have h1 := hn w hw
    have hkn : s'.k0 = fun c => 2 * Real.pi / side c := funext hk0
    have e : Spec.knorm s'.k0 (fun c => w c - s'.koffset) = √(∑ c, (2 * Real.pi / side c * ((w c - s'.koffset : ℤ) : ℝ)) ^ 2) := by
      rw [hkn]; rfl
    rw [e] at h1 ⊢
    exact hex _ (hperm.subset (getD_mem hi')) _ h1
  rw [List.map_congr_left hw, List.map_const', List.sum_replicate, nsmul_eq_mul]
  have : ((s'.kvectors.getD i []).length : ℝ) ≠ 0 := by
    have := List.length_pos_iff.2 b1
    exact_mod_cast this.ne'
  field_simp

/-- **C228**, when the condition above is met: there are wave-vectors of the cell with the wave-numbers requested, and no others whose
norm is within `dk` of one of them. -/
theorem C228_exact_partial (impl : Impl) {o : TimeOptions} {q : KOptions} {tr : Traj ℝ} {side : Vec d ℝ} {k : List ℝ} {skip : ℤ}
    (h : ScatteringInput o q tr side k skip) (hD : Distinct q side k)
    (hex : ∀ y ∈ k, ∀ v : Fin d → ℤ, |√(∑ c, (2 * Real.pi / side c * v c) ^ 2) - y| < q.dk → √(∑ c, (2 * Real.pi / side c * v c) ^ 2) = y)
    {pick : ℕ → List (KVec d) → ℕ → List (KVec d)} (hpick : IsSample pick) {depth : ℕ} {x : List (List (Vec d ℝ))} {ks ts : List ℝ}
    {vs : List (List ℝ)} (hc : fsktCommand impl o q depth pick tr side x = .ok (ks, ts, vs)) :
    ks = pySorted k := by
  unfold fsktCommand at hc
  obtain ⟨⟨skip', dg, s⟩, e, hc⟩ := bind_ok_iff.1 hc
  have hks : ks = s.kgrid := by
    cases impl with
    | legacy =>
      obtain ⟨r, -, hc⟩ := bind_ok_iff.1 hc
      exact (Prod.ext_iff.1 (Except.ok.inj hc)).1.symm
    | fast =>
      obtain ⟨r, -, hc⟩ := bind_ok_iff.1 hc
      exact (Prod.ext_iff.1 (Except.ok.inj hc)).1.symm
  subst hks
  unfold scatteringSetup at e
  obtain ⟨f, hf, e⟩ := bind_ok_iff.1 e
  obtain ⟨g, hg, e⟩ := bind_ok_iff.1 e
  obtain ⟨k', hk, e⟩ := bind_ok_iff.1 e
  obtain ⟨skip', hskip, e⟩ := bind_ok_iff.1 e
  obtain ⟨dg', hdg, e⟩ := bind_ok_iff.1 e
  obtain ⟨s', hs, e⟩ := bind_ok_iff.1 e
  have e := Except.ok.inj e
  obtain ⟨-, e2⟩ := Prod.ext_iff.1 e
  obtain ⟨-, e4⟩ := Prod.ext_iff.1 e2
  simp only at e4
  subst e4
  have hkk : k' = k := by rw [h.klist.list] at hk; exact (Except.ok.inj hk).symm
  subst hkk
  exact kgrid_exact h hD hex hpick hs

/-- **C228**, systems of one species and the option `no_partial`: the command gives the function of the whole system only, the one of
`fsktCommand`; with one species it does not depend on the options `total` and `no_partial`. -/
theorem C228_total_partial {S : Type} [DecidableEq S] (impl : Impl) {o : TimeOptions} {q : KOptions} {tr : Traj ℝ} {side : Vec d ℝ}
    {k : List ℝ} {skip : ℤ} (h : ScatteringInput o q tr side k skip) (hm : impl = .fast → q.lookupMb ≠ 0)
    (pick : ℕ → List (KVec d) → ℕ → List (KVec d)) (hpick : IsSample pick)
    (x : List (List (S × Vec d ℝ))) (hx : x.length = tr.steps.length) {N : ℕ} (hN : 0 < N) (hxN : ∀ f ∈ x, f.length = N) :
    ∃ depth ks ts total, fsktCommand impl o q depth pick tr side (x.map fun f => f.map Prod.snd) = .ok (ks, ts, total) ∧
      (∀ (a : S) (all noPartial : Bool), fsktWithPartials impl o q all noPartial depth pick tr side [a] x = .ok (some (ks, ts, total), [])) ∧
      ∀ ids : List S, fsktWithPartials impl o q true true depth pick tr side ids x = .ok (some (ks, ts, total), []) := by
  obtain ⟨depth, dg, s, -, -, -, a1, a2, a3, a4, -, hs, hrun⟩ := fskt_common h pick hpick
  obtain ⟨h1, h2⟩ := hrun impl (x.map fun f => f.map Prod.snd) N (by rw [List.length_map, hx]) hN (by
    intro f hf
    obtain ⟨f', hf', rfl⟩ := List.mem_map.1 hf
    rw [List.length_map, hxN f' hf']) hm
  have h3 := h2 depth k s hs a1 a2 a3 a4
  refine ⟨depth, _, _, _, h1, fun a all noPartial => ?_, fun ids => ?_⟩
  · unfold fsktWithPartials
    rw [h.klist.list]
    simp only [bind, Except.bind, pure, Except.pure, List.length_cons, List.length_nil]
    rw [if_pos (Or.inr (by norm_num))]
    simp only [h3]
    rw [if_neg (by norm_num)]
  · unfold fsktWithPartials
    rw [h.klist.list]
    simp only [bind, Except.bind, pure, Except.pure]
    rw [if_pos (Or.inl trivial)]
    simp only [h3]
    rw [if_neg (by simp)]

/-- The ten frames of the example below, with the option `no_partial`. -/
example (impl : Impl) (x : List (List (Char × Vec 2 ℝ))) (hx : x.length = 10) (hn : ∀ f ∈ x, f.length = 5) :
    ∃ depth r, fsktWithPartials impl exTOpt exKOpt true true depth (fun _ l n => l.take n) exTTraj exKSide ['A', 'B'] x = .ok (some r, []) := by
  obtain ⟨depth, ks, ts, total, -, -, h⟩ := C228_total_partial impl exScattering (fun _ => by norm_num [exKOpt]) _ isSample_take x
    (by rw [hx]; rfl) (by norm_num : 0 < 5) hn
  exact ⟨depth, _, h _⟩

/-- In a square cell of side 2π the wave-vectors within 1/10 of 1 and 2 have exactly these norms. -/
theorem exExact : ∀ y ∈ ([2, 1] : List ℝ), ∀ v : Fin 2 → ℤ,
    |√(∑ c, (2 * Real.pi / exKSide c * v c) ^ 2) - y| < exKOpt.dk → √(∑ c, (2 * Real.pi / exKSide c * v c) ^ 2) = y := by
  intro y hy v hv
  have hpi := Real.pi_pos
  have e : (∑ c, (2 * Real.pi / exKSide c * (v c : ℝ)) ^ 2) = ((v 0 ^ 2 + v 1 ^ 2 : ℤ) : ℝ) := by
    have h : ∀ c, 2 * Real.pi / exKSide c = 1 := by
      intro c
      fin_cases c <;> exact div_self (by positivity)
    simp only [h, Fin.sum_univ_two]
    push_cast
    ring
  rw [e] at hv ⊢
  generalize v 0 ^ 2 + v 1 ^ 2 = n at hv ⊢
  have hdk : exKOpt.dk = 1 / 10 := rfl
  rw [hdk, abs_lt] at hv
  have hn : 0 ≤ (n : ℝ) := by
    by_contra hneg
    rw [Real.sqrt_eq_zero_of_nonpos (le_of_lt (not_le.1 hneg))] at hv
    simp only [List.mem_cons, List.not_mem_nil, or_false] at hy
    rcases hy with rfl | rfl <;> norm_num at hv
  have hsq := Real.sq_sqrt hn
  simp only [List.mem_cons, List.not_mem_nil, or_false] at hy
  rcases hy with rfl | rfl
  · have h1 : (3 : ℝ) < n := by nlinarith
    have h2 : (n : ℝ) < 5 := by nlinarith
    have h1' : (3 : ℤ) < n := by exact_mod_cast h1
    have h2' : n < (5 : ℤ) := by exact_mod_cast h2
    have : n = 4 := by omega
    subst this
    rw [show ((4 : ℤ) : ℝ) = 2 ^ 2 by norm_num]
    exact Real.sqrt_sq (by norm_num)
  · have h1 : (0 : ℝ) < n := by nlinarith
    have h2 : (n : ℝ) < 2 := by nlinarith
    have h1' : (0 : ℤ) < n := by exact_mod_cast h1
    have h2' : n < (2 : ℤ) := by exact_mod_cast h2
    have : n = 1 := by omega
    subst this
    norm_num

/-- Ten frames of five particles of two species, the wave-numbers 2 and 1 of a square cell of side 2π: both implementations give the
functions at 1 and 2, and five times the total is twice the function of A plus three times that of B. -/
example (impl : Impl) (x : List (List (Char × Vec 2 ℝ))) (hx : x.length = 10) (hsp : ∀ f ∈ x, f.map Prod.fst = ['A', 'B', 'B', 'A', 'B']) :
    ∃ depth ts total pa pb, fsktWithPartials impl exTOpt exKOpt true false depth (fun _ l n => l.take n) exTTraj exKSide ['A', 'B'] x =
        .ok (some ([1, 2], ts, total), [('A', [1, 2], ts, pa), ('B', [1, 2], ts, pb)]) ∧
      ∀ i < 2, ∀ j < ts.length,
        5 * (total.getD i []).getD j 0 = 2 * (pa.getD i []).getD j 0 + 3 * (pb.getD i []).getD j 0 := by
  obtain ⟨depth, ks, ts, total, h1, -, -, h2⟩ := C228_sum_partial impl exScattering (fun _ => by norm_num [exKOpt]) _ isSample_take x
    (by rw [hx]; rfl) _ hsp ['A', 'B'] (by intro a; simp; tauto) (by simp)
  have hk := C228_exact_partial impl exScattering exDistinct exExact isSample_take h1
  have hsort : pySorted [2, (1 : ℝ)] = [1, 2] := by
    unfold pySorted
    norm_num [List.insertionSort, List.orderedInsert]
  obtain ⟨part, h3, -, h4⟩ := h2 (by rw [hk]; exact List.perm_insertionSort _ _)
  rw [hk, hsort] at h3
  refine ⟨depth, ts, total, part 'A', part 'B', h3 true, fun i hi j hj => ?_⟩
  have h5 := h4 i hi j hj
  rw [show (['A', 'B'] : List Char).toFinset = {'A', 'B'} from rfl, Finset.sum_pair (by decide)] at h5
  rw [show (['A', 'B', 'B', 'A', 'B'] : List Char).count 'A' = 2 by decide, show (['A', 'B', 'B', 'A', 'B'] : List Char).count 'B' = 3 by decide] at h5
  exact_mod_cast h5

/-! ### Wave-numbers near those of the wave-vectors -/

/-- Options of the case below: the wave-number 4, at most 8 wave-vectors. -/
noncomputable def kOpt34 : KOptions := ⟨-1, -1, 20, some ['4'], 6 / 5, 8, 64⟩

/-- Times of the case below: linear, up to 3. -/
noncomputable def tOpt34 : TimeOptions := ⟨3, -1, 2, "linear".toList, .none, -1, false⟩

/-- Two frames. -/
noncomputable def traj34 : Traj ℝ := ⟨[0, 3], 1, 1, 3, [2]⟩

/-- Two particles that move by half a cell. -/
noncomputable def frames34 : List (List (Char × Vec 2 ℝ)) :=
  [[('A', ![0, 0]), ('B', ![0, 0])], [('A', ![Real.pi / 3, 0]), ('B', ![Real.pi / 3, 0])]]

theorem exScattering34 : ScatteringInput tOpt34 kOpt34 traj34 cell34 [4] 1 := by
  refine ⟨Or.inl rfl, by decide +kernel, by norm_num [tOpt34], Or.inl (by norm_num [tOpt34]), by decide +kernel, by simp [traj34],
    by norm_num [traj34], by norm_num [traj34], by norm_num [traj34], by decide +kernel, cell34_pos, by norm_num [kOpt34],
    by norm_num [kOpt34], ?_, by simp, by simp⟩
  exact ⟨[['4']], [4], by simp, by decide +kernel, by decide +kernel, .cons (by decide +kernel) .nil, by simp⟩

/-- The time between the two frames is used. -/
theorem lag34 {dg : List (ℕ × ℕ)}
    (htimes : ∀ lags : List ℤ, lags.Pairwise (· < ·) →
      (∀ δ, δ ∈ lags ↔ Spec.Sampled traj34.steps (1 : ℤ).toNat dg traj34.steps.length δ) →
      ∀ row : List ℝ, row.length = lags.length →
        Spec.TimesUpTo traj34.steps traj34.timestep (max traj34.timestep (if 0 < tOpt34.tmax then tOpt34.tmax else tOpt34.fraction * traj34.totalTime))
          (lags.map fun δ : ℤ => (δ : ℝ) * traj34.timestep, row)) :
    3 ∈ lagList traj34.steps (Spec.sampled traj34.steps.length (1 : ℤ).toNat dg) := by
  have ht := htimes _ (lagList_sorted traj34.steps (Spec.sampled traj34.steps.length (1 : ℤ).toNat dg)) (fun δ => mem_lagList)
    ((lagList traj34.steps (Spec.sampled traj34.steps.length (1 : ℤ).toNat dg)).map fun _ => 0) (by simp)
  obtain ⟨-, -, -, t1, t, ht, hnear⟩ := ht
  obtain ⟨δ, hδ, rfl⟩ := List.mem_map.1 ht
  obtain ⟨p, hp, he⟩ := mem_lagList.1 hδ
  have hlt : p.1 + p.2 < 2 := sampled_lt hp
  have hn := hnear 0 3 rfl (by simp [traj34])
  have hM : max traj34.timestep (if 0 < tOpt34.tmax then tOpt34.tmax else tOpt34.fraction * traj34.totalTime) = 3 := by
    norm_num [traj34, tOpt34]
  rw [hM] at hn
  have hdt : traj34.timestep = 1 := rfl
  rw [hdt] at hn
  have hd : stepDiff [0, 3] p = δ := he
  obtain ⟨p1, p2⟩ := p
  simp only at hlt
  have h1 : p1 ≤ 1 := by omega
  have h2 : p2 ≤ 1 := by omega
  interval_cases p1 <;> interval_cases p2 <;> simp [stepDiff] at hd hlt
  · rw [← hd] at hn
    norm_num at hn
  · rw [hd]; exact hδ
  · rw [← hd] at hn
    norm_num at hn

theorem mean_repeated {Y : Type} (l : List Y) (c : Y → ℝ) {m : ℕ} (hm : 0 < m) :
    Spec.mean (l.flatMap fun v => List.replicate m (c v)) = Spec.mean (l.map c) := by
  unfold Spec.mean
  have h1 : (l.flatMap fun v => List.replicate m (c v)).sum = m * (l.map c).sum := by
    induction l with
    | nil => simp
    | cons a l ih => simp only [List.flatMap_cons, List.sum_append, ih, List.sum_replicate, nsmul_eq_mul, List.map_cons, List.sum_cons]; ring
  have h2 : (l.flatMap fun v => List.replicate m (c v)).length = m * l.length := by
    rw [length_flatMap_const l _ m (by simp), mul_comm]
  rw [h1, h2, List.length_map]
  push_cast
  exact mul_div_mul_left _ _ (by exact_mod_cast hm.ne')

/-- The pairs of frames at this time. -/
theorem pairs34 {Y : Type} {skip : ℕ} {dg : List (ℕ × ℕ)} (h3 : 3 ∈ lagList traj34.steps (Spec.sampled traj34.steps.length skip dg)) (y0 y1 : Y) :
    ∃ m, 0 < m ∧ Spec.framePairs traj34.steps skip dg [y0, y1] 3 = List.replicate m (y1, y0) := by
  refine ⟨(pairsAt traj34.steps (Spec.sampled 2 skip dg) 3).length, ?_, ?_⟩
  · obtain ⟨p, hp, he⟩ := mem_lagList.1 h3
    exact List.length_pos_of_mem (List.mem_filter.2 ⟨hp, decide_eq_true he⟩)
  · rw [framePairs_eq _ _ _ [y0, y1] (by simp [traj34]) y0, List.eq_replicate_iff]
    refine ⟨by rw [List.length_map]; rfl, fun b hb => ?_⟩
    obtain ⟨p, hp, rfl⟩ := List.mem_map.1 hb
    obtain ⟨hp1, hp2⟩ := List.mem_filter.1 hp
    have hlt : p.1 + p.2 < 2 := sampled_lt hp1
    have hd : stepDiff [0, 3] p = 3 := of_decide_eq_true hp2
    obtain ⟨p1, p2⟩ := p
    simp only at hlt
    have : p1 = 0 ∧ p2 = 1 := by
      have h1 : p1 ≤ 1 := by omega
      have h2 : p2 ≤ 1 := by omega
      interval_cases p1 <;> interval_cases p2 <;> simp [stepDiff] at hd hlt ⊢
    obtain ⟨rfl, rfl⟩ := this
    rfl

/-- The function of particles that move together, at the time between the two frames. -/
theorem self34 {skip : ℕ} {dg : List (ℕ × ℕ)} (s : KState 2 ℝ) {N : ℕ} (hN : 0 < N)
    (h3 : 3 ∈ lagList traj34.steps (Spec.sampled traj34.steps.length skip dg)) (kl : List (KVec 2)) :
    Spec.mean (selfList (fsOb traj34 kOpt34 skip dg s [List.replicate N ![0, 0], List.replicate N ![Real.pi / 3, 0]]) kl 3) =
      Spec.mean (kl.map fun v => Real.cos (Spec.dot (kvecOf s v) ![Real.pi / 3, 0])) := by
  set y : List (List (Vec 2 ℝ)) := [List.replicate N ![0, 0], List.replicate N ![Real.pi / 3, 0]] with hy
  obtain ⟨m, hm, hpairs⟩ := pairs34 h3 (List.replicate N (![0, 0] : Vec 2 ℝ)) (List.replicate N ![Real.pi / 3, 0])
  rw [← hy] at hpairs
  have e : selfList (fsOb traj34 kOpt34 skip dg s y) kl 3 =
      kl.flatMap fun v => List.replicate (m * N) (Real.cos (Spec.dot (kvecOf s v) ![Real.pi / 3, 0])) := by
    unfold selfList
    refine List.flatMap_congr fun v _ => ?_
    show (Spec.framePairs traj34.steps skip dg y 3).flatMap (fun ab => Spec.selfTerms (kvecOf s v) ab.1 ab.2) = _
    rw [hpairs]
    have et : Spec.selfTerms (kvecOf s v) (List.replicate N ![Real.pi / 3, 0]) (List.replicate N ![0, 0]) =
        List.replicate N (Real.cos (Spec.dot (kvecOf s v) ![Real.pi / 3, 0])) := by
      unfold Spec.selfTerms
      rw [List.zipWith_replicate, min_self]
      congr 2
      congr 1
      funext c
      fin_cases c <;> simp
    rw [List.flatMap_replicate]
    simp only [et]
    rw [List.flatten_replicate_replicate]
  rw [e]
  exact mean_repeated kl _ (Nat.mul_pos hm hN)

theorem cos34 (v : Fin 2 → ℤ) : Real.cos (Spec.dot ![3 * (v 0 : ℝ), 4 * (v 1 : ℝ)] ![Real.pi / 3, 0]) = (-1) ^ v 0 := by
  have e : Spec.dot ![3 * (v 0 : ℝ), 4 * (v 1 : ℝ)] ![Real.pi / 3, 0] = v 0 * Real.pi := by
    simp [Spec.dot, Fin.sum_univ_two]
    ring
  rw [e, Real.cos_int_mul_pi]

/-- The wave-vectors of the objects, in their order. -/
theorem setups34 {pick : ℕ → List (KVec 2) → ℕ → List (KVec 2)} (hpick : IsSample pick) (depth : ℕ) :
    ∀ e ∈ [((4 : ℝ), (17 / 4 : ℝ), ring345), (17 / 4, 14 / 3, ring345.drop 2), (14 / 3, 14 / 3, ring345.drop 2)],
      ∃ s, SkSetup opt34 (depth + 1) pick cell34 (some [e.1]) s 1 ∧ s.kgrid = [e.2.1] ∧
        ∀ g : (Fin 2 → ℝ) → ℝ, Spec.mean (((kvectorsGet s).getD 0 []).map g) =
          (e.2.2.map fun v => g ![3 * v 0, 4 * v 1]).sum / e.2.2.length := by
  have hs : √(9 : ℝ) = 3 := by rw [show (9 : ℝ) = 3 ^ 2 by norm_num]; exact Real.sqrt_sq (by norm_num)
  have hs' : √(16 : ℝ) = 4 := by rw [show (16 : ℝ) = 4 ^ 2 by norm_num]; exact Real.sqrt_sq (by norm_num)
  have hs'' : √(25 : ℝ) = 5 := by rw [show (25 : ℝ) = 5 ^ 2 by norm_num]; exact Real.sqrt_sq (by norm_num)
  have hm6 : ((ring345.drop 2).map (Spec.knorm ![3, 4])).sum / ((ring345.drop 2).length : ℝ) = 14 / 3 := by
    simp only [ring345, List.drop_succ_cons, List.drop_zero, List.map_cons, List.map_nil, knorm34]
    norm_num [hs', hs'']
  obtain ⟨s0, S0, g0, M0⟩ := setup34 hpick depth (x := 4) (by norm_num) (L := ring345) (by decide) (by simp [ring345])
    (by decide) mem_ring345 (m := 17 / 4) (by
      simp only [ring345, List.map_cons, List.map_nil, knorm34]
      norm_num [hs, hs', hs''])
  obtain ⟨s1, S1, g1, M1⟩ := setup34 hpick depth (x := 17 / 4) (by norm_num) (L := ring345.drop 2) (by decide) (by simp [ring345])
    (by decide) (mem_ring45 (by norm_num)) hm6
  obtain ⟨s2, S2, g2, M2⟩ := setup34 hpick depth (x := 14 / 3) (by norm_num) (L := ring345.drop 2) (by decide) (by simp [ring345])
    (by decide) (mem_ring45 (by norm_num)) hm6
  intro e he
  simp only [List.mem_cons, List.not_mem_nil, or_false] at he
  rcases he with rfl | rfl | rfl
  · exact ⟨s0, S0, g0, M0⟩
  · exact ⟨s1, S1, g1, M1⟩
  · exact ⟨s2, S2, g2, M2⟩

/-- **C228** is false if the norms of the wave-vectors used are not the wave-number requested: each object replaces the list of
wave-numbers with the mean norms that it finds, and the next one looks for wave-vectors around these. For two particles that move
together, in both implementations and whatever the random draws, the function of the whole system is -1/2 and those of both species
are -1/3, and they are given at other wave-numbers. Without the option `total` the functions of the two species, which move in the same
way, are -1/2 and -1/3 and are given at the same wave-number, which is not the one at which the first was calculated. -/
theorem C228_counterexample (impl : Impl) {pick : ℕ → List (KVec 2) → ℕ → List (KVec 2)} (hpick : IsSample pick) (depth : ℕ) :
    ∃ ts total a b a' b', fsktWithPartials impl tOpt34 kOpt34 true false (depth + 1) pick traj34 cell34 ['A', 'B'] frames34 =
        .ok (some ([17 / 4], ts, [total]), [('A', [14 / 3], ts, [a]), ('B', [14 / 3], ts, [b])]) ∧
      fsktWithPartials impl tOpt34 kOpt34 false false (depth + 1) pick traj34 cell34 ['A', 'B'] frames34 =
        .ok (none, [('A', [14 / 3], ts, [a']), ('B', [14 / 3], ts, [b'])]) ∧
      ∃ j, ts.getD j 0 = 3 ∧ total.getD j 0 = -1 / 2 ∧ a.getD j 0 = -1 / 3 ∧ b.getD j 0 = -1 / 3 ∧
        a'.getD j 0 = -1 / 2 ∧ b'.getD j 0 = -1 / 3 := by
  obtain ⟨s0, S0, g0, M0⟩ := setups34 hpick depth (4, 17 / 4, ring345) (by simp)
  obtain ⟨s1, S1, g1, M1⟩ := setups34 hpick depth (17 / 4, 14 / 3, ring345.drop 2) (by simp)
  obtain ⟨s2, S2, g2, M2⟩ := setups34 hpick depth (14 / 3, 14 / 3, ring345.drop 2) (by simp)
  obtain ⟨depth0, dg, z0, -, -, htimes, -, -, -, -, -, -, hrun⟩ := fskt_common exScattering34 pick hpick
  have h3 : 3 ∈ lagList traj34.steps (Spec.sampled traj34.steps.length (1 : ℤ).toNat dg) := lag34 htimes
  generalize hL : lagList traj34.steps (Spec.sampled traj34.steps.length (1 : ℤ).toNat dg) = L at hrun h3
  have hfrom : ∀ (N : ℕ) (y : List (List (Vec 2 ℝ))), 0 < N → y = [List.replicate N ![0, 0], List.replicate N ![Real.pi / 3, 0]] →
      ∀ {k : ℝ} {s : KState 2 ℝ}, SkSetup opt34 (depth + 1) pick cell34 (some [k]) s 1 →
      ∃ v, fsktFrom impl tOpt34 kOpt34 (depth + 1) pick traj34 cell34 [k] y =
          .ok (s.kgrid, L.map (fun t : ℤ => (t : ℝ) * traj34.timestep), [v]) ∧
        v.getD (L.idxOf 3) 0 = Spec.mean (((kvectorsGet s).getD 0 []).map fun w => Real.cos (Spec.dot w ![Real.pi / 3, 0])) := by
    intro N y hN hy k s hS
    have hk1 : s.kvectors.length = 1 := hS.shells.1
    obtain ⟨kl, hkl⟩ := List.length_eq_one_iff.1 hk1
    have hr := (hrun impl y N (by rw [hy]; rfl) hN (by rw [hy]; simp) (fun _ => by norm_num [kOpt34])).2 (depth + 1) [k] s hS.setup
      hS.allowed (by rw [hS.len, hk1]) (by rw [hkl]; simp) hS.shells.2
    have hraw : fsRaw (fsOb traj34 kOpt34 (1 : ℤ).toNat dg s y) =
        [L.map fun δ => Spec.mean (selfList (fsOb traj34 kOpt34 (1 : ℤ).toNat dg s y) kl δ)] := by
      have e1 : fsLags (fsOb traj34 kOpt34 (1 : ℤ).toNat dg s y) = L := by
        rw [← hL]
        unfold fsLags fsOb
        simp only [hy]
        rfl
      unfold fsRaw
      rw [e1, show (fsOb traj34 kOpt34 (1 : ℤ).toNat dg s y).ks = s from rfl, hkl]
      rfl
    rw [hraw] at hr
    refine ⟨_, hr, ?_⟩
    have hi : L.idxOf 3 < L.length := List.idxOf_lt_length_of_mem h3
    rw [List.getD_eq_getElem _ _ (by simpa using hi), List.getElem_map, List.getElem_idxOf hi, hy,
      self34 s hN (by rw [hL]; exact h3) kl]
    unfold kvectorsGet
    rw [hkl]
    simp only [List.map_cons, List.map_nil, List.getD_cons_zero, List.map_map]
    rfl
  obtain ⟨vt, t1, t2⟩ := hfrom 2 (frames34.map fun f => f.map Prod.snd) (by norm_num) rfl S0
  obtain ⟨va, a1, a2⟩ := hfrom 1 (frames34.map (speciesPositions 'A')) (by norm_num) (by simp [frames34, speciesPositions]) S1
  obtain ⟨va', a1', a2'⟩ := hfrom 1 (frames34.map (speciesPositions 'A')) (by norm_num) (by simp [frames34, speciesPositions]) S0
  obtain ⟨vb', b1', b2'⟩ := hfrom 1 (frames34.map (speciesPositions 'B')) (by norm_num) (by simp [frames34, speciesPositions]) S1
  obtain ⟨vb, b1, b2⟩ := hfrom 1 (frames34.map (speciesPositions 'B')) (by norm_num) (by simp [frames34, speciesPositions]) S2
  rw [g0] at t1
  rw [g1] at a1
  rw [g2] at b1
  rw [g0] at a1'
  rw [g1] at b1'
  rw [M0] at a2'
  rw [M1] at b2'
  rw [M0] at t2
  rw [M1] at a2
  rw [M2] at b2
  simp only [cos34, ring345, List.drop_succ_cons, List.drop_zero, List.map_cons, List.map_nil] at t2 a2 b2 a2' b2'
  refine ⟨L.map (fun t : ℤ => (t : ℝ) * traj34.timestep), vt, va, vb, va', vb', ?_, ?_, L.idxOf 3, ?_, ?_, ?_, ?_, ?_, ?_⟩
  · unfold fsktWithPartials
    rw [exScattering34.klist.list]
    simp only [bind, Except.bind, t1, true_or, if_true, pure, Except.pure, List.length_cons, List.length_nil]
    rw [if_pos ⟨by norm_num, trivial⟩]
    simp only [fsktSequence, a1, b1, bind, Except.bind, pure, Except.pure, List.map_cons, List.map_nil]
  · unfold fsktWithPartials
    rw [exScattering34.klist.list]
    simp only [bind, Except.bind, pure, Except.pure, List.length_cons, List.length_nil]
    rw [if_neg (by norm_num)]
    rw [if_pos ⟨by norm_num, trivial⟩]
    simp only [fsktSequence, a1', b1', bind, Except.bind, pure, Except.pure, List.map_cons, List.map_nil]
  · have hi : L.idxOf 3 < L.length := List.idxOf_lt_length_of_mem h3
    rw [List.getD_eq_getElem _ _ (by simpa using hi), List.getElem_map, List.getElem_idxOf hi]
    norm_num [traj34]
  · rw [t2]; norm_num
  · rw [a2]; norm_num
  · rw [b2]; norm_num
  · rw [a2']; norm_num
  · rw [b2']; norm_num

end PP.Props
