import Verif.Model.GrAgain
import Verif.Props.GrCells
import Verif.Lemmas.Fold

/-!
# C100, C101: g(r) computed again, and on a short grid
-/

set_option linter.unusedSectionVars false

namespace PP.Props
open PP Classical

section
variable {K : Type} [Field K] [LinearOrder K] [IsStrictOrderedRing K] [FloorRing K] {d : ℕ}

theorem filter_range_prefix (n : ℕ) (p : ℕ → Bool) (h : ∀ i j, i ≤ j → p j = true → p i = true) :
    ∃ m ≤ n, (List.range n).filter p = List.range m ∧ ∀ j < n, (j < m ↔ p j = true) := by
  induction n with
  | zero => exact ⟨0, le_refl _, rfl, by simp⟩
  | succ n ih =>
    obtain ⟨m, hm, e, hp⟩ := ih
    by_cases hn : p n = true
    · refine ⟨n + 1, le_refl _, ?_, ?_⟩
      · rw [List.filter_eq_self]
        intro a ha
        rw [List.mem_range] at ha
        exact h a n (by omega) hn
      · intro j hj
        exact ⟨fun _ => h j n (by omega) hn, fun _ => hj⟩
    · refine ⟨m, by omega, ?_, ?_⟩
      · rw [List.range_succ, List.filter_append, e]
        simp [hn]
      · intro j hj
        by_cases hjn : j = n
        · subst hjn
          exact ⟨fun h' => by omega, fun h' => absurd h' hn⟩
        · exact hp j (by omega)

theorem setupGrid_again (sq : K → K) (o : GrObj d K) (side : Vec d K) (t : List (K × Option K)) (ht : t ≠ []) :
    grSetupGrid sq (o.again t) side = .ok (t.map Prod.fst) := by
  unfold grSetupGrid GrObj.again
  simp only [bind, Except.bind, pure, Except.pure]
  rw [if_neg (by simpa using ht)]

/-- A table on the first points of the default grid, cut at a distance. -/
theorem crop_table {w : K} (hw : 0 < w) (m : K) (n : ℕ) (v : ℕ → Option K) :
    ∃ l ≤ n, ((List.range n).map fun j : ℕ => (((j : K) + 1 / 2) * w, v j)).filter (fun p => p.1 ≤ m)
        = (List.range l).map (fun j : ℕ => (((j : K) + 1 / 2) * w, v j)) ∧
      ∀ j < n, (j < l ↔ ((j : K) + 1 / 2) * w ≤ m) := by
  obtain ⟨l, hl, e, hp⟩ := filter_range_prefix n (fun j : ℕ => decide (((j : K) + 1 / 2) * w ≤ m)) (by
    intro i j hij hj
    rw [decide_eq_true_eq] at hj ⊢
    have : (i : K) ≤ j := by exact_mod_cast hij
    nlinarith)
  refine ⟨l, hl, ?_, fun j hj => by rw [hp j hj, decide_eq_true_eq]⟩
  rw [List.filter_map, ← e]
  rfl

theorem table_grid {w : K} (l : ℕ) (v : ℕ → Option K) :
    ((List.range l).map fun j : ℕ => (((j : K) + 1 / 2) * w, v j)).map Prod.fst = defaultGrid w l := by
  unfold defaultGrid
  rw [List.map_map]
  apply List.map_congr_left
  intro j _
  simp only [Function.comp_apply]
  ring

theorem table_all {w : K} (m : K) (l n : ℕ) (hl : n ≤ l) (v : ℕ → Option K)
    (h : ∀ j < l, ((j : K) + 1 / 2) * w ≤ m) :
    ((List.range n).map fun j : ℕ => (((j : K) + 1 / 2) * w, v j)).filter (fun p => p.1 ≤ m)
      = (List.range n).map fun j : ℕ => (((j : K) + 1 / 2) * w, v j) := by
  rw [List.filter_eq_self]
  intro a ha
  rw [List.mem_map] at ha
  obtain ⟨j, hj, rfl⟩ := ha
  rw [List.mem_range] at hj
  simpa using h j (by omega)

/-- **C100.** Each further call of `compute` on the same fast radial distribution function loses the last point of
the table, until a single point is left, after which it raises `IndexError`. -/
theorem C100_counterexample_fast (sq : K → K) (hsq : ∀ x, 0 ≤ sq x) {pi : K} (hpi : 0 < pi) (huge : K)
    (o : GrObj d K) {w : K} {n0 n1 : ℕ} {f0 : GrFrame d K} (h : GrRegular sq o w n0 n1 f0)
    (hper : ∀ f ∈ o.frames, ∀ c, f.periodic c = true) (hlc : useLinkedCells o f0 = .ok false) :
    ∃ t, grFastCall sq pi huge o 0 = .ok t ∧ ∀ k,
      (k < t.length → grFastCall sq pi huge o k = .ok (t.take (t.length - k))) ∧
      (0 < k → t.length ≤ k → grFastCall sq pi huge o k = .error .indexError) := by
  have hs := h.system
  obtain ⟨n, hn, hg, hn2⟩ := grSetupGrid_default sq hsq o f0.side h.w_pos h.rgrid h.dr h.fit
  set g := (originFrames o.frames o.skip).getLastD f0 with hgdef
  obtain ⟨m, -, -, -, hm⟩ := grCrop_ok (rmax := o.rmax) (side := g.side) hs.dim_pos
  set v : ℕ → Option K := fun j => some (grVal o pi w n0 n1 (originFrames o.frames o.skip)
    (cellVolume g.side) j fun f => pairCount o (fDist sq) f fun r => (j : K) * w ≤ r ∧ r < ((j : K) + 1) * w)
    with hv
  -- one call, on a grid with the points of the default one
  have one : ∀ (o' : GrObj d K) (n : ℕ), 2 ≤ n → o' = { o with rgrid := o'.rgrid } →
      grSetupGrid sq o' f0.side = .ok (defaultGrid w n) →
      grFast sq pi huge o' = .ok (((List.range (n - 1)).map fun j : ℕ => (((j : K) + 1 / 2) * w, v j)).filter
        fun p => p.1 ≤ m) := by
    intro o' n hn ho hg
    have hs' : GrSystem o' w n0 n1 f0 := by rw [ho]; exact hs.withGrid _
    have hlc' : useLinkedCells o' f0 = .ok false := by rw [ho]; exact hlc
    have hfr : o'.frames = o.frames := by rw [ho]
    have hF := grFast_closed sq hpi huge o' hs' hn hg false hlc' (fun c => c = none) rfl
      (fun f => (List.range n).map fun b : ℕ => pairCount o' (fDist sq) f
          fun r => (b : K) * w ≤ r ∧ r < ((b : K) + 1) * w) (by simp)
      (fun st f hf hc h1 h2 => ⟨none, rfl, fastFrame_direct sq hsq huge o' hs' st f hf
        (hper f (by rw [← hfr]; exact hf)) hc h1 h2⟩)
    have hsk : o'.skip = o.skip := by rw [ho]
    have hrm : o'.rmax = o.rmax := by rw [ho]
    rw [hfr, hsk, hrm, ← hgdef, hm] at hF
    rw [hF]
    congr 2
    apply List.map_congr_left
    intro j hj
    rw [List.mem_range] at hj
    rw [hv]
    simp only [Prod.mk.injEq, true_and, Option.some.injEq]
    have hsame : o'.same = o.same := by rw [ho]
    unfold grVal meanCount
    rw [hsame]
    congr 3
    apply List.map_congr_left
    intro f _
    beta_reduce
    rw [List.getD_eq_getElem?_getD, List.getElem?_map, List.getElem?_range (by omega)]
    simp only [Option.map_some, Option.getD_some]
    unfold pairCount
    rw [hsame]
  have h0 := one o n hn rfl hg
  obtain ⟨l, hl, e, hp⟩ := crop_table h.w_pos m (n - 1) v
  rw [e] at h0
  have hlen : ((List.range l).map fun j : ℕ => (((j : K) + 1 / 2) * w, v j)).length = l := by simp
  have htake : ∀ k, ((List.range l).map fun j : ℕ => (((j : K) + 1 / 2) * w, v j)).take (l - k)
      = (List.range (l - k)).map fun j : ℕ => (((j : K) + 1 / 2) * w, v j) := by
    intro k
    rw [← List.map_take, List.take_range, Nat.min_eq_left (by omega)]
  refine ⟨_, h0, fun k => ?_⟩
  rw [hlen, htake]
  induction k with
  | zero =>
    refine ⟨fun _ => ?_, fun h' => absurd h' (lt_irrefl _)⟩
    simpa [grFastCall] using h0
  | succ k ih =>
    obtain ⟨ih1, ih2⟩ := ih
    have step : ∀ r, grFastCall sq pi huge o k = r →
        grFastCall sq pi huge o (k + 1) = r.bind fun t => grFast sq pi huge (o.again t) := by
      rintro r rfl; rfl
    constructor
    · intro hk
      rw [step _ (ih1 (by omega))]
      show grFast sq pi huge _ = _
      have hne : (List.range (l - k)).map (fun j : ℕ => (((j : K) + 1 / 2) * w, v j)) ≠ [] := by
        intro hc
        have := congrArg List.length hc
        simp at this
        omega
      rw [one (o.again _) (l - k) (by omega) rfl (by rw [setupGrid_again _ _ _ _ hne, table_grid]),
        table_all m l (l - k - 1) (by omega) v (fun j hj => (hp j (by omega)).1 hj)]
      rfl
    · intro _ hk
      by_cases hk0 : k = 0 ∨ k < l
      · have hcall : grFastCall sq pi huge o k
            = .ok ((List.range (l - k)).map fun j : ℕ => (((j : K) + 1 / 2) * w, v j)) := by
          rcases hk0 with hk0 | hk0
          · subst hk0; simpa [grFastCall] using h0
          · exact ih1 hk0
        rw [step _ hcall]
        show grFast sq pi huge _ = _
        have hl1 : l - k = 0 ∨ l - k = 1 := by omega
        have hf : pyGet (o.again ((List.range (l - k)).map fun j : ℕ => (((j : K) + 1 / 2) * w, v j))).frames 0
            = .ok f0 := by
          show pyGet o.frames 0 = _
          unfold pyGet; rw [h.first]
        unfold grFast
        simp only [hf, bind, Except.bind]
        rcases hl1 with hl1 | hl1
        · rw [hl1]; rfl
        · rw [hl1, setupGrid_again _ _ _ _ (by simp)]
          rfl
      · rw [step _ (ih2 (by omega) (by omega))]
        rfl

/-- **C100.** Each further call of `compute` on the same legacy radial distribution function gives the same
table, except for its last value if a pair is exactly at the upper bound of the last bin, which is now
counted. -/
theorem C100_legacy_partial (sq : K → K) (hsq : ∀ x, 0 ≤ sq x) {pi : K} (hpi : 0 < pi)
    (o : GrObj d K) {w : K} {n0 n1 : ℕ} {f0 : GrFrame d K} (h : GrRegular sq o w n0 n1 f0) :
    ∃ t, grLegacyCall sq pi o 0 = .ok t ∧ (2 ≤ t.length → ∃ t', (∀ k, grLegacyCall sq pi o (k + 1) = .ok t') ∧
      t'.map Prod.fst = t.map Prod.fst ∧ t'.dropLast = t.dropLast ∧
      ((∀ f ∈ o.frames, ∀ u ∈ f.pos0, ∀ v ∈ f.pos1, grDist sq f.side u v ≠ (t.length : K) * w) → t' = t)) := by
  have hs := h.system
  obtain ⟨n, hn, hg, hn2⟩ := grSetupGrid_default sq hsq o f0.side h.w_pos h.rgrid h.dr h.fit
  have hne : o.frames ≠ [] := by intro hc; have := h.first; rw [hc] at this; simp at this
  set g := (originFrames o.frames o.skip).getLastD f0 with hgdef
  obtain ⟨m, -, -, -, hm⟩ := grCrop_ok (rmax := o.rmax) (side := g.side) hs.dim_pos
  set v : ℕ → ℕ → Option K := fun n j => some (grVal o pi w n0 n1 (originFrames o.frames o.skip)
    (cellVolume g.side) j fun f => pairCount o (grDist sq) f (Spec.InBin (defaultEdges w n) j)) with hv
  have h0 := grLegacy_closed sq hpi o hs hn hg
  rw [← hgdef, hm] at h0
  obtain ⟨l, hl, e, hp⟩ := crop_table h.w_pos m n (v n)
  change _ = Except.ok (((List.range n).map fun j : ℕ => (((j : K) + 1 / 2) * w, v n j)).filter _) at h0
  rw [e] at h0
  have hlen : ((List.range l).map fun j : ℕ => (((j : K) + 1 / 2) * w, v n j)).length = l := by simp
  refine ⟨_, h0, fun h2 => ?_⟩
  rw [hlen] at h2
  have again : ∀ (k : ℕ) (u : ℕ → Option K),
      grLegacyArrays sq pi (o.again ((List.range l).map fun j : ℕ => (((j : K) + 1 / 2) * w, u j)))
        ((List.replicate (k + 2) (o.frames.map fun f => f.pos0.length)).flatten)
        ((List.replicate (k + 2) (o.frames.map fun f => f.pos1.length)).flatten)
      = .ok ((List.range l).map fun j : ℕ => (((j : K) + 1 / 2) * w, v l j)) := by
    intro k u
    have hnet : (List.range l).map (fun j : ℕ => (((j : K) + 1 / 2) * w, u j)) ≠ [] := by
      intro hc
      have := congrArg List.length hc
      simp at this
      omega
    have hrep : ∀ (len : GrFrame d K → ℕ) (N : ℕ), (∀ f ∈ o.frames, len f = N) →
        npAverage (K := K) ((List.replicate (k + 2) (o.frames.map len)).flatten) = some (N : K) := by
      intro len N hN
      apply npAverage_const
      · rw [List.replicate_succ, List.flatten_cons]
        simp [hne]
      · intro a ha
        rw [List.mem_flatten] at ha
        obtain ⟨x, hx, ha⟩ := ha
        rw [List.mem_replicate] at hx
        rw [hx.2, List.mem_map] at ha
        obtain ⟨f, hf, rfl⟩ := ha
        exact hN f hf
    have := grLegacyArrays_closed sq hpi
      (o.again ((List.range l).map fun j : ℕ => (((j : K) + 1 / 2) * w, u j))) (hs.withGrid _) h2
      (by rw [setupGrid_again _ _ _ _ hnet, table_grid]) _ _ (hrep _ n0 h.len0) (hrep _ n1 h.len1)
    refine this.trans ?_
    change grCrop o.rmax g.side _ = _
    rw [hm]
    congr 1
    exact table_all m l l (le_refl _) (v l) fun j hj => (hp j (by omega)).1 hj
  refine ⟨(List.range l).map fun j : ℕ => (((j : K) + 1 / 2) * w, v l j), ?_, ?_, ?_, ?_⟩
  · intro k
    induction k with
    | zero =>
      show (grLegacy sq pi o).bind _ = _
      rw [h0]
      exact again 0 (v n)
    | succ k ih =>
      show (grLegacyCall sq pi o (k + 1)).bind _ = _
      rw [ih]
      exact again (k + 1) (v l)
  · rw [table_grid, table_grid]
  · rw [← List.map_dropLast, ← List.map_dropLast]
    apply List.map_congr_left
    intro j hj
    have hj' : j < l - 1 := by
      obtain ⟨l', rfl⟩ : ∃ l', l = l' + 1 := ⟨l - 1, by omega⟩
      rw [List.range_succ, List.dropLast_concat, List.mem_range] at hj
      omega
    rw [hv]
    simp only [Prod.mk.injEq, true_and, Option.some.injEq]
    congr 1
    funext f
    unfold pairCount
    have : ∀ r, Spec.InBin (defaultEdges w l) j r ↔ Spec.InBin (defaultEdges w n) j r := by
      intro r
      rw [inBin_default (by omega), inBin_default (by omega)]
      have h1 : ¬ j + 1 = l := by omega
      have h2 : ¬ j + 1 = n := by omega
      simp [h1, h2]
    simp only [this]
  · intro hno
    rw [hlen] at hno
    apply List.map_congr_left
    intro j hj
    rw [List.mem_range] at hj
    rw [hv]
    simp only [Prod.mk.injEq, true_and, Option.some.injEq]
    unfold grVal meanCount
    congr 3
    apply List.map_congr_left
    intro f hf
    have hf' := originFrames_mem hf
    congr 1
    apply pairCount_congr (fun hs' => h.same hs' f hf')
    intro a ha b hb
    have hab := hno f hf' a ha b hb
    rw [inBin_default (by omega), inBin_default (by omega)]
    constructor
    · rintro ⟨h1, h2 | ⟨h2, h3⟩⟩
      · exact ⟨h1, Or.inl h2⟩
      · exfalso
        apply hab
        rw [h3, ← h2]
        push_cast
        ring
    · rintro ⟨h1, h2 | ⟨h2, h3⟩⟩
      · exact ⟨h1, Or.inl h2⟩
      · exact ⟨h1, Or.inr ⟨by omega, h3⟩⟩

/-! ### Linked cells on a short grid -/

theorem fIncr_either (h : List ℕ) (b : ℤ) (n : ℕ) (hn : h.length = n) :
    fIncr h b = .error .outOfBounds ∨ ∃ h', fIncr h b = .ok h' ∧ h'.length = n := by
  unfold fIncr
  split_ifs
  · exact Or.inr ⟨_, rfl, by simpa using hn⟩
  · exact Or.inl rfl

theorem fBinAll_either (dr : K) (h : List ℕ) (ds : List K) (n : ℕ) (hn : h.length = n) :
    fBinAll dr h ds = .error .outOfBounds ∨ ∃ h', fBinAll dr h ds = .ok h' ∧ h'.length = n :=
  foldlM_either (fun h : List ℕ => h.length = n) ds h hn fun h hn _ _ => fIncr_either h _ n hn

theorem fBinAll_far {dr : K} (hdr : 0 < dr) (h : List ℕ) (ds : List K) (n : ℕ) (hn : h.length = n) {r : K}
    (hr : r ∈ ds) (hfar : dr * (n : K) ≤ r) : fBinAll dr h ds = .error .outOfBounds := by
  refine foldlM_fails (fun h : List ℕ => h.length = n) ds h hn (fun h hn r _ => fIncr_either h _ n hn) ⟨r, hr, ?_⟩
  intro h hn
  have : (n : ℤ) ≤ ⌊r / dr⌋ := by
    rw [Int.le_floor, le_div_iff₀ hdr]
    push_cast
    linarith
  unfold fIncr
  rw [if_neg]
  rintro ⟨-, h2⟩
  omega

/-- The stack of distances of one particle. -/
theorem fPush_fold (sq : K → K) (other : List (Vec d K)) (box a : Vec d K) (nb : List ℕ) :
    let f : List K → ℕ → Py (List K) := fun ds j => match other[j]? with
      | some pj => fPush other.length ds (fDist sq box pj a)
      | none => .error .outOfBounds
    ∀ ds, nb.foldlM f ds = .error .outOfBounds ∨ ∃ ds', nb.foldlM f ds = .ok ds' ∧ (∀ r ∈ ds, r ∈ ds') ∧
      ∀ j ∈ nb, ∀ v, other[j]? = some v → fDist sq box v a ∈ ds' := by
  intro f
  induction nb with
  | nil => intro ds; exact Or.inr ⟨ds, rfl, fun r hr => hr, by simp⟩
  | cons j nb ih =>
    intro ds
    rw [List.foldlM_cons]
    cases ho : other[j]? with
    | none =>
      left
      have : f ds j = .error .outOfBounds := by simp only [f, ho]
      rw [this]; rfl
    | some v =>
      by_cases hl : ds.length + 1 ≤ other.length
      · have : f ds j = .ok (ds ++ [fDist sq box v a]) := by
          simp only [f, ho]; unfold fPush; rw [if_pos hl]
        rw [this]
        show nb.foldlM f _ = _ ∨ _
        rcases ih (ds ++ [fDist sq box v a]) with h1 | ⟨ds', h1, h2, h3⟩
        · exact Or.inl h1
        · refine Or.inr ⟨ds', h1, fun r hr => h2 r (by simp [hr]), ?_⟩
          intro i hi u hu
          rcases List.mem_cons.1 hi with rfl | hi
          · rw [ho] at hu; cases hu
            exact h2 _ (by simp)
          · exact h3 i hi u hu
      · left
        have : f ds j = .error .outOfBounds := by
          simp only [f, ho]; unfold fPush; rw [if_neg hl]
        rw [this]; rfl

theorem grNeighborsC_far (sq : K → K) (pos other : List (Vec d K)) (nb : List (List ℕ)) (box : Vec d K)
    {dr : K} (hdr : 0 < dr) (hist : List ℕ) (bins : List K) (i j : ℕ) (u v : Vec d K) (hu : pos[i]? = some u)
    (hv : other[j]? = some v) (hj : j ∈ nb.getD i []) (hfar : dr * (hist.length : K) ≤ fDist sq box v u) :
    grNeighborsC sq pos other nb box dr hist bins = .error .outOfBounds := by
  set body : List ℕ → ℕ → Py (List ℕ) := fun h i => do
    let pi ← pyGet pos i
    let nb ← match nb[i]? with
      | some nb => (.ok nb : Py (List ℕ))
      | none => .error .outOfBounds
    let ds ← nb.foldlM (fun ds j =>
      match other[j]? with
      | some pj => fPush other.length ds (fDist sq box pj pi)
      | none => .error .outOfBounds) []
    fBinAll dr h ds with hbody
  have key : (List.range pos.length).foldlM body (hist.map fun _ => 0) = .error .outOfBounds := by
    refine foldlM_fails (fun h => h.length = hist.length) _ _ (by simp) ?_ ⟨i, ?_, ?_⟩
    · intro h hn k hk
      rw [List.mem_range] at hk
      have h1 : pyGet pos k = .ok pos[k] := by unfold pyGet; rw [List.getElem?_eq_getElem hk]
      simp only [hbody, h1, bind, Except.bind]
      cases h2 : nb[k]? with
      | none => exact Or.inl rfl
      | some l =>
        simp only
        rcases fPush_fold sq other box pos[k] l [] with h3 | ⟨ds', h3, -, -⟩
        · rw [h3]; exact Or.inl rfl
        · rw [h3]; exact fBinAll_either dr h ds' _ hn
    · rw [List.mem_range]
      obtain ⟨hi, -⟩ := List.getElem?_eq_some_iff.1 hu
      exact hi
    · intro h hn
      have h1 : pyGet pos i = .ok u := by unfold pyGet; rw [hu]
      simp only [hbody, h1, bind, Except.bind]
      cases h2 : nb[i]? with
      | none => rfl
      | some l =>
        rw [List.getD_eq_getElem?_getD, h2] at hj
        simp only [Option.getD_some] at hj
        simp only
        rcases fPush_fold sq other box u l [] with h3 | ⟨ds', h3, -, h5⟩
        · rw [h3]
        · rw [h3]
          exact fBinAll_far hdr h ds' _ hn (h5 j hj v hv) hfar
  unfold grNeighborsC
  show Except.bind ((List.range pos.length).foldlM body (hist.map fun _ => 0)) _ = _
  rw [key]
  rfl

/-- **C101.** When linked cells are used and the grid given by the user, of spacing `g1 - g0`, ends before the
distance of a pair of particles of the first frame within the cut-off, the fast radial distribution function
writes outside the histogram. -/
theorem C101_counterexample (sq : K → K) (hsq : ∀ x, 0 ≤ sq x) (hsq2 : ∀ x, 0 ≤ x → sq x * sq x = x)
    (pi huge : K) (o : GrObj d K) (g0 g1 : K) (g : List K) (hg : o.rgrid = some (g0 :: g1 :: g)) (hw : g0 < g1)
    {f0 : GrFrame d K} (h0 : o.frames[0]? = some f0) (hskip : 0 < o.skip) (hd : d = 2 ∨ d = 3)
    (hper : ∀ c, f0.periodic c = true) (hsame : o.same = true → f0.pos0 = f0.pos1)
    (hin : ∀ x, x ∈ f0.pos0 ∨ x ∈ f0.pos1 → Spec.Inside f0.side x) (hlc : useLinkedCells o f0 = .ok true)
    (i j : ℕ) (u v : Vec d K) (hij : o.same = true → i ≠ j) (hu : f0.pos0[i]? = some u)
    (hv : f0.pos1[j]? = some v) (hfar : (g1 - g0) * ((g.length + 2 : ℕ) : K) ≤ fDist sq f0.side v u)
    (hnear : fDist sq f0.side v u ≤ o.rmax) :
    grFast sq pi huge o = .error .outOfBounds := by
  have hd0 : 0 < d := by omega
  have hw' : 0 < g1 - g0 := sub_pos.2 hw
  obtain ⟨hr, hL⟩ := useLinkedCells_true o f0 hd0 hlc
  have hL1 : ∀ c, o.rmax ≤ f0.side c := fun c => by have := hL c; linarith
  have hLp : ∀ c, 0 < f0.side c := fun c => lt_of_lt_of_le hr (hL1 c)
  have e0 : f0.pos0 ≠ [] := by intro hc; rw [hc] at hu; simp at hu
  have e1 : f0.pos1 ≠ [] := by intro hc; rw [hc] at hv; simp at hv
  -- the list of neighbours holds the pair
  have hlist : ∃ lc nb, (LinkedCells.new o.rmax).compute f0.side f0.pos0
        (if (!o.same) = true then some f0.pos1 else none) true (fun _ => true) true = .ok (lc, nb) ∧
      (j ∈ nb.getD i [] ∨ (o.same = true ∧ i ∈ nb.getD j [])) := by
    have hn := near_of_fDist sq hsq hsq2 f0.side u v hLp hnear
    have pos_mem : ∀ (l : List ℕ) (a : ℕ), 1 ≤ l.count a → a ∈ l := fun l a h => List.count_pos_iff.1 h
    cases hs : o.same with
    | true =>
      obtain ⟨lc, nb, e, -, -, p3⟩ := C42_complete o.rmax f0.side f0.pos0 (fun _ => true) true hd hr hL1
        (fun x hx => hin x (Or.inl hx)) (fun _ => e0)
      refine ⟨lc, nb, by simpa using e, ?_⟩
      have := p3 i j u v (hij hs) hu (by rw [hsame hs]; exact hv) hn
      by_cases h1 : 1 ≤ Spec.listed nb i j
      · exact Or.inl (pos_mem _ _ h1)
      · exact Or.inr ⟨rfl, pos_mem _ _ (show 1 ≤ Spec.listed nb j i by omega)⟩
    | false =>
      obtain ⟨lc, nb, e, -, -, p3⟩ := C42_two_groups o.rmax f0.side f0.pos0 f0.pos1 true (fun _ => true) true hd hr
        hL1 (fun x hx => hin x (Or.inl hx)) (fun x hx => hin x (Or.inr hx)) (fun _ => e0)
      exact ⟨lc, nb, by simpa using e, Or.inl (pos_mem _ _ (p3 i j u v hu hv hn))⟩
  obtain ⟨lc, nb, hcomp, hmem⟩ := hlist
  -- the first frame fails
  have hnp : ¬ ∀ c, f0.periodic c = false := fun hc => by
    have := hc ⟨0, hd0⟩; rw [hper] at this; cases this
  have hframe : ∀ st : GrFastState d K, st.cells = some (LinkedCells.new o.rmax) →
      st.hist.length = g.length + 2 → grFastFrame sq huge o (g1 - g0) st f0 = .error .outOfBounds := by
    intro st hc hh
    have hcond : (f0.pos0.isEmpty || f0.pos1.isEmpty) = false := by simp [e0, e1]
    have hcrop : decide ((∀ c, f0.periodic c = false) ∧ o.rmax > 0) = false := by simp [hnp]
    have hside : (fun c => if f0.periodic c = true then f0.side c else huge) = f0.side := by
      funext c; rw [if_pos (hper c)]
    have hperf : f0.periodic = fun _ => true := funext hper
    have hcells : grFastCells st.cells f0 f0.pos0 (!o.same) = .ok (some lc, nb) := by
      rw [hc]
      unfold grFastCells
      simp only [hperf, hcomp]
      rfl
    have hker : grFastKernel sq (g1 - g0) true (!o.same) nb f0.side f0.pos0 f0.pos1 st.hist st.bins
        = .error .outOfBounds := by
      unfold grFastKernel
      rw [← hh] at hfar
      cases hs : o.same with
      | true =>
        have hs' := hsame hs
        simp only [Bool.not_true, Bool.false_eq_true, if_false, if_true]
        rw [← hs'] at hv
        rcases hmem with hmem | ⟨-, hmem⟩
        · exact grNeighborsC_far sq _ _ nb _ hw' _ _ i j u v hu hv hmem hfar
        · exact grNeighborsC_far sq _ _ nb _ hw' _ _ j i v u hv hu hmem (by rw [fDist_comm]; exact hfar)
      | false =>
        simp only [Bool.not_false, if_true]
        rcases hmem with hmem | ⟨hmem, -⟩
        · exact grNeighborsC_far sq _ _ nb _ hw' _ _ i j u v hu hv hmem hfar
        · rw [hs] at hmem; cases hmem
    unfold grFastFrame
    rw [hcond]
    simp only [hcrop, Bool.false_eq_true, if_false, Bool.false_or, hcells, hside]
    have hass : (¬ ((∀ c, f0.periodic c = false) ∨ ∀ c, f0.periodic c = true)) = False := by simp [hper]
    simp only [Except.bind, Option.isSome_some, hass, if_false, hker]
  have hlen : 0 < o.frames.length := by
    obtain ⟨h', -⟩ := List.getElem?_eq_some_iff.1 h0
    exact h'
  have h1 : pyGet o.frames 0 = .ok f0 := by unfold pyGet; rw [h0]
  have hsg : grSetupGrid sq o f0.side = .ok (g0 :: g1 :: g) := by
    unfold grSetupGrid; rw [hg]; rfl
  have hg0 : pyGet (g0 :: g1 :: g) 0 = .ok g0 := rfl
  have hg1 : pyGet (g0 :: g1 :: g) 1 = .ok g1 := rfl
  have h6 : pyRange 0 o.frames.length o.skip = .ok (rangeList 0 o.frames.length o.skip) := by
    unfold pyRange; rw [if_neg hskip.ne']
  obtain ⟨rest, hrest⟩ : ∃ rest, rangeList 0 o.frames.length o.skip = 0 :: rest := by
    rw [rangeList]
    have : 0 < (o.frames.length - 0 + (o.skip - 1)) / o.skip := Nat.div_pos (by omega) hskip
    obtain ⟨k, hk⟩ : ∃ k, (o.frames.length - 0 + (o.skip - 1)) / o.skip = k + 1 := ⟨_, (Nat.succ_pred_eq_of_pos this).symm⟩
    rw [hk, List.range_succ_eq_map, List.map_cons, Nat.zero_mul]
    exact ⟨_, rfl⟩
  unfold grFast
  simp only [bind, Except.bind, h1, hsg, hg0, hg1, hlc, h6, hrest, List.foldlM_cons]
  rw [hframe _ rfl (by simp)]

/-- The closed form with linked cells, on a grid that covers all the distances. -/
theorem grFast_cells_closed (sq : K → K) (hsq : ∀ x, 0 ≤ sq x) {pi : K} (hpi : 0 < pi) (huge : K) (o : GrObj d K)
    {w : K} {n0 n1 : ℕ} {f0 : GrFrame d K} (h : GrSystem o w n0 n1 f0) (hd : d = 2 ∨ d = 3)
    (hper : ∀ f ∈ o.frames, ∀ c, f.periodic c = true) (hcell : ∀ f ∈ o.frames, f.side = f0.side)
    (hin : ∀ f ∈ o.frames, ∀ x, x ∈ f.pos0 ∨ x ∈ f.pos1 → Spec.Inside f0.side x)
    (hlc : useLinkedCells o f0 = .ok true) {n : ℕ} (hn : 2 ≤ n)
    (hg : grSetupGrid sq o f0.side = .ok (defaultGrid w n))
    (hfar : ∀ f ∈ o.frames, ∀ u ∈ f.pos0, ∀ v ∈ f.pos1, fDist sq f0.side v u < w * (n : K)) :
    ∃ v : ℕ → Option K, grFast sq pi huge o
      = .ok (((List.range (n - 1)).map fun j : ℕ => (((j : K) + 1 / 2) * w, v j)).filter fun p => p.1 ≤ o.rmax) := by
  obtain ⟨hr, hL⟩ := useLinkedCells_true o f0 h.dim_pos hlc
  have hL3 : ∀ c, 3 * o.rmax ≤ f0.side c := fun c => by have := hL c; linarith
  have hF := grFast_closed sq hpi huge o h hn hg true hlc (CellsInv o f0.side) ⟨_, rfl, fun _ _ _ => rfl⟩
    (cellsHist sq o w n f0.side) (by simp [cellsHist])
    (fun st f hf hc h1 h2 => fastFrame_cells sq hsq huge o h hd hr f0.side hL3 st f hf (hper f hf) (hcell f hf)
      (fun x hx => hin f hf x (Or.inl hx)) (fun x hx => hin f hf x (Or.inr hx)) (hfar f hf) hc h1 h2)
  obtain ⟨m, hm1, -, -, hm⟩ := grCrop_ok (rmax := o.rmax)
    (side := ((originFrames o.frames o.skip).getLastD f0).side) h.dim_pos
  rw [hm, hm1 hr] at hF
  exact ⟨_, hF⟩

theorem fDist_cell (sq : K → K) (hsq : ∀ x, 0 ≤ sq x) (hsq2 : ∀ x, 0 ≤ x → sq x * sq x = x) (hd0 : 0 < d)
    (L u v : Vec d K) (hL0 : ∀ c, 0 < L c) (hu : Spec.Inside L u) (hv : Spec.Inside L v) :
    ∃ c, fDist sq L v u ≤ L c * sq (d : K) / 2 ∧ ∀ c', L c' ≤ L c := by
  obtain ⟨cm, -, hcm⟩ := Finset.exists_max_image (Finset.univ : Finset (Fin d)) L ⟨⟨0, hd0⟩, Finset.mem_univ _⟩
  exact ⟨cm, fDist_bound sq hsq hsq2 L u v hL0 (hL0 cm).le (fun c => hcm c (Finset.mem_univ _)) hu hv,
    fun c => hcm c (Finset.mem_univ _)⟩

/-- **C101.** On a uniform grid of `n` points given by the user, the fast radial distribution function does not
write outside the histogram if linked cells are not used, or if the grid covers half the diagonal of a cube with
the longest side. -/
theorem C101_safe_partial (sq : K → K) (hsq : ∀ x, 0 ≤ sq x) (hsq2 : ∀ x, 0 ≤ x → sq x * sq x = x) {pi : K}
    (hpi : 0 < pi) (huge : K) (o : GrObj d K) {w : K} {n0 n1 : ℕ} {f0 : GrFrame d K} (h : GrSystem o w n0 n1 f0)
    (hd : d = 2 ∨ d = 3) (hper : ∀ f ∈ o.frames, ∀ c, f.periodic c = true)
    (hcell : ∀ f ∈ o.frames, f.side = f0.side)
    (hin : ∀ f ∈ o.frames, ∀ x, x ∈ f.pos0 ∨ x ∈ f.pos1 → Spec.Inside f0.side x) {n : ℕ} (hn : 2 ≤ n)
    (hg : o.rgrid = some ((List.range n).map fun i : ℕ => w / 2 + (i : K) * w))
    (hlc : useLinkedCells o f0 = .ok false ∨
      (useLinkedCells o f0 = .ok true ∧ ∀ c, f0.side c * sq (d : K) / 2 < w * (n : K))) :
    ∃ t, grFast sq pi huge o = .ok t ∧ t.map Prod.fst <+: (List.range n).map fun i : ℕ => w / 2 + (i : K) * w := by
  have hgs : grSetupGrid sq o f0.side = .ok (defaultGrid w n) := by
    unfold grSetupGrid
    rw [hg]
    simp only [bind, Except.bind, pure, Except.pure]
    rw [if_neg (by simp; omega)]
    rfl
  obtain ⟨m, hm1, -, -, hm⟩ := grCrop_ok (rmax := o.rmax)
    (side := ((originFrames o.frames o.skip).getLastD f0).side) h.dim_pos
  have hpre : ∀ (M : K) (v : ℕ → Option K),
      (((List.range (n - 1)).map fun j : ℕ => (((j : K) + 1 / 2) * w, v j)).filter fun p => p.1 ≤ M).map Prod.fst
        <+: (List.range n).map fun i : ℕ => w / 2 + (i : K) * w := by
    intro M v
    obtain ⟨l, hl, e, -⟩ := crop_table h.w_pos M (n - 1) v
    rw [e, table_grid]
    unfold defaultGrid
    apply List.IsPrefix.map
    refine ⟨(List.range (n - l)).map (l + ·), ?_⟩
    rw [← List.range_add]
    congr 1
    omega
  rcases hlc with hlc | ⟨hlc, hcov⟩
  · have hF := grFast_closed sq hpi huge o h hn hgs false hlc (fun c => c = none) rfl
      (fun f => (List.range n).map fun b : ℕ => pairCount o (fDist sq) f
          fun r => (b : K) * w ≤ r ∧ r < ((b : K) + 1) * w) (by simp)
      (fun st f hf hc h1 h2 => ⟨none, rfl, fastFrame_direct sq hsq huge o h st f hf (hper f hf) hc h1 h2⟩)
    rw [hm] at hF
    exact ⟨_, hF, hpre m _⟩
  · obtain ⟨v, hF⟩ := grFast_cells_closed sq hsq hpi huge o h hd hper hcell hin hlc hn hgs (by
      intro f hf u hu v hv
      have hL0 : ∀ c, 0 < f0.side c := fun c => by
        have := h.side_pos f hf c; rwa [hcell f hf] at this
      obtain ⟨c, hc, -⟩ := fDist_cell sq hsq hsq2 h.dim_pos f0.side u v hL0 (hin f hf u (Or.inl hu))
        (hin f hf v (Or.inr hv))
      exact lt_of_le_of_lt hc (hcov c))
    exact ⟨_, hF, hpre o.rmax v⟩

/-- **C100.** With linked cells, the second call of `compute` on the same object writes outside the histogram if
two particles of the first frame are at a distance beyond the last bin of the first table, yet not larger than the
cut-off. -/
theorem C100_counterexample_cells (sq : K → K) (hsq : ∀ x, 0 ≤ sq x) (hsq2 : ∀ x, 0 ≤ x → sq x * sq x = x) {pi : K}
    (hpi : 0 < pi) (huge : K) (o : GrObj d K) {w : K} {n0 n1 : ℕ} {f0 : GrFrame d K}
    (h : GrRegular sq o w n0 n1 f0) (hd : d = 2 ∨ d = 3) (hper : ∀ f ∈ o.frames, ∀ c, f.periodic c = true)
    (hcell : ∀ f ∈ o.frames, f.side = f0.side)
    (hin : ∀ f ∈ o.frames, ∀ x, x ∈ f.pos0 ∨ x ∈ f.pos1 → Spec.Inside f0.side x)
    (hlc : useLinkedCells o f0 = .ok true) :
    ∃ t, grFastCall sq pi huge o 0 = .ok t ∧ (∀ j : ℕ, j < t.length ↔ ((j : K) + 1 / 2) * w ≤ o.rmax) ∧
      (2 ≤ t.length → ∀ (i j : ℕ) (u v : Vec d K), (o.same = true → i ≠ j) →
      f0.pos0[i]? = some u → f0.pos1[j]? = some v → (t.length : K) * w ≤ fDist sq f0.side v u →
      fDist sq f0.side v u ≤ o.rmax → grFastCall sq pi huge o 1 = .error .outOfBounds) := by
  have hs := h.system
  have hf0 : f0 ∈ o.frames := List.mem_of_getElem? h.first
  obtain ⟨n, hn, hg, hn2⟩ := grSetupGrid_default sq hsq o f0.side h.w_pos h.rgrid h.dr h.fit
  obtain ⟨v, hF⟩ := grFast_cells_closed sq hsq hpi huge o hs hd hper hcell hin hlc hn hg (by
    intro f hf u hu v hv
    have hL0 : ∀ c, 0 < f0.side c := h.side_pos f0 hf0
    obtain ⟨cm, hc, hcm⟩ := fDist_cell sq hsq hsq2 hs.dim_pos f0.side u v hL0 (hin f hf u (Or.inl hu))
      (hin f hf v (Or.inr hv))
    obtain ⟨c, hc1⟩ := h.fit
    have h1 := mul_le_mul_of_nonneg_right (hcm c) (hsq (d : K))
    have h2 := hn2 cm
    rw [mul_comm w]
    have := h.w_pos
    linarith)
  obtain ⟨l, hl, e, hp⟩ := crop_table h.w_pos o.rmax (n - 1) v
  rw [e] at hF
  refine ⟨_, hF, ?_, ?_⟩
  · intro j
    simp only [List.length_map, List.length_range]
    by_cases hj : j < n - 1
    · exact hp j hj
    · obtain ⟨hr, hL⟩ := useLinkedCells_true o f0 hs.dim_pos hlc
      have hw := h.w_pos
      have hsqd : 1 ≤ sq (d : K) := by
        have h1 := hsq2 (d : K) (Nat.cast_nonneg d)
        have h2 := hsq (d : K)
        have h3 : (1 : K) ≤ d := by exact_mod_cast hs.dim_pos
        nlinarith
      have h2 := hn2 ⟨0, hs.dim_pos⟩
      have h3 := hL ⟨0, hs.dim_pos⟩
      have h4 : 4 * o.rmax ≤ f0.side ⟨0, hs.dim_pos⟩ * sq (d : K) := by nlinarith
      have h5 : (n : K) ≤ j + 1 := by exact_mod_cast (show n ≤ j + 1 by omega)
      have h6 : (1 : K) ≤ j := by exact_mod_cast (show 1 ≤ j by omega)
      refine ⟨fun h' => absurd h' (by omega), fun h' => ?_⟩
      exfalso
      have h7 := mul_le_mul_of_nonneg_right h5 hw.le
      have h8 := mul_le_mul_of_nonneg_right h6 hw.le
      nlinarith
  intro h2 i j u u' hij hu hu' hfar hnear
  simp only [List.length_map, List.length_range] at h2 hfar
  obtain ⟨l', rfl⟩ : ∃ l', l = l' + 2 := ⟨l - 2, by omega⟩
  show (grFast sq pi huge o).bind _ = _
  rw [hF]
  show grFast sq pi huge _ = _
  have hgrid : (o.again ((List.range (l' + 2)).map fun j : ℕ => (((j : K) + 1 / 2) * w, v j))).rgrid
      = some ((w / 2 + ((0 : ℕ) : K) * w) :: (w / 2 + ((1 : ℕ) : K) * w) ::
        (List.range l').map fun i : ℕ => w / 2 + ((i + 2 : ℕ) : K) * w) := by
    unfold GrObj.again
    simp only
    rw [table_grid]
    unfold defaultGrid
    rw [List.range_succ_eq_map, List.range_succ_eq_map]
    simp only [List.map_cons, List.map_map, Function.comp_def]
  have hw := h.w_pos
  refine C101_counterexample sq hsq hsq2 pi huge _ _ _ _ hgrid (by push_cast; linarith) h.first h.skip_pos hd
    (hper f0 hf0) (fun hs' => h.same hs' f0 hf0) (fun x hx => hin f0 hf0 x hx) hlc i j u u' hij hu hu' ?_ hnear
  refine le_trans (le_of_eq ?_) hfar
  simp only [List.length_map, List.length_range]
  push_cast
  ring

/-- The calls of an example, with and without the last point, and the last value of the legacy table, in which
pairs at distance 3 are counted from the second call on. -/
example : grFastCall Rat.sqrt 3 1000 grExample 0
      = .ok [(1 / 2, some 1), (3 / 2, some (1 / 3)), (5 / 2, some (3 / 5))] ∧
    grFastCall Rat.sqrt 3 1000 grExample 1 = .ok [(1 / 2, some 1), (3 / 2, some (1 / 3))] ∧
    grFastCall Rat.sqrt 3 1000 grExample 3 = .error .indexError ∧
    useLinkedCells grExample ⟨![8, 6], fun _ => true, [![0, 0], ![3, 0], ![3, -2], ![-3, 0]],
        [![0, 0], ![3, 0], ![3, -2], ![-3, 0]]⟩ = .ok false := by
  decide +kernel

/-- **C100.** The last value of the legacy table changes from the first to the second call. -/
theorem C100_counterexample_legacy : grLegacyCall Rat.sqrt 3 grExample 0
      = .ok [(1 / 2, some 1), (3 / 2, some (1 / 3)), (5 / 2, some (3 / 5))] ∧
    grLegacyCall Rat.sqrt 3 grExample 1
      = .ok [(1 / 2, some 1), (3 / 2, some (1 / 3)), (5 / 2, some (6 / 5))] := by
  decide +kernel

/-- The same system with particles that are not at that distance: the tables are equal. -/
example : grLegacyCall Rat.sqrt 3 { grExample with frames := [⟨![8, 6], fun _ => true, [![0, 0], ![2, 0], ![0, 1]],
      [![0, 0], ![2, 0], ![0, 1]]⟩] } 2
    = grLegacyCall Rat.sqrt 3 { grExample with frames := [⟨![8, 6], fun _ => true, [![0, 0], ![2, 0], ![0, 1]],
      [![0, 0], ![2, 0], ![0, 1]]⟩] } 0 := by
  decide +kernel

/-- Two particles at the distance of the cut-off. -/
def againExample (R : Type) [Field R] : GrObj 2 R :=
  { frames := [⟨![16, 16], fun _ => true, [![-4, 0], ![0, 0]], [![-4, 0], ![0, 0]]⟩],
    skip := 1, same := true, rgrid := none, dr := .float 1, rmax := 4 }

example : grFastCall Rat.sqrt 3 1000 (againExample ℚ) 0
      = .ok [(1 / 2, some 0), (3 / 2, some 0), (5 / 2, some 0), (7 / 2, some 0)] ∧
    grFastCall Rat.sqrt 3 1000 (againExample ℚ) 1 = .error .outOfBounds ∧
    grFast Rat.sqrt 3 1000 { againExample ℚ with rgrid := some [1 / 2, 3 / 2, 5 / 2] } = .error .outOfBounds := by
  decide +kernel

theorem againExample_cells (g : Option (List ℝ)) : useLinkedCells { againExample ℝ with rgrid := g }
    ⟨![16, 16], fun _ => true, [![-4, 0], ![0, 0]], [![-4, 0], ![0, 0]]⟩ = .ok true := by
  have hm : pyMin (List.ofFn fun c => (![16, 16] : Vec 2 ℝ) c / 4) = .ok 4 := by
    norm_num [pyMin, List.ofFn_succ]
  unfold useLinkedCells
  rw [if_pos (by norm_num [againExample])]
  simp only [againExample] at hm ⊢
  rw [hm]
  have hp : pyInt (4 : ℝ) = 4 := by unfold pyInt; rw [if_pos (by norm_num)]; exact_mod_cast Int.floor_natCast 4
  simp only [bind, Except.bind, pure, Except.pure, hp, cellVolume]
  norm_num [Fin.prod_univ_two]

theorem againExample_dist : fDist Real.sqrt ![16, 16] (![0, 0] : Vec 2 ℝ) ![-4, 0] = 4 := by
  unfold fDist fpbc
  have : (∑ c : Fin 2, (if |(![0, 0] : Vec 2 ℝ) c - (![-4, 0] : Vec 2 ℝ) c| > (![16, 16] : Vec 2 ℝ) c / 2
      then (![0, 0] : Vec 2 ℝ) c - (![-4, 0] : Vec 2 ℝ) c
        - fsign ((![16, 16] : Vec 2 ℝ) c) ((![0, 0] : Vec 2 ℝ) c - (![-4, 0] : Vec 2 ℝ) c)
      else (![0, 0] : Vec 2 ℝ) c - (![-4, 0] : Vec 2 ℝ) c) ^ 2) = 4 ^ 2 := by
    rw [Fin.sum_univ_two]
    have h4 : |(4 : ℝ)| = 4 := abs_of_pos (by norm_num)
    norm_num [h4]
  rw [this]
  exact Real.sqrt_sq (by norm_num)

theorem againExample_inside : ∀ f ∈ (againExample ℝ).frames, ∀ x, x ∈ f.pos0 ∨ x ∈ f.pos1 →
    Spec.Inside ![16, 16] x := by
  intro f hf x hx
  simp only [againExample, List.mem_cons, List.not_mem_nil, or_false] at hf
  subst hf
  simp only [List.mem_cons, List.not_mem_nil, or_false, or_self] at hx
  rcases hx with rfl | rfl <;> intro c <;> fin_cases c <;> norm_num

/-- The hypotheses of `C101_counterexample` hold for it with a grid up to 3. -/
example : grFast Real.sqrt 3 1000000 { againExample ℝ with rgrid := some [1 / 2, 3 / 2, 5 / 2] }
    = .error .outOfBounds := by
  refine C101_counterexample Real.sqrt Real.sqrt_nonneg (fun x hx => Real.mul_self_sqrt hx) _ _ _ _ _ _ rfl
    (by norm_num) (f0 := ⟨![16, 16], fun _ => true, [![-4, 0], ![0, 0]], [![-4, 0], ![0, 0]]⟩) rfl (by decide)
    (Or.inl rfl) (fun _ => rfl) (fun _ => rfl) (againExample_inside _ (by simp [againExample]))
    (againExample_cells _) 0 1 ![-4, 0] ![0, 0] (fun _ => by decide) rfl rfl ?_ ?_
  · simp only [againExample_dist, List.length_cons, List.length_nil]
    norm_num
  · simp only [againExample_dist]
    exact le_refl (4 : ℝ)

/-- Those of `C100_counterexample_cells` hold, too: the first table has four points. -/
example : grFastCall Real.sqrt 3 1000000 (againExample ℝ) 1 = .error .outOfBounds := by
  have hs : (1 : ℝ) ≤ Real.sqrt ((2 : ℕ) : ℝ) := by
    rw [Real.one_le_sqrt]; norm_num
  have hmem : ∀ P : GrFrame 2 ℝ → Prop,
      P ⟨![16, 16], fun _ => true, [![-4, 0], ![0, 0]], [![-4, 0], ![0, 0]]⟩ → ∀ f ∈ (againExample ℝ).frames, P f := by
    intro P hP f hf
    simp only [againExample, List.mem_cons, List.not_mem_nil, or_false] at hf
    subst hf
    exact hP
  have hreg : GrRegular Real.sqrt (againExample ℝ) 1 2 2
      ⟨![16, 16], fun _ => true, [![-4, 0], ![0, 0]], [![-4, 0], ![0, 0]]⟩ := by
    refine ⟨rfl, by decide, by norm_num, rfl, rfl, ⟨0, ?_⟩, hmem _ ?_, by norm_num, by norm_num, hmem _ rfl,
      hmem _ rfl, fun _ => hmem _ rfl⟩
    · show 3 / 2 * (1 : ℝ) ≤ 16 * Real.sqrt ((2 : ℕ) : ℝ)
      exact le_trans (by norm_num) (mul_le_mul_of_nonneg_left hs (by norm_num : (0 : ℝ) ≤ 16))
    · intro c
      fin_cases c <;> norm_num
  obtain ⟨t, -, h1, h2⟩ := C100_counterexample_cells Real.sqrt Real.sqrt_nonneg (fun x hx => Real.mul_self_sqrt hx)
    (pi := 3) (by norm_num) 1000000 (againExample ℝ) hreg (Or.inl rfl) (hmem _ fun _ => rfl) (hmem _ rfl)
    againExample_inside (againExample_cells none)
  have h3 : 3 < t.length := by rw [h1]; norm_num [againExample]
  have h4 : ¬ 4 < t.length := by rw [h1]; norm_num [againExample]
  have h5 : t.length = 4 := by omega
  refine h2 (by omega) 0 1 ![-4, 0] ![0, 0] (fun _ => by decide) rfl rfl ?_ ?_
  · rw [h5]; simp only [againExample_dist]; norm_num
  · simp only [againExample_dist]
    exact le_refl (4 : ℝ)

/-- The hypotheses of `C101_safe_partial` hold for a grid up to 12. -/
example : ∃ t, grFast Real.sqrt 3 1000000
      { againExample ℝ with rgrid := some ((List.range 12).map fun i : ℕ => 1 / 2 + (i : ℝ) * 1) } = .ok t ∧
    t.map Prod.fst <+: (List.range 12).map fun i : ℕ => 1 / 2 + (i : ℝ) * 1 := by
  have hmem : ∀ P : GrFrame 2 ℝ → Prop,
      P ⟨![16, 16], fun _ => true, [![-4, 0], ![0, 0]], [![-4, 0], ![0, 0]]⟩ → ∀ f ∈ (againExample ℝ).frames, P f := by
    intro P hP f hf
    simp only [againExample, List.mem_cons, List.not_mem_nil, or_false] at hf
    subst hf
    exact hP
  refine C101_safe_partial Real.sqrt Real.sqrt_nonneg (fun x hx => Real.mul_self_sqrt hx) (pi := 3) (by norm_num) _
    { againExample ℝ with rgrid := some ((List.range 12).map fun i : ℕ => 1 / 2 + (i : ℝ) * 1) } (w := 1) (n := 12) (n0 := 2) (n1 := 2) (f0 := ⟨![16, 16], fun _ => true, [![-4, 0], ![0, 0]], [![-4, 0], ![0, 0]]⟩)
    ⟨rfl, by decide, by norm_num, by decide, hmem _ ?_, by norm_num, by norm_num, hmem _ rfl,
      hmem _ rfl, fun _ => hmem _ rfl⟩ (Or.inl rfl) (hmem _ fun _ => rfl) (hmem _ rfl) againExample_inside (by decide)
    rfl (Or.inr ⟨againExample_cells _, ?_⟩)
  · intro c
    fin_cases c <;> norm_num
  · have h2 : Real.sqrt ((2 : ℕ) : ℝ) < 3 / 2 := by
      rw [Real.sqrt_lt' (by norm_num)]; norm_num
    intro c
    have : (![16, 16] : Vec 2 ℝ) c = 16 := by fin_cases c <;> rfl
    simp only [this]
    norm_num at h2 ⊢
    linarith

end
end PP.Props
