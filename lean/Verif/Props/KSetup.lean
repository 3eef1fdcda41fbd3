import Verif.Props.Shells
import Mathlib.Data.Set.Card
import Mathlib.Data.List.Perm.Subperm

/-!
# C49, C50, C58: selection of wave-vectors, copying them, and sharing of the k grid
-/

namespace PP.Props

open PP

set_option linter.unusedSectionVars false

variable {d : ℕ}

theorem mapM_ok_get {α β : Type} {f : α → Py β} {l : List α} {r : List β} (h : l.mapM f = .ok r) :
    r.length = l.length ∧ ∀ (i : ℕ) (h1 : i < l.length) (h2 : i < r.length), f l[i] = .ok r[i] := by
  induction l generalizing r with
  | nil => cases h; simp
  | cons a l ih =>
    rw [List.mapM_cons] at h
    cases ha : f a with
    | error e => rw [ha] at h; cases h
    | ok b =>
      cases hl : l.mapM f with
      | error e => rw [ha, hl] at h; cases h
      | ok bs =>
        rw [ha, hl] at h
        cases h
        obtain ⟨h1, h2⟩ := ih hl
        refine ⟨by simp [h1], ?_⟩
        intro i hi hi'
        cases i with
        | zero => simpa using ha
        | succ i => simpa using h2 i (by simpa using hi) (by simpa using hi')

theorem mean_near {l : List ℝ} (hl : l ≠ []) {a δ : ℝ} (h : ∀ x ∈ l, |x - a| < δ) : |npMean l - a| < δ := by
  have key : ∀ l : List ℝ, l ≠ [] → (∀ x ∈ l, |x - a| < δ) →
      (l.length : ℝ) * (a - δ) < l.sum ∧ l.sum < (l.length : ℝ) * (a + δ) := by
    intro l
    induction l with
    | nil => intro h; exact absurd rfl h
    | cons x l ih =>
      intro _ hx
      have h1 := abs_lt.1 (hx x (by simp))
      by_cases hl : l = []
      · subst hl; simp; constructor <;> linarith
      · obtain ⟨h2, h3⟩ := ih hl fun y hy => hx y (by simp [hy])
        simp only [List.length_cons, List.sum_cons]
        push_cast
        constructor <;> nlinarith
  obtain ⟨h1, h2⟩ := key l hl h
  have hpos : (0 : ℝ) < l.length := by exact_mod_cast List.length_pos_iff.2 hl
  unfold npMean
  rw [abs_lt]
  constructor
  · have : a - δ < l.sum / l.length := by rw [lt_div_iff₀ hpos]; linarith
    linarith
  · have : l.sum / l.length < a + δ := by rw [div_lt_iff₀ hpos]; linarith
    linarith

/-- What `random.sample(l, n)` guarantees: `n` elements of `l` at distinct positions. -/
def IsSample {α : Type} (pick : ℕ → List α → ℕ → List α) : Prop :=
  ∀ i l n, n ≤ l.length → (pick i l n).length = n ∧ (pick i l n).Subperm l

/-- The selection for one requested grid `req`. -/
theorem setup_selection {depth : ℕ} {pick : ℕ → List (KVec d) → ℕ → List (KVec d)} (hpick : IsSample pick)
    {p : KParams ℝ} (hnk : 1 ≤ p.nk) (hdk : 0 ≤ p.dk) {side : Vec d ℝ} (hside : ∀ c, 0 < side c)
    {grid : Option (List ℝ)} {s : KState d ℝ} (h : kSetup Real.sqrt Real.pi depth pick p side grid = .ok s)
    {req : List ℝ} (hreq : initialGrid p (smallestK Real.pi side) grid = .ok req)
    (hpos : ∀ i < req.length, 0 ≤ req.getD i 0) :
    (∀ c, s.k0 c = 2 * Real.pi / side c) ∧ s.kgrid.length = req.length ∧ s.kvectors.length = req.length ∧
    ∃ dk : List ℝ, dk.length = req.length ∧ ∀ i < req.length,
      (∃ m : ℕ, dk.getD i 0 = p.dk * (6 / 5) ^ m) ∧
      s.kvectors.getD i [] ≠ [] ∧ (s.kvectors.getD i []).Nodup ∧
      (∀ w ∈ s.kvectors.getD i [], Spec.First req dk i (Spec.knorm s.k0 fun c => w c - s.koffset)) ∧
      ((s.kvectors.getD i []).length : ℤ) = min p.nk {v | Spec.First req dk i (Spec.knorm s.k0 v)}.ncard ∧
      s.kgrid.getD i 0 = ((s.kvectors.getD i []).map fun w => Spec.knorm s.k0 fun c => w c - s.koffset).sum /
        (s.kvectors.getD i []).length ∧
      |s.kgrid.getD i 0 - req.getD i 0| < dk.getD i 0 ∧
      (∀ w ∈ s.kvectors.getD i [], ∀ c, 0 < w c ∧ w c < 2 * s.koffset) ∧ 1 ≤ s.koffset := by
  have hk0 : ∀ c, 0 < smallestK Real.pi side c := fun c => by
    unfold smallestK; exact div_pos (by positivity) (hside c)
  unfold kSetup at h
  simp only [hreq, bind, Except.bind] at h
  cases hg : setupGridSphere Real.sqrt (smallestK Real.pi side) req depth (List.replicate req.length p.dk) with
  | error e => rw [hg] at h; cases h
  | ok r =>
    obtain ⟨kvec, koff, dk⟩ := r
    rw [hg] at h
    simp only [] at h
    have hdk0 : ∀ i < req.length, (List.replicate req.length p.dk).getD i 0 = p.dk := by
      intro i hi; rw [List.getD_eq_getElem _ _ (by simpa using hi)]; simp
    have hdkn : ∀ i < req.length, 0 ≤ (List.replicate req.length p.dk).getD i 0 := by
      intro i hi; rw [hdk0 i hi]; exact hdk
    obtain ⟨h1, h2, h3, h4, -⟩ := C47_shells hk0 (by simp) hdkn hpos hg
    obtain ⟨hn, hd, hdl, -, hf, -⟩ := setup_ok hk0 (by simp) hdkn hg
    cases hm : kvec.zipIdx.mapM (fun e => decimate pick p.nk e.2 e.1) with
    | error e => rw [hm] at h; cases h
    | ok kv =>
      rw [hm] at h
      cases h
      obtain ⟨hl, hget⟩ := mapM_ok_get hm
      rw [List.length_zipIdx] at hl
      refine ⟨fun c => rfl, by simp [hl, h1], by simp [hl, h1], dk, h2, ?_⟩
      intro i hi
      have hi1 : i < kvec.length := by omega
      have hi2 : i < kv.length := by omega
      have hg1 := hget i (by simpa using hi1) hi2
      simp only [List.getElem_zipIdx, Nat.zero_add] at hg1
      obtain ⟨hne, hnd, hmem⟩ := h4 i hi
      rw [List.getD_eq_getElem _ _ hi1] at hne hnd hmem
      have hlen0 : 0 < kvec[i].length := List.length_pos_iff.2 hne
      have hsel : kv[i] = pick i kvec[i] (min p.nk kvec[i].length).toNat := by
        unfold decimate at hg1
        simp only at hg1
        rw [if_neg (by omega)] at hg1
        exact (Except.ok.inj hg1).symm
      obtain ⟨hs1, hs2⟩ := hpick i kvec[i] (min p.nk kvec[i].length).toNat (by omega)
      rw [← hsel] at hs1 hs2
      have hsub : ∀ w ∈ kv[i], w ∈ kvec[i] := fun w hw => hs2.subset hw
      have hfirst : ∀ w ∈ kv[i], Spec.First req dk i (Spec.knorm (smallestK Real.pi side) fun c => w c - koff) := by
        intro w hw
        have := (hmem fun c => w c - koff).1 (by simpa using hsub w hw)
        exact this
      have hcard : ({v | Spec.First req dk i (Spec.knorm (smallestK Real.pi side) v)} : Set (Fin d → ℤ)).ncard =
          kvec[i].length := by
        classical
        have e : ({v | Spec.First req dk i (Spec.knorm (smallestK Real.pi side) v)} : Set (Fin d → ℤ)) =
            ((kvec[i].map fun w c => w c - koff).toFinset : Set (Fin d → ℤ)) := by
          ext v
          simp only [Set.mem_ofPred_eq, List.coe_toFinset, List.mem_map]
          rw [← hmem]
          constructor
          · intro hv; exact ⟨_, hv, by funext c; simp⟩
          · rintro ⟨w, hw, rfl⟩; simpa using hw
        rw [e, Set.ncard_coe_finset, List.toFinset_card_of_nodup, List.length_map]
        refine List.Nodup.map ?_ hnd
        intro a b hab
        funext c
        simpa using congrFun hab c
      have hknorm : ∀ w : KVec d, kNorm Real.sqrt (smallestK Real.pi side) koff w =
          Spec.knorm (smallestK Real.pi side) fun c => w c - koff := by
        intro w; unfold kNorm; rw [sqrt_kSq]
      have hkne : kv[i] ≠ [] := by
        intro h0
        rw [h0] at hs1
        simp at hs1
        omega
      have hmean : (kv.map fun l => npMean (l.map (kNorm Real.sqrt (smallestK Real.pi side) koff))).getD i 0 =
          npMean (kv[i].map fun w => Spec.knorm (smallestK Real.pi side) fun c => w c - koff) := by
        rw [List.getD_eq_getElem _ _ (by simpa using hi2), List.getElem_map]
        congr 1
        exact List.map_congr_left fun w _ => hknorm w
      rw [List.getD_eq_getElem _ _ hi2]
      refine ⟨?_, hkne, ?_, hfirst, ?_, ?_, ?_, ?_, ?_⟩
      · obtain ⟨m, hm⟩ := h3 i hi
        exact ⟨m, by rw [hm, hdk0 i hi]⟩
      · obtain ⟨l, hp, hsl⟩ := hs2
        exact hp.nodup_iff.1 (hnd.sublist hsl)
      · rw [hcard, hs1]; omega
      · dsimp only
        rw [hmean]; unfold npMean; simp
      · dsimp only
        rw [hmean]
        refine mean_near (by simpa using hkne) ?_
        intro x hx
        simp only [List.mem_map] at hx
        obtain ⟨w, hw, rfl⟩ := hx
        exact (hfirst w hw).2.1
      · intro w hw
        obtain ⟨kv', kb', hf', -, hkb, hsp⟩ := fillShells_spec hk0 hd hn hdl
        rw [hf] at hf'
        cases hf'
        have htop : 0 ≤ Spec.kTop req dk := by
          unfold Spec.kTop
          rw [hdl]
          refine add_nonneg (hpos _ (by omega)) ?_
          obtain ⟨m, hm⟩ := h3 (req.length - 1) (by omega)
          rw [hm]
          exact mul_nonneg (hdkn _ (by omega)) (by positivity)
        have := (hsp i hi).2.2 htop w
        rw [List.getD_eq_getElem _ _ hi1] at this
        exact this (hsub w hw)
      · obtain ⟨kv', kb', hf', -, hkb, hsp⟩ := fillShells_spec hk0 hd hn hdl
        rw [hf] at hf'
        cases hf'
        apply hkb
        unfold Spec.kTop
        rw [hdl]
        refine add_nonneg (hpos _ (by omega)) ?_
        obtain ⟨m, hm⟩ := h3 (req.length - 1) (by omega)
        rw [hm]
        exact mul_nonneg (hdkn _ (by omega)) (by positivity)

/-- **C49**. For a non-negative k grid given by the user, whatever the random draws: each grid point `i` uses
`min(nk, available)` distinct wave-vectors of its shell, all indices lie within the table of exponentials, the
reported value is the mean of their norms, and it lies within the final width of the requested value. The requested
values are those of the given grid in ascending order, and the final widths are the requested one times a power of
1.2. -/
theorem C49_selection {depth : ℕ} {pick : ℕ → List (KVec d) → ℕ → List (KVec d)} (hpick : IsSample pick)
    {p : KParams ℝ} (hnk : 1 ≤ p.nk) (hdk : 0 ≤ p.dk) {side : Vec d ℝ} (hside : ∀ c, 0 < side c)
    {g : List ℝ} (hg : ∀ x ∈ g, 0 ≤ x) {s : KState d ℝ}
    (h : kSetup Real.sqrt Real.pi depth pick p side (some g) = .ok s) :
    ∃ req dk : List ℝ, req.Perm g ∧ req.Pairwise (· ≤ ·) ∧ dk.length = req.length ∧
      s.kgrid.length = req.length ∧ s.kvectors.length = req.length ∧ ∀ i < req.length,
      (∃ m : ℕ, dk.getD i 0 = p.dk * (6 / 5) ^ m) ∧
      s.kvectors.getD i [] ≠ [] ∧ (s.kvectors.getD i []).Nodup ∧
      (∀ w ∈ s.kvectors.getD i [], Spec.First req dk i (Spec.knorm s.k0 fun c => w c - s.koffset) ∧
        ∀ c, 0 ≤ w c ∧ w c < 2 * s.koffset + 1) ∧
      ((s.kvectors.getD i []).length : ℤ) =
        min p.nk {v | Spec.First req dk i (Spec.knorm (fun c => 2 * Real.pi / side c) v)}.ncard ∧
      s.kgrid.getD i 0 = ((s.kvectors.getD i []).map fun w => Spec.knorm s.k0 fun c => w c - s.koffset).sum /
        (s.kvectors.getD i []).length ∧
      |s.kgrid.getD i 0 - req.getD i 0| < dk.getD i 0 := by
  have hsort : pySorted g ≠ [] := by
    intro h0
    have e : initialGrid p (smallestK Real.pi side) (some g) = .error .indexError := by
      simp only [initialGrid, h0]
    unfold kSetup at h
    simp only [e] at h
    cases h
  have hperm : (pySorted g).Perm g := List.perm_insertionSort _ _
  have hreq : initialGrid p (smallestK Real.pi side) (some g) = .ok (pySorted g) := by
    unfold initialGrid
    cases hs : pySorted g with
    | nil => exact absurd hs hsort
    | cons a r =>
      have : 0 ≤ a := hg a (hperm.subset (by rw [hs]; simp))
      simp only [hs, if_neg (not_lt.2 this)]
  have hpos : ∀ i < (pySorted g).length, 0 ≤ (pySorted g).getD i 0 := by
    intro i hi
    rw [List.getD_eq_getElem _ _ hi]
    exact hg _ (hperm.subset (List.getElem_mem _))
  obtain ⟨h0, h1, h2, dk, h3, h4⟩ := setup_selection hpick hnk hdk hside h hreq hpos
  refine ⟨pySorted g, dk, hperm, List.pairwise_insertionSort _ _, h3, h1, h2, ?_⟩
  intro i hi
  obtain ⟨a, b0, b, c, e, f, g', h', h''⟩ := h4 i hi
  have hk0 : s.k0 = fun c => 2 * Real.pi / side c := funext h0
  refine ⟨a, b0, b, ?_, ?_, f, g'⟩
  · intro w hw
    refine ⟨c w hw, fun c => ?_⟩
    have := h' w hw c
    omega
  · rw [e, hk0]

/-- **C49** (default grid). The same for the linear grid that is built when no grid is given: the requested values
are `ksamples` equally spaced ones from `kmin`, or from the smallest wave-vector if `kmin` is not positive, to
`kmax`. -/
theorem C49_default {depth : ℕ} {pick : ℕ → List (KVec d) → ℕ → List (KVec d)} (hpick : IsSample pick)
    {p : KParams ℝ} (hnk : 1 ≤ p.nk) (hdk : 0 ≤ p.dk) (hkmax : 0 ≤ p.kmax) {side : Vec d ℝ}
    (hside : ∀ c, 0 < side c) {s : KState d ℝ}
    (h : kSetup Real.sqrt Real.pi depth pick p side none = .ok s) :
    ∃ (a : ℝ) (req dk : List ℝ), 0 < a ∧ (0 < p.kmin → a = p.kmin) ∧
      (p.kmin ≤ 0 → (∃ c, a = 2 * Real.pi / side c) ∧ ∀ c, a ≤ 2 * Real.pi / side c) ∧
      req.length = p.ksamples.toNat ∧
      (∀ i < req.length, req.getD i 0 = a + i * (if p.ksamples > 1 then (p.kmax - a) / (p.ksamples - 1) else 0)) ∧
      dk.length = req.length ∧ s.kgrid.length = req.length ∧ s.kvectors.length = req.length ∧ ∀ i < req.length,
      (∃ m : ℕ, dk.getD i 0 = p.dk * (6 / 5) ^ m) ∧
      s.kvectors.getD i [] ≠ [] ∧ (s.kvectors.getD i []).Nodup ∧
      (∀ w ∈ s.kvectors.getD i [], Spec.First req dk i (Spec.knorm s.k0 fun c => w c - s.koffset) ∧
        ∀ c, 0 ≤ w c ∧ w c < 2 * s.koffset + 1) ∧
      ((s.kvectors.getD i []).length : ℤ) =
        min p.nk {v | Spec.First req dk i (Spec.knorm (fun c => 2 * Real.pi / side c) v)}.ncard ∧
      s.kgrid.getD i 0 = ((s.kvectors.getD i []).map fun w => Spec.knorm s.k0 fun c => w c - s.koffset).sum /
        (s.kvectors.getD i []).length ∧
      |s.kgrid.getD i 0 - req.getD i 0| < dk.getD i 0 := by
  have hk0 : ∀ c, 0 < smallestK Real.pi side c := fun c => by
    unfold smallestK; exact div_pos (by positivity) (hside c)
  obtain ⟨a, ha, ha1, ha2, hreq⟩ : ∃ a : ℝ, 0 < a ∧ (0 < p.kmin → a = p.kmin) ∧
      (p.kmin ≤ 0 → (∃ c, a = 2 * Real.pi / side c) ∧ ∀ c, a ≤ 2 * Real.pi / side c) ∧
      initialGrid p (smallestK Real.pi side) none = linearGrid a p.kmax (.int p.ksamples) := by
    by_cases hk : 0 < p.kmin
    · exact ⟨p.kmin, hk, fun _ => rfl, fun h => absurd hk (not_lt.2 h), by simp [initialGrid, hk]⟩
    · by_cases hd : d = 0
      · subst hd
        have e : initialGrid p (smallestK Real.pi side) none = .error .valueError := by
          simp [initialGrid, hk, pyMin]; rfl
        unfold kSetup at h
        simp only [e] at h
        cases h
      · obtain ⟨m, hm, hm0, hmk⟩ := pyMin_ofFn_pos hk0 hd
        refine ⟨m, hm0, fun h => absurd h hk, fun _ => ⟨?_, hmk⟩, ?_⟩
        · have aux : ∀ (l : List ℝ) (x : ℝ), l.foldl min x = x ∨ l.foldl min x ∈ l := by
            intro l
            induction l with
            | nil => intro x; simp
            | cons b l ih =>
              intro x
              rcases ih (min x b) with h | h
              · rw [List.foldl_cons, h]
                rcases min_choice x b with h' | h' <;> rw [h'] <;> simp
              · right; rw [List.foldl_cons]; simp [h]
          have : m ∈ List.ofFn (smallestK Real.pi side) := by
            cases hl : List.ofFn (smallestK Real.pi side) with
            | nil => rw [hl] at hm; cases hm
            | cons x l =>
              rw [hl] at hm
              simp only [pyMin] at hm
              have hm' : l.foldl min x = m := Except.ok.inj hm
              rcases aux l x with h | h
              · rw [← hm', h]; simp
              · rw [← hm']; simp [h]
          obtain ⟨c, hc⟩ := List.mem_ofFn.1 this
          exact ⟨c, hc.symm⟩
        · simp only [initialGrid, if_neg hk, hm]; rfl
  set req := (List.range p.ksamples.toNat).map fun i : ℕ =>
    a + (i : ℝ) * (if p.ksamples > 1 then (p.kmax - a) / ((p.ksamples : ℝ) - 1) else 0) with hr
  have hreq' : initialGrid p (smallestK Real.pi side) none = .ok req := hreq
  have hlen : req.length = p.ksamples.toNat := by simp [hr]
  have hval : ∀ i < req.length, req.getD i 0 =
      a + i * (if p.ksamples > 1 then (p.kmax - a) / (p.ksamples - 1) else 0) := by
    intro i hi
    rw [List.getD_eq_getElem _ _ hi]
    simp [hr]
  have hpos : ∀ i < req.length, 0 ≤ req.getD i 0 := by
    intro i hi
    rw [hval i hi]
    split_ifs with h1
    · have hi' : (i : ℝ) ≤ p.ksamples - 1 := by
        have : (i : ℤ) ≤ p.ksamples - 1 := by omega
        exact_mod_cast this
      have hp : (0 : ℝ) < p.ksamples - 1 := by
        have : (0 : ℤ) < p.ksamples - 1 := by omega
        exact_mod_cast this
      have hi0 : (0 : ℝ) ≤ i := Nat.cast_nonneg i
      have e : a + i * ((p.kmax - a) / (p.ksamples - 1)) =
          (a * ((p.ksamples - 1) - i) + i * p.kmax) / (p.ksamples - 1) := by
        field_simp; ring
      rw [e]
      apply div_nonneg _ hp.le
      have := mul_nonneg ha.le (sub_nonneg.2 hi')
      have := mul_nonneg hi0 hkmax
      linarith
    · simp [ha.le]
  obtain ⟨h0, h1, h2, dk, h3, h4⟩ := setup_selection hpick hnk hdk hside h hreq' hpos
  refine ⟨a, req, dk, ha, ha1, ha2, hlen, hval, h3, h1, h2, ?_⟩
  intro i hi
  obtain ⟨a, b0, b, c, e, f, g', h', h''⟩ := h4 i hi
  have hk0 : s.k0 = fun c => 2 * Real.pi / side c := funext h0
  refine ⟨a, b0, b, ?_, ?_, f, g'⟩
  · intro w hw
    refine ⟨c w hw, fun c => ?_⟩
    have := h' w hw c
    omega
  · rw [e, hk0]

/-- The setup succeeds for positive widths (with enough recursion depth), in two and three dimensions. -/
theorem kSetup_exists {pick : ℕ → List (KVec d) → ℕ → List (KVec d)} (hd : d = 2 ∨ d = 3)
    {p : KParams ℝ} (hnk : 0 ≤ p.nk) (hdk : 0 < p.dk) {side : Vec d ℝ} (hside : ∀ c, 0 < side c)
    {grid : Option (List ℝ)} {req : List ℝ} (hreq : initialGrid p (smallestK Real.pi side) grid = .ok req)
    (hne : req ≠ []) (hpos : ∀ i < req.length, 0 ≤ req.getD i 0) :
    ∃ depth s, kSetup Real.sqrt Real.pi depth pick p side grid = .ok s := by
  have hk0 : ∀ c, 0 < smallestK Real.pi side c := fun c => by
    unfold smallestK; exact div_pos (by positivity) (hside c)
  obtain ⟨depth, ⟨kvec, kbin, dk⟩, h⟩ := C48_terminates hk0 hd (kgrid := req)
    (dk0 := List.replicate req.length p.dk) hne (by simp)
    (fun i hi => by rw [List.getD_eq_getElem _ _ (by simpa using hi)]; simpa using hdk) hpos
  refine ⟨depth, ?_⟩
  have hm := mapM_ok_map (f := fun e : List (KVec d) × ℕ => decimate pick p.nk e.2 e.1)
    (g := fun e => pick e.2 e.1 (min p.nk e.1.length).toNat) (l := kvec.zipIdx)
    (fun e _ => by unfold decimate; simp only; rw [if_neg (by omega)])
  unfold kSetup
  simp only [hreq, h, bind, Except.bind, hm]
  exact ⟨_, rfl⟩

theorem isSample_take {α : Type} : IsSample fun _ (l : List α) n => l.take n := by
  intro i l n hn
  exact ⟨by simp [hn], (List.take_sublist n l).subperm⟩

/-- A non-trivial case of C49: an unsorted three-dimensional grid with repeated entry, at most 2 wave-vectors per
point; the choice of the first ones is a possible outcome of the random selection. -/
example : ∃ depth s, kSetup Real.sqrt Real.pi depth (fun _ l n => l.take n)
      { nk := 2, dk := 1 / 10, kmin := -1, kmax := 10, ksamples := 20 } (![5, 6, 7] : Vec 3 ℝ) (some [3, 2, 3]) = .ok s ∧
    s.kgrid.length = 3 ∧ ∀ i < 3, 1 ≤ (s.kvectors.getD i []).length ∧ (s.kvectors.getD i []).length ≤ 2 := by
  have hside : ∀ c, 0 < (![5, 6, 7] : Vec 3 ℝ) c := by intro c; fin_cases c <;> norm_num
  have hs : pySorted ([3, 2, 3] : List ℝ) = [2, 3, 3] := by
    norm_num [pySorted, List.insertionSort, List.orderedInsert]
  obtain ⟨depth, s, h⟩ := kSetup_exists (pick := fun _ l n => l.take n) (Or.inr rfl)
    (p := { nk := 2, dk := 1 / 10, kmin := -1, kmax := 10, ksamples := 20 }) (by norm_num) (by norm_num) hside
    (grid := some [3, 2, 3]) (req := [2, 3, 3]) (by simp [initialGrid, hs]) (by simp)
    (by intro i hi; simp at hi; interval_cases i <;> norm_num)
  refine ⟨depth, s, h, ?_⟩
  obtain ⟨req, dk, h1, h2, h3, h4, h5, h6⟩ := C49_selection isSample_take (by norm_num) (by norm_num) hside
    (by intro x hx; simp at hx; rcases hx with rfl | rfl | rfl <;> norm_num) h
  have hl : req.length = 3 := by simpa using h1.length_eq
  refine ⟨by omega, ?_⟩
  intro i hi
  obtain ⟨-, hne, -, -, hc, -, -⟩ := h6 i (by omega)
  have hle : ((s.kvectors.getD i []).length : ℤ) ≤ 2 := by rw [hc]; exact min_le_left _ _
  have := List.length_pos_iff.2 hne
  omega

end PP.Props
