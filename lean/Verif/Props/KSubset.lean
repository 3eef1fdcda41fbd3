import Verif.Props.KObject

/-!
# C214: the result at a wave-number and the other wave-numbers requested
-/

namespace PP.Props

open PP

set_option linter.unusedSectionVars false

variable {d : ℕ}

theorem smallestK_pos {side : Vec d ℝ} (hside : ∀ c, 0 < side c) (c : Fin d) : 0 < smallestK Real.pi side c := by
  unfold smallestK; exact div_pos (by positivity) (hside c)

theorem pySorted_separated {g : List ℝ} {δ : ℝ} (hδ : 0 < δ) (hsep : g.Pairwise fun a b => a + δ ≤ b) :
    pySorted g = g := by
  unfold pySorted
  exact List.Pairwise.insertionSort_eq (hsep.imp fun h => by linarith)

theorem initialGrid_nonneg {p : KParams ℝ} {k0 : Vec d ℝ} {g : List ℝ} (hs : pySorted g = g) (hg : ∀ x ∈ g, 0 ≤ x)
    (hne : g ≠ []) : initialGrid p k0 (some g) = .ok g := by
  unfold initialGrid
  cases g with
  | nil => exact absurd rfl hne
  | cons a r => simp only [hs, if_neg (not_lt.2 (hg a (by simp)))]

/-- With shells that do not overlap, the first shell a norm fits in is the only one. -/
theorem first_separated {g : List ℝ} {δ : ℝ} (hδ : 0 < δ) (hsep : g.Pairwise fun a b => a + 2 * δ ≤ b) {i : ℕ} {k : ℝ}
    (hk : g[i]? = some k) (x : ℝ) : Spec.First g (List.replicate g.length δ) i x ↔ |x - k| < δ := by
  obtain ⟨hi, hik⟩ := List.getElem?_eq_some_iff.1 hk
  have hrep : ∀ j < g.length, (List.replicate g.length δ).getD j 0 = δ := by
    intro j hj; rw [List.getD_eq_getElem _ _ (by simpa using hj)]; simp
  have hget : ∀ (j) (hj : j < g.length), g.getD j 0 = g[j] := fun j hj => List.getD_eq_getElem _ _ hj
  unfold Spec.First Spec.Fits
  rw [hrep i hi, hget i hi, hik]
  constructor
  · exact fun h => h.2.1
  · intro h
    have hb := abs_lt.1 h
    refine ⟨?_, h, ?_⟩
    · unfold Spec.kTop
      rw [List.length_replicate, hrep _ (by omega), hget _ (by omega)]
      by_cases he : i = g.length - 1
      · subst he; rw [hik]; linarith
      · have := List.pairwise_iff_getElem.1 hsep i (g.length - 1) hi (by omega) (by omega)
        rw [hik] at this
        linarith
    · intro j hj hf
      rw [hrep j (by omega), hget j (by omega)] at hf
      have h1 := abs_lt.1 hf
      have := List.pairwise_iff_getElem.1 hsep j i (by omega) hi hj
      rw [hik] at this
      linarith

/-- The wave-vectors at a grid point when the shells do not overlap, none is empty, and all wave-vectors of the shell
are used. -/
theorem setup_separated {depth : ℕ} {pick : ℕ → List (KVec d) → ℕ → List (KVec d)} (hpick : IsSample pick)
    {p : KParams ℝ} (hdk : 0 < p.dk) {side : Vec d ℝ} (hside : ∀ c, 0 < side c) {g : List ℝ} (hg : ∀ x ∈ g, 0 ≤ x)
    (hsep : g.Pairwise fun a b => a + 2 * p.dk ≤ b)
    (hpop : ∀ x ∈ g, ∃ v : Fin d → ℤ, |Spec.knorm (smallestK Real.pi side) v - x| < p.dk)
    {s : KState d ℝ} (h : kSetup Real.sqrt Real.pi depth pick p side (some g) = .ok s) {i : ℕ} {k : ℝ}
    (hk : g[i]? = some k)
    (hnk : (({v | |Spec.knorm (smallestK Real.pi side) v - k| < p.dk} : Set (Fin d → ℤ)).ncard : ℤ) ≤ p.nk) :
    s.k0 = smallestK Real.pi side ∧ s.kgrid.length = g.length ∧ (s.kvectors.getD i []).Nodup ∧
    ∀ w : KVec d, w ∈ s.kvectors.getD i [] ↔
      |Spec.knorm (smallestK Real.pi side) (fun c => w c - s.koffset) - k| < p.dk := by
  have hk0 := smallestK_pos hside
  obtain ⟨hi, hik⟩ := List.getElem?_eq_some_iff.1 hk
  have hne : g ≠ [] := by rintro rfl; simp at hi
  have hreq : initialGrid p (smallestK Real.pi side) (some g) = .ok g :=
    initialGrid_nonneg (pySorted_separated (by linarith : 0 < 2 * p.dk) hsep) hg hne
  unfold kSetup at h
  simp only [hreq, bind, Except.bind] at h
  have hdkn : ∀ i < g.length, 0 ≤ (List.replicate g.length p.dk).getD i 0 := by
    intro i hi; rw [List.getD_eq_getElem _ _ (by simpa using hi)]; simpa using hdk.le
  cases depth with
  | zero => cases h
  | succ depth =>
    cases hgs : setupGridSphere Real.sqrt (smallestK Real.pi side) g (depth + 1) (List.replicate g.length p.dk) with
    | error e => rw [hgs] at h; cases h
    | ok r =>
      obtain ⟨kvec, koff, dk⟩ := r
      obtain ⟨-, hd, -, -, -, -⟩ := setup_ok hk0 (by simp) hdkn hgs
      obtain ⟨kv1, kb1, hf, hl, -, hsp⟩ := fillShells_spec hk0 hd hne
        (dk := List.replicate g.length p.dk) (by simp)
      have htop : 0 ≤ Spec.kTop g (List.replicate g.length p.dk) := by
        unfold Spec.kTop
        rw [List.length_replicate]
        refine add_nonneg ?_ (hdkn _ (by omega))
        rw [List.getD_eq_getElem _ _ (by omega)]
        exact hg _ (List.getElem_mem _)
      have hmem : ∀ j (hj : j < g.length) (w : KVec d), w ∈ kv1.getD j [] ↔
          |Spec.knorm (smallestK Real.pi side) (fun c => w c - kb1) - g[j]| < p.dk := by
        intro j hj w
        rw [(hsp j hj).2.1 htop, first_separated hdk hsep (List.getElem?_eq_getElem hj)]
      have hall : (kv1.all fun s => !s.isEmpty) = true := by
        rw [List.all_eq_true]
        intro l hl1
        obtain ⟨j, hj, rfl⟩ := List.getElem_of_mem hl1
        obtain ⟨v, hv⟩ := hpop g[j] (List.getElem_mem _)
        have := (hmem j (by omega) fun c => v c + kb1).2 (by simpa using hv)
        rw [List.getD_eq_getElem _ _ hj] at this
        cases hkv : kv1[j] with
        | nil => rw [hkv] at this; cases this
        | cons a r => rfl
      rw [setupGridSphere, hf] at hgs
      simp only [bind, Except.bind, hall, if_true] at hgs
      cases hgs
      rw [setupGridSphere, hf] at h
      simp only [bind, Except.bind, hall, if_true, pure, Except.pure] at h
      cases hm : kvec.zipIdx.mapM (fun e => decimate pick p.nk e.2 e.1) with
      | error e => rw [hm] at h; cases h
      | ok kv =>
        rw [hm] at h
        cases h
        obtain ⟨hl2, hget⟩ := mapM_ok_get hm
        rw [List.length_zipIdx] at hl2
        have hi1 : i < kvec.length := by omega
        have hi2 : i < kv.length := by omega
        have hg1 := hget i (by simpa using hi1) hi2
        simp only [List.getElem_zipIdx, Nat.zero_add] at hg1
        have hnd := (hsp i hi).1
        have hme := hmem i hi
        rw [List.getD_eq_getElem _ _ hi1] at hnd hme
        rw [hik] at hme
        have hcard : ({v | |Spec.knorm (smallestK Real.pi side) v - k| < p.dk} : Set (Fin d → ℤ)).ncard =
            kvec[i].length := by
          classical
          have e : ({v | |Spec.knorm (smallestK Real.pi side) v - k| < p.dk} : Set (Fin d → ℤ)) =
              ((kvec[i].map fun w c => w c - koff).toFinset : Set (Fin d → ℤ)) := by
            ext v
            simp only [Set.mem_ofPred_eq, List.coe_toFinset, List.mem_map]
            constructor
            · intro hv
              exact ⟨fun c => v c + koff, (hme _).2 (by simpa using hv), by funext c; simp⟩
            · rintro ⟨w, hw, rfl⟩; exact (hme w).1 hw
          rw [e, Set.ncard_coe_finset, List.toFinset_card_of_nodup, List.length_map]
          refine List.Nodup.map ?_ hnd
          intro a b hab
          funext c
          simpa using congrFun hab c
        rw [hcard] at hnk
        unfold decimate at hg1
        simp only at hg1
        rw [if_neg (by omega)] at hg1
        have hmin : (min p.nk (kvec[i].length : ℤ)).toNat = kvec[i].length := by omega
        rw [hmin] at hg1
        obtain ⟨hs1, hs2⟩ := hpick i kvec[i] kvec[i].length le_rfl
        rw [Except.ok.inj hg1] at hs1 hs2
        have hperm : kv[i].Perm kvec[i] := hs2.perm_of_length_le hs1.ge
        refine ⟨rfl, by simp [hl2, hl], ?_, ?_⟩
        · dsimp only
          rw [List.getD_eq_getElem _ _ hi2]
          exact hperm.nodup_iff.2 hnd
        · intro w
          dsimp only
          rw [List.getD_eq_getElem _ _ hi2, hperm.mem_iff]
          exact hme w

theorem kvectorsGet_at (s : KState d ℝ) (i : ℕ) :
    (kvectorsGet s).getD i [] = (s.kvectors.getD i []).map (kvecOf s) := by
  unfold kvectorsGet
  rw [List.getD_eq_getElem?_getD, List.getD_eq_getElem?_getD, List.getElem?_map]
  rcases s.kvectors[i]? with _ | l <;> rfl

theorem kvecOf_injective {s : KState d ℝ} (h0 : ∀ c, 0 < s.k0 c) : Function.Injective (kvecOf s) := by
  intro a b hab
  funext c
  have := congrFun hab c
  unfold kvecOf at this
  have h1 := mul_left_cancel₀ (h0 c).ne' this
  have h2 : a c - s.koffset = b c - s.koffset := by exact_mod_cast h1
  omega

/-- The norm of the wave-vector stored as `w`. -/
theorem norm_kvecOf (s : KState d ℝ) (w : KVec d) :
    √(∑ c, kvecOf s w c ^ 2) = Spec.knorm s.k0 fun c => w c - s.koffset := by
  unfold Spec.knorm kvecOf
  simp

/-- **C214**: suppose that no two requested wave-numbers are closer than `2*dk`, that there are wave-vectors around each
of them and that `nk` is at least the number of wave-vectors around `k`. The wave-vectors used for `k` are those of the
cell whose norm differs from `k` by less than `dk`, each taken once: whatever the random draws, they do not depend on
the other wave-numbers requested. -/
theorem C214_wave_vectors_partial {depth : ℕ} {pick : ℕ → List (KVec d) → ℕ → List (KVec d)} (hpick : IsSample pick)
    {p : KParams ℝ} (hdk : 0 < p.dk) {side : Vec d ℝ} (hside : ∀ c, 0 < side c) {g : List ℝ} (hg : ∀ x ∈ g, 0 ≤ x)
    (hsep : g.Pairwise fun a b => a + 2 * p.dk ≤ b)
    (hpop : ∀ x ∈ g, ∃ v : Fin d → ℤ, |√(∑ c, (2 * Real.pi / side c * v c) ^ 2) - x| < p.dk)
    {s : KState d ℝ} (h : kSetup Real.sqrt Real.pi depth pick p side (some g) = .ok s) {i : ℕ} {k : ℝ}
    (hk : g[i]? = some k)
    (hnk : (({v | |√(∑ c, (2 * Real.pi / side c * v c) ^ 2) - k| < p.dk} : Set (Fin d → ℤ)).ncard : ℤ) ≤ p.nk) :
    ((kvectorsGet s).getD i []).Nodup ∧ ∀ q : Fin d → ℝ, q ∈ (kvectorsGet s).getD i [] ↔
      (∃ v : Fin d → ℤ, ∀ c, q c = 2 * Real.pi / side c * v c) ∧ |√(∑ c, q c ^ 2) - k| < p.dk := by
  obtain ⟨h1, -, h2, h3⟩ := setup_separated hpick hdk hside hg hsep hpop h hk hnk
  have hk0 : ∀ c, 0 < s.k0 c := by rw [h1]; exact smallestK_pos hside
  rw [kvectorsGet_at]
  refine ⟨h2.map (kvecOf_injective hk0), ?_⟩
  intro q
  rw [List.mem_map]
  constructor
  · rintro ⟨w, hw, rfl⟩
    refine ⟨⟨fun c => w c - s.koffset, fun c => ?_⟩, ?_⟩
    · unfold kvecOf; rw [h1]; rfl
    · rw [norm_kvecOf, h1]; exact (h3 w).1 hw
  · rintro ⟨⟨v, hv⟩, hq⟩
    have e : kvecOf s (fun c => v c + s.koffset) = q := by
      funext c
      unfold kvecOf
      rw [hv c, h1]
      simp [smallestK]
    refine ⟨_, (h3 _).2 ?_, e⟩
    have := norm_kvecOf s fun c => v c + s.koffset
    rw [e, h1] at this
    rw [← this]
    exact hq

theorem modesValue_of_perm (weighted : Bool) {l l' : List (ℂ × ℂ)} (h : l.Perm l') :
    modesValue weighted l = modesValue weighted l' := by
  unfold modesValue
  rw [(h.map _).sum_eq, h.length_eq, (h.map Prod.fst).sum_eq, (h.map Prod.snd).sum_eq]

/-- Regularity of the object for a constant cell, after the setup. -/
theorem constSk_regular (o : SkChoices d) (hpick : IsSample o.pick) (hnk : 1 ≤ o.params.nk) (hdk : 0 ≤ o.params.dk)
    (hsame : o.same = true) (hskip : 0 < o.skip) {fr : List (CellFrame d)} {f0 : CellFrame d} (h0 : fr[0]? = some f0)
    (hside : ∀ c, 0 < f0.side c) (hpos : ∀ f ∈ fr, f.pos0 ≠ [] ∧ f.pos1 = f.pos0 ∧ f.w1 = f.w0)
    {grid : Option (List ℝ)} {s : KState d ℝ}
    (hs : kSetup Real.sqrt Real.pi o.depth o.pick o.params f0.side grid = .ok s) {req : List ℝ}
    (hreq : initialGrid o.params (smallestK Real.pi f0.side) grid = .ok req) (hne : req ≠ [])
    (hnn : ∀ i < req.length, 0 ≤ req.getD i 0) : SkRegular (constSk o fr s) := by
  obtain ⟨hk0, hl1, hl2, dk, -, hsel⟩ := setup_selection hpick hnk hdk hside hs hreq hnn
  have hfr : ∀ f ∈ (constSk o fr s).frames, ∃ f' ∈ fr, f = addKs s f' := by
    intro f hf
    obtain ⟨f', hf', rfl⟩ := List.mem_map.1 hf
    exact ⟨f', hf', rfl⟩
  refine ⟨?_, hskip, Or.inl hsame, ?_, ?_, ?_, ?_, ?_⟩
  · rintro h
    have : fr = [] := by simpa [constSk] using h
    rw [this] at h0
    cases h0
  · rintro - f hf
    obtain ⟨f', hf', rfl⟩ := hfr f hf
    exact (hpos f' hf').2
  · intro f hf
    obtain ⟨f', hf', rfl⟩ := hfr f hf
    exact (hpos f' hf').1
  · intro f hf
    obtain ⟨f', hf', rfl⟩ := hfr f hf
    show f'.pos1 ≠ []
    rw [(hpos f' hf').2.1]
    exact (hpos f' hf').1
  · intro f hf
    obtain ⟨f', hf', rfl⟩ := hfr f hf
    have hpos0 : 0 < req.length := List.length_pos_iff.2 hne
    refine ⟨(hsel 0 hpos0).2.2.2.2.2.2.2.2, ?_⟩
    intro l hl v hv c
    change l ∈ s.kvectors at hl
    obtain ⟨i, hi, rfl⟩ := List.getElem_of_mem hl
    have hi' : i < req.length := by rw [← hl2]; exact hi
    have := (hsel i hi').2.2.2.2.2.2.2.1 v (by rw [List.getD_eq_getElem _ _ hi]; exact hv) c
    show 0 ≤ v c ∧ v c ≤ 2 * s.koffset
    omega
  · intro f hf
    obtain ⟨f', hf', rfl⟩ := hfr f hf
    refine ⟨by show s.kvectors.length = s.kgrid.length; omega, ?_⟩
    intro l hl
    change l ∈ s.kvectors at hl
    obtain ⟨i, hi, rfl⟩ := List.getElem_of_mem hl
    have hi' : i < req.length := by rw [← hl2]; exact hi
    have := (hsel i hi').2.1
    rwa [List.getD_eq_getElem _ _ hi] at this

/-- `compute()` with a separated k grid passed to the constructor. -/
theorem skComputeA_given (o : SkChoices d) (hpick : IsSample o.pick) (hnk : 1 ≤ o.params.nk) (hdk : 0 < o.params.dk)
    (hsame : o.same = true) (hskip : 0 < o.skip) {fr : List (CellFrame d)} {f0 : CellFrame d} (h0 : fr[0]? = some f0)
    (hc : ∀ f ∈ fr, f.side = f0.side) (hside : ∀ c, 0 < f0.side c)
    (hpos : ∀ f ∈ fr, f.pos0 ≠ [] ∧ f.pos1 = f.pos0 ∧ f.w1 = f.w0) {g : List ℝ} (hg : ∀ x ∈ g, 0 ≤ x)
    (hsort : pySorted g = g) (hne : g ≠ []) {r : List ℝ × List ℝ × KAttrs d ℝ}
    (h : skComputeA o fr (KAttrs.new d (some g)) = .ok r) :
    ∃ s, kSetup Real.sqrt Real.pi o.depth o.pick o.params f0.side (some g) = .ok s ∧ r.1 = s.kgrid ∧
      r.2.1 = (List.range s.kgrid.length).map fun n => modesValue o.weighted (gridModes (constSk o fr s) n) /
        √(skN0 (constSk o fr s) * skN1 (constSk o fr s)) := by
  have hreq : initialGrid o.params (smallestK Real.pi f0.side) (some g) = .ok g := initialGrid_nonneg hsort hg hne
  have hnn : ∀ i < g.length, 0 ≤ g.getD i 0 := by
    intro i hi
    rw [List.getD_eq_getElem _ _ hi]
    exact hg _ (List.getElem_mem _)
  cases hs : (KAttrs.new d (some g)).setup Real.sqrt Real.pi o.depth o.pick o.params 0 f0.side with
  | error e =>
    unfold skComputeA at h
    have hf : pyGet fr 0 = .ok f0 := by unfold pyGet; rw [h0]
    simp only [hf, hs, bind, Except.bind] at h
    cases h
  | ok a' =>
    obtain ⟨s, hs1, rfl⟩ := setup_new (a := KAttrs.new d (some g)) (fun _ => rfl) hs
    have hread : (attrsOf (KAttrs.new d (some g)).grid s).read = .ok s :=
      read_ok (a := attrsOf (KAttrs.new d (some g)).grid s) (k0 := s.k0) rfl
    rw [skComputeA_const o h0 (constant_cell h0 hc) hs hread rfl,
      skLegacy_eq _ (constSk_regular o hpick hnk hdk.le hsame hskip h0 hside hpos hs1 hreq hne hnn)] at h
    cases h
    exact ⟨s, hs1, rfl, rfl⟩

theorem perm_flatMap_left {α β : Type} (l : List α) {f f' : α → List β} (h : ∀ a ∈ l, (f a).Perm (f' a)) :
    (l.flatMap f).Perm (l.flatMap f') := by
  induction l with
  | nil => exact .nil
  | cons a l ih =>
    rw [List.flatMap_cons, List.flatMap_cons]
    exact (h a (by simp)).append (ih fun b hb => h b (by simp [hb]))

/-- **C214**: under the same conditions, for frames of a constant cell, the structure factor and the reported
wave-number at `k` are the same for two k grids passed to the constructor that both contain `k`. The random draws of
the two computations may differ. -/
theorem C214_values_partial (o o' : SkChoices d) (hpick : IsSample o.pick) (hpick' : IsSample o'.pick)
    (hp : o'.params = o.params) (hsame : o.same = true) (hsame' : o'.same = true) (hw : o'.weighted = o.weighted)
    (hsk : o'.skip = o.skip) (hskip : 0 < o.skip) (hdk : 0 < o.params.dk)
    {fr : List (CellFrame d)} {f0 : CellFrame d} (h0 : fr[0]? = some f0)
    (hc : ∀ f ∈ fr, f.side = f0.side) (hside : ∀ c, 0 < f0.side c)
    (hpos : ∀ f ∈ fr, f.pos0 ≠ [] ∧ f.pos1 = f.pos0 ∧ f.w1 = f.w0)
    {g g' : List ℝ} (hg : ∀ x ∈ g, 0 ≤ x) (hg' : ∀ x ∈ g', 0 ≤ x)
    (hsep : g.Pairwise fun a b => a + 2 * o.params.dk ≤ b) (hsep' : g'.Pairwise fun a b => a + 2 * o.params.dk ≤ b)
    (hpop : ∀ x ∈ g, ∃ v : Fin d → ℤ, |√(∑ c, (2 * Real.pi / f0.side c * v c) ^ 2) - x| < o.params.dk)
    (hpop' : ∀ x ∈ g', ∃ v : Fin d → ℤ, |√(∑ c, (2 * Real.pi / f0.side c * v c) ^ 2) - x| < o.params.dk)
    {i i' : ℕ} {k : ℝ} (hk : g[i]? = some k) (hk' : g'[i']? = some k) (hnk1 : 1 ≤ o.params.nk)
    (hnk : (({v | |√(∑ c, (2 * Real.pi / f0.side c * v c) ^ 2) - k| < o.params.dk} : Set (Fin d → ℤ)).ncard : ℤ) ≤
      o.params.nk)
    {r r' : List ℝ × List ℝ × KAttrs d ℝ} (h : skComputeA o fr (KAttrs.new d (some g)) = .ok r)
    (h' : skComputeA o' fr (KAttrs.new d (some g')) = .ok r') :
    i < r.1.length ∧ i' < r'.1.length ∧ r.1.getD i 0 = r'.1.getD i' 0 ∧ r.2.1.getD i 0 = r'.2.1.getD i' 0 := by
  have hdk' : 0 < o'.params.dk := by rw [hp]; exact hdk
  have hi := (List.getElem?_eq_some_iff.1 hk).1
  have hi' := (List.getElem?_eq_some_iff.1 hk').1
  have hne : g ≠ [] := by rintro rfl; simp at hi
  have hne' : g' ≠ [] := by rintro rfl; simp at hi'
  have h2 : 0 < 2 * o.params.dk := by linarith
  have hnn : ∀ (g : List ℝ), (∀ x ∈ g, 0 ≤ x) → ∀ i < g.length, 0 ≤ g.getD i 0 := by
    intro g hg i hi
    rw [List.getD_eq_getElem _ _ hi]
    exact hg _ (List.getElem_mem _)
  obtain ⟨s, hs, e1, e2⟩ := skComputeA_given o hpick hnk1 hdk hsame hskip h0 hc hside hpos hg
    (pySorted_separated h2 hsep) hne h
  obtain ⟨s', hs', e1', e2'⟩ := skComputeA_given o' hpick' (by rw [hp]; exact hnk1) hdk' hsame' (by rw [hsk]; exact hskip)
    h0 hc hside hpos hg' (pySorted_separated h2 hsep') hne' h'
  rw [hp] at hs'
  obtain ⟨m1, m2, m3, m4⟩ := setup_separated hpick hdk hside hg hsep hpop hs hk hnk
  obtain ⟨m1', m2', m3', m4'⟩ := setup_separated hpick' hdk hside hg' hsep' hpop' hs' hk' hnk
  have hk0 : ∀ c, 0 < s.k0 c := by rw [m1]; exact smallestK_pos hside
  have hk0' : ∀ c, 0 < s'.k0 c := by rw [m1']; exact smallestK_pos hside
  obtain ⟨q1, q2⟩ := C214_wave_vectors_partial hpick hdk hside hg hsep hpop hs hk hnk
  obtain ⟨q1', q2'⟩ := C214_wave_vectors_partial hpick' hdk hside hg' hsep' hpop' hs' hk' hnk
  have hperm : ((s.kvectors.getD i []).map (kvecOf s)).Perm ((s'.kvectors.getD i' []).map (kvecOf s')) := by
    rw [← kvectorsGet_at, ← kvectorsGet_at, List.perm_ext_iff_of_nodup q1 q1']
    intro q
    rw [q2, q2']
  obtain ⟨-, t1, t2, _, -, t⟩ := setup_selection hpick hnk1 hdk.le hside hs
    (initialGrid_nonneg (pySorted_separated h2 hsep) hg hne) (hnn g hg)
  obtain ⟨-, t1', t2', _, -, t'⟩ := setup_selection hpick' hnk1 hdk.le hside hs'
    (initialGrid_nonneg (pySorted_separated h2 hsep') hg' hne') (hnn g' hg')
  have hmean := (t i hi).2.2.2.2.2.1
  have hmean' := (t' i' hi').2.2.2.2.2.1
  refine ⟨by rw [e1, m2]; exact hi, by rw [e1', m2']; exact hi', ?_, ?_⟩
  · have hnorm : ∀ (s : KState d ℝ) (l : List (KVec d)), (l.map fun w => Spec.knorm s.k0 fun c => w c - s.koffset) =
        (l.map (kvecOf s)).map fun q => √(∑ c, q c ^ 2) := by
      intro s l
      rw [List.map_map]
      exact List.map_congr_left fun w _ => (norm_kvecOf s w).symm
    have hlen : (s.kvectors.getD i []).length = (s'.kvectors.getD i' []).length := by
      simpa using hperm.length_eq
    rw [e1, e1', hmean, hmean', hnorm, hnorm, (hperm.map _).sum_eq, hlen]
  · have hN : skN0 (constSk o fr s) = skN0 (constSk o' fr s') ∧ skN1 (constSk o fr s) = skN1 (constSk o' fr s') := by
      unfold skN0 skN1 constSk
      simp only [List.map_map, List.length_map]
      exact ⟨rfl, rfl⟩
    rw [e2, e2', List.getD_eq_getElem _ _ (by simp [m2]; exact hi), List.getD_eq_getElem _ _ (by simp [m2']; exact hi')]
    simp only [List.getElem_map, List.getElem_range]
    rw [hN.1, hN.2, hw]
    congr 1
    apply modesValue_of_perm
    have key : ∀ (o : SkChoices d) (s : KState d ℝ) (n : ℕ), 0 < o.skip → gridModes (constSk o fr s) n =
        (originFrames fr o.skip).flatMap fun f => ((s.kvectors.getD n []).map (kvecOf s)).map fun q =>
          (Spec.fieldMode q (realWeight o.weighted f.w0) f.pos0, Spec.fieldMode q (realWeight o.weighted f.w1) f.pos1) := by
      intro o s n _
      unfold gridModes
      have : originFrames (constSk o fr s).frames (constSk o fr s).skip =
          (originFrames fr o.skip).map (addKs s) := by
        unfold originFrames constSk
        rw [List.map_filterMap]
        simp only [List.getElem?_map, List.length_map]
      rw [this, List.flatMap_map]
      congr 1
      funext f
      rw [List.map_map]
      rfl
    rw [key o s i hskip, key o' s' i' (by rw [hsk]; exact hskip), hw, hsk]
    exact perm_flatMap_left _ fun f _ => hperm.map _

/-- Parameters of the examples. -/
noncomputable def exKP : KParams ℝ := ⟨9, 1 / 10, -1, 10, 20⟩

/-- Cell of the examples. -/
noncomputable def exKSide : Vec 2 ℝ := ![2 * Real.pi, 2 * Real.pi]

/-- Frame of the examples. -/
noncomputable def exKFrame : CellFrame 2 := ⟨exKSide, [![0, 1], ![1, 1]], [![0, 1], ![1, 1]], [], []⟩

theorem exKSide_pos : ∀ c, 0 < exKSide c := by
  intro c; fin_cases c <;> simp [exKSide, Real.pi_pos]

/-- Around the wave-number 1 of a square cell of side 2π there are at most nine wave-vectors. -/
theorem ex_shell : (({v | |√(∑ c, (2 * Real.pi / exKSide c * v c) ^ 2) - 1| < exKP.dk} :
    Set (Fin 2 → ℤ)).ncard : ℤ) ≤ exKP.nk := by
  have hsub : ({v | |√(∑ c, (2 * Real.pi / exKSide c * v c) ^ 2) - 1| < exKP.dk} :
      Set (Fin 2 → ℤ)) ⊆ ((Fintype.piFinset fun _ : Fin 2 => Finset.Icc (-1 : ℤ) 1 : Finset (Fin 2 → ℤ)) :
        Set (Fin 2 → ℤ)) := by
    intro v hv
    have hpi : 2 * Real.pi / (2 * Real.pi) = 1 := div_self (by positivity)
    simp only [exKP, exKSide, Set.mem_ofPred_eq, Fin.sum_univ_two, Matrix.cons_val_zero, Matrix.cons_val_one, hpi, one_mul] at hv
    have h1 := (abs_lt.1 hv).2
    have h2 : √((v 0 : ℝ) ^ 2 + (v 1 : ℝ) ^ 2) < 11 / 10 := by linarith
    rw [Real.sqrt_lt' (by norm_num)] at h2
    have h3 : (v 0) ^ 2 + (v 1) ^ 2 < 2 := by
      have : ((v 0 : ℝ) ^ 2 + (v 1 : ℝ) ^ 2) < 2 := by nlinarith
      exact_mod_cast this
    simp only [Finset.mem_coe, Fintype.mem_piFinset, Finset.mem_Icc]
    intro c
    fin_cases c
    · constructor <;> simp <;> nlinarith [sq_nonneg (v 1)]
    · constructor <;> simp <;> nlinarith [sq_nonneg (v 0)]
  have h := Set.ncard_le_ncard hsub (Finset.finite_toSet _)
  rw [Set.ncard_coe_finset] at h
  have hcard : (Fintype.piFinset fun _ : Fin 2 => Finset.Icc (-1 : ℤ) 1 : Finset (Fin 2 → ℤ)).card = 9 := by
    decide +kernel
  show _ ≤ (9 : ℤ)
  omega

/-- A non-trivial case: two particles in a square cell, S(1) computed with the k grids `[1]` and `[1, 2]`. -/
example : ∃ depth depth' r r',
    skComputeA ⟨depth, fun _ l n => l.take n, exKP, true, false, 1⟩
      [exKFrame] (KAttrs.new 2 (some [1])) = .ok r ∧
    skComputeA ⟨depth', fun _ l n => l.take n, exKP, true, false, 1⟩
      [exKFrame] (KAttrs.new 2 (some [1, 2])) = .ok r' ∧
    r.1.getD 0 0 = r'.1.getD 0 0 ∧ r.2.1.getD 0 0 = r'.2.1.getD 0 0 := by
  have hpi : 2 * Real.pi / (2 * Real.pi) = 1 := div_self (by positivity)
  have pop : ∀ n : ℕ, ∃ v : Fin 2 → ℤ,
      |√(∑ c, (2 * Real.pi / exKSide c * v c) ^ 2) - n| < exKP.dk := by
    intro n
    refine ⟨![(n : ℤ), 0], ?_⟩
    simp only [exKP, exKSide, Fin.sum_univ_two, Matrix.cons_val_zero, Matrix.cons_val_one, hpi, one_mul]
    rw [show ((((n : ℤ) : ℝ)) ^ 2 + ((0 : ℤ) : ℝ) ^ 2) = (n : ℝ) ^ 2 by push_cast; ring, Real.sqrt_sq (by positivity)]
    norm_num
  obtain ⟨depth, r, h, -, -⟩ := C147_constructor_partial isSample_take (Or.inl rfl) (p := exKP)
    (by norm_num [exKP]) (by norm_num [exKP]) (skip := 1) one_pos
    (fr := [exKFrame])
    (f0 := exKFrame) rfl (by simp) exKSide_pos (by simp [exKFrame])
    (g := [1]) (by simp) (by simp) false
  obtain ⟨depth', r', h', -, -⟩ := C147_constructor_partial isSample_take (Or.inl rfl) (p := exKP)
    (by norm_num [exKP]) (by norm_num [exKP]) (skip := 1) one_pos
    (fr := [exKFrame])
    (f0 := exKFrame) rfl (by simp) exKSide_pos (by simp [exKFrame])
    (g := [1, 2]) (by simp) (by simp) false
  refine ⟨depth, depth', r, r', h, h', ?_⟩
  have p1 := pop 1
  have p2 := pop 2
  push_cast at p1 p2
  have hsh : (({v | |√(∑ c, (2 * Real.pi / exKFrame.side c * v c) ^ 2) - 1| < exKP.dk} : Set (Fin 2 → ℤ)).ncard : ℤ) ≤
      exKP.nk := ex_shell
  exact (C214_values_partial (⟨depth, fun _ l n => l.take n, exKP, true, false, 1⟩ : SkChoices 2)
    ⟨depth', fun _ l n => l.take n, exKP, true, false, 1⟩ isSample_take isSample_take rfl rfl rfl rfl rfl one_pos (by norm_num [exKP])
    (f0 := exKFrame) rfl (by simp) exKSide_pos (by simp [exKFrame])
    (g := [1]) (g' := [1, 2]) (by simp) (by simp) (by simp) (by norm_num [exKP])
    (by intro x hx; rw [List.mem_singleton.1 hx]; exact p1)
    (by
      intro x hx
      simp only [List.mem_cons, List.not_mem_nil, or_false] at hx
      rcases hx with rfl | rfl
      · exact p1
      · exact p2)
    (i := 0) (i' := 0) (k := 1) rfl rfl (by norm_num [exKP]) hsh h h').2.2

/-- **C214** is false: if the norm of a wave-vector differs by less than `dk` from two wave-numbers `k1 < k2`, it is
used for `k2` when `k2` is requested alone (with `nk` large enough), and never when `k1` is requested as well. -/
theorem C214_counterexample {depth depth' : ℕ} {pick pick' : ℕ → List (KVec d) → ℕ → List (KVec d)}
    (hpick : IsSample pick) (hpick' : IsSample pick') {p : KParams ℝ} (hdk : 0 < p.dk) (hnk1 : 1 ≤ p.nk)
    {side : Vec d ℝ} (hside : ∀ c, 0 < side c) {k1 k2 : ℝ} (h1 : 0 ≤ k1) (h12 : k1 < k2) {v : Fin d → ℤ}
    (hv1 : |√(∑ c, (2 * Real.pi / side c * v c) ^ 2) - k1| < p.dk)
    (hv2 : |√(∑ c, (2 * Real.pi / side c * v c) ^ 2) - k2| < p.dk)
    (hnk : (({v | |√(∑ c, (2 * Real.pi / side c * v c) ^ 2) - k2| < p.dk} : Set (Fin d → ℤ)).ncard : ℤ) ≤ p.nk)
    {s s' : KState d ℝ} (h : kSetup Real.sqrt Real.pi depth pick p side (some [k2]) = .ok s)
    (h' : kSetup Real.sqrt Real.pi depth' pick' p side (some [k1, k2]) = .ok s') :
    (fun c => 2 * Real.pi / side c * v c) ∈ (kvectorsGet s).getD 0 [] ∧
    (fun c => 2 * Real.pi / side c * v c) ∉ (kvectorsGet s').getD 1 [] := by
  have hnn : ∀ i < [k1, k2].length, 0 ≤ [k1, k2].getD i 0 := by
    intro i hi
    match i, hi with
    | 0, _ => exact h1
    | 1, _ => exact h1.trans h12.le
  constructor
  · refine ((C214_wave_vectors_partial hpick hdk hside (g := [k2]) ?_ (by simp) ?_ h (i := 0) (k := k2) rfl hnk).2 _).2
      ⟨⟨v, fun c => rfl⟩, hv2⟩
    · intro x hx
      rw [List.mem_singleton.1 hx]
      exact h1.trans h12.le
    · intro x hx
      rw [List.mem_singleton.1 hx]
      exact ⟨v, hv2⟩
  · intro hm
    have hsort : pySorted [k1, k2] = [k1, k2] :=
      List.Pairwise.insertionSort_eq (by simpa using h12.le)
    have hreq : initialGrid p (smallestK Real.pi side) (some [k1, k2]) = .ok [k1, k2] :=
      initialGrid_nonneg hsort (by simp; exact ⟨h1, h1.trans h12.le⟩) (by simp)
    obtain ⟨e0, -, -, dk, -, hsel⟩ := setup_selection hpick' hnk1 hdk.le hside h' hreq hnn
    rw [kvectorsGet_at, List.mem_map] at hm
    obtain ⟨w, hw, hwe⟩ := hm
    have hf := ((hsel 1 (by simp)).2.2.2.1 w hw).2.2 0 one_pos
    obtain ⟨m, hm⟩ := (hsel 0 (by simp)).1
    apply hf
    unfold Spec.Fits
    rw [← norm_kvecOf, hwe, hm]
    refine lt_of_lt_of_le hv1 ?_
    have : (1 : ℝ) ≤ (6 / 5) ^ m := one_le_pow₀ (by norm_num)
    nlinarith

/-- A non-trivial case: the wave-vector (1, 0) of a square cell of side 2π, and the k grids `[1]` and `[0.95, 1]`. -/
example : ∃ depth depth' s s',
    kSetup Real.sqrt Real.pi depth (fun _ l n => l.take n) exKP exKSide
      (some [1]) = .ok s ∧
    kSetup Real.sqrt Real.pi depth' (fun _ l n => l.take n) exKP exKSide
      (some [19 / 20, 1]) = .ok s' ∧
    (kvectorsGet s).getD 0 [] ≠ (kvectorsGet s').getD 1 [] := by
  have hpi : 2 * Real.pi / (2 * Real.pi) = 1 := div_self (by positivity)
  have hs1 : pySorted ([1] : List ℝ) = [1] := List.Pairwise.insertionSort_eq (by simp)
  have hs2 : pySorted ([19 / 20, 1] : List ℝ) = [19 / 20, 1] := List.Pairwise.insertionSort_eq (by norm_num)
  have hnn : ∀ (g : List ℝ), (∀ x ∈ g, 0 ≤ x) → ∀ i < g.length, 0 ≤ g.getD i 0 := by
    intro g hg i hi
    rw [List.getD_eq_getElem _ _ hi]
    exact hg _ (List.getElem_mem _)
  have g1 : ∀ x ∈ ([1] : List ℝ), 0 ≤ x := by simp
  have g2 : ∀ x ∈ ([19 / 20, 1] : List ℝ), 0 ≤ x := by norm_num
  obtain ⟨depth, s, h⟩ := kSetup_exists (pick := fun _ l n => l.take n) (p := exKP) (Or.inl rfl)
    (by norm_num [exKP]) (by norm_num [exKP]) exKSide_pos (initialGrid_nonneg hs1 g1 (by simp)) (by simp) (hnn _ g1)
  obtain ⟨depth', s', h'⟩ := kSetup_exists (pick := fun _ l n => l.take n) (p := exKP) (Or.inl rfl)
    (by norm_num [exKP]) (by norm_num [exKP]) exKSide_pos (initialGrid_nonneg hs2 g2 (by simp)) (by simp) (hnn _ g2)
  refine ⟨depth, depth', s, s', h, h', ?_⟩
  have hn : √(∑ c, (2 * Real.pi / exKSide c * ((![1, 0] : Fin 2 → ℤ) c : ℝ)) ^ 2) = 1 := by
    simp [exKSide, Fin.sum_univ_two, hpi]
  obtain ⟨m1, m2⟩ := C214_counterexample isSample_take isSample_take (by norm_num [exKP]) (by norm_num [exKP]) exKSide_pos
    (k1 := 19 / 20) (k2 := 1) (by norm_num) (by norm_num) (v := ![1, 0])
    (by rw [hn]; norm_num [abs_lt, exKP]) (by rw [hn]; norm_num [exKP]) ex_shell h h'
  intro he
  rw [he] at m1
  exact m2 m1

end PP.Props
