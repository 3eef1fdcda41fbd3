import Verif.Props.CommandsK
import Verif.Props.KSubset

/-!
# C220: the command sk
-/

namespace PP.Props
open PP

variable {d : ℕ}

/-- The wave-numbers requested by the options of sk, in the order of the results: the numbers between the commas of `kgrid` in
increasing order, or `ksamples` equally spaced numbers from `kmin`, or from the smallest wave-vector of the cell if `kmin` is not
positive, to `kmax`. -/
def SkRequested (q : SkOptions) (side : Vec d ℝ) (k : List ℝ) : Prop :=
  match q.kgrid with
  | some s => ∃ (l : List Str) (v : List ℚ), l ≠ [] ∧ (∀ f ∈ l, ',' ∉ f) ∧ s = List.intercalate [','] l ∧
      List.Forall₂ (fun f x => pyFloatOfStr f = .ok x) l v ∧ k.Perm (v.map fun x : ℚ => (x : ℝ)) ∧ k.Pairwise (· ≤ ·)
  | none => ∃ a : ℝ, (0 < q.kmin → a = q.kmin) ∧
      (q.kmin ≤ 0 → (∃ c, a = 2 * Real.pi / side c) ∧ ∀ c, a ≤ 2 * Real.pi / side c) ∧
      k.length = q.ksamples ∧ ∀ (i : ℕ) (h : i < k.length), k[i] = a + i * ((q.kmax - a) / (q.ksamples - 1))

/-- The grid from which the wave-vectors are searched. -/
theorem SkRequested.initial {q : SkOptions} {side : Vec d ℝ} (hd : 0 < d) {k : List ℝ} (h : SkRequested q side k) (hne : k ≠ [])
    (hnn : ∀ x ∈ k, 0 ≤ x) :
    ∃ grid, q.grid = .ok grid ∧ initialGrid q.params (smallestK Real.pi side) grid = .ok k := by
  unfold SkRequested at h
  unfold SkOptions.grid
  cases hq : q.kgrid with
  | some s =>
    rw [hq] at h
    obtain ⟨l, v, h1, h2, rfl, h4, h5, h6⟩ := h
    refine ⟨some (v.map fun x : ℚ => (x : ℝ)), by simp only [(C168_kgrid l h1 h2).1 v h4, bind, Except.bind, pure, Except.pure], ?_⟩
    have hs : pySorted (v.map fun x : ℚ => (x : ℝ)) = k := by
      refine List.Perm.eq_of_pairwise (le := (· ≤ ·)) (fun a b _ _ => le_antisymm) ?_ h6
        ((List.perm_insertionSort _ _).trans h5.symm)
      exact List.pairwise_insertionSort _ _
    unfold initialGrid
    simp only [hs]
    cases k with
    | nil => exact absurd rfl hne
    | cons a r => simp only [if_neg (not_lt.2 (hnn a (by simp)))]
  | none =>
    rw [hq] at h
    obtain ⟨a, ha1, ha2, h1, h2⟩ := h
    refine ⟨none, rfl, ?_⟩
    have hlin : linearGrid a q.kmax (.int q.ksamples) = .ok k := by
      unfold linearGrid
      refine congrArg Except.ok ?_
      apply List.ext_getElem
      · simp [h1]
      · intro i hi hi'
        rw [h2 i hi', List.getElem_map, List.getElem_range]
        by_cases hn : (q.ksamples : ℤ) > 1
        · rw [if_pos hn]
          push_cast
          rfl
        · have : i = 0 := by omega
          subst this
          simp
    unfold initialGrid
    by_cases hk : 0 < q.kmin
    · have : q.params.kmin > 0 := hk
      simp only [if_pos this]
      rw [← hlin, ha1 hk]
      rfl
    · have : ¬ q.params.kmin > 0 := hk
      simp only [if_neg this]
      obtain ⟨m, hm, hm1, c, hc⟩ := pyMin_ofFn hd (smallestK Real.pi side)
      obtain ⟨⟨c', hc'⟩, hle⟩ := ha2 (not_lt.1 hk)
      have e : m = a := by
        apply le_antisymm
        · rw [hc']; exact hm1 c'
        · rw [← hc]; exact hle c
      rw [hm, e]
      exact hlin

/-- The wave-vectors selected by the setup. -/
theorem setup_waves {depth : ℕ} {pick : ℕ → List (KVec d) → ℕ → List (KVec d)} (hpick : IsSample pick)
    {p : KParams ℝ} (hnk : 1 ≤ p.nk) (hdk : 0 ≤ p.dk) {side : Vec d ℝ} (hside : ∀ c, 0 < side c)
    {grid : Option (List ℝ)} {s : KState d ℝ} (h : kSetup Real.sqrt Real.pi depth pick p side grid = .ok s)
    {req : List ℝ} (hreq : initialGrid p (smallestK Real.pi side) grid = .ok req)
    (hpos : ∀ i < req.length, 0 ≤ req.getD i 0) : Spec.Waves side p.nk s.kgrid (kvectorsGet s) := by
  obtain ⟨hk0, hl1, hl2, dk, -, hsel⟩ := setup_selection hpick hnk hdk hside h hreq hpos
  constructor
  · unfold kvectorsGet
    rw [List.length_map]
    omega
  · intro i hi
    obtain ⟨-, b1, b2, -, b3, b4, -⟩ := hsel i (by omega)
    have hk0p : ∀ c, 0 < s.k0 c := fun c => by rw [hk0 c]; exact div_pos (by positivity) (hside c)
    rw [kvectorsGet_at]
    refine ⟨by simpa using b1, b2.map (kvecOf_injective hk0p), ?_, ?_, ?_⟩
    · rw [List.length_map, b3]
      exact min_le_left _ _
    · intro w hw
      obtain ⟨v, -, rfl⟩ := List.mem_map.1 hw
      exact ⟨fun c => v c - s.koffset, fun c => by unfold kvecOf; rw [hk0 c]⟩
    · rw [b4]
      unfold Spec.mean
      rw [List.map_map, List.length_map]
      refine congrArg (· / _) (congrArg List.sum (List.map_congr_left fun w _ => ?_))
      exact (norm_kvecOf s w).symm

/-- The input with which the command is expected to work: a cell that does not change, particles in every frame, wave-numbers
that are not negative. -/
structure SkInput (q : SkOptions) (n : NOrigins) (bs : ℕ) (side : Vec d ℝ) (x : List (List (Vec d ℝ))) (k : List ℝ) (skip : ℤ) :
    Prop where
  dims : d = 2 ∨ d = 3
  side_pos : ∀ c, 0 < side c
  frames : x ≠ []
  particles : ∀ f ∈ x, f ≠ []
  skip : adjustSkip x.length bs (x.map List.length) n = .ok skip
  dk : 0 < q.dk
  nk : 1 ≤ q.nk
  klist : SkRequested q side k
  k_ne : k ≠ []
  k_nonneg : ∀ y ∈ k, 0 ≤ y

/-- **C220**: the command sk succeeds (with enough depth of recursion). It gives one wave-number for each one requested (within `dk`
of it if those requested are at least `2*dk` apart and there are wave-vectors around each of them) and one value for each of them: the
mean of the squared modulus of the density modes, over the frames used and over at most `nk` different wave-vectors that are
compatible with the cell and whose mean norm is the wave-number, divided by the mean number of particles. -/
theorem C220_definition {q : SkOptions} {n : NOrigins} {bs : ℕ} {side : Vec d ℝ} {x : List (List (Vec d ℝ))} {k : List ℝ} {skip : ℤ}
    (h : SkInput q n bs side x k skip) (pick : ℕ → List (KVec d) → ℕ → List (KVec d)) (hpick : IsSample pick) :
    ∃ depth ks vs Q, skCommand q n bs depth pick (x.map fun f => (side, f)) = .ok (ks, vs) ∧
      ks.length = k.length ∧ vs.length = k.length ∧ Spec.Waves side q.nk ks Q ∧
      (k.Pairwise (fun a b => a + 2 * q.dk ≤ b) →
        (∀ y ∈ k, ∃ v : Fin d → ℤ, |√(∑ c, (2 * Real.pi / side c * v c) ^ 2) - y| < q.dk) →
        ∀ i < k.length, |ks.getD i 0 - k.getD i 0| < q.dk) ∧
      (∀ i < k.length, vs.getD i 0 =
        Spec.mean ((Spec.everyNth skip.toNat x).flatMap fun f => (Q.getD i []).map fun v => ‖Spec.density v f‖ ^ 2) /
          Spec.mean (x.map fun f => (f.length : ℝ))) ∧
      (∀ v ∈ vs, 0 ≤ v) ∧ ∀ N : ℕ, (∀ f ∈ x, f.length = N) → ∀ v ∈ vs, v ≤ N := by
  have hd : 0 < d := by rcases h.dims with e | e <;> omega
  have hskip : 0 < skip.toNat := adjustSkip_pos (List.length_pos_iff.2 h.frames) h.skip
  have hnn : ∀ i < k.length, 0 ≤ k.getD i 0 := by
    intro i hi
    rw [List.getD_eq_getElem _ _ hi]
    exact h.k_nonneg _ (List.getElem_mem _)
  obtain ⟨grid, hgrid, hreq⟩ := h.klist.initial hd h.k_ne h.k_nonneg
  have hnk : 1 ≤ q.params.nk := h.nk
  have hdk : 0 < q.params.dk := h.dk
  obtain ⟨depth, s, hs⟩ := kSetup_exists (pick := pick) (p := q.params) h.dims (by omega) hdk h.side_pos hreq h.k_ne hnn
  obtain ⟨-, hl1, hl2, dk, -, hsel⟩ := setup_selection hpick hnk hdk.le h.side_pos hs hreq hnn
  have hset : (KAttrs.new d grid).setup Real.sqrt Real.pi depth pick q.params 0 side = .ok (attrsOf grid s) := by
    unfold KAttrs.setup
    rw [if_neg (by simp [KAttrs.new])]
    show (kSetup Real.sqrt Real.pi depth pick q.params side grid >>= _) = _
    rw [hs]
    rfl
  have hread : (attrsOf grid s).read = .ok s := read_ok (a := attrsOf grid s) (k0 := s.k0) rfl
  set o : SkChoices d := ⟨depth, pick, q.params, true, false, skip.toNat⟩ with ho
  set fr : List (CellFrame d) := x.map fun f => ⟨side, f, f, [], []⟩ with hfr
  obtain ⟨f1, r1, hx⟩ : ∃ f r, x = f :: r := List.exists_cons_of_ne_nil h.frames
  have h0 : fr[0]? = some ⟨side, f1, f1, [], []⟩ := by rw [hfr, hx]; rfl
  have hside : ∀ f ∈ fr, f.side = (⟨side, f1, f1, [], []⟩ : CellFrame d).side := by
    intro f hf
    obtain ⟨f', -, rfl⟩ := List.mem_map.1 hf
    rfl
  have hpos : ∀ f ∈ fr, f.pos0 ≠ [] ∧ f.pos1 = f.pos0 ∧ f.w1 = f.w0 := by
    intro f hf
    obtain ⟨f', hf', rfl⟩ := List.mem_map.1 hf
    exact ⟨h.particles f' hf', rfl, rfl⟩
  have hreg : SkRegular (constSk o fr s) :=
    constSk_regular o hpick hnk hdk.le rfl hskip h0 h.side_pos hpos hs hreq h.k_ne hnn
  obtain ⟨vs, nonorm, hv, hvl, -, hval⟩ := C80_definition (constSk o fr s) hreg rfl
  have hnk' : (constSk o fr s).nk = k.length := hl1
  have hcmd : skCommand q n bs depth pick (x.map fun f => (side, f)) = .ok (s.kgrid, vs) := by
    unfold skCommand
    rw [hgrid]
    simp only [bind, Except.bind, List.map_map, List.length_map, Function.comp_def]
    rw [show (x.map fun f => f.length) = x.map List.length from rfl, h.skip]
    simp only
    have := skComputeA_const o h0 (constant_cell h0 hside) hset hread rfl
    rw [hv] at this
    rw [show (x.map fun f => (⟨side, f, f, [], []⟩ : CellFrame d)) = fr from rfl, this]
    rfl
  refine ⟨depth, s.kgrid, vs, kvectorsGet s, hcmd, hl1, by rw [hvl, hnk'],
    setup_waves hpick hnk hdk.le h.side_pos hs hreq hnn, ?_, ?_, C51_nonneg _ hreg rfl rfl hv, ?_⟩
  · intro hsep hpop i hi
    obtain ⟨-, hne, -, -, -, hmean, -⟩ := hsel i hi
    rw [hmean]
    have hn := setup_near hpick (p := q.params) hdk h.side_pos h.k_nonneg hsep hpop hreq hs hi hnk
    have := abs_avg_lt (l := (s.kvectors.getD i []).map fun w => Spec.knorm s.k0 fun c => w c - s.koffset)
      (k := k.getD i 0) (δ := q.dk) (by simpa using hne) (by
        intro y hy
        obtain ⟨w, hw, rfl⟩ := List.mem_map.1 hy
        exact hn w hw)
    rwa [List.length_map] at this
  · intro i hi
    obtain ⟨v1, v2⟩ := hval i (by rw [hnk']; exact hi)
    have e : modeProducts (constSk o fr s) i =
        (Spec.everyNth skip.toNat x).flatMap fun f => ((kvectorsGet s).getD i []).map fun v => ‖Spec.density v f‖ ^ 2 := by
      unfold modeProducts
      show (Spec.everyNth skip.toNat (fr.map (addKs s))).flatMap _ = _
      rw [hfr, List.map_map, everyNth_map, List.flatMap_map]
      refine congrArg (fun F => List.flatMap F _) (funext fun f => ?_)
      refine List.map_congr_left fun v _ => ?_
      exact mul_star_re _
    have hm : ∀ F : SkFrame d → ℕ, (∀ f, F (addKs s ⟨side, f, f, [], []⟩) = f.length) →
        ((((constSk o fr s).frames.map F).sum : ℕ) : ℝ) / ((constSk o fr s).frames.length : ℝ) = Spec.mean (x.map fun f => (f.length : ℝ)) := by
      intro F hF
      unfold Spec.mean
      have e1 : (constSk o fr s).frames.map F = x.map List.length := by
        show (fr.map (addKs s)).map F = _
        rw [hfr, List.map_map, List.map_map]
        exact List.map_congr_left fun f _ => hF f
      have e2 : (constSk o fr s).frames.length = x.length := by
        show (fr.map (addKs s)).length = _
        rw [hfr]; simp
      rw [e1, e2, List.length_map, Nat.cast_list_sum, List.map_map]
      rfl
    rw [v2, v1, e, hm _ fun _ => rfl, hm _ fun _ => rfl, Real.sqrt_mul_self]
    · rfl
    · unfold Spec.mean
      refine div_nonneg (List.sum_nonneg ?_) (by positivity)
      intro y hy
      obtain ⟨f, -, rfl⟩ := List.mem_map.1 hy
      positivity
  · intro N hN
    refine C51_le_number _ hreg rfl rfl ?_ hv
    intro f hf
    obtain ⟨f', hf', rfl⟩ := List.mem_map.1 hf
    obtain ⟨f'', hf'', rfl⟩ := List.mem_map.1 hf'
    exact hN f'' hf''

/-- Options of the examples: the wave-numbers 2 and 1 written in this order. -/
noncomputable def exSkOpt : SkOptions := ⟨9, 1 / 10, -1, 15, 30, some "2,1".toList⟩

theorem exSkInput (x : List (List (Vec 2 ℝ))) (hx : x.length = 10) (hn : ∀ f ∈ x, f.length = 5) :
    SkInput exSkOpt (.num 5) 2 exKSide x [1, 2] 2 := by
  refine ⟨Or.inl rfl, exKSide_pos, ?_, ?_, ?_, by norm_num [exSkOpt], by norm_num [exSkOpt], ?_, by simp, by simp⟩
  · rintro rfl; simp at hx
  · rintro f hf rfl
    have := hn [] hf
    simp at this
  · have e : x.map List.length = List.replicate 10 5 := by
      rw [List.eq_replicate_iff]
      refine ⟨by simpa using hx, fun b hb => ?_⟩
      obtain ⟨f, hf, rfl⟩ := List.mem_map.1 hb
      exact hn f hf
    rw [hx, e]
    decide +kernel
  · refine ⟨["2".toList, "1".toList], [2, 1], by simp, by decide +kernel, by decide +kernel,
      .cons (by decide +kernel) (.cons (by decide +kernel) .nil), ?_, by simp⟩
    simpa using List.Perm.swap (2 : ℝ) 1 []

/-- A non-trivial case: ten frames of five particles in a square cell, in blocks of two, with five origins. -/
example (x : List (List (Vec 2 ℝ))) (hx : x.length = 10) (hn : ∀ f ∈ x, f.length = 5) :
    ∃ depth ks vs Q, skCommand exSkOpt (.num 5) 2 depth (fun _ l n => l.take n) (x.map fun f => (exKSide, f)) = .ok (ks, vs) ∧
      ks.length = 2 ∧ |ks.getD 1 0 - 2| < 1 / 10 ∧ Spec.Waves exKSide 9 ks Q ∧ (∀ v ∈ vs, 0 ≤ v ∧ v ≤ 5) ∧
      vs.getD 1 0 = Spec.mean ((Spec.everyNth 2 x).flatMap fun f => (Q.getD 1 []).map fun v => ‖Spec.density v f‖ ^ 2) /
        Spec.mean (x.map fun f => (f.length : ℝ)) := by
  obtain ⟨depth, ks, vs, Q, h1, h2, h3, h4, h5, h6, h7, h8⟩ := C220_definition (exSkInput x hx hn) _ isSample_take
  exact ⟨depth, ks, vs, Q, h1, h2, h5 (by norm_num [exSkOpt]) (fun y hy => exCommon.around y (by simp at hy ⊢; tauto)) 1 (by simp), h4,
    fun v hv => ⟨h7 v hv, by exact_mod_cast h8 5 hn v hv⟩, h6 1 (by simp)⟩

/-- Without `kgrid` and with the default `kmin`: three wave-numbers from the smallest wave-vector of the cell. -/
example : SkRequested ⟨20, 1 / 10, -1, 15, 3, none⟩ (![5, 7] : Vec 2 ℝ)
    [2 * Real.pi / 7, 2 * Real.pi / 7 + (15 - 2 * Real.pi / 7) / 2, 15] := by
  have hp := Real.pi_pos
  refine ⟨2 * Real.pi / 7, fun h => absurd h (by norm_num), fun _ => ⟨⟨1, by simp⟩, fun c => ?_⟩, rfl, fun i hi => ?_⟩
  · fin_cases c
    · simp only [Matrix.cons_val_zero, Fin.zero_eta]
      apply div_le_div_of_nonneg_left (by positivity) <;> norm_num
    · simp
  · simp only [List.length_cons, List.length_nil] at hi
    interval_cases i
    · simp
    · simp; ring
    · simp; ring

end PP.Props
