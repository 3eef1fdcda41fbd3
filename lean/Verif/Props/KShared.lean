import Verif.Props.KSetup

/-!
# C58: partial correlations that share the k grid
-/

namespace PP.Props

open PP

set_option linter.unusedSectionVars false

variable {d : ℕ}

/-- A single shell whose content is known: no restart, all wave-vectors are used if `nk` is large enough. -/
theorem kSetup_single {pick : ℕ → List (KVec d) → ℕ → List (KVec d)} (hpick : IsSample pick) (hd : d = 2 ∨ d = 3)
    {p : KParams ℝ} (hdk : 0 < p.dk) {side : Vec d ℝ} (hside : ∀ c, 0 < side c) {x : ℝ} (hx : 0 ≤ x)
    {L : List (Fin d → ℤ)} (hL : L.Nodup) (hne : L ≠ []) (hnk : (L.length : ℤ) ≤ p.nk)
    (hmem : ∀ v, |Spec.knorm (fun c => 2 * Real.pi / side c) v - x| < p.dk ↔ v ∈ L) (depth : ℕ) :
    ∃ s kv, kSetup Real.sqrt Real.pi (depth + 1) pick p side (some [x]) = .ok s ∧ s.kvectors = [kv] ∧
      (∀ c, s.k0 c = 2 * Real.pi / side c) ∧ (kv.map fun w c => w c - s.koffset).Perm L ∧
      s.kgrid = [(L.map (Spec.knorm fun c => 2 * Real.pi / side c)).sum / L.length] := by
  have hk0 : ∀ c, 0 < smallestK Real.pi side c := fun c => by
    unfold smallestK; exact div_pos (by positivity) (hside c)
  have hsm : smallestK Real.pi side = fun c => 2 * Real.pi / side c := rfl
  obtain ⟨kvec, kb, hf, hkl, -, hsp⟩ := fillShells_spec hk0 hd (kgrid := [x]) (dk := [p.dk]) (by simp) rfl
  have htop : 0 ≤ Spec.kTop [x] [p.dk] := by simp [Spec.kTop]; linarith
  obtain ⟨hnd, hm, -⟩ := hsp 0 (by simp)
  obtain ⟨kv, rfl⟩ : ∃ kv, kvec = [kv] := List.length_eq_one_iff.1 (by simpa using hkl)
  have hm' : ∀ w : KVec d, w ∈ kv ↔ (fun c => w c - kb) ∈ L := by
    intro w
    have := hm htop w
    rw [List.getD_cons_zero] at this
    rw [this, ← hmem]
    unfold Spec.First Spec.Fits Spec.kTop
    simp only [List.length_singleton, Nat.sub_self, List.getD_cons_zero]
    rw [hsm]
    constructor
    · exact fun h => h.2.1
    · intro h
      have := abs_lt.1 h
      exact ⟨by linarith, h, fun j hj => absurd hj (by omega)⟩
  have hperm : (kv.map fun w c => w c - kb).Perm L := by
    rw [List.perm_ext_iff_of_nodup _ hL]
    · intro v
      simp only [List.mem_map]
      constructor
      · rintro ⟨w, hw, rfl⟩; exact (hm' w).1 hw
      · intro hv
        exact ⟨fun c => v c + kb, (hm' _).2 (by simpa using hv), by funext c; simp⟩
    · rw [List.getD_cons_zero] at hnd
      refine List.Nodup.map ?_ hnd
      intro a b hab
      funext c
      simpa using congrFun hab c
  have hlen : kv.length = L.length := by simpa using hperm.length_eq
  have hkvne : kv ≠ [] := by
    intro h
    rw [h] at hlen
    exact hne (List.length_eq_zero_iff.1 hlen.symm)
  have hset : setupGridSphere Real.sqrt (smallestK Real.pi side) [x] (depth + 1) [p.dk] = .ok ([kv], kb, [p.dk]) := by
    rw [setupGridSphere, hf]
    simp only [bind, Except.bind]
    rw [if_pos (by simpa using hkvne)]
    rfl
  have hgrid : initialGrid p (smallestK Real.pi side) (some [x]) = .ok [x] := by
    have : pySorted [x] = [x] := rfl
    simp only [initialGrid, this, if_neg (not_lt.2 hx)]
  have hdec : decimate pick p.nk 0 kv = .ok (pick 0 kv kv.length) := by
    unfold decimate
    have : min p.nk (kv.length : ℤ) = kv.length := by omega
    simp only [this]
    rw [if_neg (by omega)]
    simp
  obtain ⟨hp1, hp2⟩ := hpick 0 kv kv.length le_rfl
  have hpp : (pick 0 kv kv.length).Perm kv := hp2.perm_of_length_le (by omega)
  have hpermf : ((pick 0 kv kv.length).map fun w c => w c - kb).Perm L := (hpp.map _).trans hperm
  refine ⟨{ k0 := smallestK Real.pi side, kgrid := [npMean ((pick 0 kv kv.length).map
    (kNorm Real.sqrt (smallestK Real.pi side) kb))], kvectors := [pick 0 kv kv.length], koffset := kb },
    pick 0 kv kv.length, ?_, rfl, fun c => rfl, hpermf, ?_⟩
  · unfold kSetup
    simp only [hgrid, bind, Except.bind, List.length_singleton, List.replicate_one, hset, List.zipIdx_singleton,
      List.mapM_cons, hdec, List.mapM_nil]
    rfl
  · dsimp only
    congr 1
    unfold npMean
    have e : (pick 0 kv kv.length).map (kNorm Real.sqrt (smallestK Real.pi side) kb) =
        ((pick 0 kv kv.length).map fun w c => w c - kb).map (Spec.knorm fun c => 2 * Real.pi / side c) := by
      rw [List.map_map]
      refine List.map_congr_left fun w _ => ?_
      simp only [Function.comp, kNorm, sqrt_kSq, hsm]
    rw [e, (hpermf.map _).sum_eq, List.length_map, hpermf.length_eq]

/-- Norms in a cell whose smallest wave-vectors are 3 and 4. -/
theorem knorm34 (v : Fin 2 → ℤ) : Spec.knorm ![3, 4] v = √((9 * v 0 ^ 2 + 16 * v 1 ^ 2 : ℤ) : ℝ) := by
  unfold Spec.knorm
  congr 1
  rw [Fin.sum_univ_two]
  simp
  ring

/-- Wave-vectors of norms 3, 4 and 5. -/
def ring345 : List (Fin 2 → ℤ) :=
  [![1, 0], ![-1, 0], ![0, 1], ![0, -1], ![1, 1], ![1, -1], ![-1, 1], ![-1, -1]]

theorem mem_ring345 (v : Fin 2 → ℤ) : |Spec.knorm ![3, 4] v - 4| < 6 / 5 ↔ v ∈ ring345 := by
  rw [knorm34]
  have hn : (0 : ℝ) ≤ ((9 * v 0 ^ 2 + 16 * v 1 ^ 2 : ℤ) : ℝ) := by
    push_cast; positivity
  constructor
  · intro h
    rw [abs_lt] at h
    have h1 : √((9 * v 0 ^ 2 + 16 * v 1 ^ 2 : ℤ) : ℝ) ^ 2 = ((9 * v 0 ^ 2 + 16 * v 1 ^ 2 : ℤ) : ℝ) := Real.sq_sqrt hn
    have h2 : ((9 * v 0 ^ 2 + 16 * v 1 ^ 2 : ℤ) : ℝ) < 28 := by rw [← h1]; nlinarith
    have h3 : (7 : ℝ) < ((9 * v 0 ^ 2 + 16 * v 1 ^ 2 : ℤ) : ℝ) := by rw [← h1]; nlinarith
    have h2' : 9 * v 0 ^ 2 + 16 * v 1 ^ 2 < 28 := by exact_mod_cast h2
    have h3' : 7 < 9 * v 0 ^ 2 + 16 * v 1 ^ 2 := by exact_mod_cast h3
    have a1 : v 0 ≤ 1 := by nlinarith [sq_nonneg (v 1)]
    have a2 : -1 ≤ v 0 := by nlinarith [sq_nonneg (v 1)]
    have b1 : v 1 ≤ 1 := by nlinarith [sq_nonneg (v 0)]
    have b2 : -1 ≤ v 1 := by nlinarith [sq_nonneg (v 0)]
    have hv : v = ![v 0, v 1] := by funext c; fin_cases c <;> rfl
    rw [hv]
    generalize v 0 = a at *
    generalize v 1 = b at *
    interval_cases a <;> interval_cases b <;> simp [ring345] at h3' ⊢
  · intro h
    have hs : √(9 : ℝ) = 3 := by rw [show (9 : ℝ) = 3 ^ 2 by norm_num]; exact Real.sqrt_sq (by norm_num)
    have hs' : √(16 : ℝ) = 4 := by rw [show (16 : ℝ) = 4 ^ 2 by norm_num]; exact Real.sqrt_sq (by norm_num)
    have hs'' : √(25 : ℝ) = 5 := by rw [show (25 : ℝ) = 5 ^ 2 by norm_num]; exact Real.sqrt_sq (by norm_num)
    simp only [ring345, List.mem_cons, List.not_mem_nil, or_false] at h
    rcases h with rfl | rfl | rfl | rfl | rfl | rfl | rfl | rfl <;>
      (simp; norm_num [hs, hs', hs'', abs_lt])

theorem side34 : (fun c => 2 * Real.pi / (![2 * Real.pi / 3, 2 * Real.pi / 4] : Fin 2 → ℝ) c) = ![3, 4] := by
  have := Real.pi_pos
  funext c
  fin_cases c
  · show 2 * Real.pi / (2 * Real.pi / 3) = 3
    field_simp
  · show 2 * Real.pi / (2 * Real.pi / 4) = 4
    field_simp

/-- **C58** is false for a k grid given by the user: the list is modified by the first object, and the next one finds
other wave-vectors. For the grid `[4]` with `dk = 1.2` in a two-dimensional cell with smallest wave-vectors 3 and 4
and `nk` large enough to use all wave-vectors, whatever the random draws, the first partial uses the wave-vector
`(3, 0)`, the second one does not. -/
theorem C58_counterexample_shared_grid {pick : ℕ → List (KVec 2) → ℕ → List (KVec 2)} (hpick : IsSample pick)
    (depth : ℕ) :
    ∃ s1 s2, kSetupMany Real.sqrt Real.pi (depth + 1) pick
        { nk := 8, dk := 6 / 5, kmin := -1, kmax := 10, ksamples := 20 }
        (![2 * Real.pi / 3, 2 * Real.pi / 4] : Vec 2 ℝ) 2 (some [4]) = .ok [s1, s2] ∧
      ![3, 0] ∈ (kvectorsGet s1).flatten ∧ ![3, 0] ∉ (kvectorsGet s2).flatten := by
  have hpi := Real.pi_pos
  have hside : ∀ c, 0 < (![2 * Real.pi / 3, 2 * Real.pi / 4] : Vec 2 ℝ) c := by
    intro c; fin_cases c
    · show 0 < 2 * Real.pi / 3; positivity
    · show 0 < 2 * Real.pi / 4; positivity
  have hs : √(9 : ℝ) = 3 := by rw [show (9 : ℝ) = 3 ^ 2 by norm_num]; exact Real.sqrt_sq (by norm_num)
  have hs' : √(16 : ℝ) = 4 := by rw [show (16 : ℝ) = 4 ^ 2 by norm_num]; exact Real.sqrt_sq (by norm_num)
  have hs'' : √(25 : ℝ) = 5 := by rw [show (25 : ℝ) = 5 ^ 2 by norm_num]; exact Real.sqrt_sq (by norm_num)
  obtain ⟨s1, kv1, h1, hk1, h01, hp1, hg1⟩ := kSetup_single hpick (Or.inl rfl)
    (p := { nk := 8, dk := 6 / 5, kmin := -1, kmax := 10, ksamples := 20 }) (by norm_num) hside
    (x := 4) (by norm_num) (L := ring345) (by decide) (by simp [ring345]) (by simp [ring345])
    (by intro v; rw [side34]; exact mem_ring345 v) depth
  have hmean : (ring345.map (Spec.knorm fun c => 2 * Real.pi /
      (![2 * Real.pi / 3, 2 * Real.pi / 4] : Fin 2 → ℝ) c)).sum / ring345.length = 17 / 4 := by
    rw [side34]
    simp only [ring345, List.map_cons, List.map_nil, knorm34]
    norm_num [hs, hs', hs'']
  rw [hmean] at hg1
  have hnk : (ring345.drop 2).length ≤ 8 := by decide
  have hmem2 : ∀ v, |Spec.knorm ![3, 4] v - 17 / 4| < 6 / 5 ↔ v ∈ ring345.drop 2 := by
    intro v
    constructor
    · intro h
      have hn : (0 : ℝ) ≤ ((9 * v 0 ^ 2 + 16 * v 1 ^ 2 : ℤ) : ℝ) := by push_cast; positivity
      rw [knorm34, abs_lt] at h
      have e1 : √((9 * v 0 ^ 2 + 16 * v 1 ^ 2 : ℤ) : ℝ) ^ 2 = ((9 * v 0 ^ 2 + 16 * v 1 ^ 2 : ℤ) : ℝ) :=
        Real.sq_sqrt hn
      have h2 : ((9 * v 0 ^ 2 + 16 * v 1 ^ 2 : ℤ) : ℝ) < 30 := by rw [← e1]; nlinarith
      have h3 : (9 : ℝ) < ((9 * v 0 ^ 2 + 16 * v 1 ^ 2 : ℤ) : ℝ) := by rw [← e1]; nlinarith
      have h2' : 9 * v 0 ^ 2 + 16 * v 1 ^ 2 < 30 := by exact_mod_cast h2
      have h3' : 9 < 9 * v 0 ^ 2 + 16 * v 1 ^ 2 := by exact_mod_cast h3
      have a1 : v 0 ≤ 1 := by nlinarith [sq_nonneg (v 1)]
      have a2 : -1 ≤ v 0 := by nlinarith [sq_nonneg (v 1)]
      have b1 : v 1 ≤ 1 := by nlinarith [sq_nonneg (v 0)]
      have b2 : -1 ≤ v 1 := by nlinarith [sq_nonneg (v 0)]
      have hv : v = ![v 0, v 1] := by funext c; fin_cases c <;> rfl
      rw [hv]
      generalize v 0 = a at *
      generalize v 1 = b at *
      interval_cases a <;> interval_cases b <;> simp [ring345] at h3' ⊢
    · intro h
      rw [knorm34]
      simp only [ring345, List.drop_succ_cons, List.drop_zero, List.mem_cons, List.not_mem_nil, or_false] at h
      rcases h with rfl | rfl | rfl | rfl | rfl | rfl <;>
        (simp; norm_num [hs, hs', hs'', abs_lt])
  obtain ⟨s2, kv2, h2, hk2, h02, hp2, hg2⟩ := kSetup_single hpick (Or.inl rfl)
    (p := { nk := 8, dk := 6 / 5, kmin := -1, kmax := 10, ksamples := 20 }) (by norm_num) hside
    (x := 17 / 4) (by norm_num) (L := ring345.drop 2) (by decide) (by simp [ring345]) (by simp [ring345])
    (by intro v; rw [side34]; exact hmem2 v) depth
  refine ⟨s1, s2, ?_, ?_, ?_⟩
  · simp only [kSetupMany, h1, bind, Except.bind, Option.map_some, hg1, h2]
    rfl
  · have : (![1, 0] : Fin 2 → ℤ) ∈ kv1.map fun w c => w c - s1.koffset :=
      hp1.symm.subset (by simp [ring345])
    obtain ⟨w, hw, hw1⟩ := List.mem_map.1 this
    unfold kvectorsGet
    rw [hk1]
    simp only [List.map_cons, List.map_nil, List.flatten_cons, List.flatten_nil, List.append_nil, List.mem_map]
    refine ⟨w, hw, ?_⟩
    have hk : s1.k0 = ![3, 4] := by rw [← side34]; exact funext h01
    funext c
    have := congrFun hw1 c
    rw [this, hk]
    fin_cases c <;> simp
  · intro hcon
    unfold kvectorsGet at hcon
    rw [hk2] at hcon
    simp only [List.map_cons, List.map_nil, List.flatten_cons, List.flatten_nil, List.append_nil, List.mem_map] at hcon
    obtain ⟨w, hw, hw1⟩ := hcon
    have hk : s2.k0 = ![3, 4] := by rw [← side34]; exact funext h02
    have hin : (fun c => w c - s2.koffset) ∈ ring345.drop 2 := hp2.subset (List.mem_map.2 ⟨w, hw, rfl⟩)
    have c0 := congrFun hw1 0
    have c1 := congrFun hw1 1
    rw [hk] at c0 c1
    simp at c0 c1
    have e0 : w 0 - s2.koffset = 1 := by exact_mod_cast c0
    have e1 : w 1 - s2.koffset = 0 := by exact_mod_cast c1
    have : (fun c => w c - s2.koffset) = ![1, 0] := by
      funext c; fin_cases c
      · exact e0
      · exact e1
    rw [this] at hin
    revert hin
    decide

/-- **C58**, the part that holds: when no k grid is given, all partials use the same wave-vectors and the same grid. -/
theorem C58_default_grid_partial {pick : ℕ → List (KVec d) → ℕ → List (KVec d)} {p : KParams ℝ} {side : Vec d ℝ}
    {depth n : ℕ} {l : List (KState d ℝ)}
    (h : kSetupMany Real.sqrt Real.pi depth pick p side n none = .ok l) :
    l.length = n ∧ ∀ s ∈ l, ∀ s' ∈ l, s.kgrid = s'.kgrid ∧ kvectorsGet s = kvectorsGet s' := by
  have key : ∀ n l, kSetupMany Real.sqrt Real.pi depth pick p side n none = .ok l →
      l.length = n ∧ ∀ s ∈ l, kSetup Real.sqrt Real.pi depth pick p side none = .ok s := by
    intro n
    induction n with
    | zero => intro l h; cases h; simp
    | succ n ih =>
      intro l h
      rw [kSetupMany] at h
      cases hs : kSetup Real.sqrt Real.pi depth pick p side none with
      | error e => rw [hs] at h; cases h
      | ok s =>
        rw [hs] at h
        simp only [bind, Except.bind, Option.map_none] at h
        cases hr : kSetupMany Real.sqrt Real.pi depth pick p side n none with
        | error e => rw [hr] at h; cases h
        | ok r =>
          rw [hr] at h
          cases h
          obtain ⟨h1, h2⟩ := ih r hr
          refine ⟨by simp [h1], ?_⟩
          intro s' hs'
          rcases List.mem_cons.1 hs' with rfl | h'
          · rfl
          · rw [← hs]; exact h2 s' h'
  obtain ⟨h1, h2⟩ := key n l h
  refine ⟨h1, ?_⟩
  intro s hs s' hs'
  have := (h2 s hs).symm.trans (h2 s' hs')
  cases this
  exact ⟨rfl, rfl⟩

/-- A non-trivial case: two partials in three dimensions, default grid of 3 points. -/
example : ∃ depth s, kSetupMany Real.sqrt Real.pi depth (fun _ l n => l.take n)
      { nk := 2, dk := 1 / 10, kmin := 1, kmax := 5, ksamples := 3 } (![5, 6, 7] : Vec 3 ℝ) 2 none = .ok [s, s] ∧
      s.kgrid.length = 3 := by
  have hside : ∀ c, 0 < (![5, 6, 7] : Vec 3 ℝ) c := by intro c; fin_cases c <;> norm_num
  obtain ⟨depth, s, h⟩ := kSetup_exists (pick := fun _ l n => l.take n) (Or.inr rfl)
    (p := { nk := 2, dk := 1 / 10, kmin := 1, kmax := 5, ksamples := 3 }) (by norm_num) (by norm_num) hside
    (grid := none) (req := [1, 3, 5]) (by
      simp [initialGrid, linearGrid, List.range_succ]
      norm_num) (by simp)
    (by intro i hi; simp at hi; interval_cases i <;> norm_num)
  refine ⟨depth, s, ?_, ?_⟩
  · simp only [kSetupMany, h, bind, Except.bind, Option.map_none]
    rfl
  · obtain ⟨a, req, dk, -, -, -, h4, -, -, h7, -⟩ := C49_default isSample_take (by norm_num) (by norm_num) (by norm_num)
      hside h
    rw [h7, h4]
    rfl

end PP.Props
