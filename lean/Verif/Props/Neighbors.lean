import Verif.Lemmas.Neighbors

/-!
# C71, C89, C90: the neighbour lists of realspace.f90
-/

set_option linter.unusedSectionVars false

namespace PP.Spec

variable {K : Type} [Field K] [LinearOrder K] {d : ℕ}

open Classical in
/-- The particles, in ascending order, that have an image closer to particle `i` than the cut-off of the species of
the two. -/
noncomputable def closeTo (L : Fin d → K) (pos : List (Fin d → K)) (sp : ℕ → ℕ) (rc : ℕ → ℕ → K) (i : ℕ) : List ℕ :=
  (List.range pos.length).filter fun j => decide (j ≠ i ∧ ∃ x y, pos[i]? = some x ∧ pos[j]? = some y ∧
    Closer L (rc (sp i) (sp j)) x y)

end PP.Spec

namespace PP.Props

variable {K : Type} [Field K] [LinearOrder K] [IsStrictOrderedRing K] [FloorRing K] {d : ℕ}

/-- `ids` are the species `sp`, counted from 1, and `rcut` holds the cut-offs `rc`. -/
structure Tables (n m : ℕ) (ids : List ℤ) (rcut : List (List K)) (sp : ℕ → ℕ) (rc : ℕ → ℕ → K) : Prop where
  ids : ∀ i < max n m, ids[i]? = some ((sp i : ℤ) + 1)
  rcut : ∀ i < n, ∀ j < m, ∃ row, rcut[sp i]? = some row ∧ row[sp j]? = some (rc (sp i) (sp j))

theorem fClose_ok {n m : ℕ} {box : Vec d K} {pos other : List (Vec d K)} {ids : List ℤ} {rcut : List (List K)}
    {sp : ℕ → ℕ} {rc : ℕ → ℕ → K} (h : Tables n m ids rcut sp rc) {i j : ℕ} (hi : i < n) (hj : j < m) {a b : Vec d K}
    (ha : pos[i]? = some a) (hb : other[j]? = some b) :
    fClose box pos other ids rcut i j = .ok (decide (fDistSq box a b < rc (sp i) (sp j) ^ 2)) := by
  obtain ⟨row, h1, h2⟩ := h.rcut i hi j hj
  unfold fClose
  rw [fGet_nat (h.ids i (lt_max_of_lt_left hi)), fGet_nat (h.ids j (lt_max_of_lt_right hj)), fGet_nat ha, fGet_nat hb]
  simp only [bind, Except.bind, pure, Except.pure]
  rw [fGet_nat h1]
  simp only
  rw [fGet_nat h2]

/-- The test of a pair as a function. -/
def nearIn (box : Vec d K) (pos other : List (Vec d K)) (sp : ℕ → ℕ) (rc : ℕ → ℕ → K) (i j : ℕ) : Bool :=
  decide (fDistSq box (pos.getD i 0) (other.getD j 0) < rc (sp i) (sp j) ^ 2)

theorem fClose_near {n m : ℕ} {box : Vec d K} {pos other : List (Vec d K)} {ids : List ℤ} {rcut : List (List K)}
    {sp : ℕ → ℕ} {rc : ℕ → ℕ → K} (h : Tables n m ids rcut sp rc) {i j : ℕ} (hi : i < n) (hj : j < m)
    (hi' : i < pos.length) (hj' : j < other.length) :
    fClose box pos other ids rcut i j = .ok (nearIn box pos other sp rc i j) := by
  rw [fClose_ok h hi hj (List.getElem?_eq_getElem hi') (List.getElem?_eq_getElem hj')]
  unfold nearIn
  rw [List.getD_eq_getElem _ _ hi', List.getD_eq_getElem _ _ hj']

theorem closer_comm {L x y : Vec d K} {r : K} : Spec.Closer L r x y ↔ Spec.Closer L r y x := by
  have : ∀ x y : Vec d K, Spec.Closer L r x y → Spec.Closer L r y x := by
    rintro x y ⟨m, hm⟩
    refine ⟨fun c => -m c, ?_⟩
    calc _ = ∑ c, (x c - y c + m c * L c) ^ 2 := by
          apply Finset.sum_congr rfl
          intro c _
          push_cast
          ring
      _ < _ := hm
  exact ⟨this x y, this y x⟩

theorem mem_neighbours {L : Vec d K} {pos : List (Vec d K)} {sp : ℕ → ℕ} {rc : ℕ → ℕ → K} {i j : ℕ} :
    j ∈ Spec.closeTo L pos sp rc i ↔ j ≠ i ∧ ∃ x y, pos[i]? = some x ∧ pos[j]? = some y ∧
      Spec.Closer L (rc (sp i) (sp j)) x y := by
  unfold Spec.closeTo
  simp only [List.mem_filter, List.mem_range, decide_eq_true_eq]
  constructor
  · exact fun h => h.2
  · rintro ⟨h1, x, y, h2, h3, h4⟩
    exact ⟨(List.getElem?_eq_some_iff.1 h3).1, h1, x, y, h2, h3, h4⟩

/-- **C71**. With one row per particle, `neighbors_list` stores for each particle exactly the particles that have an
image closer than the cut-off of the two species, in ascending order and each once, if the rows are wide enough for
all of them; otherwise it writes out of bounds. -/
theorem C71_neighbors_list (offsetC : Bool) (L : Vec d K) (pos : List (Vec d K)) (ids : List ℤ) (rcut : List (List K))
    (sp : ℕ → ℕ) (rc : ℕ → ℕ → K) (neigh : List (List ℤ)) (w : ℕ) (hL : ∀ c, 0 < L c)
    (hpos : ∀ x ∈ pos, ∀ y ∈ pos, Spec.Folded L x y) (ht : Tables pos.length pos.length ids rcut sp rc)
    (hsym : ∀ a b, rc a b = rc b a) (hrows : neigh.length = pos.length) (hw : ∀ row ∈ neigh, row.length = w) :
    ((∀ i < pos.length, (Spec.closeTo L pos sp rc i).length ≤ w) ∧
      ∃ s, neighborsList offsetC L pos ids rcut pos.length neigh = .ok s ∧ ∀ i < pos.length,
        s.listOf i = (Spec.closeTo L pos sp rc i).map fun j : ℕ => if offsetC then (j : ℤ) else (j : ℤ) + 1) ∨
    ((∃ i < pos.length, w < (Spec.closeTo L pos sp rc i).length) ∧
      neighborsList offsetC L pos ids rcut pos.length neigh = .error .outOfBounds) := by
  classical
  have hpart : ∀ p < pos.length, partners (nearIn L pos pos sp rc) p (pairsBelow pos.length) =
      Spec.closeTo L pos sp rc p := by
    intro p hp
    rw [partners_pairsBelow _ _ _ hp]
    unfold Spec.closeTo
    apply List.filter_congr
    intro q hq
    rw [List.mem_range] at hq
    have hfold : ∀ i (hi : i < pos.length) j (hj : j < pos.length), nearIn L pos pos sp rc i j =
        decide (Spec.Closer L (rc (sp i) (sp j)) pos[i] pos[j]) := by
      intro i hi j hj
      unfold nearIn
      rw [List.getD_eq_getElem _ _ hi, List.getD_eq_getElem _ _ hj]
      exact decide_eq_decide.2 (fDistSq_lt hL (hpos _ (List.getElem_mem _) _ (List.getElem_mem _)) _)
    rcases Nat.lt_trichotomy q p with h | h | h
    · rw [if_pos h, hfold q hq p hp]
      apply decide_eq_decide.2
      rw [closer_comm, hsym]
      simp [List.getElem?_eq_getElem hp, List.getElem?_eq_getElem hq, Nat.ne_of_lt h]
    · subst h
      simp
    · rw [if_neg (by omega), if_pos h, hfold p hp q hq]
      apply decide_eq_decide.2
      simp [List.getElem?_eq_getElem hp, List.getElem?_eq_getElem hq, Nat.ne_of_gt h]
  have hloop := nbLoop_result (near := nearIn L pos pos sp rc) (test := fClose L pos pos ids rcut)
    (delta := fDelta offsetC) (pairsBelow pos.length) neigh hrows hw (by
      intro e he
      obtain ⟨h1, h2⟩ := mem_pairsBelow.1 he
      exact fClose_near ht (by omega) h2 (by omega) h2) (by
      intro e he _
      obtain ⟨h1, h2⟩ := mem_pairsBelow.1 he
      exact ⟨by omega, h2, by omega⟩)
  have hdelta : ∀ q : ℕ, (q : ℤ) + 1 + fDelta offsetC = if offsetC then (q : ℤ) else (q : ℤ) + 1 := by
    intro q
    unfold fDelta
    cases offsetC <;> simp
  rcases hloop with ⟨h1, s, h2, _, h3⟩ | ⟨⟨p, hp, h1⟩, h2⟩
  · left
    refine ⟨fun i hi => by rw [← hpart i hi]; exact h1 i hi, s, h2, ?_⟩
    intro i hi
    rw [h3 i hi, hpart i hi]
    simp only [hdelta]
  · right
    exact ⟨⟨p, hp, by rw [← hpart p hp]; exact h1⟩, h2⟩

/-- **C71**. The lists that come out are symmetric, and no particle is listed twice. -/
theorem C71_symmetric (L : Vec d K) (pos : List (Vec d K)) (ids : List ℤ) (rcut : List (List K))
    (sp : ℕ → ℕ) (rc : ℕ → ℕ → K) (neigh : List (List ℤ)) (w : ℕ) (hL : ∀ c, 0 < L c)
    (hpos : ∀ x ∈ pos, ∀ y ∈ pos, Spec.Folded L x y) (ht : Tables pos.length pos.length ids rcut sp rc)
    (hsym : ∀ a b, rc a b = rc b a) (hrows : neigh.length = pos.length) (hw : ∀ row ∈ neigh, row.length = w)
    (s : NbState) (h : neighborsList true L pos ids rcut pos.length neigh = .ok s) :
    (∀ i < pos.length, (s.listOf i).Nodup) ∧
      ∀ i < pos.length, ∀ j < pos.length, ((j : ℤ) ∈ s.listOf i ↔ (i : ℤ) ∈ s.listOf j) := by
  rcases C71_neighbors_list true L pos ids rcut sp rc neigh w hL hpos ht hsym hrows hw with ⟨_, s', h1, h2⟩ | ⟨_, h1⟩
  · rw [h] at h1
    cases h1
    have hmem : ∀ i < pos.length, ∀ j : ℕ, (j : ℤ) ∈ s.listOf i ↔ j ∈ Spec.closeTo L pos sp rc i := by
      intro i hi j
      rw [h2 i hi]
      simp
    constructor
    · intro i hi
      rw [h2 i hi]
      refine List.Nodup.map (fun a b hab => by simpa using hab) ?_
      unfold Spec.closeTo
      exact List.nodup_range.filter _
    · intro i hi j hj
      rw [hmem i hi, hmem j hj, mem_neighbours, mem_neighbours]
      constructor
      · rintro ⟨h3, x, y, h4, h5, h6⟩
        exact ⟨Ne.symm h3, y, x, h5, h4, by rw [closer_comm, hsym]; exact h6⟩
      · rintro ⟨h3, x, y, h4, h5, h6⟩
        exact ⟨Ne.symm h3, y, x, h5, h4, by rw [closer_comm, hsym]; exact h6⟩
  · rw [h] at h1
    exact absurd h1 (by simp)

/-- **C71**, counter-example: with the offset `'C'` the species must still be counted from 1. As soon as there are two
particles and the first has species 0, the kernel reads the cut-offs out of bounds. (`neighbors`, with the same
argument, expects species counted from 0.) -/
theorem C71_counterexample_zero_based_species (box : Vec d K) (pos : List (Vec d K)) (ids : List ℤ)
    (rcut : List (List K)) (neigh : List (List ℤ)) (hn : 2 ≤ pos.length) (hids : pos.length ≤ ids.length)
    (h0 : ids[0]? = some 0) : neighborsList true box pos ids rcut pos.length neigh = .error .outOfBounds := by
  obtain ⟨n, hn'⟩ : ∃ n, pos.length = n + 2 := ⟨pos.length - 2, by omega⟩
  have hcons : pairsBelow pos.length = (0, 1) :: (pairsBelow pos.length).tail := by
    unfold pairsBelow
    rw [hn', List.range_succ_eq_map, List.flatMap_cons]
    have : n + 2 - (0 + 1) = n + 1 := by omega
    rw [this, List.range'_succ]
    rfl
  have htest : fClose box pos pos ids rcut 0 1 = .error .outOfBounds := by
    unfold fClose
    have h1 : (((0 : ℕ) : ℤ) + 1) = ((0 : ℕ) : ℤ) + 1 := rfl
    rw [fGet_nat h0, fGet_nat (List.getElem?_eq_getElem (by omega : 1 < ids.length)),
      fGet_nat (List.getElem?_eq_getElem (by omega : 0 < pos.length)),
      fGet_nat (List.getElem?_eq_getElem (by omega : 1 < pos.length))]
    rfl
  unfold neighborsList nbLoop
  rw [hcons, List.foldlM_cons, htest]
  rfl

/-- Three particles on a line of side 10, one species, cut-off 2: the ends are neighbours through the boundary. -/
example : neighborsList (K := ℚ) true ![10] [![-49/10], ![0], ![49/10]] [1, 1, 1] [[2]] 3 [[7, 7], [7, 7], [7, 7]]
    = .ok ([1, 0, 1], [[2, 7], [7, 7], [0, 7]]) := by decide +kernel

example : neighborsList (K := ℚ) true ![10] [![-49/10], ![0], ![49/10]] [0, 0, 0] [[2]] 3 [[7, 7], [7, 7], [7, 7]]
    = .error .outOfBounds := by decide +kernel

example : Tables (K := ℚ) 3 3 [1, 1, 1] [[2]] (fun _ => 0) (fun _ _ => 2) := by
  refine ⟨fun i hi => ?_, fun i hi j hj => ⟨[2], rfl, rfl⟩⟩
  rw [Nat.max_self] at hi
  match i, hi with
  | 0, _ => rfl
  | 1, _ => rfl
  | 2, _ => rfl

/-! ### C89: two sets of particles -/

/-- **C89**, counter-example: `neighbors_list_distinct` also counts the pair on the side of the other particle, in the
arrays of the first set. If exactly one particle `i` of the first set is close to exactly one particle `j` of the
other set, with `i ≠ j`, then particle `j` of the first set, which has no neighbours, gets one. -/
theorem C89_counterexample (box : Vec d K) (pos other : List (Vec d K)) (ids : List ℤ) (rcut : List (List K))
    (sp : ℕ → ℕ) (rc : ℕ → ℕ → K) (neigh : List (List ℤ)) (w : ℕ) (ht : Tables pos.length other.length ids rcut sp rc)
    (hrows : neigh.length = pos.length) (hw : ∀ row ∈ neigh, row.length = w) (hw1 : 1 ≤ w) (i j : ℕ)
    (hi : i < pos.length) (hj : j < pos.length) (hj' : j < other.length) (hij : i ≠ j)
    (hone : ∀ a b, nearIn box pos other sp rc a b = true ↔ a = i ∧ b = j) :
    ∃ s, neighborsListDistinct true box pos other ids rcut pos.length neigh = .ok s ∧
      s.listOf i = [(j : ℤ)] ∧ s.listOf j = [(i : ℤ)] := by
  set l := (List.range pos.length).flatMap fun i => (List.range other.length).map fun j => (i, j) with hl
  have hmem : ∀ e ∈ l, e.1 < pos.length ∧ e.2 < other.length := by
    intro e he
    rw [hl] at he
    simp only [List.mem_flatMap, List.mem_range, List.mem_map] at he
    obtain ⟨a, ha, b, hb, rfl⟩ := he
    exact ⟨ha, hb⟩
  have hnodup : l.Nodup := by
    rw [hl]
    have : ((List.range pos.length).flatMap fun i => (List.range other.length).map fun j => (i, j)) =
      (List.range pos.length) ×ˢ (List.range other.length) := rfl
    rw [this]
    exact List.nodup_range.product List.nodup_range
  have hp : ∀ p, partners (nearIn box pos other sp rc) p l =
      (l.filter fun e => e = (i, j)).filterMap fun e => if p = e.1 then some e.2 else if p = e.2 then some e.1 else none := by
    intro p
    unfold partners
    rw [List.filterMap_filter]
    apply List.filterMap_congr
    intro e _
    have := hone e.1 e.2
    by_cases he : e = (i, j)
    · rw [if_pos (this.2 (by rw [he]; exact ⟨rfl, rfl⟩))]
      simp [he]
    · have h2 : ¬ nearIn box pos other sp rc e.1 e.2 = true := fun h => he (by
        obtain ⟨h3, h4⟩ := this.1 h
        exact Prod.ext h3 h4)
      simp [h2, he]
  have hf : (l.filter fun e => e = (i, j)) = [(i, j)] := by
    have hin : (i, j) ∈ l := by
      rw [hl]
      simp [hi, hj']
    have h1 : (l.filter fun e => e = (i, j)) = l.filter fun e => e == (i, j) := by
      apply List.filter_congr
      intro e _
      rw [Bool.beq_eq_decide_eq]
    rw [h1, List.filter_beq, List.count_eq_one_of_mem hnodup hin]
    rfl
  have hi1 : partners (nearIn box pos other sp rc) i l = [j] := by rw [hp, hf]; simp
  have hj1 : partners (nearIn box pos other sp rc) j l = [i] := by rw [hp, hf]; simp [Ne.symm hij]
  rcases nbLoop_result (near := nearIn box pos other sp rc) (test := fClose box pos other ids rcut)
    (delta := fDelta true) l neigh hrows hw (by
      intro e he
      obtain ⟨h1, h2⟩ := hmem e he
      exact fClose_near ht h1 h2 h1 h2) (by
      intro e he hn
      obtain ⟨h1, h2⟩ := (hone _ _).1 hn
      rw [h1, h2]
      exact ⟨hi, hj, hij⟩) with ⟨_, s, h2, _, h3⟩ | ⟨⟨p, hp', h1⟩, _⟩
  · refine ⟨s, h2, ?_, ?_⟩
    · rw [h3 i hi, hi1]; simp [fDelta]
    · rw [h3 j hj, hj1]; simp [fDelta]
  · exfalso
    have : (partners (nearIn box pos other sp rc) p l).length ≤ 1 := by
      rw [hp, hf]
      exact le_trans (List.length_filterMap_le _ _) (by simp)
    omega

/-- **C89**, counter-example: with more particles in the other set than in the first, a close pair whose second particle
has no counterpart in the first set is an access out of bounds. -/
theorem C89_counterexample_bounds (box : Vec d K) (x : Vec d K) (other : List (Vec d K)) (ids : List ℤ)
    (rcut : List (List K)) (sp : ℕ → ℕ) (rc : ℕ → ℕ → K) (neigh : List (List ℤ)) (a b : Vec d K)
    (ht : Tables 1 2 ids rcut sp rc)
    (ho : other = [a, b]) (h0 : ¬ fDistSq box x a < rc (sp 0) (sp 0) ^ 2)
    (h1 : fDistSq box x b < rc (sp 0) (sp 1) ^ 2) :
    neighborsListDistinct true box [x] other ids rcut 1 neigh = .error .outOfBounds := by
  subst ho
  have e0 := fClose_ok (box := box) (pos := [x]) (other := [a, b]) ht (i := 0) (j := 0) (by omega) (by omega) rfl rfl
  have e1 := fClose_ok (box := box) (pos := [x]) (other := [a, b]) ht (i := 0) (j := 1) (by omega) (by omega) rfl rfl
  rw [decide_eq_false h0] at e0
  rw [decide_eq_true h1] at e1
  unfold neighborsListDistinct nbLoop
  have hl : ((List.range [x].length).flatMap fun i => (List.range [a, b].length).map fun j => (i, j)) =
      [(0, 0), (0, 1)] := rfl
  rw [hl]
  simp only [List.foldlM_cons, List.foldlM_nil, e0, e1, bind, Except.bind, pure, Except.pure]
  rfl

/-- **C89**, the part that holds: when the close pairs `i`, `j` all have `i ≠ j` and `j` is in the range of the first
set, each particle of the first set lists all the particles of the other set that are close to it (among others). -/
theorem C89_contains_partial (box : Vec d K) (pos other : List (Vec d K)) (ids : List ℤ) (rcut : List (List K))
    (sp : ℕ → ℕ) (rc : ℕ → ℕ → K) (neigh : List (List ℤ)) (w : ℕ) (ht : Tables pos.length other.length ids rcut sp rc)
    (hrows : neigh.length = pos.length) (hw : ∀ row ∈ neigh, row.length = w)
    (hone : ∀ a < pos.length, ∀ b < other.length, nearIn box pos other sp rc a b = true → b < pos.length ∧ a ≠ b)
    (s : NbState) (h : neighborsListDistinct true box pos other ids rcut pos.length neigh = .ok s) (i j : ℕ)
    (hi : i < pos.length) (hj : j < other.length) (hn : nearIn box pos other sp rc i j = true) :
    (j : ℤ) ∈ s.listOf i := by
  set l := (List.range pos.length).flatMap fun i => (List.range other.length).map fun j => (i, j) with hl
  have hmem : ∀ e ∈ l, e.1 < pos.length ∧ e.2 < other.length := by
    intro e he
    rw [hl] at he
    simp only [List.mem_flatMap, List.mem_range, List.mem_map] at he
    obtain ⟨a, ha, b, hb, rfl⟩ := he
    exact ⟨ha, hb⟩
  rcases nbLoop_result (near := nearIn box pos other sp rc) (test := fClose box pos other ids rcut)
    (delta := fDelta true) l neigh hrows hw (by
      intro e he
      obtain ⟨h1, h2⟩ := hmem e he
      exact fClose_near ht h1 h2 h1 h2) (by
      intro e he hn
      obtain ⟨h1, h2⟩ := hmem e he
      obtain ⟨h3, h4⟩ := hone _ h1 _ h2 hn
      exact ⟨h1, h3, h4⟩) with ⟨_, s', h2, _, h3⟩ | ⟨_, h1⟩
  · have : neighborsListDistinct true box pos other ids rcut pos.length neigh = .ok s' := h2
    rw [h] at this
    cases this
    rw [h3 i hi]
    simp only [List.mem_map]
    refine ⟨j, ?_, by simp [fDelta]⟩
    unfold partners
    rw [List.mem_filterMap]
    refine ⟨(i, j), ?_, by simp [hn]⟩
    rw [hl]
    simp [hi, hj]
  · have : neighborsListDistinct true box pos other ids rcut pos.length neigh = .error .outOfBounds := h1
    rw [h] at this
    exact absurd this (by simp)

/-- Two particles of one set, one of which is close to particle 1 of the other set. -/
example : neighborsListDistinct (K := ℚ) true ![10] [![0], ![3]] [![-3], ![1/2]] [1, 1] [[1]] 2 [[7, 7], [7, 7]]
    = .ok ([1, 1], [[1, 7], [0, 7]]) := by decide +kernel

/-- The same number in the two sets: the counter is increased twice and one entry is not written. -/
example : neighborsListDistinct (K := ℚ) true ![10] [![0]] [![1/2]] [1] [[1]] 1 [[7, 7]]
    = .ok ([2], [[7, 0]]) := by decide +kernel

example : neighborsListDistinct (K := ℚ) true ![10] [![0]] [![3], ![1/2]] [1, 1] [[1]] 1 [[7, 7]]
    = .error .outOfBounds := by decide +kernel

/-! ### C90: lists from a subset -/

theorem count_partners (near : ℕ → ℕ → Bool) (p q : ℕ) (hpq : p ≠ q) (l : List (ℕ × ℕ)) :
    (partners near p l).count q = (if near p q then l.count (p, q) else 0) + (if near q p then l.count (q, p) else 0) := by
  induction l with
  | nil => simp [partners]
  | cons e l ih =>
    have : partners near p (e :: l) = partners near p [e] ++ partners near p l := partners_append near p [e] l
    rw [this, List.count_append, ih, List.count_cons, List.count_cons]
    have h1 : (partners near p [e]).count q =
        (if near p q then (if e == (p, q) then 1 else 0) else 0) +
          (if near q p then (if e == (q, p) then 1 else 0) else 0) := by
      obtain ⟨a, b⟩ := e
      unfold partners
      by_cases ha : p = a
      · subst ha
        by_cases hb : b = q
        · subst hb
          cases hn : near p b <;> simp [List.filterMap_cons, hn, hpq]
        · cases hn : near p b <;> simp [List.filterMap_cons, hn, hb, hpq, Ne.symm hpq]
      · by_cases hb : p = b
        · subst hb
          by_cases hq : a = q
          · subst hq
            cases hn : near a p <;> simp [List.filterMap_cons, hn, hpq, ha, Ne.symm ha]
          · cases hn : near a p <;> simp [List.filterMap_cons, hn, hq, ha, Ne.symm ha]
        · cases hn : near a b <;> simp [List.filterMap_cons, hn, ha, hb, Ne.symm ha, Ne.symm hb]
    rw [h1]
    split_ifs <;> omega

theorem count_flatMap_pairs (is : List ℕ) (f : ℕ → List ℕ) (p q : ℕ) (his : is.Nodup) :
    (is.flatMap fun i => (f i).map fun j => (i, j)).count (p, q) = if p ∈ is then (f p).count q else 0 := by
  induction is with
  | nil => simp
  | cons i is ih =>
    rw [List.nodup_cons] at his
    rw [List.flatMap_cons, List.count_append, ih his.2]
    by_cases h : p = i
    · subst h
      rw [if_neg his.1, if_pos (by simp)]
      have : (fun j : ℕ => (p, j)) = Prod.mk p := rfl
      rw [this, List.count_map_of_injective _ _ (Prod.mk_right_injective p)]
      simp
    · have h0 : ((f i).map fun j => (i, j)).count (p, q) = 0 := by
        rw [List.count_eq_zero]
        simp [Ne.symm h]
      rw [h0]
      simp [h]

/-- **C90**. `neighbors_subset` lists particle `j` for particle `i`, if they are close, as many times as the pair is in
the two subsets together: once if each pair is in only one of the two, as in the lists of linked cells built with
Newton's third law. -/
theorem C90_subset_counts (box : Vec d K) (pos : List (Vec d K)) (subset : List (List ℕ)) (ids : List ℤ)
    (rcut : List (List K)) (sp : ℕ → ℕ) (rc : ℕ → ℕ → K) (neigh : List (List ℤ)) (w : ℕ) (hL : ∀ c, 0 < box c)
    (hpos : ∀ x ∈ pos, ∀ y ∈ pos, Spec.Folded box x y) (ht : Tables pos.length pos.length ids rcut sp rc)
    (hsym : ∀ a b, rc a b = rc b a)
    (hrows : neigh.length = pos.length) (hw : ∀ row ∈ neigh, row.length = w)
    (hsub : ∀ i < pos.length, ∀ j ∈ subset.getD i [], j < pos.length ∧ j ≠ i)
    (s : NbState) (h : neighborsSubset true box pos subset ids rcut pos.length neigh = .ok s) (i j : ℕ)
    (hi : i < pos.length) (hj : j < pos.length) (hij : i ≠ j) :
    (j ∈ Spec.closeTo box pos sp rc i →
      (s.listOf i).count (j : ℤ) = (subset.getD i []).count j + (subset.getD j []).count i) ∧
    (j ∉ Spec.closeTo box pos sp rc i → (s.listOf i).count (j : ℤ) = 0) := by
  set l := (List.range pos.length).flatMap fun i => (subset.getD i []).map fun j => (i, j) with hl
  have hmem : ∀ e ∈ l, e.1 < pos.length ∧ e.2 < pos.length ∧ e.1 ≠ e.2 := by
    intro e he
    rw [hl] at he
    simp only [List.mem_flatMap, List.mem_range, List.mem_map] at he
    obtain ⟨a, ha, b, hb, rfl⟩ := he
    obtain ⟨h1, h2⟩ := hsub a ha b hb
    exact ⟨ha, h1, Ne.symm h2⟩
  rcases nbLoop_result (near := nearIn box pos pos sp rc) (test := fClose box pos pos ids rcut)
    (delta := fDelta true) l neigh hrows hw (by
      intro e he
      obtain ⟨h1, h2, _⟩ := hmem e he
      exact fClose_near ht h1 h2 h1 h2) (by
      intro e he _
      exact hmem e he) with ⟨_, s', h2, _, h3⟩ | ⟨_, h1⟩
  · have : neighborsSubset true box pos subset ids rcut pos.length neigh = .ok s' := h2
    rw [h] at this
    cases this
    have hnear : ∀ a (ha : a < pos.length) b (hb : b < pos.length), a ≠ b →
        (nearIn box pos pos sp rc a b = true ↔ b ∈ Spec.closeTo box pos sp rc a) := by
      intro a ha b hb hab
      unfold nearIn
      rw [List.getD_eq_getElem _ _ ha, List.getD_eq_getElem _ _ hb, decide_eq_true_iff, mem_neighbours,
        fDistSq_lt hL (hpos _ (List.getElem_mem _) _ (List.getElem_mem _))]
      simp [List.getElem?_eq_getElem ha, List.getElem?_eq_getElem hb, Ne.symm hab]
    have hcomm : j ∈ Spec.closeTo box pos sp rc i ↔ i ∈ Spec.closeTo box pos sp rc j := by
      rw [mem_neighbours, mem_neighbours]
      constructor
      · rintro ⟨h3, x, y, h4, h5, h6⟩
        exact ⟨Ne.symm h3, y, x, h5, h4, by rw [closer_comm, hsym]; exact h6⟩
      · rintro ⟨h3, x, y, h4, h5, h6⟩
        exact ⟨Ne.symm h3, y, x, h5, h4, by rw [closer_comm, hsym]; exact h6⟩
    have hcount : (s.listOf i).count (j : ℤ) = (partners (nearIn box pos pos sp rc) i l).count j := by
      rw [h3 i hi]
      have hf : (fun q : ℕ => (q : ℤ) + 1 + fDelta true) = fun q : ℕ => (q : ℤ) := by
        funext q; simp [fDelta]
      rw [hf, List.count_map_of_injective _ _ Nat.cast_injective]
    rw [hcount, count_partners _ _ _ hij, hl, count_flatMap_pairs _ _ _ _ List.nodup_range,
      count_flatMap_pairs _ _ _ _ List.nodup_range, if_pos (List.mem_range.2 hi), if_pos (List.mem_range.2 hj)]
    constructor
    · intro hn
      rw [if_pos ((hnear i hi j hj hij).2 hn), if_pos ((hnear j hj i hi (Ne.symm hij)).2 (hcomm.1 hn))]
    · intro hn
      rw [if_neg (fun hh => hn ((hnear i hi j hj hij).1 hh)),
        if_neg (fun hh => hn (hcomm.2 ((hnear j hj i hi (Ne.symm hij)).1 hh)))]
  · have : neighborsSubset true box pos subset ids rcut pos.length neigh = .error .outOfBounds := h1
    rw [h] at this
    exact absurd this (by simp)

/-- **C90**, counter-example: with the full lists of candidates, which contain both particles of each pair, every
neighbour is listed twice. -/
theorem C90_counterexample_full_lists (box : Vec d K) (pos : List (Vec d K)) (subset : List (List ℕ)) (ids : List ℤ)
    (rcut : List (List K)) (sp : ℕ → ℕ) (rc : ℕ → ℕ → K) (neigh : List (List ℤ)) (w : ℕ) (hL : ∀ c, 0 < box c)
    (hpos : ∀ x ∈ pos, ∀ y ∈ pos, Spec.Folded box x y) (ht : Tables pos.length pos.length ids rcut sp rc)
    (hsym : ∀ a b, rc a b = rc b a)
    (hrows : neigh.length = pos.length) (hw : ∀ row ∈ neigh, row.length = w)
    (hsub : ∀ i < pos.length, ∀ j ∈ subset.getD i [], j < pos.length ∧ j ≠ i)
    (hfull : ∀ i < pos.length, ∀ j ∈ Spec.closeTo box pos sp rc i, (subset.getD i []).count j = 1)
    (s : NbState) (h : neighborsSubset true box pos subset ids rcut pos.length neigh = .ok s) (i j : ℕ)
    (hi : i < pos.length) (hij : j ∈ Spec.closeTo box pos sp rc i) : (s.listOf i).count (j : ℤ) = 2 := by
  obtain ⟨h1, x, y, h2, h3, h4⟩ := mem_neighbours.1 hij
  have hj : j < pos.length := (List.getElem?_eq_some_iff.1 h3).1
  have hji : i ∈ Spec.closeTo box pos sp rc j :=
    mem_neighbours.2 ⟨Ne.symm h1, y, x, h3, h2, by rw [closer_comm, hsym]; exact h4⟩
  rw [(C90_subset_counts box pos subset ids rcut sp rc neigh w hL hpos ht hsym hrows hw hsub s h i j hi hj
    (Ne.symm h1)).1 hij, hfull i hi j hij, hfull j hj i hji]

/-- A half list and a full list for the same two particles. -/
example : neighborsSubset (K := ℚ) true ![10] [![0], ![1]] [[1], []] [1, 1] [[2]] 2 [[7, 7], [7, 7]]
      = .ok ([1, 1], [[1, 7], [0, 7]]) ∧
    neighborsSubset (K := ℚ) true ![10] [![0], ![1]] [[1], [0]] [1, 1] [[2]] 2 [[7, 7], [7, 7]]
      = .ok ([2, 2], [[1, 1], [0, 0]]) := by decide +kernel

end PP.Props
