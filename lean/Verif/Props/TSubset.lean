import Verif.Props.TGrid
import Verif.Props.GrLimits

/-!
# C194: the value at a time does not depend on the other times of the grid
-/

set_option linter.unusedSectionVars false

namespace PP.Props
open PP

section
variable {K : Type} [Field K] [LinearOrder K] [IsStrictOrderedRing K] [FloorRing K]

/-- A value read from a dictionary is stored there with its key. -/
theorem mem_of_dictGet_ok {d : List (ℤ × (ℕ × ℕ))} {t : ℤ} {g : ℕ × ℕ} (ht : dictGet d t = .ok g) : (t, g) ∈ d := by
  induction d with
  | nil => cases ht
  | cons e d ih =>
    obtain ⟨a, b⟩ := e
    simp only [dictGet] at ht
    split_ifs at ht with hk
    · cases ht; subst hk; simp
    · exact List.mem_cons_of_mem _ (ih ht)

/-- Each pair of the grid is the one found for its lag before matching the times. -/
theorem setupTGrid_dict {steps : List ℤ} {blockSize : ℕ} {dt : K} {tGrid : List K} {offset : Bool} {grid : List (ℕ × ℕ)}
    (h : setupTGrid steps blockSize dt tGrid offset = .ok grid) {d : List (ℤ × (ℕ × ℕ))}
    (hd : offSamp steps (if offset then List.range blockSize else [0]) = .ok d) :
    ∀ g ∈ grid, dictGet d (Spec.lag steps g) = .ok g := by
  obtain ⟨d', hd', inv⟩ := offSamp_inv steps (if offset then List.range blockSize else [0])
  rw [hd] at hd'
  cases hd'
  unfold setupTGrid at h
  rw [hd] at h
  obtain ⟨d', e, h⟩ := bind_ok_iff.1 h
  cases e
  obtain ⟨ig', -, h⟩ := bind_ok_iff.1 h
  obtain ⟨ts, -, h⟩ := bind_ok_iff.1 h
  intro g hg
  obtain ⟨t, -, ht⟩ := mapM_ok_mem h g hg
  have hmem : (t, g) ∈ d := mem_of_dictGet_ok ht
  rw [← (inv.sound _ hmem).2]
  exact ht

theorem setupTGrid_subset {steps : List ℤ} {blockSize : ℕ} {dt : K} {tGrid tGrid' : List K} {grid grid' : List (ℕ × ℕ)}
    (hs : steps ≠ []) (hbs : 0 < blockSize) (hdt : dt ≠ 0) (hsub : ∀ t ∈ tGrid, t ∈ tGrid')
    (h : setupTGrid steps blockSize dt tGrid = .ok grid) (h' : setupTGrid steps blockSize dt tGrid' = .ok grid') :
    ∀ g ∈ grid, g ∈ grid' := by
  obtain ⟨g1, e1, -, -, m1⟩ := C19_t_grid_partial steps blockSize dt tGrid hs hbs hdt
  obtain ⟨g2, e2, -, -, m2⟩ := C19_t_grid_partial steps blockSize dt tGrid' hs hbs hdt
  rw [h] at e1
  rw [h'] at e2
  cases e1
  cases e2
  obtain ⟨d, hd, -⟩ := offSamp_inv steps (if true then List.range blockSize else [0])
  intro g hg
  obtain ⟨a, t, ht, b⟩ := (m1 (Spec.lag steps g)).1 (List.mem_map_of_mem hg)
  obtain ⟨g', hg', e⟩ := List.mem_map.1 ((m2 (Spec.lag steps g)).2 ⟨a, t, hsub t ht, b⟩)
  have q := setupTGrid_dict h hd g hg
  have q' := setupTGrid_dict h' hd g' hg'
  rw [e, q] at q'
  cases q'
  exact hg'

variable {X V : Type}

/-- **C194, partial.** If the steps repeat with the period of a block and the stride is a multiple of the block size, the times
reported for a grid, and the values at these times, are among those reported for any larger grid. -/
theorem C194_subset_partial (ar : Arith V) (f : X → X → Py V) (k : X → X → V) (steps : List ℤ) (x : List X)
    (blockSize skip : ℕ) (dt : K) (tGrid tGrid' : List K) (grid grid' : List (ℕ × ℕ)) (hs : steps ≠ []) (hbs : 0 < blockSize)
    (hdt : dt ≠ 0) (hskip : 0 < skip) (hd : blockSize ∣ skip) (hx : x.length = steps.length)
    (hp : Spec.BlockPeriodic steps blockSize) (hsub : ∀ t ∈ tGrid, t ∈ tGrid')
    (h : setupTGrid steps blockSize dt tGrid = .ok grid) (h' : setupTGrid steps blockSize dt tGrid' = .ok grid')
    (hf : ∀ a ∈ x, ∀ b ∈ x, f a b = .ok (k a b)) :
    ∃ ts vs ts' vs', gcfOffset ar f grid skip steps x = .ok (ts, vs) ∧ gcfOffset ar f grid' skip steps x = .ok (ts', vs') ∧
      ts.length = vs.length ∧ ts'.length = vs'.length ∧ (∀ t ∈ ts, t ∈ ts') ∧ ∀ p ∈ ts.zip vs, p ∈ ts'.zip vs' := by
  obtain ⟨g1, e1, r1, p1, -⟩ := C19_t_grid_partial steps blockSize dt tGrid hs hbs hdt
  obtain ⟨g2, e2, r2, p2, -⟩ := C19_t_grid_partial steps blockSize dt tGrid' hs hbs hdt
  rw [h] at e1
  rw [h'] at e2
  cases e1
  cases e2
  have hsubset := setupTGrid_subset hs hbs hdt hsub h h'
  refine ⟨_, _, _, _, C21_block_periodic ar f k steps x blockSize skip grid hskip hd hx hp r1 p1 hf,
    C21_block_periodic ar f k steps x blockSize skip grid' hskip hd hx hp r2 p2 hf, by simp, by simp, ?_, ?_⟩
  · intro t ht
    obtain ⟨g, hg, rfl⟩ := List.mem_map.1 ht
    exact List.mem_map_of_mem (hsubset g hg)
  · intro p hp
    rw [List.zip_map', List.mem_map] at hp ⊢
    obtain ⟨g, hg, rfl⟩ := hp
    exact ⟨g, hsubset g hg, rfl⟩

/-- **C194 is false** for irregular steps: in a trajectory with the steps 0, 2, 3, 4 (no blocks), the value at time 2 is that
of the first two frames if no other time is asked for, but it is averaged with the second and the fourth frame if the time 3
is also in the grid. -/
theorem C194_counterexample_irregular (k : X → X → K) (a b c e : X) :
    setupTGrid [0, 2, 3, 4] 1 (1 : ℚ) [2] = .ok [(0, 1)] ∧ setupTGrid [0, 2, 3, 4] 1 (1 : ℚ) [2, 3] = .ok [(0, 1), (0, 2)] ∧
    gcfOffset (Arith.field K) (fun u v => .ok (k u v)) [(0, 1)] 1 [(0 : ℤ), 2, 3, 4] [a, b, c, e] =
      .ok ([1, 2], [(0 + k c b + k e c) / (2 : ℕ), (0 + k b a) / (1 : ℕ)]) ∧
    gcfOffset (Arith.field K) (fun u v => .ok (k u v)) [(0, 1), (0, 2)] 1 [(0 : ℤ), 2, 3, 4] [a, b, c, e] =
      .ok ([1, 2, 3], [(0 + k c b + k e c) / (2 : ℕ), (0 + k b a + k e b) / (2 : ℕ), (0 + k c a) / (1 : ℕ)]) := by
  refine ⟨by decide +kernel, by decide +kernel, ?_, ?_⟩ <;> with_unfolding_all rfl

end

/-- The hypotheses hold for a trajectory with two blocks of three frames and one more frame. -/
example : ∃ ts vs ts' vs',
    gcfOffset (Arith.field ℚ) (fun a b => .ok ((a - b) ^ 2)) [(0, 1), (0, 3)] 3 [(0 : ℤ), 1, 4, 10, 11, 14, 20]
      [(0 : ℚ), 1, 3, 2, 5, 7, 4] = .ok (ts, vs) ∧
    gcfOffset (Arith.field ℚ) (fun a b => .ok ((a - b) ^ 2)) [(0, 1), (1, 1), (0, 3)] 3 [(0 : ℤ), 1, 4, 10, 11, 14, 20]
      [(0 : ℚ), 1, 3, 2, 5, 7, 4] = .ok (ts', vs') ∧
    ts.length = vs.length ∧ ts'.length = vs'.length ∧ (∀ t ∈ ts, t ∈ ts') ∧ ∀ p ∈ ts.zip vs, p ∈ ts'.zip vs' := by
  refine C194_subset_partial (Arith.field ℚ) _ (fun a b => (a - b) ^ 2) [0, 1, 4, 10, 11, 14, 20] [0, 1, 3, 2, 5, 7, 4] 3 3
    (1 : ℚ) [1, 10] [1, 3, 10] _ _ (by simp) (by omega) one_ne_zero (by omega) (dvd_refl 3) rfl ⟨10, ?_⟩ (by simp)
    (by decide +kernel) (by decide +kernel) (fun _ _ _ _ => rfl)
  intro i hi
  simp only [List.length_cons, List.length_nil] at hi
  have : i = 0 ∨ i = 1 ∨ i = 2 ∨ i = 3 := by omega
  rcases this with rfl | rfl | rfl | rfl <;> decide

end PP.Props
