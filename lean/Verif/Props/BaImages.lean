import Verif.Props.BaLabels

/-!
# Periodic images in the bond-angle distribution (C156)
-/

set_option linter.unusedSectionVars false

namespace PP.Props
open PP

variable {d : ℕ}

/-- Positions that differ by whole cell sides. -/
def ImageOf (L x x' : Vec d ℝ) : Prop := ∃ m : Fin d → ℤ, ∀ c, x' c = x c + m c * L c

/-- Two frames with the same particles, each one in any of its periodic images. -/
structure SameImages (f f' : BaFrame d) : Prop where
  side : f'.side = f.side
  ids0 : f'.ids0 = f.ids0
  ids1 : f'.ids1 = f.ids1
  len0 : f'.pos0.length = f.pos0.length
  len1 : f'.pos1.length = f.pos1.length
  first : ∀ i < f.pos0.length, ImageOf f.side (f.pos0.getD i 0) (f'.pos0.getD i 0)
  second : ∀ i < f.pos1.length, ImageOf f.side (f.pos1.getD i 0) (f'.pos1.getD i 0)

theorem closer_image {L x x' y y' : Vec d ℝ} {r : ℝ} (hx : ImageOf L x x') (hy : ImageOf L y y') :
    Spec.Closer L r x' y' ↔ Spec.Closer L r x y := by
  obtain ⟨m, hm⟩ := hx
  obtain ⟨n, hn⟩ := hy
  constructor
  · rintro ⟨k, hk⟩
    refine ⟨fun c => m c - n c + k c, lt_of_eq_of_lt (Finset.sum_congr rfl fun c _ => ?_) hk⟩
    rw [hm, hn]; push_cast; ring
  · rintro ⟨k, hk⟩
    refine ⟨fun c => n c - m c + k c, lt_of_eq_of_lt (Finset.sum_congr rfl fun c _ => ?_) hk⟩
    rw [hm, hn]; push_cast; ring

theorem minImage_image {L x x' y y' : Vec d ℝ} (hL : ∀ c, 0 < L c) (hx : ImageOf L x x') (hy : ImageOf L y y')
    (h : ∀ c, |minImage L (fun c => x c - y c) c| < L c / 2) :
    minImage L (fun c => x' c - y' c) = minImage L fun c => x c - y c := by
  obtain ⟨m, hm⟩ := hx
  obtain ⟨n, hn⟩ := hy
  funext c
  have h1 := h c
  have h2 := minImage_abs (d := d) (L := L) (r := fun c => x' c - y' c) (hL c)
  have hc := hL c
  unfold minImage at h1 h2 ⊢
  simp only at h1 h2 ⊢
  set a := pyRound ((x c - y c) / L c)
  set b := pyRound ((x' c - y' c) / L c)
  rw [hm, hn] at h2 ⊢
  have hk : b = a + m c - n c := by
    have e : ((x c + m c * L c - (y c + n c * L c) - b * L c) - (x c - y c - a * L c)) = (a + m c - n c - b : ℝ) * L c := by
      ring
    have h3 : |((a + m c - n c - b : ℤ) : ℝ) * L c| < 1 * L c := by
      push_cast
      rw [← e]
      calc _ ≤ |x c + m c * L c - (y c + n c * L c) - b * L c| + |x c - y c - a * L c| := abs_sub _ _
        _ < 1 * L c := by linarith
    rw [abs_mul, abs_of_pos hc] at h3
    have h4 := lt_of_mul_lt_mul_right h3 hc.le
    rw [← Int.cast_abs] at h4
    have h5 : |a + m c - n c - b| < 1 := by exact_mod_cast h4
    have := Int.abs_lt_one_iff.1 h5
    omega
  rw [hk]
  push_cast
  ring

theorem closer_below_half {L x y : Vec d ℝ} (hL : ∀ c, 0 < L c) (h : ∀ c, |x c - y c| < 3 / 2 * L c) {r : ℝ}
    (hr : ∀ c, |r| ≤ L c / 2) (hc : Spec.Closer L r x y) (c : Fin d) : |minImage L (fun c => x c - y c) c| < L c / 2 := by
  have h1 := (fDistSq_lt hL (fun c => (h c).le) r).2 hc
  unfold fDistSq at h1
  have h2 := congrFun (fold_eq_minImage hL h) c
  rw [← h2]
  refine lt_of_lt_of_le ?_ (hr c)
  refine sq_lt_sq.1 (lt_of_le_of_lt ?_ h1)
  exact Finset.single_le_sum (f := fun c => fpbc (L c) (x c - y c) ^ 2) (fun _ _ => sq_nonneg _) (Finset.mem_univ c)

theorem SameImages.angles {rcut : List (List ℝ)} {rc : ℕ → ℕ → ℝ} {f f' : BaFrame d} (h : SameImages f f')
    (hv : BaValid rcut rc f) (hr : ∀ i ∈ f.ids0, ∀ j ∈ f.ids1, ∀ c, |rc i j| ≤ f.side c / 2) :
    Spec.frameAngles rc f' = Spec.frameAngles rc f := by
  classical
  unfold Spec.frameAngles
  rw [h.len0]
  apply List.flatMap_congr
  intro i hi
  rw [List.mem_range] at hi
  rw [h.ids0, h.ids1, h.side]
  have hmin : ∀ j < f.pos1.length, Spec.Closer f.side (rc (f.ids0.getD i 0) (f.ids1.getD j 0)) (f.pos0.getD i 0)
      (f.pos1.getD j 0) → minImage f.side (fun c => f'.pos0.getD i 0 c - f'.pos1.getD j 0 c) =
        minImage f.side fun c => f.pos0.getD i 0 c - f.pos1.getD j 0 c := by
    intro j hj hcl
    have hi' : i < f.ids0.length := by rw [hv.len0]; exact hi
    have hj' : j < f.ids1.length := by rw [hv.len1]; exact hj
    refine minImage_image hv.side (h.first i hi) (h.second j hj) ?_
    refine closer_below_half hv.side ?_ ?_ hcl
    · intro c
      rw [List.getD_eq_getElem _ _ hi, List.getD_eq_getElem _ _ hj]
      exact hv.cell _ (List.getElem_mem hi) _ (List.getElem_mem hj) c
    · intro c
      rw [List.getD_eq_getElem _ _ hi', List.getD_eq_getElem _ _ hj']
      exact hr _ (List.getElem_mem hi') _ (List.getElem_mem hj') c
  have hb : Spec.bonded f.side (f'.pos0.getD i 0) f'.pos1 (fun j => f.ids1.getD j 0) (rc (f.ids0.getD i 0)) =
      Spec.bonded f.side (f.pos0.getD i 0) f.pos1 (fun j => f.ids1.getD j 0) (rc (f.ids0.getD i 0)) := by
    unfold Spec.bonded
    rw [h.len1]
    refine List.filter_congr fun j hj => ?_
    rw [List.mem_range] at hj
    refine decide_eq_decide.2 ?_
    rw [closer_image (h.first i hi) (h.second j hj)]
    exact and_congr_right fun hcl => by rw [hmin j hj hcl]
  have hm : ∀ j ∈ Spec.bonded f.side (f.pos0.getD i 0) f.pos1 (fun j => f.ids1.getD j 0) (rc (f.ids0.getD i 0)),
      minImage f.side (fun c => f'.pos0.getD i 0 c - f'.pos1.getD j 0 c) =
        minImage f.side fun c => f.pos0.getD i 0 c - f.pos1.getD j 0 c := by
    intro j hj
    unfold Spec.bonded at hj
    rw [List.mem_filter, List.mem_range, decide_eq_true_eq] at hj
    exact hmin j hj.1 hj.2.1
  unfold Spec.bondAngles
  rw [hb]
  apply List.flatMap_congr
  intro j hj
  refine List.map_congr_left fun k hk => ?_
  rw [hm j hj, hm k (List.mem_filter.1 hk).1]

theorem SameImages.range (rc : ℕ → ℕ → ℝ) {f f' : BaFrame d} (h : SameImages f f') {i : ℕ} (hi : i < f.pos0.length) :
    Spec.inRange rc f' i = Spec.inRange rc f i := by
  classical
  unfold Spec.inRange
  rw [h.len1, h.ids0, h.ids1, h.side]
  refine List.countP_congr fun j hj => ?_
  rw [List.mem_range] at hj
  rw [decide_eq_true_eq, decide_eq_true_eq]
  exact closer_image (h.first i hi) (h.second j hj)

/-- **C156**: each particle may be replaced by any of its periodic images, if the separations remain below one side and a
half and the cut-offs do not exceed half the sides of the cell. -/
theorem C156_images_partial {rcut : List (List ℝ)} {rc : ℕ → ℕ → ℝ} {nsp skip : ℕ} (hs : 0 < skip) (grid : List ℝ)
    (hg : ∀ a b, grid[0]? = some a → grid[1]? = some b → a < b) (z : List (BaFrame d × BaFrame d))
    (hz : ∀ p ∈ z, BaValid rcut rc p.1 ∧ SameImages p.1 p.2 ∧
      (∀ x ∈ p.2.pos0, ∀ y ∈ p.2.pos1, ∀ c, |x c - y c| < 3 / 2 * p.2.side c) ∧
      ∀ i ∈ p.1.ids0, ∀ j ∈ p.1.ids1, ∀ c, |rc i j| ≤ p.1.side c / 2) :
    baCompute rcut nsp skip grid (z.map Prod.snd) = baCompute rcut nsp skip grid (z.map Prod.fst) := by
  symm
  have hz' := fun p (hp : p ∈ Spec.everyNth skip z) => hz p (everyNth_mem hp)
  apply baCompute_congr (rc := rc) hs grid hg <;> simp only [everyNth_map, List.forall_mem_map]
  · exact fun p hp => (hz' p hp).1
  · intro p hp
    obtain ⟨hv, him, hc, -⟩ := hz' p hp
    exact ⟨by rw [him.ids0, him.len0]; exact hv.len0, by rw [him.ids1, him.len1]; exact hv.len1,
      by rw [him.side]; exact hv.side, hc, by rw [him.ids0, him.ids1]; exact hv.rows⟩
  · refine forall₂_congr fun p hp => ?_
    rw [(hz' p hp).2.1.len0]
    exact forall₂_congr fun i hi => by rw [(hz' p hp).2.1.range rc hi]
  · have hnil : ∀ p ∈ Spec.everyNth skip z, (p.1.pos0 ≠ [] ↔ p.2.pos0 ≠ []) := by
      intro p hp
      rw [not_iff_not, ← List.length_eq_zero_iff, ← List.length_eq_zero_iff, (hz' p hp).2.1.len0]
    constructor
    · rintro ⟨f, hf, h⟩
      obtain ⟨p, hp, rfl⟩ := List.mem_map.1 hf
      exact ⟨p.2, List.mem_map.2 ⟨p, hp, rfl⟩, (hnil p hp).1 h⟩
    · rintro ⟨f, hf, h⟩
      obtain ⟨p, hp, rfl⟩ := List.mem_map.1 hf
      exact ⟨p.1, List.mem_map.2 ⟨p, hp, rfl⟩, (hnil p hp).2 h⟩
  · intro a b
    rw [List.flatMap_map, List.flatMap_map]
    congr 1
    apply List.flatMap_congr
    intro p hp
    exact ((hz' p hp).2.1.angles (hz' p hp).1 (hz' p hp).2.2.2).symm

/-- **C156**, counter-example: when the particles of the first group are moved by four sides of the cell along one axis,
no neighbour is found and all the values are nan. -/
theorem C156_counterexample_far {rcut : List (List ℝ)} {rc : ℕ → ℕ → ℝ} {nsp skip : ℕ} (hs : 0 < skip) {w : ℝ}
    (hw : 0 < w) (hw180 : w ≤ 180) (frames : List (BaFrame d))
    (hsp : ∀ i < nsp, ∃ row, rcut[i]? = some row ∧ nsp ≤ row.length) (c : Fin d)
    (hv : ∀ f ∈ frames, BaValid rcut rc f) (hin : ∀ f ∈ frames, ∀ x ∈ f.pos0, ∀ y ∈ f.pos1, |x c - y c| ≤ f.side c)
    (hr : ∀ f ∈ frames, ∀ i ∈ f.ids0, ∀ j ∈ f.ids1, |rc i j| ≤ 2 * f.side c)
    (hne : ∃ f ∈ Spec.everyNth skip frames, f.pos0 ≠ []) :
    ∃ grid x v, baGrid w = .ok grid ∧
      baCompute rcut nsp skip grid (frames.map fun f => ⟨f.side,
        f.pos0.map fun x i => if i = c then x i + 4 * f.side i else x i, f.ids0, f.pos1, f.ids1⟩) = .ok (x, v) ∧
      ∀ a ∈ v, a = none := by
  set move : BaFrame d → BaFrame d := fun f => ⟨f.side, f.pos0.map fun x i => if i = c then x i + 4 * f.side i else x i,
    f.ids0, f.pos1, f.ids1⟩ with hmove
  set m := ⌊180 / w⌋₊ with hm
  have hm1 : 1 ≤ m := by
    rw [hm, Nat.one_le_floor_iff, le_div_iff₀ hw]
    linarith
  set grid : List ℝ := (List.range (m + 1)).map fun i : ℕ => (i : ℝ) * w with hgrid
  have hg0 : pyGet grid 0 = .ok 0 := by
    unfold pyGet
    rw [hgrid, List.getElem?_map, List.getElem?_range (by omega)]
    simp
  have hg1 : pyGet grid 1 = .ok w := by
    unfold pyGet
    rw [hgrid, List.getElem?_map, List.getElem?_range (by omega)]
    simp
  have hlen : grid.length = m + 1 := by simp [hgrid]
  have hpart : ∀ f ∈ frames, ∀ i < f.pos0.length, baParticle rcut w (m + 1) (move f) i = .ok (List.replicate (m + 1) 0) := by
    intro f hf i hi
    have hvf := hv f hf
    have hi' : i < f.ids0.length := by rw [hvf.len0]; exact hi
    obtain ⟨row, hrow, hrc⟩ := hvf.rows _ (List.getElem_mem hi')
    unfold baParticle
    have e1 : pyGet (move f).pos0 i = .ok (fun k => if k = c then f.pos0[i] k + 4 * f.side k else f.pos0[i] k) := by
      unfold pyGet
      rw [show (move f).pos0 = f.pos0.map _ from rfl, List.getElem?_map, List.getElem?_eq_getElem hi]
      rfl
    have e2 : pyGet (move f).ids0 i = .ok f.ids0[i] := by
      show pyGet f.ids0 i = _
      unfold pyGet; rw [List.getElem?_eq_getElem hi']
    have e3 : pyGet rcut f.ids0[i] = .ok row := by unfold pyGet; rw [hrow]
    rw [e1, e2]
    simp only [bind, Except.bind]
    rw [e3]
    simp only
    rw [show (move f).side = f.side from rfl, show (move f).pos1 = f.pos1 from rfl, show (move f).ids1 = f.ids1 from rfl,
      neighborsOf_result f.side _ f.pos1 f.ids1 row 50 (rc f.ids0[i]) hvf.len1 hrc]
    have hempty : ((List.range f.pos1.length).filter fun j => decide (fDistSq f.side
        (fun k => if k = c then f.pos0[i] k + 4 * f.side k else f.pos0[i] k) (f.pos1.getD j 0) <
          rc f.ids0[i] (f.ids1.getD j 0) ^ 2)) = [] := by
      rw [List.filter_eq_nil_iff]
      intro j hj
      rw [List.mem_range] at hj
      have hj' : j < f.ids1.length := by rw [hvf.len1]; exact hj
      rw [decide_eq_true_eq, not_lt, List.getD_eq_getElem _ _ hj, List.getD_eq_getElem _ _ hj']
      have hL := hvf.side c
      have h1 := hin f hf _ (List.getElem_mem hi) _ (List.getElem_mem hj)
      have h2 := hr f hf _ (List.getElem_mem hi') _ (List.getElem_mem hj')
      have h3 : fpbc (f.side c) ((f.pos0[i] c + 4 * f.side c) - f.pos1[j] c) =
          f.pos0[i] c - f.pos1[j] c + 3 * f.side c := by
        rw [abs_le] at h1
        unfold fpbc fsign
        rw [abs_of_pos hL, abs_of_nonneg (by linarith : (0 : ℝ) ≤ f.pos0[i] c + 4 * f.side c - f.pos1[j] c),
          if_pos (by linarith), if_pos (by linarith)]
        ring
      have h4 : rc f.ids0[i] f.ids1[j] ^ 2 ≤ (2 * f.side c) ^ 2 := by
        rw [sq_le_sq, abs_of_pos (by linarith : (0 : ℝ) < 2 * f.side c)]
        exact h2
      have h5 : (2 * f.side c) ^ 2 ≤ (f.pos0[i] c - f.pos1[j] c + 3 * f.side c) ^ 2 := by
        rw [abs_le] at h1
        exact pow_le_pow_left₀ (by linarith) (by linarith) 2
      refine le_trans h4 (le_trans h5 ?_)
      unfold fDistSq
      have := Finset.single_le_sum (f := fun k => fpbc (f.side k)
        ((if k = c then f.pos0[i] k + 4 * f.side k else f.pos0[i] k) - f.pos1[j] k) ^ 2)
        (fun _ _ => sq_nonneg _) (Finset.mem_univ c)
      simp only [if_true] at this
      rw [h3] at this
      exact this
    rw [hempty]
    simp only [List.length_nil, Nat.zero_le, if_true, List.map_nil]
    rfl
  have hmap : ((rangeList 0 (frames.map move).length skip).mapM fun i => do
        let f ← pyGet (frames.map move) i
        (List.range f.pos0.length).mapM (baParticle rcut w (m + 1) f)) =
      .ok ((Spec.everyNth skip (frames.map move)).map fun f => (List.range f.pos0.length).map fun _ =>
        List.replicate (m + 1) 0) := by
    rw [mapM_origins _ hs]
    apply mapM_ok_map
    intro f hf
    rw [everyNth_map, List.mem_map] at hf
    obtain ⟨g, hg, rfl⟩ := hf
    apply mapM_ok_map
    intro i hi
    rw [List.mem_range, show (move g).pos0.length = g.pos0.length from List.length_map _] at hi
    exact hpart g (everyNth_mem hg) i hi
  simp only [bind, Except.bind] at hmap
  set hists := ((Spec.everyNth skip (frames.map move)).map fun f => (List.range f.pos0.length).map fun _ =>
        List.replicate (m + 1) 0) with hh
  have hnil : hists.flatten ≠ [] := by
    obtain ⟨f, hf, hp⟩ := hne
    intro h
    rw [List.flatten_eq_nil_iff] at h
    have := h _ (List.mem_map.2 ⟨move f, by rw [everyNth_map]; exact List.mem_map.2 ⟨f, hf, rfl⟩, rfl⟩)
    rw [List.map_eq_nil_iff, List.range_eq_nil, show (move f).pos0.length = f.pos0.length from List.length_map _] at this
    exact hp (List.length_eq_zero_iff.1 this)
  have htot : baTotal (m + 1) hists.flatten = .ok ((List.range m).map fun _ => 0) := by
    unfold baTotal
    rw [if_neg hnil]
    congr 1
    refine List.map_congr_left fun b _ => ?_
    rw [List.sum_eq_zero]
    intro x hx
    rw [List.mem_map] at hx
    obtain ⟨h, hmem, rfl⟩ := hx
    rw [List.mem_flatten] at hmem
    obtain ⟨l, hl, hl'⟩ := hmem
    rw [hh, List.mem_map] at hl
    obtain ⟨f, -, rfl⟩ := hl
    rw [List.mem_map] at hl'
    obtain ⟨-, -, rfl⟩ := hl'
    simp
  refine ⟨grid, List.zipWith (fun a b => (a + b) / 2) grid.dropLast grid.tail, (List.range m).map fun _ => none,
    baGrid_ok hw, ?_, ?_⟩
  · unfold baCompute pyRange
    rw [if_neg (by omega)]
    simp only [bind, Except.bind, hg0, hg1, baCheckRcut_ok hsp, sub_zero, hlen, hmap, htot, pure, Except.pure]
    congr 2
    rw [List.map_map]
    refine List.map_congr_left fun b _ => ?_
    simp [npDiv]
  · intro a ha
    rw [List.mem_map] at ha
    obtain ⟨-, -, rfl⟩ := ha
    rfl

/-! ### Examples -/

/-- The grid of the default spacing. -/
theorem baGrid_increasing {w : ℝ} (hw : 0 < w) {grid : List ℝ} (h : baGrid w = .ok grid) :
    ∀ a b, grid[0]? = some a → grid[1]? = some b → a < b := by
  rw [baGrid_ok hw] at h
  cases h
  intro a b ha hb
  rw [List.getElem?_map] at ha hb
  cases h0 : (List.range (⌊180 / w⌋₊ + 1))[0]? with
  | none => rw [h0] at ha; cases ha
  | some x =>
    cases h1 : (List.range (⌊180 / w⌋₊ + 1))[1]? with
    | none => rw [h1] at hb; cases hb
    | some y =>
      rw [h0] at ha
      rw [h1] at hb
      simp only [Option.map_some, Option.some.injEq] at ha hb
      rw [List.getElem?_eq_some_iff] at h0 h1
      obtain ⟨_, rfl⟩ := h0
      obtain ⟨_, rfl⟩ := h1
      rw [← ha, ← hb, List.getElem_range, List.getElem_range]
      push_cast
      linarith

/-- A particle with two neighbours on the same side: the distribution is a list of numbers. -/
theorem oneSide_values : ∃ grid x, ∃ v : List ℝ, baGrid 4 = .ok grid ∧
    baCompute [[3]] 1 1 grid [oneSide] = .ok (x, v.map some) ∧ v.sum * 4 = 1 := by
  have h45 : ⌊(180 : ℝ) / 4⌋₊ = 45 := by
    have : (180 : ℝ) / 4 = ((45 : ℕ) : ℝ) := by norm_num
    rw [this, Nat.floor_natCast]
  have hev : Spec.everyNth 1 [oneSide] = [oneSide] := everyNth_one _
  obtain ⟨grid, x, v, h1, h2, -, h3⟩ := C70_normalised_partial (rcut := [[3]]) (rc := fun _ _ => 3) (nsp := 1) (skip := 1)
    (w := 4) one_pos (by norm_num) (by norm_num) [oneSide] (by
      intro i hi
      obtain rfl : i = 0 := by omega
      exact ⟨[3], rfl, by simp⟩) (by
      rw [hev]; intro f hf; rw [List.mem_singleton] at hf; rw [hf]; exact oneSide_valid) (by
      rw [hev]; intro f hf i _; rw [List.mem_singleton] at hf; rw [hf]
      exact le_trans List.countP_le_length (by simp [oneSide])) 0 (by
      rw [hev, List.mem_flatMap]; exact ⟨oneSide, by simp, oneSide_angles⟩) (by rw [h45]; norm_num)
  exact ⟨grid, x, v, h1, h2, h3⟩

/-- The same frame translated, inverted, in another unit, with the neighbours in another order, and with one of them in
another cell. -/
example : ∃ grid x, ∃ v : List ℝ, baGrid 4 = .ok grid ∧ v.sum * 4 = 1 ∧
    baCompute [[3]] 1 1 grid [moveBa (fun x i => x i + 7) oneSide.side oneSide] = .ok (x, v.map some) ∧
    baCompute [[3]] 1 1 grid [moveBa (axesVec (Equiv.refl _) fun _ => true) (axesOf (Equiv.refl _) oneSide.side) oneSide] =
      .ok (x, v.map some) ∧
    baCompute [[2 * 3]] 1 1 grid [moveBa (scaleVec 2) (scaleVec 2 oneSide.side) oneSide] = .ok (x, v.map some) ∧
    baCompute (d := 1) [[3]] 1 1 grid [⟨fun _ => 10, [fun _ => 0], [0], [fun _ => -2, fun _ => -1], [0, 0]⟩] = .ok (x, v.map some) ∧
    baCompute (d := 1) [[3]] 1 1 grid [⟨fun _ => 10, [fun _ => 0], [0], [fun _ => 9, fun _ => -2], [0, 0]⟩] =
      .ok (x, v.map some) := by
  obtain ⟨grid, x, v, h1, h2, h3⟩ := oneSide_values
  have hg := baGrid_increasing (by norm_num) h1
  refine ⟨grid, x, v, h1, h3, ?_, ?_, ?_, ?_, ?_⟩
  · rw [← h2]
    exact C154_translation (fun _ => 7) [[3]] 1 1 grid [oneSide]
  · rw [← h2]
    refine C154_axes (Equiv.refl _) (fun _ => true) [[3]] 1 1 grid [oneSide] ?_
    intro f hf i
    rw [List.mem_singleton] at hf
    subst hf
    norm_num [oneSide]
  · rw [← h2]
    exact C154_unit (c := 2) (by norm_num) [[3]] 1 1 grid [oneSide]
  · rw [← h2]
    refine C155_labels (rc := fun _ _ => 3) one_pos grid hg
      [(oneSide, ⟨fun _ => 10, [fun _ => 0], [0], [fun _ => -2, fun _ => -1], [0, 0]⟩)] ?_
    intro p hp
    rw [List.mem_singleton] at hp
    subst hp
    exact ⟨oneSide_valid, rfl, rfl, rfl, List.Perm.refl _, List.Perm.swap _ _ _⟩
  · rw [← h2]
    refine C156_images_partial (rc := fun _ _ => 3) one_pos grid hg
      [(oneSide, ⟨fun _ => 10, [fun _ => 0], [0], [fun _ => 9, fun _ => -2], [0, 0]⟩)] ?_
    intro p hp
    rw [List.mem_singleton] at hp
    subst hp
    refine ⟨oneSide_valid, ⟨rfl, rfl, rfl, rfl, rfl, ?_, ?_⟩, ?_, ?_⟩
    · intro i hi
      obtain rfl : i = 0 := by simpa [oneSide] using hi
      exact ⟨fun _ => 0, fun c => by simp [oneSide]⟩
    · intro i hi
      have hi2 : i < 2 := by simpa [oneSide] using hi
      obtain rfl | rfl : i = 0 ∨ i = 1 := by omega
      · exact ⟨fun _ => 1, fun c => by norm_num [oneSide]⟩
      · exact ⟨fun _ => 0, fun c => by simp [oneSide]⟩
    · intro x hx y hy c
      simp only [List.mem_cons, List.not_mem_nil, or_false] at hx hy
      subst hx
      rcases hy with rfl | rfl <;> norm_num
    · intro i _ j _ c
      norm_num [oneSide]

/-- Moved by four sides, the particle has no neighbours. -/
example : ∃ grid x v, baGrid 4 = .ok grid ∧
    baCompute (d := 1) [[3]] 1 1 grid [⟨fun _ => 10, [fun i => if i = 0 then 0 + 4 * 10 else 0], [0], [fun _ => -1, fun _ => -2],
      [0, 0]⟩] = .ok (x, v) ∧ ∀ a ∈ v, a = none := by
  refine C156_counterexample_far (rcut := [[3]]) (rc := fun _ _ => 3) (nsp := 1) (skip := 1) (w := 4) one_pos
    (by norm_num) (by norm_num) [oneSide] ?_ 0 ?_ ?_ ?_ ?_
  · intro i hi
    obtain rfl : i = 0 := by omega
    exact ⟨[3], rfl, by simp⟩
  · intro f hf
    rw [List.mem_singleton] at hf
    subst hf
    exact oneSide_valid
  · intro f hf x hx y hy
    rw [List.mem_singleton] at hf
    subst hf
    simp only [oneSide, List.mem_cons, List.not_mem_nil, or_false] at hx hy
    subst hx
    rcases hy with rfl | rfl <;> norm_num [oneSide]
  · intro f hf i _ j _
    rw [List.mem_singleton] at hf
    subst hf
    norm_num [oneSide]
  · rw [everyNth_one]
    exact ⟨oneSide, by simp, by simp [oneSide]⟩

end PP.Props
