import Verif.Lemmas.BondAngle
import Verif.Props.Sk
import Verif.Props.GrLimits

/-!
# C70, C91: the bond-angle distribution and its default cut-offs
-/

set_option linter.unusedSectionVars false

namespace PP.Spec

variable {d : ℕ}

/-- All the bond angles of a frame. -/
noncomputable def frameAngles (rc : ℕ → ℕ → ℝ) (f : BaFrame d) : List ℝ :=
  (List.range f.pos0.length).flatMap fun i =>
    bondAngles f.side (f.pos0.getD i 0) f.pos1 (fun j => f.ids1.getD j 0) (rc (f.ids0.getD i 0))

open Classical in
/-- Number of particles, including the particle itself, closer to particle `i` than the cut-off. -/
noncomputable def inRange (rc : ℕ → ℕ → ℝ) (f : BaFrame d) (i : ℕ) : ℕ :=
  (List.range f.pos1.length).countP fun j =>
    decide (Closer f.side (rc (f.ids0.getD i 0) (f.ids1.getD j 0)) (f.pos0.getD i 0) (f.pos1.getD j 0))

/-- Number of angles from `a` (included) to `b`. -/
noncomputable def between (a b : ℝ) (l : List ℝ) : ℕ := l.countP fun t => decide (a ≤ t ∧ t < b)

end PP.Spec

namespace PP.Props

variable {d : ℕ}

/-- A frame with consistent arrays, in a proper cell, with the particles in the cell, whose species are in the table of
cut-offs. -/
structure BaValid (rcut : List (List ℝ)) (rc : ℕ → ℕ → ℝ) (f : BaFrame d) : Prop where
  len0 : f.ids0.length = f.pos0.length
  len1 : f.ids1.length = f.pos1.length
  side : ∀ c, 0 < f.side c
  cell : ∀ x ∈ f.pos0, ∀ y ∈ f.pos1, ∀ c, |x c - y c| < 3 / 2 * f.side c
  rows : ∀ i ∈ f.ids0, ∃ row, rcut[i]? = some row ∧ ∀ j ∈ f.ids1, row[j]? = some (rc i j)

theorem fpbc_eq_minImage {L x : ℝ} (hL : 0 < L) (hx : |x| < 3 / 2 * L) :
    fpbc L x = x - (pyRound (x / L) : ℝ) * L := by
  have e := (C35_fortran_fold (d := 1) (fun _ => L) (fun _ => x) 0 hL).2 hx.le
  have hm := minImage_abs (d := 1) (L := fun _ => L) (r := fun _ => x) (c := 0) hL
  have hround := abs_sub_pyRound (x / L)
  unfold fpbc fsign
  rw [abs_of_pos hL]
  have hq : x / L * L = x := by field_simp
  rw [abs_lt] at hx
  split_ifs with h1 h2
  · rw [abs_of_nonneg h2] at h1
    have h3 : 1 / 2 < x / L := by rw [lt_div_iff₀ hL]; linarith
    have h4 : x / L < 3 / 2 := by rw [div_lt_iff₀ hL]; linarith
    have h5 : pyRound (x / L) = 1 := by
      rw [abs_le] at hround
      have h6 : (0 : ℝ) < (pyRound (x / L) : ℝ) := by linarith
      have h7 : (pyRound (x / L) : ℝ) < 2 := by linarith
      have h6' : (0 : ℤ) < pyRound (x / L) := by exact_mod_cast h6
      have h7' : pyRound (x / L) < (2 : ℤ) := by exact_mod_cast h7
      omega
    rw [h5]; push_cast; ring
  · have h2' : x < 0 := lt_of_not_ge h2
    rw [abs_of_neg h2'] at h1
    have h3 : x / L < -(1 / 2) := by rw [div_lt_iff₀ hL]; linarith
    have h4 : -(3 / 2) < x / L := by rw [lt_div_iff₀ hL]; linarith
    have h5 : pyRound (x / L) = -1 := by
      rw [abs_le] at hround
      have h6 : (pyRound (x / L) : ℝ) < 0 := by linarith
      have h7 : (-2 : ℝ) < (pyRound (x / L) : ℝ) := by linarith
      have h6' : pyRound (x / L) < (0 : ℤ) := by exact_mod_cast h6
      have h7' : (-2 : ℤ) < pyRound (x / L) := by exact_mod_cast h7
      omega
    rw [h5]; push_cast; ring
  · have h3 : |x / L| ≤ 1 / 2 := by
      rw [abs_div, abs_of_pos hL, div_le_iff₀ hL]; linarith [not_lt.1 h1]
    have h5 : pyRound (x / L) = 0 := by
      rw [abs_le] at h3
      unfold pyRound
      simp only
      by_cases hneg : 0 ≤ x / L
      · have hf : ⌊x / L⌋ = 0 := by
          rw [Int.floor_eq_iff]; push_cast; constructor <;> linarith
        rw [hf]
        push_cast
        split_ifs <;> first | rfl | linarith | omega
      · have hf : ⌊x / L⌋ = -1 := by
          rw [Int.floor_eq_iff]; push_cast; constructor <;> linarith
        rw [hf]
        push_cast
        split_ifs <;> first | rfl | linarith | omega
    rw [h5]; push_cast; ring

theorem fold_eq_minImage {L x y : Vec d ℝ} (hL : ∀ c, 0 < L c) (h : ∀ c, |x c - y c| < 3 / 2 * L c) :
    (fun c => fpbc (L c) (x c - y c)) = minImage L fun c => x c - y c := by
  funext c
  exact fpbc_eq_minImage (hL c) (h c)

theorem loopAngles_eq (D : ℕ → Vec d ℝ) (nb : List ℕ) :
    loopAngles D nb = (nb.filter fun j => decide (D j ≠ 0)).flatMap fun j =>
      ((nb.filter fun j => decide (D j ≠ 0)).filter fun k => k ≠ j).map fun k => Spec.degrees (D j) (D k) := by
  classical
  unfold loopAngles
  have inner : ∀ j, D j ≠ 0 → (nb.filterMap fun k => if k = j then none else baAngle (D j) (D k)) =
      ((nb.filter fun j => decide (D j ≠ 0)).filter fun k => k ≠ j).map fun k => Spec.degrees (D j) (D k) := by
    intro j hj
    rw [List.filter_filter, ← List.filterMap_eq_map, List.filterMap_filter]
    apply List.filterMap_congr
    intro k _
    rw [baAngle_eq]
    by_cases hk : k = j <;> by_cases h0 : D k = 0 <;> simp [hk, h0, hj]
  have outer : ∀ l : List ℕ, (l.flatMap fun j => nb.filterMap fun k => if k = j then none else baAngle (D j) (D k)) =
      (l.filter fun j => decide (D j ≠ 0)).flatMap fun j =>
        ((nb.filter fun j => decide (D j ≠ 0)).filter fun k => k ≠ j).map fun k => Spec.degrees (D j) (D k) := by
    intro l
    induction l with
    | nil => rfl
    | cons j l ih =>
      rw [List.flatMap_cons, List.filter_cons, ih]
      by_cases h0 : D j = 0
      · have : (nb.filterMap fun k => if k = j then none else baAngle (D j) (D k)) = [] := by
          rw [List.filterMap_eq_nil_iff]
          intro k _
          rw [baAngle_eq]
          simp [h0]
        rw [this]
        simp [h0]
      · rw [inner j h0]
        simp [h0]
  exact outer nb

/-- One particle: either its neighbours fit in the buffer of 50 and its angles are counted, or the buffer is
overrun. -/
theorem baParticle_result {rcut : List (List ℝ)} {rc : ℕ → ℕ → ℝ} {f : BaFrame d} (hv : BaValid rcut rc f) {w : ℝ}
    (hw : 0 < w) (n i : ℕ) (hi : i < f.pos0.length) :
    baParticle rcut w n f i = if Spec.inRange rc f i ≤ 50 then .ok ((List.range n).map fun b : ℕ =>
      Spec.between ((b : ℝ) * w) (((b : ℝ) + 1) * w)
        (Spec.bondAngles f.side (f.pos0.getD i 0) f.pos1 (fun j => f.ids1.getD j 0) (rc (f.ids0.getD i 0))))
      else .error .outOfBounds := by
  classical
  have hi' : i < f.ids0.length := by rw [hv.len0]; exact hi
  obtain ⟨row, hrow, hrc⟩ := hv.rows _ (List.getElem_mem hi')
  have hx := List.getElem_mem hi
  set x := f.pos0[i] with hxdef
  have hgx : f.pos0.getD i 0 = x := List.getD_eq_getElem _ _ hi
  have hgi : f.ids0.getD i 0 = f.ids0[i] := List.getD_eq_getElem _ _ hi'
  have hcl : ∀ j ∈ List.range f.pos1.length,
      (fDistSq f.side x (f.pos1.getD j 0) < rc f.ids0[i] (f.ids1.getD j 0) ^ 2 ↔
        Spec.Closer f.side (rc f.ids0[i] (f.ids1.getD j 0)) x (f.pos1.getD j 0)) := by
    intro j hj
    rw [List.mem_range] at hj
    rw [List.getD_eq_getElem f.pos1 _ hj]
    exact fDistSq_lt hv.side (fun c => (hv.cell x hx _ (List.getElem_mem hj) c).le) _
  have hfilter : ((List.range f.pos1.length).filter fun j =>
        decide (fDistSq f.side x (f.pos1.getD j 0) < rc f.ids0[i] (f.ids1.getD j 0) ^ 2)) =
      (List.range f.pos1.length).filter fun j =>
        decide (Spec.Closer f.side (rc f.ids0[i] (f.ids1.getD j 0)) x (f.pos1.getD j 0)) := by
    apply List.filter_congr
    intro j hj
    exact decide_eq_decide.2 (hcl j hj)
  have hnb := neighborsOf_result f.side x f.pos1 f.ids1 row 50 (rc f.ids0[i]) hv.len1 hrc
  rw [hfilter] at hnb
  have hlen : ((List.range f.pos1.length).filter fun j =>
        decide (Spec.Closer f.side (rc f.ids0[i] (f.ids1.getD j 0)) x (f.pos1.getD j 0))).length =
      Spec.inRange rc f i := by
    unfold Spec.inRange
    rw [hgx, hgi, List.countP_eq_length_filter]
  unfold baParticle
  have e1 : pyGet f.pos0 i = .ok x := by unfold pyGet; rw [List.getElem?_eq_getElem hi]
  have e2 : pyGet f.ids0 i = .ok f.ids0[i] := by unfold pyGet; rw [List.getElem?_eq_getElem hi']
  have e3 : pyGet rcut f.ids0[i] = .ok row := by unfold pyGet; rw [hrow]
  rw [e1, e2]
  simp only [bind, Except.bind]
  rw [e3]
  simp only
  rw [hnb, hlen]
  by_cases hc : Spec.inRange rc f i ≤ 50
  · rw [if_pos hc, if_pos hc]
    simp only
    rw [bondAngle_ok x f.pos1 _ f.side hw n (by
      intro j hj
      exact List.mem_range.1 (List.mem_filter.1 hj).1)]
    congr 1
    apply List.map_congr_left
    intro b _
    unfold Spec.between
    congr 1
    rw [loopAngles_eq]
    unfold Spec.bondAngles Spec.bonded
    have hD : ∀ j ∈ List.range f.pos1.length, (fun c => fpbc (f.side c) (x c - f.pos1.getD j 0 c)) =
        minImage f.side fun c => x c - f.pos1.getD j 0 c := by
      intro j hj
      rw [List.mem_range] at hj
      rw [List.getD_eq_getElem f.pos1 _ hj]
      exact fold_eq_minImage hv.side fun c => hv.cell x hx _ (List.getElem_mem hj) c
    have hF : (((List.range f.pos1.length).filter fun j =>
          decide (Spec.Closer f.side (rc f.ids0[i] (f.ids1.getD j 0)) x (f.pos1.getD j 0))).filter fun j =>
            decide ((fun c => fpbc (f.side c) (x c - f.pos1.getD j 0 c)) ≠ 0)) =
        (List.range f.pos1.length).filter fun j =>
          decide (Spec.Closer f.side (rc (f.ids0.getD i 0) (f.ids1.getD j 0)) (f.pos0.getD i 0) (f.pos1.getD j 0) ∧
            minImage f.side (fun c => f.pos0.getD i 0 c - f.pos1.getD j 0 c) ≠ 0) := by
      rw [List.filter_filter, hgx, hgi]
      apply List.filter_congr
      intro j hj
      rw [hD j hj, Bool.decide_and, Bool.and_comm]
    rw [hF]
    apply List.flatMap_congr
    intro j hj
    have hj' := (List.mem_filter.1 hj).1
    apply List.map_congr_left
    intro k hk
    have hk' := (List.mem_filter.1 (List.mem_filter.1 hk).1).1
    rw [hD j hj', hD k hk', hgx]
  · rw [if_neg hc, if_neg hc]

theorem mapM_origins {α β : Type} (l : List α) {skip : ℕ} (hs : 0 < skip) (F : α → Py β) :
    ((rangeList 0 l.length skip).mapM fun i => do
          let a ← pyGet l i
          F a : Py (List β)) = (Spec.everyNth skip l).mapM F := by
  rw [← originFrames_eq _ hs]
  unfold originFrames
  have : ∀ is : List ℕ, (∀ i ∈ is, i < l.length) → (is.mapM fun i => do
          let a ← pyGet l i
          F a : Py (List β)) = (is.filterMap fun i => l[i]?).mapM F := by
    intro is
    induction is with
    | nil => intro _; rfl
    | cons i is ih =>
      intro h
      have hi := h i (by simp)
      rw [List.mapM_cons, List.filterMap_cons, List.getElem?_eq_getElem hi, ih fun k hk => h k (by simp [hk])]
      simp only [List.mapM_cons]
      unfold pyGet
      rw [List.getElem?_eq_getElem hi]
      rfl
  apply this
  intro i hi
  exact ((mem_rangeList hs).1 hi).2.1

theorem forM_ok {α : Type} {f : α → Py Unit} {l : List α} (h : ∀ a ∈ l, f a = .ok ()) : l.forM f = .ok () := by
  induction l with
  | nil => rfl
  | cons a l ih =>
    show (f a >>= fun _ => l.forM f) = _
    rw [h a (by simp)]
    exact ih fun b hb => h b (by simp [hb])

theorem baCheckRcut_ok {rcut : List (List ℝ)} {nsp : ℕ}
    (h : ∀ i < nsp, ∃ row, rcut[i]? = some row ∧ nsp ≤ row.length) : baCheckRcut rcut nsp = .ok () := by
  unfold baCheckRcut
  apply forM_ok
  intro i hi
  obtain ⟨row, h1, h2⟩ := h i (List.mem_range.1 hi)
  unfold pyGet
  rw [h1]
  apply forM_ok
  intro j hj
  rw [List.mem_range] at hj
  rw [List.getElem?_eq_getElem (by omega : j < row.length)]
  rfl

/-- The grid of `BondAngleDistribution`: the multiples of the spacing up to 180. -/
theorem baGrid_ok {w : ℝ} (hw : 0 < w) : baGrid w = .ok ((List.range (⌊180 / w⌋₊ + 1)).map fun i : ℕ => (i : ℝ) * w) := by
  unfold baGrid linearGrid
  simp only [sub_zero, zero_add]
  rw [if_neg hw.ne']
  have h0 : 0 ≤ 180 / w := by positivity
  have : (pyInt (180 / w) + 1).toNat = ⌊180 / w⌋₊ + 1 := by
    unfold pyInt
    rw [if_pos h0, ← Int.floor_toNat]
    have := Int.floor_nonneg.2 h0
    omega
  rw [this]

/-- The lists of angles of all the particles in the frames used. -/
noncomputable def particleAngles (rc : ℕ → ℕ → ℝ) (frames : List (BaFrame d)) : List (List ℝ) :=
  frames.flatMap fun f => (List.range f.pos0.length).map fun i =>
    Spec.bondAngles f.side (f.pos0.getD i 0) f.pos1 (fun j => f.ids1.getD j 0) (rc (f.ids0.getD i 0))

theorem particleAngles_flatten (rc : ℕ → ℕ → ℝ) (frames : List (BaFrame d)) :
    (particleAngles rc frames).flatten = frames.flatMap (Spec.frameAngles rc) := by
  unfold particleAngles
  rw [List.flatten_eq_flatMap, List.flatMap_assoc]
  apply List.flatMap_congr
  intro f _
  rw [List.flatMap_map]
  rfl

/-- Loops over the frames and the particles. -/
theorem baLoops {rcut : List (List ℝ)} {rc : ℕ → ℕ → ℝ} {skip : ℕ} (hs : 0 < skip) {w : ℝ} (hw : 0 < w) (n : ℕ)
    (frames : List (BaFrame d)) (hv : ∀ f ∈ Spec.everyNth skip frames, BaValid rcut rc f) :
    ((∀ f ∈ Spec.everyNth skip frames, ∀ i < f.pos0.length, Spec.inRange rc f i ≤ 50) ∧
      ∃ hists, ((rangeList 0 frames.length skip).mapM fun i => do
          let f ← pyGet frames i
          (List.range f.pos0.length).mapM (baParticle rcut w n f)) = .ok hists ∧
        hists.flatten = (particleAngles rc (Spec.everyNth skip frames)).map fun l => (List.range n).map fun b : ℕ =>
          Spec.between ((b : ℝ) * w) (((b : ℝ) + 1) * w) l) ∨
    ((∃ f ∈ Spec.everyNth skip frames, ∃ i < f.pos0.length, 50 < Spec.inRange rc f i) ∧
      ((rangeList 0 frames.length skip).mapM fun i => do
          let f ← pyGet frames i
          (List.range f.pos0.length).mapM (baParticle rcut w n f)) = .error .outOfBounds) := by
  rw [mapM_origins frames hs]
  by_cases hc : ∀ f ∈ Spec.everyNth skip frames, ∀ i < f.pos0.length, Spec.inRange rc f i ≤ 50
  · left
    refine ⟨hc, _, mapM_ok_map (g := fun f => (List.range f.pos0.length).map fun i => (List.range n).map fun b : ℕ =>
      Spec.between ((b : ℝ) * w) (((b : ℝ) + 1) * w)
        (Spec.bondAngles f.side (f.pos0.getD i 0) f.pos1 (fun j => f.ids1.getD j 0) (rc (f.ids0.getD i 0)))) ?_, ?_⟩
    · intro f hf
      apply mapM_ok_map
      intro i hi
      rw [List.mem_range] at hi
      rw [baParticle_result (hv f hf) hw n i hi, if_pos (hc f hf i hi)]
    · unfold particleAngles
      rw [List.map_flatMap, List.flatten_eq_flatMap, List.flatMap_map]
      apply List.flatMap_congr
      intro f _
      simp only [id, List.map_map]
      rfl
  · right
    push Not at hc
    obtain ⟨f, hf, i, hi, hlt⟩ := hc
    have hone : ∀ g ∈ Spec.everyNth skip frames, ∀ k ∈ List.range g.pos0.length,
        baParticle rcut w n g k = .error .outOfBounds ∨ ∃ b, baParticle rcut w n g k = .ok b := by
      intro g hg k hk
      rw [List.mem_range] at hk
      rw [baParticle_result (hv g hg) hw n k hk]
      split_ifs
      · exact Or.inr ⟨_, rfl⟩
      · exact Or.inl rfl
    have hframe : ∀ g ∈ Spec.everyNth skip frames,
        (List.range g.pos0.length).mapM (baParticle rcut w n g) = .error .outOfBounds ∨
          ∃ b, (List.range g.pos0.length).mapM (baParticle rcut w n g) = .ok b := by
      intro g hg
      by_cases h : ∃ k ∈ List.range g.pos0.length, baParticle rcut w n g k = .error .outOfBounds
      · obtain ⟨k, hk, he⟩ := h
        exact Or.inl (mapM_error (hone g hg) k hk he)
      · push Not at h
        right
        have : ∀ k ∈ List.range g.pos0.length, ∃ b, baParticle rcut w n g k = .ok b := by
          intro k hk
          rcases hone g hg k hk with h1 | h1
          · exact absurd h1 (h k hk)
          · exact h1
        choose! b hb using this
        exact ⟨_, mapM_ok_map hb⟩
    refine ⟨⟨f, hf, i, hi, hlt⟩, mapM_error hframe f hf ?_⟩
    refine mapM_error (hone f hf) i (List.mem_range.2 hi) ?_
    rw [baParticle_result (hv f hf) hw n i hi, if_neg (by omega)]

theorem between_flatten (a b : ℝ) (l : List (List ℝ)) :
    (l.map fun t => Spec.between a b t).sum = Spec.between a b l.flatten := by
  unfold Spec.between
  rw [List.countP_flatten]

/-- Counts of consecutive intervals add up. -/
theorem between_sum {w : ℝ} (hw : 0 < w) (m : ℕ) (l : List ℝ) :
    ((List.range m).map fun b : ℕ => Spec.between ((b : ℝ) * w) (((b : ℝ) + 1) * w) l).sum =
      Spec.between 0 ((m : ℝ) * w) l := by
  induction m with
  | zero =>
    simp only [List.range_zero, List.map_nil, List.sum_nil, Nat.cast_zero, zero_mul]
    symm
    unfold Spec.between
    rw [List.countP_eq_zero]
    intro t _
    simp only [decide_eq_true_eq, not_and, not_lt]
    exact fun h => h
  | succ m ih =>
    rw [List.range_succ, List.map_append, List.sum_append, ih]
    clear ih
    simp only [List.map_cons, List.map_nil, List.sum_cons, List.sum_nil, Nat.add_zero]
    unfold Spec.between
    have hm : (0 : ℝ) ≤ (m : ℝ) * w := by positivity
    induction l with
    | nil => simp
    | cons t l ih2 =>
      simp only [List.countP_cons, decide_eq_true_eq]
      push_cast
      have hcase : (if 0 ≤ t ∧ t < (m : ℝ) * w then 1 else 0) +
          (if (m : ℝ) * w ≤ t ∧ t < ((m : ℝ) + 1) * w then 1 else 0) =
          if 0 ≤ t ∧ t < ((m : ℝ) + 1) * w then 1 else 0 := by
        have hlt : (m : ℝ) * w < ((m : ℝ) + 1) * w := by nlinarith
        rcases lt_or_ge t ((m : ℝ) * w) with h1 | h1
        · have h2 : ¬ ((m : ℝ) * w ≤ t ∧ t < ((m : ℝ) + 1) * w) := fun h => absurd h.1 (not_le.2 h1)
          rw [if_neg h2]
          by_cases h0 : 0 ≤ t
          · rw [if_pos ⟨h0, h1⟩, if_pos ⟨h0, by linarith⟩]
          · rw [if_neg (fun h => h0 h.1), if_neg (fun h => h0 h.1)]
        · have h2 : ¬ (0 ≤ t ∧ t < (m : ℝ) * w) := fun h => absurd h.2 (not_lt.2 h1)
          rw [if_neg h2]
          by_cases h0 : t < ((m : ℝ) + 1) * w
          · rw [if_pos ⟨h1, h0⟩, if_pos ⟨by linarith, h0⟩]
          · rw [if_neg (fun h => h0 h.2), if_neg (fun h => h0 h.2)]
      push_cast at ih2
      omega

/-- **C70**, what is computed, with a float `dtheta` not larger than 180, when every particle has at most 50 particles
(itself included) closer than the cut-off and there is at least one particle: each bin contains the fraction of the
angles in it, divided by its width, but the angles from the last multiple of `dtheta` on are left out. -/
theorem C70_values {rcut : List (List ℝ)} {rc : ℕ → ℕ → ℝ} {nsp skip : ℕ} (hs : 0 < skip) {w : ℝ} (hw : 0 < w)
    (hw180 : w ≤ 180) (frames : List (BaFrame d)) (hsp : ∀ i < nsp, ∃ row, rcut[i]? = some row ∧ nsp ≤ row.length)
    (hv : ∀ f ∈ Spec.everyNth skip frames, BaValid rcut rc f)
    (hbuf : ∀ f ∈ Spec.everyNth skip frames, ∀ i < f.pos0.length, Spec.inRange rc f i ≤ 50)
    (hne : ∃ f ∈ Spec.everyNth skip frames, f.pos0 ≠ []) :
    ∃ grid r, baGrid w = .ok grid ∧ baCompute rcut nsp skip grid frames = .ok r ∧
      r.1 = (List.range ⌊180 / w⌋₊).map (fun b : ℕ => ((b : ℝ) + 1 / 2) * w) ∧
      r.2 = (List.range ⌊180 / w⌋₊).map (fun b : ℕ =>
        if Spec.between 0 (⌊180 / w⌋₊ * w) ((Spec.everyNth skip frames).flatMap (Spec.frameAngles rc)) = 0 then none
        else some ((Spec.between (b * w) ((b + 1) * w) ((Spec.everyNth skip frames).flatMap (Spec.frameAngles rc)) : ℝ) /
          ((Spec.between 0 (⌊180 / w⌋₊ * w) ((Spec.everyNth skip frames).flatMap (Spec.frameAngles rc)) : ℝ) * w))) := by
  set m := ⌊180 / w⌋₊ with hm
  have hm1 : 1 ≤ m := by
    rw [hm, Nat.one_le_floor_iff, le_div_iff₀ hw]
    linarith
  set A := (Spec.everyNth skip frames).flatMap (Spec.frameAngles rc) with hA
  refine ⟨_, ((List.range m).map (fun b : ℕ => ((b : ℝ) + 1 / 2) * w), _), baGrid_ok hw, ?_, rfl, rfl⟩
  rw [← hm]
  set grid : List ℝ := (List.range (m + 1)).map fun i : ℕ => (i : ℝ) * w with hgrid
  have hg0 : pyGet grid 0 = .ok 0 := by
    unfold pyGet
    rw [hgrid, List.getElem?_map, List.getElem?_range (by omega)]
    simp
  have hg1 : pyGet grid 1 = .ok w := by
    unfold pyGet
    rw [hgrid, List.getElem?_map, List.getElem?_range (by omega)]
    simp
  have hlen : grid.length = m + 1 := by simp [hgrid]
  rcases baLoops (rcut := rcut) (rc := rc) hs hw (m + 1) frames hv with ⟨_, hists, h1, h2⟩ | ⟨⟨f, hf, i, hi, h⟩, _⟩
  swap
  · have := hbuf f hf i hi; omega
  unfold baCompute pyRange
  rw [if_neg (by omega)]
  simp only [bind, Except.bind, hg0, hg1, baCheckRcut_ok hsp, sub_zero, hlen]
  simp only [bind, Except.bind] at h1
  rw [h1]
  have hP : particleAngles rc (Spec.everyNth skip frames) ≠ [] := by
    obtain ⟨f, hf, hne⟩ := hne
    intro hnil
    unfold particleAngles at hnil
    rw [List.flatMap_eq_nil_iff] at hnil
    have := hnil f hf
    rw [List.map_eq_nil_iff, List.range_eq_nil] at this
    exact hne (List.length_eq_zero_iff.1 this)
  have htot : baTotal (m + 1) hists.flatten = .ok ((List.range m).map fun b : ℕ =>
      Spec.between ((b : ℝ) * w) (((b : ℝ) + 1) * w) A) := by
    unfold baTotal
    rw [h2, if_neg (by simpa using hP)]
    congr 1
    apply List.map_congr_left
    intro b hb
    rw [List.mem_range, Nat.add_sub_cancel] at hb
    rw [List.map_map, hA, ← particleAngles_flatten, ← between_flatten]
    congr 1
    apply List.map_congr_left
    intro l _
    simp only [Function.comp_apply]
    rw [List.getD_eq_getElem?_getD, List.getElem?_map, List.getElem?_range (by omega)]
    rfl
  simp only [htot, pure, Except.pure]
  congr 1
  refine Prod.ext ?_ ?_
  · simp only
    apply List.ext_getElem
    · simp [hgrid]
    · intro i h3 h4
      simp [hgrid]
      ring
  · simp only [List.map_map]
    have hsum := between_sum hw m A
    apply List.map_congr_left
    intro b _
    have hcast : ((List.map (fun b : ℕ => Spec.between ((b : ℝ) * w) (((b : ℝ) + 1) * w) A) (List.range m)).sum : ℝ) =
        (Spec.between 0 ((m : ℝ) * w) A : ℝ) := by
      exact_mod_cast hsum
    simp only [Function.comp_apply]
    unfold npDiv
    simp only
    rw [hcast]
    by_cases h0 : Spec.between 0 ((m : ℝ) * w) A = 0
    · rw [if_pos h0, h0]; simp
    · rw [if_neg h0, if_neg (mul_ne_zero (by exact_mod_cast h0) hw.ne')]

/-- **C70**, normalisation: if at least one angle is below the last multiple of `dtheta`, the values are numbers
`≥ 0` whose sum times `dtheta` is 1. -/
theorem C70_normalised_partial {rcut : List (List ℝ)} {rc : ℕ → ℕ → ℝ} {nsp skip : ℕ} (hs : 0 < skip) {w : ℝ} (hw : 0 < w)
    (hw180 : w ≤ 180) (frames : List (BaFrame d)) (hsp : ∀ i < nsp, ∃ row, rcut[i]? = some row ∧ nsp ≤ row.length)
    (hv : ∀ f ∈ Spec.everyNth skip frames, BaValid rcut rc f)
    (hbuf : ∀ f ∈ Spec.everyNth skip frames, ∀ i < f.pos0.length, Spec.inRange rc f i ≤ 50)
    (t : ℝ) (ht : t ∈ (Spec.everyNth skip frames).flatMap (Spec.frameAngles rc)) (htw : t < ⌊180 / w⌋₊ * w) :
    ∃ grid x, ∃ v : List ℝ, baGrid w = .ok grid ∧ baCompute rcut nsp skip grid frames = .ok (x, v.map some) ∧
      (∀ a ∈ v, 0 ≤ a) ∧ v.sum * w = 1 := by
  have hne : ∃ f ∈ Spec.everyNth skip frames, f.pos0 ≠ [] := by
    rw [List.mem_flatMap] at ht
    obtain ⟨f, hf, h⟩ := ht
    refine ⟨f, hf, fun h0 => ?_⟩
    unfold Spec.frameAngles at h
    rw [h0] at h
    simp at h
  obtain ⟨grid, r, h1, h2, -, h4⟩ := C70_values (rc := rc) hs hw hw180 frames hsp hv hbuf hne
  set m := ⌊180 / w⌋₊ with hm
  set A := (Spec.everyNth skip frames).flatMap (Spec.frameAngles rc) with hA
  have ht0 : 0 ≤ t := by
    rw [hA, List.mem_flatMap] at ht
    obtain ⟨f, _, h⟩ := ht
    unfold Spec.frameAngles Spec.bondAngles at h
    simp only [List.mem_flatMap, List.mem_map] at h
    obtain ⟨_, _, _, _, _, _, rfl⟩ := h
    exact degrees_nonneg _ _
  have hpos : 0 < Spec.between 0 ((m : ℝ) * w) A := by
    unfold Spec.between
    rw [List.countP_pos_iff]
    exact ⟨t, ht, by simpa using ⟨ht0, htw⟩⟩
  have hpos' : (0 : ℝ) < (Spec.between 0 ((m : ℝ) * w) A : ℝ) := by exact_mod_cast hpos
  refine ⟨grid, r.1, (List.range m).map fun b : ℕ => (Spec.between (b * w) ((b + 1) * w) A : ℝ) /
    ((Spec.between 0 (m * w) A : ℝ) * w), h1, ?_, ?_, ?_⟩
  · rw [h2]
    congr 1
    refine Prod.ext rfl ?_
    rw [h4, List.map_map]
    apply List.map_congr_left
    intro b _
    rw [if_neg hpos.ne']
    rfl
  · intro a ha
    rw [List.mem_map] at ha
    obtain ⟨b, _, rfl⟩ := ha
    positivity
  · have hsum := between_sum hw m A
    have hcast : ((List.range m).map fun b : ℕ => (Spec.between ((b : ℝ) * w) (((b : ℝ) + 1) * w) A : ℝ)).sum =
        (Spec.between 0 ((m : ℝ) * w) A : ℝ) := by
      rw [← hsum, Nat.cast_list_sum, List.map_map]
      rfl
    have : ((List.range m).map fun b : ℕ => (Spec.between (b * w) ((b + 1) * w) A : ℝ) /
        ((Spec.between 0 (m * w) A : ℝ) * w)) =
        (((List.range m).map fun b : ℕ => (Spec.between ((b : ℝ) * w) (((b : ℝ) + 1) * w) A : ℝ)).map fun z =>
          z * (((Spec.between 0 ((m : ℝ) * w) A : ℝ) * w)⁻¹)) := by
      rw [List.map_map]
      apply List.map_congr_left
      intro b _
      simp [div_eq_mul_inv]
    rw [this, List.sum_map_mul_right, List.map_id'', hcast]
    · field_simp
    · exact fun _ => rfl

/-- **C70**, counter-example: if all the angles are at or beyond the last multiple of `dtheta` (for instance all equal
to 180 and `dtheta` a divisor of 180, or above 150 with `dtheta` 50), all the values are nan, although there are
angles. -/
theorem C70_counterexample_dropped {rcut : List (List ℝ)} {rc : ℕ → ℕ → ℝ} {nsp skip : ℕ} (hs : 0 < skip) {w : ℝ} (hw : 0 < w)
    (hw180 : w ≤ 180) (frames : List (BaFrame d)) (hsp : ∀ i < nsp, ∃ row, rcut[i]? = some row ∧ nsp ≤ row.length)
    (hv : ∀ f ∈ Spec.everyNth skip frames, BaValid rcut rc f)
    (hbuf : ∀ f ∈ Spec.everyNth skip frames, ∀ i < f.pos0.length, Spec.inRange rc f i ≤ 50)
    (hne : ∃ f ∈ Spec.everyNth skip frames, f.pos0 ≠ [])
    (hall : ∀ t ∈ (Spec.everyNth skip frames).flatMap (Spec.frameAngles rc), ⌊180 / w⌋₊ * w ≤ t) :
    ∃ grid x v, baGrid w = .ok grid ∧ baCompute rcut nsp skip grid frames = .ok (x, v) ∧ v.length = ⌊180 / w⌋₊ ∧
      ∀ a ∈ v, a = none := by
  obtain ⟨grid, r, h1, h2, -, h4⟩ := C70_values (rc := rc) hs hw hw180 frames hsp hv hbuf hne
  refine ⟨grid, r.1, r.2, h1, h2, by rw [h4]; simp, ?_⟩
  have h0 : Spec.between 0 (⌊180 / w⌋₊ * w) ((Spec.everyNth skip frames).flatMap (Spec.frameAngles rc)) = 0 := by
    unfold Spec.between
    rw [List.countP_eq_zero]
    intro t ht
    have := hall t ht
    simp only [decide_eq_true_eq, not_and, not_lt]
    exact fun _ => this
  intro a ha
  rw [h4, List.mem_map] at ha
  obtain ⟨b, _, rfl⟩ := ha
  rw [if_pos h0]

/-- **C70**, counter-example: as soon as a particle has more than 50 particles, itself included, closer than the cut-off,
the neighbour buffer is overrun. -/
theorem C70_counterexample_buffer {rcut : List (List ℝ)} {rc : ℕ → ℕ → ℝ} {nsp skip : ℕ} (hs : 0 < skip) {w : ℝ} (hw : 0 < w)
    (hw180 : w ≤ 180) (frames : List (BaFrame d)) (hsp : ∀ i < nsp, ∃ row, rcut[i]? = some row ∧ nsp ≤ row.length)
    (hv : ∀ f ∈ Spec.everyNth skip frames, BaValid rcut rc f)
    (hbuf : ∃ f ∈ Spec.everyNth skip frames, ∃ i < f.pos0.length, 50 < Spec.inRange rc f i) :
    ∃ grid, baGrid w = .ok grid ∧ baCompute rcut nsp skip grid frames = .error .outOfBounds := by
  set m := ⌊180 / w⌋₊ with hm
  have hm1 : 1 ≤ m := by
    rw [hm, Nat.one_le_floor_iff, le_div_iff₀ hw]
    linarith
  refine ⟨_, baGrid_ok hw, ?_⟩
  rw [← hm]
  set grid : List ℝ := (List.range (m + 1)).map fun i : ℕ => (i : ℝ) * w with hgrid
  have hg0 : pyGet grid 0 = .ok 0 := by
    unfold pyGet
    rw [hgrid, List.getElem?_map, List.getElem?_range (by omega)]
    simp
  have hg1 : pyGet grid 1 = .ok w := by
    unfold pyGet
    rw [hgrid, List.getElem?_map, List.getElem?_range (by omega)]
    simp
  have hlen : grid.length = m + 1 := by simp [hgrid]
  rcases baLoops (rcut := rcut) (rc := rc) hs hw (m + 1) frames hv with ⟨h0, _⟩ | ⟨_, h1⟩
  · obtain ⟨f, hf, i, hi, h⟩ := hbuf
    have := h0 f hf i hi
    omega
  unfold baCompute pyRange
  rw [if_neg (by omega)]
  simp only [bind, Except.bind] at h1
  simp only [bind, Except.bind, hg0, hg1, baCheckRcut_ok hsp, sub_zero, hlen, h1]

/-- **C70**, counter-example: a spacing above 180 degrees gives a grid of a single point and an `IndexError`. -/
theorem C70_counterexample_wide {rcut : List (List ℝ)} {nsp skip : ℕ} (hs : 0 < skip) {w : ℝ} (hw : 180 < w)
    (frames : List (BaFrame d)) :
    ∃ grid, baGrid w = .ok grid ∧ baCompute rcut nsp skip grid frames = .error .indexError := by
  refine ⟨_, baGrid_ok (by linarith), ?_⟩
  have h0 : ⌊180 / w⌋₊ = 0 := by
    rw [Nat.floor_eq_zero, div_lt_one (by linarith)]
    exact hw
  rw [h0]
  unfold baCompute pyRange
  rw [if_neg (by omega)]
  rfl

/-- The histogram itself is safe: whatever the neighbours, the kernel `bond_angle` does not access memory outside the
arrays, and the number of elements is that of the histogram. -/
theorem C70_bond_angle_safe (center : Vec d ℝ) (pos : List (Vec d ℝ)) (nb : List ℕ) (box : Vec d ℝ) {w : ℝ} (hw : 0 < w)
    (n : ℕ) (hnb : ∀ j ∈ nb, j < pos.length) :
    ∃ hist, bondAngle center pos (nb.map fun j : ℕ => (j : ℤ)) box w n = .ok hist ∧ hist.length = n :=
  ⟨_, bondAngle_ok center pos nb box hw n hnb, by simp⟩

/-- The angle at the centre of a straight trimer is 180 degrees. -/
theorem degrees_opposite (v : Fin d → ℝ) (hv : v ≠ 0) : Spec.degrees v (-v) = 180 := by
  unfold Spec.degrees
  have : (WithLp.toLp 2 (-v) : EuclideanSpace ℝ (Fin d)) = -WithLp.toLp 2 v := rfl
  rw [this, InnerProductGeometry.angle_self_neg_of_nonzero (by simpa using hv)]
  field_simp

/-- A particle in the middle of two others. -/
noncomputable def trimer : BaFrame 1 :=
  { side := fun _ => 10, pos0 := [fun _ => 0], ids0 := [0], pos1 := [fun _ => 1, fun _ => -1], ids1 := [0, 0] }

theorem trimer_valid : BaValid [[2]] (fun _ _ => 2) trimer := by
  refine ⟨rfl, rfl, fun _ => by norm_num [trimer], ?_, ?_⟩
  · intro x hx y hy c
    simp only [trimer, List.mem_cons, List.not_mem_nil, or_false] at hx hy
    subst hx
    rcases hy with rfl | rfl <;> norm_num [trimer]
  · intro i hi
    simp only [trimer, List.mem_cons, List.not_mem_nil, or_false] at hi
    subst hi
    refine ⟨[2], rfl, ?_⟩
    intro j hj
    simp only [trimer, List.mem_cons, List.not_mem_nil, or_false, or_self] at hj
    subst hj
    rfl

theorem trimer_angles : Spec.frameAngles (fun _ _ => 2) trimer = [180, 180] := by
  have himg : ∀ x : ℝ, |x| < 5 → minImage (d := 1) (fun _ => (10 : ℝ)) (fun _ => x) = fun _ => x := by
    intro x hx
    funext c
    rw [abs_lt] at hx
    have h := fpbc_eq_minImage (L := 10) (x := x) (by norm_num) (by rw [abs_lt]; constructor <;> linarith)
    show x - _ = x
    rw [← h]
    unfold fpbc
    rw [if_neg]
    rw [not_lt, abs_le]
    constructor <;> linarith
  have hb : Spec.bonded (fun _ : Fin 1 => (10 : ℝ)) (fun _ => 0) [fun _ => 1, fun _ => -1] (fun j => [0, 0].getD j 0)
      (fun _ => 2) = [0, 1] := by
    unfold Spec.bonded
    have h2 : List.range [fun _ : Fin 1 => (1 : ℝ), fun _ => -1].length = [0, 1] := rfl
    rw [h2, List.filter_eq_self]
    intro j hj
    have hj' : j = 0 ∨ j = 1 := by simpa using hj
    simp only [decide_eq_true_eq]
    rcases hj' with rfl | rfl
    · refine ⟨⟨fun _ => 0, by norm_num⟩, ?_⟩
      show minImage (d := 1) (fun _ => (10 : ℝ)) (fun c => 0 - 1) ≠ 0
      rw [himg _ (by norm_num)]
      intro h
      have := congrFun h 0
      norm_num at this
    · refine ⟨⟨fun _ => 0, by norm_num⟩, ?_⟩
      show minImage (d := 1) (fun _ => (10 : ℝ)) (fun c => 0 - -1) ≠ 0
      rw [himg _ (by norm_num)]
      intro h
      have := congrFun h 0
      norm_num at this
  have h1 : Spec.degrees (fun _ : Fin 1 => (0 : ℝ) - 1) (fun _ => 0 - -1) = 180 := by
    have := degrees_opposite (d := 1) (fun _ => (0 : ℝ) - 1) (by
      intro h
      have := congrFun h 0
      norm_num at this)
    rw [← this]
    congr 1
    funext c
    simp
  have h2 : Spec.degrees (fun _ : Fin 1 => (0 : ℝ) - -1) (fun _ => 0 - 1) = 180 := by
    have := degrees_opposite (d := 1) (fun _ => (0 : ℝ) - -1) (by
      intro h
      have := congrFun h 0
      norm_num at this)
    rw [← this]
    congr 1
    funext c
    simp
  show [0].flatMap (fun _ => Spec.bondAngles (fun _ : Fin 1 => (10 : ℝ)) (fun _ => 0) [fun _ => 1, fun _ => -1]
    (fun j => [0, 0].getD j 0) (fun _ => 2)) = _
  unfold Spec.bondAngles
  rw [hb]
  have e0 : ([0, 1] : List ℕ).filter (fun k => decide (k ≠ 0)) = [1] := rfl
  have e1 : ([0, 1] : List ℕ).filter (fun k => decide (k ≠ 1)) = [0] := rfl
  simp only [List.flatMap_cons, List.flatMap_nil, List.append_nil, e0, e1, List.map_cons, List.map_nil,
    List.singleton_append, List.getD_cons_zero, List.getD_cons_succ]
  rw [himg _ (by norm_num), himg _ (by norm_num), h1, h2]

/-- All the hypotheses of the counter-example hold for the trimer and the default spacing of 4 degrees. -/
example : ∃ grid x v, baGrid 4 = .ok grid ∧ baCompute [[2]] 1 1 grid [trimer] = .ok (x, v) ∧ v.length = 45 ∧
    ∀ a ∈ v, a = none := by
  have h45 : ⌊(180 : ℝ) / 4⌋₊ = 45 := by
    have : (180 : ℝ) / 4 = ((45 : ℕ) : ℝ) := by norm_num
    rw [this, Nat.floor_natCast]
  have hev : Spec.everyNth 1 [trimer] = [trimer] := by simp [Spec.everyNth]
  have := C70_counterexample_dropped (rcut := [[2]]) (rc := fun _ _ => 2) (nsp := 1) (skip := 1) (w := 4) one_pos
    (by norm_num) (by norm_num) [trimer] (by
      intro i hi
      obtain rfl : i = 0 := by omega
      exact ⟨[2], rfl, by simp⟩) (by
      rw [hev]; intro f hf; rw [List.mem_singleton] at hf; rw [hf]; exact trimer_valid) (by
      rw [hev]; intro f hf i _; rw [List.mem_singleton] at hf; rw [hf]
      exact le_trans List.countP_le_length (by simp [trimer])) (by
      rw [hev]; exact ⟨trimer, by simp, by simp [trimer]⟩) (by
      rw [hev, h45]
      intro t ht
      simp only [List.flatMap_cons, List.flatMap_nil, List.append_nil, trimer_angles, List.mem_cons,
        List.not_mem_nil, or_false, or_self] at ht
      rw [ht]; norm_num)
  rw [h45] at this
  exact this

/-- A particle and two others on the same side. -/
noncomputable def oneSide : BaFrame 1 :=
  { side := fun _ => 10, pos0 := [fun _ => 0], ids0 := [0], pos1 := [fun _ => -1, fun _ => -2], ids1 := [0, 0] }

theorem oneSide_valid : BaValid [[3]] (fun _ _ => 3) oneSide := by
  refine ⟨rfl, rfl, fun _ => by norm_num [oneSide], ?_, ?_⟩
  · intro x hx y hy c
    simp only [oneSide, List.mem_cons, List.not_mem_nil, or_false] at hx hy
    subst hx
    rcases hy with rfl | rfl <;> norm_num [oneSide]
  · intro i hi
    simp only [oneSide, List.mem_cons, List.not_mem_nil, or_false] at hi
    subst hi
    refine ⟨[3], rfl, ?_⟩
    intro j hj
    simp only [oneSide, List.mem_cons, List.not_mem_nil, or_false, or_self] at hj
    subst hj
    rfl

theorem oneSide_angles : (0 : ℝ) ∈ Spec.frameAngles (fun _ _ => 3) oneSide := by
  have himg : ∀ x : ℝ, |x| < 5 → minImage (d := 1) (fun _ => (10 : ℝ)) (fun _ => x) = fun _ => x := by
    intro x hx
    funext c
    rw [abs_lt] at hx
    have h := fpbc_eq_minImage (L := 10) (x := x) (by norm_num) (by rw [abs_lt]; constructor <;> linarith)
    show x - _ = x
    rw [← h]
    unfold fpbc
    rw [if_neg]
    rw [not_lt, abs_le]
    constructor <;> linarith
  have hmem : ∀ j, j < 2 → j ∈ Spec.bonded (fun _ : Fin 1 => (10 : ℝ)) (fun _ => 0) [fun _ => -1, fun _ => -2]
      (fun j => [0, 0].getD j 0) (fun _ => 3) := by
    intro j hj
    unfold Spec.bonded
    rw [List.mem_filter]
    refine ⟨List.mem_range.2 hj, ?_⟩
    simp only [decide_eq_true_eq]
    obtain rfl | rfl : j = 0 ∨ j = 1 := by omega
    · refine ⟨⟨fun _ => 0, by norm_num⟩, ?_⟩
      show minImage (d := 1) (fun _ => (10 : ℝ)) (fun c => 0 - -1) ≠ 0
      rw [himg _ (by norm_num)]
      intro h
      have := congrFun h 0
      norm_num at this
    · refine ⟨⟨fun _ => 0, by norm_num⟩, ?_⟩
      show minImage (d := 1) (fun _ => (10 : ℝ)) (fun c => 0 - -2) ≠ 0
      rw [himg _ (by norm_num)]
      intro h
      have := congrFun h 0
      norm_num at this
  unfold Spec.frameAngles
  rw [List.mem_flatMap]
  refine ⟨0, by simp [oneSide], ?_⟩
  unfold Spec.bondAngles
  rw [List.mem_flatMap]
  refine ⟨0, hmem 0 (by omega), ?_⟩
  rw [List.mem_map]
  refine ⟨1, ?_, ?_⟩
  · rw [List.mem_filter]
    exact ⟨hmem 1 (by omega), by simp⟩
  · show Spec.degrees (minImage (d := 1) (fun _ => (10 : ℝ)) (fun _ => 0 - -1))
      (minImage (d := 1) (fun _ => (10 : ℝ)) (fun _ => 0 - -2)) = 0
    rw [himg _ (by norm_num), himg _ (by norm_num)]
    unfold Spec.degrees
    have h2 : (WithLp.toLp 2 (fun _ : Fin 1 => (0 : ℝ) - -2) : EuclideanSpace ℝ (Fin 1)) =
        (2 : ℝ) • WithLp.toLp 2 (fun _ : Fin 1 => (0 : ℝ) - -1) := by
      ext c
      simp
    rw [h2, InnerProductGeometry.angle_smul_right_of_pos _ _ (by norm_num), InnerProductGeometry.angle_self]
    · simp
    · intro h
      have := congrArg (fun v : EuclideanSpace ℝ (Fin 1) => v 0) h
      norm_num at this

/-- All the hypotheses of the normalisation hold for it. -/
example : ∃ grid x, ∃ v : List ℝ, baGrid 4 = .ok grid ∧ baCompute [[3]] 1 1 grid [oneSide] = .ok (x, v.map some) ∧
    (∀ a ∈ v, 0 ≤ a) ∧ v.sum * 4 = 1 := by
  have h45 : ⌊(180 : ℝ) / 4⌋₊ = 45 := by
    have : (180 : ℝ) / 4 = ((45 : ℕ) : ℝ) := by norm_num
    rw [this, Nat.floor_natCast]
  have hev : Spec.everyNth 1 [oneSide] = [oneSide] := by simp [Spec.everyNth]
  exact C70_normalised_partial (rcut := [[3]]) (rc := fun _ _ => 3) (nsp := 1) (skip := 1) (w := 4) one_pos
    (by norm_num) (by norm_num) [oneSide] (by
      intro i hi
      obtain rfl : i = 0 := by omega
      exact ⟨[3], rfl, by simp⟩) (by
      rw [hev]; intro f hf; rw [List.mem_singleton] at hf; rw [hf]; exact oneSide_valid) (by
      rw [hev]; intro f hf i _; rw [List.mem_singleton] at hf; rw [hf]
      exact le_trans List.countP_le_length (by simp [oneSide])) 0 (by
      rw [hev, List.mem_flatMap]; exact ⟨oneSide, by simp, oneSide_angles⟩) (by rw [h45]; norm_num)

/-! ### C91: default cut-offs -/

variable {K : Type} [Field K] [LinearOrder K] [IsStrictOrderedRing K] [FloorRing K]

set_option linter.unusedSectionVars false

theorem baFirstMin_some {grid value : List K} {m r : K} {s n : ℕ}
    (h : baFirstMin grid value m (List.range' s n) = .ok (some r)) :
    ∃ i v0 v1, s ≤ i ∧ i < s + n ∧ grid[i]? = some r ∧ m ≤ r ∧ value[i]? = some v0 ∧ value[i + 1]? = some v1 ∧ v0 ≤ v1 ∧
      ∀ j, s ≤ j → j < i → ∀ g, grid[j]? = some g → m ≤ g →
        ∃ a b, value[j]? = some a ∧ value[j + 1]? = some b ∧ b < a := by
  induction n generalizing s with
  | zero => simp [baFirstMin] at h
  | succ n ih =>
    rw [List.range'_succ] at h
    unfold baFirstMin pyGet at h
    cases hg : grid[s]? with
    | none => rw [hg] at h; simp [bind, Except.bind] at h
    | some g =>
      rw [hg] at h
      simp only [bind, Except.bind] at h
      by_cases hm : g ≥ m
      · rw [if_pos hm] at h
        cases hv1 : value[s + 1]? with
        | none => rw [hv1] at h; simp at h
        | some v1 =>
          cases hv0 : value[s]? with
          | none => rw [hv1, hv0] at h; simp at h
          | some v0 =>
            rw [hv1, hv0] at h
            simp only at h
            by_cases hd : v1 - v0 ≥ 0
            · rw [if_pos hd] at h
              simp only [pure, Except.pure, Except.ok.injEq, Option.some.injEq] at h
              subst h
              exact ⟨s, v0, v1, le_rfl, by omega, hg, hm, hv0, hv1, by linarith, fun j h1 h2 => by omega⟩
            · rw [if_neg hd] at h
              obtain ⟨i, a0, a1, h1, h2, h3, h4, h5, h6, h7, h8⟩ := ih h
              refine ⟨i, a0, a1, by omega, by omega, h3, h4, h5, h6, h7, ?_⟩
              intro j hj1 hj2 gj hgj hmj
              rcases Nat.lt_or_ge s j with hsj | hsj
              · exact h8 j (by omega) hj2 gj hgj hmj
              · obtain rfl : j = s := by omega
                exact ⟨v0, v1, hv0, hv1, by linarith [not_le.1 hd]⟩
      · rw [if_neg hm] at h
        obtain ⟨i, a0, a1, h1, h2, h3, h4, h5, h6, h7, h8⟩ := ih h
        refine ⟨i, a0, a1, by omega, by omega, h3, h4, h5, h6, h7, ?_⟩
        intro j hj1 hj2 gj hgj hmj
        rcases Nat.lt_or_ge s j with hsj | hsj
        · exact h8 j (by omega) hj2 gj hgj hmj
        · obtain rfl : j = s := by omega
          rw [hg] at hgj
          cases hgj
          exact absurd hmj hm

/-- **C91**, the part that holds: a cut-off that is returned is a point of the grid, not before the maximum of g(r); g(r)
decreases at all the points before it from the maximum on, and does not decrease there. -/
theorem C91_default_rcut_partial (grid value : List K) (r : K) (h : baDefaultRcut grid value = .ok (some r)) :
    ∃ lo hi i v0 v1, ifabsmm grid value = .ok (lo, hi) ∧ grid[i]? = some r ∧ hi.1 ≤ r ∧ value[i]? = some v0 ∧
      value[i + 1]? = some v1 ∧ v0 ≤ v1 ∧
      ∀ j < i, ∀ g, grid[j]? = some g → hi.1 ≤ g → ∃ a b, value[j]? = some a ∧ value[j + 1]? = some b ∧ b < a := by
  unfold baDefaultRcut at h
  cases hm : ifabsmm grid value with
  | error e => rw [hm] at h; simp [bind, Except.bind] at h
  | ok p =>
    rw [hm] at h
    simp only [bind, Except.bind, List.range_eq_range'] at h
    obtain ⟨i, v0, v1, _, _, h3, h4, h5, h6, h7, h8⟩ := baFirstMin_some h
    exact ⟨p.1, p.2, i, v0, v1, rfl, h3, h4, h5, h6, h7, fun j hj g => h8 j (by omega) hj g⟩

/-- **C91**, counter-example: if g(r) decreases from its maximum to the end of the grid, there is no default cut-off, but
an `IndexError`. -/
theorem C91_counterexample_monotonic (grid value : List K) (lo hi : K × K) (n : ℕ) (hg : grid.length = n + 1)
    (hv : value.length = n + 1) (hm : ifabsmm grid value = .ok (lo, hi)) (hlast : ∀ g, grid[n]? = some g → hi.1 ≤ g)
    (hdec : ∀ j < n, ∀ g a b, grid[j]? = some g → hi.1 ≤ g → value[j]? = some a → value[j + 1]? = some b → b < a) :
    baDefaultRcut grid value = .error .indexError := by
  unfold baDefaultRcut
  rw [hm]
  simp only [bind, Except.bind, List.range_eq_range', hg]
  have key : ∀ k s, s + k = n + 1 → 0 < k → baFirstMin grid value hi.1 (List.range' s k) = .error .indexError := by
    intro k
    induction k with
    | zero => intro s _ h; omega
    | succ k ih =>
      intro s hs _
      have hs' : s < grid.length := by omega
      have hs'' : s < value.length := by omega
      rw [List.range'_succ]
      unfold baFirstMin pyGet
      rw [List.getElem?_eq_getElem hs']
      simp only [bind, Except.bind]
      rcases Nat.eq_zero_or_pos k with hk | hk
      · obtain rfl : s = n := by omega
        rw [if_pos (hlast _ (List.getElem?_eq_getElem hs')), List.getElem?_eq_none (by omega)]
      · have h1 : s + 1 < value.length := by omega
        by_cases hge : grid[s] ≥ hi.1
        · rw [if_pos hge, List.getElem?_eq_getElem h1, List.getElem?_eq_getElem hs'']
          have := hdec s (by omega) _ _ _ (List.getElem?_eq_getElem hs') hge (List.getElem?_eq_getElem hs'')
            (List.getElem?_eq_getElem h1)
          simp only
          rw [if_neg (by linarith)]
          exact ih (s + 1) (by omega) hk
        · rw [if_neg hge]
          exact ih (s + 1) (by omega) hk
  exact key (n + 1) 0 (by omega) (by omega)

/-- A g(r) with a peak and a first minimum after it. -/
example : baDefaultRcut [1, 2, 3, 4, 5, 6, 7] [0, 0, 3, 2, 1, (3 / 2 : ℚ), 1] = .ok (some 5) := by decide +kernel

/-- The hypotheses of the counter-example are met by a g(r) whose largest value is the last one (a short grid), -/
example : baDefaultRcut [1, 2, 3, 4] [0, 0, 1, (2 : ℚ)] = .error .indexError := by decide +kernel

/-- or by one that decays to zero. -/
example : baDefaultRcut [1, 2, 3, 4] [0, 3, 2, (1 : ℚ)] = .error .indexError :=
  C91_counterexample_monotonic _ _ (1, 0) (9 / 4, 25 / 8) 3 rfl rfl (by decide +kernel) (by decide +kernel) (by
    intro j hj g a b h1 h2 h3 h4
    interval_cases j <;> simp at h1 h3 h4 <;> subst h1 h3 h4 <;> revert h2 <;> norm_num)

end PP.Props
