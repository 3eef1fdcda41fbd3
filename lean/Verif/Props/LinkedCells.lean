import Verif.Lemmas.LinkedCells
import Mathlib.Data.List.GetD

/-!
# C42, C43, C45: linked cells
-/

set_option linter.unusedSectionVars false

namespace PP.Spec

/-- How many times particle `j` is listed among the neighbours of particle `i`. -/
def listed (nb : List (List ℕ)) (i j : ℕ) : ℕ := (nb.getD i []).count j

end PP.Spec

namespace PP.Props
open PP

section
variable {K : Type} [Field K] [LinearOrder K] [IsStrictOrderedRing K] [FloorRing K] {d : ℕ}

theorem countP_le_one_of_unique {α : Type} (l : List α) (hl : l.Nodup) (p : α → Bool)
    (h : ∀ a ∈ l, ∀ b ∈ l, p a = true → p b = true → a = b) : l.countP p ≤ 1 := by
  rw [List.countP_eq_length_filter]
  have hn : (l.filter p).Nodup := hl.filter _
  match hf : l.filter p with
  | [] => simp
  | [a] => simp
  | a :: b :: r =>
    exfalso
    rw [hf] at hn
    have ha : a ∈ l.filter p := by simp [hf]
    have hb : b ∈ l.filter p := by simp [hf]
    rw [List.mem_filter] at ha hb
    have := h a ha.1 b hb.1 ha.2 hb.2
    subst this
    simp at hn

/-- The displacements have components -1, 0, 1, are not zero and are listed once. -/
structure GoodOffsets (offs : List (Cell d)) : Prop where
  nodup : offs.Nodup
  nonzero : ∀ o ∈ offs, o ≠ 0
  small : ∀ o ∈ offs, ∀ c, -1 ≤ o c ∧ o c ≤ 1

section hits
variable {m : CellMap d K} {rcut : K} {L : Vec d K} {periodic : Fin d → Bool} {offs : List (Cell d)}

theorem hits_pos {x y : Vec d K} (hm : m.For rcut L periodic offs) (hr : 0 < rcut) (hL : ∀ c, rcut ≤ L c)
    (hx : Spec.Inside L x) (hy : Spec.Inside L y) (ho : GoodOffsets offs) {o : Cell d} (hoo : o ∈ offs)
    {k : Fin d → ℤ} (hk : ∀ c, periodic c = false → k c = 0)
    (h : ∀ c, m.index y c = m.index x c + o c + k c * m.nCell c) : 1 ≤ hits m x y := by
  unfold hits
  rw [hm.offsets, Nat.one_le_iff_ne_zero, ← Nat.pos_iff_ne_zero, List.countP_pos_iff]
  refine ⟨o, hoo, ?_⟩
  rw [decide_eq_true_eq, hm.periodic, cellPbc_eq_iff (fun c => (index_eq hm hr hL hx c).2)
    (fun c => (index_eq hm hr hL hy c).2) (ho.small o hoo)]
  exact ⟨k, hk, h⟩

theorem hits_le_one {x y : Vec d K} (hm : m.For rcut L periodic offs) (hr : 0 < rcut)
    (hL : ∀ c, rcut ≤ L c) (hn : ∀ c, periodic c = true → 3 ≤ m.nCell c)
    (hx : Spec.Inside L x) (hy : Spec.Inside L y) (ho : GoodOffsets offs) : hits m x y ≤ 1 := by
  unfold hits
  rw [hm.offsets]
  apply countP_le_one_of_unique _ ho.nodup
  intro a ha b hb pa pb
  rw [decide_eq_true_eq, hm.periodic, cellPbc_eq_iff (fun c => (index_eq hm hr hL hx c).2)
    (fun c => (index_eq hm hr hL hy c).2) (ho.small _ ‹_›)] at pa pb
  obtain ⟨k, hk, h⟩ := pa
  obtain ⟨k', hk', h'⟩ := pb
  exact offset_unique hn (ho.small a ha) (ho.small b hb) hk hk' h h'

theorem hits_mem {x y : Vec d K} (hm : m.For rcut L periodic offs) (hr : 0 < rcut)
    (hL : ∀ c, rcut ≤ L c)
    (hx : Spec.Inside L x) (hy : Spec.Inside L y) (ho : GoodOffsets offs) (h : hits m x y ≠ 0) :
    ∃ o ∈ offs, ∃ k : Fin d → ℤ, (∀ c, periodic c = false → k c = 0) ∧
      ∀ c, m.index y c = m.index x c + o c + k c * m.nCell c := by
  unfold hits at h
  rw [hm.offsets, ← Nat.pos_iff_ne_zero, List.countP_pos_iff] at h
  obtain ⟨o, hoo, h⟩ := h
  rw [decide_eq_true_eq, hm.periodic, cellPbc_eq_iff (fun c => (index_eq hm hr hL hx c).2)
    (fun c => (index_eq hm hr hL hy c).2) (ho.small o hoo)] at h
  obtain ⟨k, hk, h⟩ := h
  exact ⟨o, hoo, k, hk, h⟩

theorem hits_same {x y : Vec d K} (hm : m.For rcut L periodic offs) (hr : 0 < rcut)
    (hL : ∀ c, rcut ≤ L c) (hn : ∀ c, periodic c = true → 3 ≤ m.nCell c)
    (hx : Spec.Inside L x) (hy : Spec.Inside L y) (ho : GoodOffsets offs)
    (h : m.index y = m.index x) : hits m x y = 0 := by
  by_contra hc
  obtain ⟨o, hoo, k, hk, h'⟩ := hits_mem hm hr hL hx hy ho hc
  have : o = 0 := offset_unique (o' := 0) (m' := 0) hn (ho.small o hoo)
    (fun c => by simp) hk (fun c _ => rfl) h' (fun c => by simp [h])
  exact ho.nonzero o hoo this

theorem hits_both {x y : Vec d K} (hm : m.For rcut L periodic offs) (hr : 0 < rcut)
    (hL : ∀ c, rcut ≤ L c) (hn : ∀ c, periodic c = true → 3 ≤ m.nCell c)
    (hx : Spec.Inside L x) (hy : Spec.Inside L y) (ho : GoodOffsets offs)
    (hnew : ∀ o ∈ offs, (fun c => - o c) ∉ offs) : hits m x y + hits m y x ≤ 1 := by
  have h1 := hits_le_one hm hr hL hn hx hy ho
  have h2 := hits_le_one hm hr hL hn hy hx ho
  by_contra hc
  obtain ⟨o, hoo, k, hk, h⟩ := hits_mem hm hr hL hx hy ho (by omega)
  obtain ⟨o', hoo', k', hk', h'⟩ := hits_mem hm hr hL hy hx ho (by omega)
  have : o' = fun c => - o c := by
    refine offset_unique (k := m.index y) (t := m.index x) (m := k') (m' := fun c => - k c) hn
      (ho.small o' hoo') (fun c => by have := ho.small o hoo c; constructor <;> omega) hk'
      (fun c hc => by simp [hk c hc]) h' (fun c => ?_)
    have := h c
    rw [this]; ring
  rw [this] at hoo'
  exact hnew o hoo hoo'

end hits

/-- Result of `compute` on a new object. -/
theorem new_compute_ok (rcut : K) (L : Vec d K) (pos : List (Vec d K)) (other : Option (List (Vec d K)))
    (newton : Bool) (periodic : Fin d → Bool) (asArray : Bool) (hd : d = 2 ∨ d = 3) (hr : 0 < rcut)
    (hL : ∀ c, rcut ≤ L c) (hpos : ∀ x ∈ pos, Spec.Inside L x)
    (hoth : ∀ x ∈ other.getD pos, Spec.Inside L x) (ha : asArray = true → pos ≠ []) :
    ∃ (m : CellMap d K) (offs : List (Cell d)) (nb : List (List ℕ)),
      (LinkedCells.new rcut).compute L pos other newton periodic asArray
        = .ok ({ rcut := rcut, map := some m }, nb) ∧
      m.For rcut L periodic offs ∧ GoodOffsets offs ∧
      (if other.isNone && newton then newtonOffsets d else allOffsets d) = .ok offs ∧
      nb.length = pos.length ∧
      (∀ i, ∀ j ∈ nb.getD i [], j < (other.getD pos).length) ∧
      ∀ (i : ℕ) (x : Vec d K), pos[i]? = some x →
        ∀ (j : ℕ) (y : Vec d K), (other.getD pos)[j]? = some y →
          Spec.listed nb i j
            = (if m.index y = m.index x ∧ (other = none → i < j) then 1 else 0) + hits m x y := by
  have hoffs : ∃ offs, (if other.isNone && newton then newtonOffsets d else allOffsets d) = .ok offs ∧
      GoodOffsets offs := by
    split_ifs
    · obtain ⟨offs, h⟩ := newtonOffsets_dim hd
      obtain ⟨h1, h2, -⟩ := newtonOffsets_spec h
      exact ⟨offs, h, h1, fun o ho => (h2 o ho).1, fun o ho => (h2 o ho).2.1⟩
    · obtain ⟨offs, h⟩ := allOffsets_dim hd
      obtain ⟨h1, h2, -⟩ := allOffsets_spec h
      exact ⟨offs, h, h1, fun o ho => (h2 o ho).1, fun o ho => (h2 o ho).2⟩
  obtain ⟨offs, ho, hg⟩ := hoffs
  set m : CellMap d K := { box := L, nCell := fun c => pyInt (L c / rcut), offsets := offs,
                           periodic := periodic } with hm
  have hfor : m.For rcut L periodic offs := ⟨rfl, rfl, rfl, rfl⟩
  obtain ⟨nb, h1, h2, h3⟩ := neighbors_ok m pos other (fun x hx c => (index_eq hfor hr hL (hpos x hx) c).2)
    (fun x hx c => (index_eq hfor hr hL (hoth x hx) c).2)
  refine ⟨m, offs, nb, ?_, hfor, hg, ho, h2, ?_, ?_⟩
  · have hadj : adjust rcut L (other.isNone && newton) periodic = .ok m := by
      unfold adjust
      split_ifs at ho ⊢ <;> · rw [ho]; rfl
    unfold LinkedCells.compute LinkedCells.new
    simp only [hadj, bind, Except.bind, pure, Except.pure]
    rw [h1]
    simp only
    rw [if_neg]
    cases pos <;> simp_all
  · intro i j hj
    rcases hx : pos[i]? with _ | x
    · rw [List.getElem?_eq_none_iff] at hx
      rw [List.getD_eq_default _ _ (by omega)] at hj
      simp at hj
    · obtain ⟨l, hl, hb, -⟩ := h3 i x hx
      rw [List.getD_eq_getElem?_getD, hl] at hj
      exact hb j hj
  · intro i x hx j y hy
    obtain ⟨l, hl, -, hc⟩ := h3 i x hx
    unfold Spec.listed
    rw [List.getD_eq_getElem?_getD, hl]
    exact hc j y hy

theorem near_symm {periodic : Fin d → Bool} {L : Vec d K} {r : K} {x y : Vec d K}
    (h : Spec.Near periodic L r x y) : Spec.Near periodic L r y x := by
  obtain ⟨m, hm, hs⟩ := h
  refine ⟨fun c => - m c, fun c hc => by simp [hm c hc], ?_⟩
  refine le_trans (le_of_eq ?_) hs
  apply Finset.sum_congr rfl
  intro c _
  push_cast; ring

/-! ## C42 -/

/-- **C42**, one group: for every two particles of which some periodic image is within the cut-off, one is
listed for the other. One subcell per side is enough, and directions may be non periodic. -/
theorem C42_complete (rcut : K) (L : Vec d K) (pos : List (Vec d K)) (periodic : Fin d → Bool)
    (asArray : Bool) (hd : d = 2 ∨ d = 3) (hr : 0 < rcut) (hL : ∀ c, rcut ≤ L c)
    (hpos : ∀ x ∈ pos, Spec.Inside L x) (ha : asArray = true → pos ≠ []) :
    ∃ lc nb, (LinkedCells.new rcut).compute L pos none true periodic asArray = .ok (lc, nb) ∧
      nb.length = pos.length ∧ (∀ i, ∀ j ∈ nb.getD i [], j < pos.length) ∧
      ∀ i j x y, i ≠ j → pos[i]? = some x → pos[j]? = some y → Spec.Near periodic L rcut x y →
        1 ≤ Spec.listed nb i j + Spec.listed nb j i := by
  obtain ⟨m, offs, nb, h, hm, hg, ho, hlen, hb, hc⟩ :=
    new_compute_ok rcut L pos none true periodic asArray hd hr hL hpos hpos ha
  refine ⟨_, nb, h, hlen, hb, ?_⟩
  intro i j x y hij hx hy hnear
  have hxin := hpos x (List.mem_of_getElem? hx)
  have hyin := hpos y (List.mem_of_getElem? hy)
  rw [hc i x hx j y hy, hc j y hy i x hx]
  obtain ⟨o, hos, k, hk, hidx⟩ := near_offset hm hr hL hxin hyin hnear
  have ho' : newtonOffsets d = .ok offs := by simpa using ho
  rcases (newtonOffsets_spec ho').2.2 o hos with h0 | h1 | h2
  · -- neighbouring subcell zero: same subcell, up to whole sides
    subst h0
    have : m.index y = m.index x := by
      funext c
      have h1 := hidx c
      obtain ⟨-, hx0, hx1⟩ := index_eq hm hr hL hxin c
      obtain ⟨-, hy0, hy1⟩ := index_eq hm hr hL hyin c
      have hk0 : k c = 0 := by
        by_contra hne
        rcases lt_or_gt_of_ne hne with hl | hg
        · have : k c * m.nCell c ≤ -1 * m.nCell c := by nlinarith
          simp at h1; omega
        · have : 1 * m.nCell c ≤ k c * m.nCell c := by nlinarith
          simp at h1; omega
      rw [hk0] at h1; simpa using h1
    rcases lt_or_gt_of_ne hij with hl | hl
    · rw [if_pos ⟨this, fun _ => hl⟩]; omega
    · rw [if_pos (c := m.index x = m.index y ∧ _) ⟨this.symm, fun _ => hl⟩]; omega
  · have := hits_pos hm hr hL hxin hyin hg h1 hk hidx
    omega
  · have := hits_pos (x := y) (y := x) (k := fun c => - k c) hm hr hL hyin hxin hg h2
      (fun c hc => by simp [hk c hc]) (fun c => by rw [hidx c]; ring)
    omega

/-- **C42**, two groups: every particle of the second group with an image within the cut-off is listed. -/
theorem C42_two_groups (rcut : K) (L : Vec d K) (pos other : List (Vec d K)) (newton : Bool)
    (periodic : Fin d → Bool) (asArray : Bool) (hd : d = 2 ∨ d = 3) (hr : 0 < rcut)
    (hL : ∀ c, rcut ≤ L c) (hpos : ∀ x ∈ pos, Spec.Inside L x) (hoth : ∀ x ∈ other, Spec.Inside L x)
    (ha : asArray = true → pos ≠ []) :
    ∃ lc nb, (LinkedCells.new rcut).compute L pos (some other) newton periodic asArray = .ok (lc, nb) ∧
      nb.length = pos.length ∧ (∀ i, ∀ j ∈ nb.getD i [], j < other.length) ∧
      ∀ i j x y, pos[i]? = some x → other[j]? = some y → Spec.Near periodic L rcut x y →
        1 ≤ Spec.listed nb i j := by
  obtain ⟨m, offs, nb, h, hm, hg, ho, hlen, hb, hc⟩ :=
    new_compute_ok rcut L pos (some other) newton periodic asArray hd hr hL hpos hoth ha
  refine ⟨_, nb, h, hlen, hb, ?_⟩
  intro i j x y hx hy hnear
  have hxin := hpos x (List.mem_of_getElem? hx)
  have hyin := hoth y (List.mem_of_getElem? hy)
  rw [hc i x hx j y hy]
  obtain ⟨o, hos, k, hk, hidx⟩ := near_offset hm hr hL hxin hyin hnear
  have ho' : allOffsets d = .ok offs := by simpa using ho
  rcases (allOffsets_spec ho').2.2 o hos with h0 | h1
  · subst h0
    have : m.index y = m.index x := by
      funext c
      have h1 := hidx c
      obtain ⟨-, hx0, hx1⟩ := index_eq hm hr hL hxin c
      obtain ⟨-, hy0, hy1⟩ := index_eq hm hr hL hyin c
      have hk0 : k c = 0 := by
        by_contra hne
        rcases lt_or_gt_of_ne hne with hl | hg
        · have : k c * m.nCell c ≤ -1 * m.nCell c := by nlinarith
          simp at h1; omega
        · have : 1 * m.nCell c ≤ k c * m.nCell c := by nlinarith
          simp at h1; omega
      rw [hk0] at h1; simpa using h1
    rw [if_pos ⟨this, fun h => by cases h⟩]; omega
  · have := hits_pos hm hr hL hxin hyin hg h1 hk hidx
    omega

/-- The claim of **C42** is false for one group without Newton's third law: two particles in the same
subcell (here the first one) are listed only once. -/
theorem C42_counterexample_newton_false (rcut : K) (L : Vec d K) (pos : List (Vec d K))
    (periodic : Fin d → Bool) (hd : d = 2 ∨ d = 3) (hr : 0 < rcut)
    (hL : ∀ c, rcut ≤ L c) (h3 : ∀ c, periodic c = true → 3 * rcut ≤ L c)
    (hpos : ∀ x ∈ pos, Spec.Inside L x)
    (i j : ℕ) (x y : Vec d K) (hij : i < j) (hx : pos[i]? = some x) (hy : pos[j]? = some y)
    (hxs : ∀ c, x c < -(L c / 2) + rcut) (hys : ∀ c, y c < -(L c / 2) + rcut) :
    ∃ lc nb, (LinkedCells.new rcut).compute L pos none false periodic false = .ok (lc, nb) ∧
      Spec.listed nb i j = 1 ∧ Spec.listed nb j i = 0 := by
  obtain ⟨m, offs, nb, h, hm, hg, ho, hlen, hb, hc⟩ :=
    new_compute_ok rcut L pos none false periodic false hd hr hL hpos hpos (by simp)
  refine ⟨_, nb, h, ?_⟩
  have hxin := hpos x (List.mem_of_getElem? hx)
  have hyin := hpos y (List.mem_of_getElem? hy)
  have hn : ∀ c, periodic c = true → 3 ≤ m.nCell c := by
    intro c hp
    rw [hm.nCell]
    have : 3 ≤ L c / rcut := by rw [le_div_iff₀ hr]; exact h3 c hp
    show 3 ≤ pyInt (L c / rcut)
    unfold pyInt
    rw [if_pos (by linarith), Int.le_floor]
    exact_mod_cast this
  have hz : ∀ z : Vec d K, Spec.Inside L z → (∀ c, z c < -(L c / 2) + rcut) → m.index z = 0 := by
    intro z hz hzs
    funext c
    obtain ⟨h1, h2, -⟩ := index_eq hm hr hL hz c
    have hLc : 0 < L c := lt_of_lt_of_le hr (hL c)
    obtain ⟨n1, n2⟩ := nCell_le hr (hL c)
    have hn' : m.nCell c = pyInt (L c / rcut) := by rw [hm.nCell]
    rw [← hn'] at n1 n2
    have hnK : (0 : K) < (m.nCell c : K) := by exact_mod_cast n1
    have : m.index z c < 1 := by
      rw [h1, Int.floor_lt, Int.cast_one, div_mul_eq_mul_div, div_lt_one hLc]
      have := hzs c
      nlinarith
    show m.index z c = 0
    omega
  have hsame : m.index y = m.index x := by rw [hz x hxin hxs, hz y hyin hys]
  rw [hc i x hx j y hy, hc j y hy i x hx, hits_same hm hr hL hn hxin hyin hg hsame,
    hits_same hm hr hL hn hyin hxin hg hsame.symm, if_pos ⟨hsame, fun _ => hij⟩,
    if_neg (by rintro ⟨-, h⟩; have := h rfl; omega)]
  exact ⟨rfl, rfl⟩

/-- **C42**, one group without Newton's third law: one of the two is listed for the other, and each is
listed for the other if they are in different subcells, i.e. if along some direction they are separated by at
least a subcell (missing: pairs in the same subcell). -/
theorem C42_newton_false_partial (rcut : K) (L : Vec d K) (pos : List (Vec d K)) (periodic : Fin d → Bool)
    (asArray : Bool) (hd : d = 2 ∨ d = 3) (hr : 0 < rcut) (hL : ∀ c, rcut ≤ L c)
    (hpos : ∀ x ∈ pos, Spec.Inside L x) (ha : asArray = true → pos ≠ []) :
    ∃ lc nb, (LinkedCells.new rcut).compute L pos none false periodic asArray = .ok (lc, nb) ∧
      nb.length = pos.length ∧
      ∀ i j x y, i ≠ j → pos[i]? = some x → pos[j]? = some y → Spec.Near periodic L rcut x y →
        1 ≤ Spec.listed nb i j + Spec.listed nb j i ∧
        ((∃ c, L c ≤ |x c - y c| * (⌊L c / rcut⌋ : K)) → 1 ≤ Spec.listed nb i j) := by
  obtain ⟨m, offs, nb, h, hm, hg, ho, hlen, hb, hc⟩ :=
    new_compute_ok rcut L pos none false periodic asArray hd hr hL hpos hpos ha
  refine ⟨_, nb, h, hlen, ?_⟩
  intro i j x y hij hx hy hnear
  have hxin := hpos x (List.mem_of_getElem? hx)
  have hyin := hpos y (List.mem_of_getElem? hy)
  rw [hc i x hx j y hy, hc j y hy i x hx]
  obtain ⟨o, hos, k, hk, hidx⟩ := near_offset hm hr hL hxin hyin hnear
  have ho' : allOffsets d = .ok offs := by simpa using ho
  rcases (allOffsets_spec ho').2.2 o hos with h0 | h1
  · subst h0
    have hsame : m.index y = m.index x := by
      funext c
      have h1 := hidx c
      obtain ⟨-, hx0, hx1⟩ := index_eq hm hr hL hxin c
      obtain ⟨-, hy0, hy1⟩ := index_eq hm hr hL hyin c
      have hk0 : k c = 0 := by
        by_contra hne
        rcases lt_or_gt_of_ne hne with hl | hg
        · have : k c * m.nCell c ≤ -1 * m.nCell c := by nlinarith
          simp at h1; omega
        · have : 1 * m.nCell c ≤ k c * m.nCell c := by nlinarith
          simp at h1; omega
      rw [hk0] at h1; simpa using h1
    constructor
    · rcases lt_or_gt_of_ne hij with hl | hl
      · rw [if_pos ⟨hsame, fun _ => hl⟩]; omega
      · rw [if_pos (c := m.index x = m.index y ∧ _) ⟨hsame.symm, fun _ => hl⟩]; omega
    · rintro ⟨c, hcc⟩
      exfalso
      have hLc : 0 < L c := lt_of_lt_of_le hr (hL c)
      have hn' : m.nCell c = ⌊L c / rcut⌋ := by
        rw [hm.nCell]
        show pyInt (L c / rcut) = _
        unfold pyInt
        rw [if_pos (div_nonneg hLc.le hr.le)]
      rw [← hn'] at hcc
      have e := congrFun hsame c
      rw [(index_eq hm hr hL hxin c).1, (index_eq hm hr hL hyin c).1] at e
      have h1 := Int.abs_sub_lt_one_of_floor_eq_floor e
      have n1 := (nCell_le hr (hL c)).1
      have hn2 : 1 ≤ m.nCell c := by rw [hm.nCell]; exact n1
      have hnK : (0 : K) < (m.nCell c : K) := by exact_mod_cast hn2
      have e2 : (y c + L c / 2) / L c * (m.nCell c : K) - (x c + L c / 2) / L c * (m.nCell c : K)
          = (y c - x c) * (m.nCell c : K) / L c := by field_simp; ring
      rw [e2, abs_div, abs_mul, abs_of_pos hLc, abs_of_pos hnK, div_lt_one hLc, abs_sub_comm] at h1
      linarith
  · have := hits_pos hm hr hL hxin hyin hg h1 hk hidx
    constructor
    · omega
    · intro _; omega

/-! ## C43 -/

/-- **C43**, one group with Newton's third law, at least three subcells along each periodic side: no pair is
listed twice and no particle is its own neighbour. -/
theorem C43_once (rcut : K) (L : Vec d K) (pos : List (Vec d K)) (periodic : Fin d → Bool)
    (asArray : Bool) (hd : d = 2 ∨ d = 3) (hr : 0 < rcut) (hL : ∀ c, rcut ≤ L c)
    (h3 : ∀ c, periodic c = true → 3 * rcut ≤ L c)
    (hpos : ∀ x ∈ pos, Spec.Inside L x) (ha : asArray = true → pos ≠ []) :
    ∃ lc nb, (LinkedCells.new rcut).compute L pos none true periodic asArray = .ok (lc, nb) ∧
      ∀ i j, Spec.listed nb i j + Spec.listed nb j i ≤ 1 := by
  obtain ⟨m, offs, nb, h, hm, hg, ho, hlen, hb, hc⟩ :=
    new_compute_ok rcut L pos none true periodic asArray hd hr hL hpos hpos ha
  refine ⟨_, nb, h, ?_⟩
  have ho' : newtonOffsets d = .ok offs := by simpa using ho
  have hn : ∀ c, periodic c = true → 3 ≤ m.nCell c := by
    intro c hp
    rw [hm.nCell]
    have : 3 ≤ L c / rcut := by rw [le_div_iff₀ hr]; exact h3 c hp
    show 3 ≤ pyInt (L c / rcut)
    unfold pyInt
    rw [if_pos (by linarith), Int.le_floor]
    exact_mod_cast this
  have hzero : ∀ i j, pos.length ≤ i ∨ pos.length ≤ j → Spec.listed nb i j = 0 := by
    intro i j hij
    unfold Spec.listed
    rw [List.count_eq_zero]
    intro hmem
    have h1 := hb i j hmem
    simp only [Option.getD_none] at h1
    rcases hij with hi | hj
    · rw [List.getD_eq_default _ _ (by omega)] at hmem; simp at hmem
    · omega
  intro i j
  by_cases hij : pos.length ≤ i ∨ pos.length ≤ j
  · rw [hzero i j hij, hzero j i hij.symm]; omega
  · push Not at hij
    have hx : pos[i]? = some pos[i] := List.getElem?_eq_getElem hij.1
    have hy : pos[j]? = some pos[j] := List.getElem?_eq_getElem hij.2
    have hxin := hpos _ (List.getElem_mem hij.1)
    have hyin := hpos _ (List.getElem_mem hij.2)
    rw [hc i _ hx j _ hy, hc j _ hy i _ hx]
    by_cases hsame : m.index pos[j] = m.index pos[i]
    · rw [hits_same hm hr hL hn hxin hyin hg hsame, hits_same hm hr hL hn hyin hxin hg hsame.symm]
      split_ifs with h1 h2
      · have := h1.2 rfl; have := h2.2 rfl; omega
      all_goals omega
    · rw [if_neg (fun h => hsame h.1), if_neg (fun h => hsame h.1.symm)]
      have := hits_both hm hr hL hn hxin hyin hg (fun o hoo => ((newtonOffsets_spec ho').2.1 o hoo).2.2)
      omega

/-- **C43**, two groups: no particle of the second group is listed twice for the same particle. -/
theorem C43_once_two_groups (rcut : K) (L : Vec d K) (pos other : List (Vec d K)) (newton : Bool)
    (periodic : Fin d → Bool) (asArray : Bool) (hd : d = 2 ∨ d = 3) (hr : 0 < rcut)
    (hL : ∀ c, rcut ≤ L c) (h3 : ∀ c, periodic c = true → 3 * rcut ≤ L c)
    (hpos : ∀ x ∈ pos, Spec.Inside L x) (hoth : ∀ x ∈ other, Spec.Inside L x)
    (ha : asArray = true → pos ≠ []) :
    ∃ lc nb, (LinkedCells.new rcut).compute L pos (some other) newton periodic asArray = .ok (lc, nb) ∧
      ∀ i j, Spec.listed nb i j ≤ 1 := by
  obtain ⟨m, offs, nb, h, hm, hg, ho, hlen, hb, hc⟩ :=
    new_compute_ok rcut L pos (some other) newton periodic asArray hd hr hL hpos hoth ha
  refine ⟨_, nb, h, ?_⟩
  have hn : ∀ c, periodic c = true → 3 ≤ m.nCell c := by
    intro c hp
    rw [hm.nCell]
    have : 3 ≤ L c / rcut := by rw [le_div_iff₀ hr]; exact h3 c hp
    show 3 ≤ pyInt (L c / rcut)
    unfold pyInt
    rw [if_pos (by linarith), Int.le_floor]
    exact_mod_cast this
  intro i j
  by_cases hij : pos.length ≤ i ∨ other.length ≤ j
  · have : Spec.listed nb i j = 0 := by
      unfold Spec.listed
      rw [List.count_eq_zero]
      intro hmem
      have h1 := hb i j hmem
      simp only [Option.getD_some] at h1
      rcases hij with hi | hj
      · rw [List.getD_eq_default _ _ (by omega)] at hmem; simp at hmem
      · omega
    omega
  · push Not at hij
    have hx : pos[i]? = some pos[i] := List.getElem?_eq_getElem hij.1
    have hy : other[j]? = some other[j] := List.getElem?_eq_getElem hij.2
    have hxin := hpos _ (List.getElem_mem hij.1)
    have hyin := hoth _ (List.getElem_mem hij.2)
    rw [hc i _ hx j _ hy]
    by_cases hsame : m.index other[j] = m.index pos[i]
    · rw [hits_same hm hr hL hn hxin hyin hg hsame]
      split_ifs <;> omega
    · rw [if_neg (fun h => hsame h.1)]
      have := hits_le_one hm hr hL hn hxin hyin hg
      omega

/-- Five particles in a square cell with four subcells per side; the pair 3, 4 is close across the boundary.
With newton=False the pair 0, 1, in the same subcell, is still listed once. -/
example :
    let pos : List (Vec 2 ℚ) := [![0, 0], ![1 / 2, 0], ![-1 / 2, 1 / 2], ![-2, 1], ![3 / 2, 1]]
    (((LinkedCells.new (1 : ℚ)).compute ![4, 4] pos none true (fun _ => true) true).toOption.map (·.2)
      = some [[1, 4], [4], [0, 1, 3], [], [3]]) ∧
    (((LinkedCells.new (1 : ℚ)).compute ![4, 4] pos none false (fun _ => true) true).toOption.map (·.2)
      = some [[1, 2, 4], [2, 4], [3, 0, 1], [4, 2], [0, 1, 3]]) ∧
    (∀ x ∈ pos, Spec.Inside ![4, 4] x) ∧ Spec.Near (fun _ => true) ![4, 4] (1 : ℚ) ![-2, 1] ![3 / 2, 1] := by
  refine ⟨by decide +kernel, by decide +kernel, ?_, fun c => if c = 0 then 1 else 0, by simp, ?_⟩
  · unfold Spec.Inside; decide +kernel
  · decide +kernel

/-- With two subcells per side pairs are listed twice: the hypothesis of three subcells is needed. -/
example :
    ((LinkedCells.new (1 : ℚ)).compute ![2, 2] [![-1 / 2, 0], ![1 / 2, 0]] none true (fun _ => true) true).toOption.map (·.2)
      = some [[1], [0]] := by decide +kernel

/-! ## C45 -/

/-- **C45** is false: once used, an object ignores the cell, the flags and the groups for which the subcells
should be set up: the result does not depend on them. -/
theorem C45_counterexample_stale (lc : LinkedCells d K) (m : CellMap d K) (hm : lc.map = some m)
    (box box' : Vec d K) (pos : List (Vec d K)) (other : Option (List (Vec d K))) (newton newton' : Bool)
    (periodic periodic' : Fin d → Bool) (asArray : Bool) :
    lc.compute box pos other newton periodic asArray = lc.compute box' pos other newton' periodic' asArray := by
  unfold LinkedCells.compute
  rw [hm]

/-- A pair within the cut-off which is missed when the cell has changed from side 10 to side 4: the pair is
close across the boundary. Another where a pair of two groups is missed after a calculation for one group. -/
theorem C45_counterexample_missed_pairs :
    ((do
        let (lc, _) ← (LinkedCells.new (1 : ℚ)).compute ![10, 10] [![0, 0]] none true (fun _ => true) false
        let (_, nb) ← lc.compute ![4, 4] [![-19 / 10, 0], ![19 / 10, 0]] none true (fun _ => true) false
        return nb) = (.ok [[], []] : Py (List (List ℕ))) ∧
      Spec.Near (fun _ => true) ![4, 4] (1 : ℚ) ![-19 / 10, 0] ![19 / 10, 0]) ∧
    ((do
        let (lc, _) ← (LinkedCells.new (1 : ℚ)).compute ![4, 4] [![0, 0]] none true (fun _ => true) false
        let (_, nb) ← lc.compute ![4, 4] [![1 / 2, 0]] (some [![-1 / 2, 0]]) true (fun _ => true) false
        return nb) = (.ok [[]] : Py (List (List ℕ))) ∧
      Spec.Near (fun _ => true) ![4, 4] (1 : ℚ) ![1 / 2, 0] ![-1 / 2, 0]) := by
  refine ⟨⟨by decide +kernel, fun c => if c = 0 then 1 else 0, by simp, by decide +kernel⟩,
    ⟨by decide +kernel, fun _ => 0, by simp, by decide +kernel⟩⟩

/-- **C45**, what holds: a second call with the same cell, periodicity and same kind of calculation (one group
with newton=True or not) gives what a new object would give. -/
theorem C45_reuse_partial (rcut : K) (box : Vec d K) (pos pos' : List (Vec d K))
    (other other' : Option (List (Vec d K))) (newton newton' : Bool) (periodic : Fin d → Bool)
    (asArray asArray' : Bool) (lc : LinkedCells d K) (nb : List (List ℕ))
    (hkind : (other.isNone && newton) = (other'.isNone && newton'))
    (h : (LinkedCells.new rcut).compute box pos other newton periodic asArray = .ok (lc, nb)) :
    lc.compute box pos' other' newton' periodic asArray'
      = (LinkedCells.new rcut).compute box pos' other' newton' periodic asArray' := by
  unfold LinkedCells.compute LinkedCells.new at h ⊢
  simp only at h ⊢
  rw [← hkind]
  cases hadj : adjust rcut box (other.isNone && newton) periodic with
  | error e => rw [hadj] at h; cases h
  | ok m =>
    rw [hadj] at h
    simp only [bind, Except.bind] at h ⊢
    cases hnb : m.neighbors pos other with
    | error e => rw [hnb] at h; cases h
    | ok nb' =>
      rw [hnb] at h
      simp only at h
      split_ifs at h
      cases h
      rfl

end
end PP.Props
