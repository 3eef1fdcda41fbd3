import Verif.Model.LinkedCells
import Verif.Spec.Near
import Mathlib.Algebra.Order.BigOperators.Group.Finset
import Mathlib.Tactic.Linarith
import Mathlib.Tactic.Ring
import Mathlib.Tactic.FieldSimp
import Mathlib.Tactic.IntervalCases

/-!
# Lemmas on subcells and their neighbours
-/

set_option linter.unusedSectionVars false

namespace PP
open PP

section offsets
variable {d : ℕ}

theorem small_cases {d : ℕ} (e : Cell d) (h : ∀ c, -1 ≤ e c ∧ e c ≤ 1) :
    ∃ f : Fin d → Fin 3, e = fun c => ((f c : ℕ) : ℤ) - 1 := by
  refine ⟨fun c => ⟨(e c + 1).toNat, by have := h c; omega⟩, ?_⟩
  funext c
  have := h c
  simp only
  omega

/-- What is needed of the displacements with Newton's third law. -/
theorem newtonOffsets_spec {offs : List (Cell d)} (h : newtonOffsets d = .ok offs) :
    offs.Nodup ∧ (∀ o ∈ offs, o ≠ 0 ∧ (∀ c, -1 ≤ o c ∧ o c ≤ 1) ∧ (fun c => - o c) ∉ offs) ∧
    ∀ e : Cell d, (∀ c, -1 ≤ e c ∧ e c ≤ 1) → e = 0 ∨ e ∈ offs ∨ (fun c => - e c) ∈ offs := by
  match d, offs, h with
  | 2, _, rfl =>
    refine ⟨by decide, by decide, ?_⟩
    intro e he
    obtain ⟨f, rfl⟩ := small_cases e he
    revert f
    decide +kernel
  | 3, _, rfl =>
    refine ⟨by decide, by decide, ?_⟩
    intro e he
    obtain ⟨f, rfl⟩ := small_cases e he
    revert f
    decide +kernel

/-- What is needed of the displacements without Newton's third law. -/
theorem allOffsets_spec {offs : List (Cell d)} (h : allOffsets d = .ok offs) :
    offs.Nodup ∧ (∀ o ∈ offs, o ≠ 0 ∧ ∀ c, -1 ≤ o c ∧ o c ≤ 1) ∧
    ∀ e : Cell d, (∀ c, -1 ≤ e c ∧ e c ≤ 1) → e = 0 ∨ e ∈ offs := by
  match d, offs, h with
  | 2, _, rfl =>
    refine ⟨by decide +kernel, by decide +kernel, ?_⟩
    intro e he
    obtain ⟨f, rfl⟩ := small_cases e he
    revert f
    decide +kernel
  | 3, _, rfl =>
    refine ⟨by decide +kernel, by decide +kernel, ?_⟩
    intro e he
    obtain ⟨f, rfl⟩ := small_cases e he
    revert f
    decide +kernel

theorem newtonOffsets_dim (h : d = 2 ∨ d = 3) : ∃ offs, newtonOffsets d = .ok offs := by
  rcases h with rfl | rfl <;> exact ⟨_, rfl⟩

theorem allOffsets_dim (h : d = 2 ∨ d = 3) : ∃ offs, allOffsets d = .ok offs := by
  rcases h with rfl | rfl <;> exact ⟨_, rfl⟩

/-- Folding a displaced subcell gives `t` iff `t` is the displaced subcell up to whole sides along the
periodic directions. -/
theorem cellPbc_eq_iff {periodic : Fin d → Bool} {n k t o : Cell d}
    (hk : ∀ c, 0 ≤ k c ∧ k c < n c) (ht : ∀ c, 0 ≤ t c ∧ t c < n c) (ho : ∀ c, -1 ≤ o c ∧ o c ≤ 1) :
    cellPbc periodic n (fun c => k c + o c) = t ↔
      ∃ m : Fin d → ℤ, (∀ c, periodic c = false → m c = 0) ∧ ∀ c, t c = k c + o c + m c * n c := by
  constructor
  · intro h
    refine ⟨fun c => if periodic c = false then 0 else if k c + o c ≥ n c then -1
      else if k c + o c < 0 then 1 else 0, fun c hc => by simp [hc], fun c => ?_⟩
    rw [← h]
    unfold cellPbc
    simp only
    split_ifs <;> ring
  · rintro ⟨m, hm, h⟩
    funext c
    unfold cellPbc
    have hc := h c
    have h1 := hk c
    have h2 := ht c
    have h3 := ho c
    simp only
    split_ifs with a b e
    · rw [hm c a] at hc; omega
    · -- k + o = n, t = 0
      have h4 : 0 < n c := by omega
      have : m c = -1 := by
        by_contra hne
        rcases lt_or_gt_of_ne hne with hl | hg
        · have : m c * n c ≤ -2 * n c := by nlinarith
          omega
        · have : 0 ≤ m c := by omega
          have : 0 ≤ m c * n c := by nlinarith
          omega
      rw [this] at hc; omega
    · have : m c = 1 := by
        by_contra hne
        rcases lt_or_gt_of_ne hne with hl | hg
        · have : m c * n c ≤ 0 := by nlinarith
          omega
        · have : 2 ≤ m c := by omega
          have : 2 * n c ≤ m c * n c := by nlinarith
          omega
      rw [this] at hc; omega
    · have : m c = 0 := by
        by_contra hne
        rcases lt_or_gt_of_ne hne with hl | hg
        · have : m c * n c ≤ -1 * n c := by nlinarith
          omega
        · have : 1 * n c ≤ m c * n c := by nlinarith
          omega
      rw [this] at hc; omega

/-- With at least three subcells along each periodic direction the displacement is unique. -/
theorem offset_unique {periodic : Fin d → Bool} {n k t o o' : Cell d} {m m' : Fin d → ℤ}
    (hn : ∀ c, periodic c = true → 3 ≤ n c)
    (ho : ∀ c, -1 ≤ o c ∧ o c ≤ 1) (ho' : ∀ c, -1 ≤ o' c ∧ o' c ≤ 1)
    (hm : ∀ c, periodic c = false → m c = 0) (hm' : ∀ c, periodic c = false → m' c = 0)
    (h : ∀ c, t c = k c + o c + m c * n c) (h' : ∀ c, t c = k c + o' c + m' c * n c) : o = o' := by
  funext c
  have h1 := h c
  have h2 := h' c
  have h3 := ho c
  have h4 := ho' c
  cases hp : periodic c with
  | false =>
    rw [hm c hp] at h1
    rw [hm' c hp] at h2
    omega
  | true =>
    have h5 := hn c hp
    have h6 : o c - o' c = (m' c - m c) * n c := by linarith
    rcases lt_trichotomy (m' c - m c) 0 with hl | he | hg
    · have : (m' c - m c) * n c ≤ -1 * n c := by nlinarith
      omega
    · rw [he] at h6; omega
    · have : 1 * n c ≤ (m' c - m c) * n c := by nlinarith
      omega

theorem count_filter_range (n : ℕ) (p : ℕ → Bool) (j : ℕ) :
    ((List.range n).filter p).count j = if j < n ∧ p j = true then 1 else 0 := by
  rw [List.Nodup.count (List.nodup_range.filter _)]
  simp only [List.mem_filter, List.mem_range]

theorem count_particlesInCell (index : List (Cell d)) (cell : Cell d) (j : ℕ) :
    (particlesInCell index cell).count j = if index[j]? = some cell then 1 else 0 := by
  unfold particlesInCell
  rw [count_filter_range]
  by_cases h : index[j]? = some cell
  · have : j < index.length := by
      by_contra hc
      rw [List.getElem?_eq_none (by omega)] at h
      cases h
    simp [h, this]
  · simp [h]

theorem sum_ite_countP {α : Type} (l : List α) (p : α → Prop) [DecidablePred p] :
    (l.map fun a => if p a then 1 else 0).sum = l.countP fun a => decide (p a) := by
  induction l with
  | nil => rfl
  | cons a l ih =>
    rw [List.map_cons, List.sum_cons, ih, List.countP_cons]
    simp only [decide_eq_true_eq]
    omega

end offsets

section
variable {K : Type} [Field K] [LinearOrder K] [IsStrictOrderedRing K] [FloorRing K] {d : ℕ}

/-- A map set up for the given cell. -/
structure CellMap.For (m : CellMap d K) (rcut : K) (L : Vec d K) (periodic : Fin d → Bool)
    (offs : List (Cell d)) : Prop where
  box : m.box = L
  nCell : m.nCell = fun c => pyInt (L c / rcut)
  periodic : m.periodic = periodic
  offsets : m.offsets = offs

theorem nCell_le {rcut : K} {L : K} (hr : 0 < rcut) (hL : rcut ≤ L) :
    1 ≤ pyInt (L / rcut) ∧ (pyInt (L / rcut) : K) * rcut ≤ L := by
  have h1 : 1 ≤ L / rcut := (one_le_div hr).2 hL
  unfold pyInt
  rw [if_pos (by linarith)]
  refine ⟨Int.le_floor.2 (by simpa using h1), ?_⟩
  rw [← le_div_iff₀ hr]
  exact Int.floor_le _

theorem index_eq {m : CellMap d K} {rcut : K} {L : Vec d K} {periodic : Fin d → Bool}
    {offs : List (Cell d)} (hm : m.For rcut L periodic offs) (hr : 0 < rcut) (hL : ∀ c, rcut ≤ L c)
    {x : Vec d K} (hx : Spec.Inside L x) (c : Fin d) :
    m.index x c = ⌊(x c + L c / 2) / L c * (m.nCell c : K)⌋ ∧ 0 ≤ m.index x c ∧
      m.index x c < m.nCell c := by
  obtain ⟨h1, h2⟩ := nCell_le hr (hL c)
  have hLc : 0 < L c := lt_of_lt_of_le hr (hL c)
  have hn : m.nCell c = pyInt (L c / rcut) := by rw [hm.nCell]
  have hn1 : 1 ≤ m.nCell c := by rw [hn]; exact h1
  have hnK : (0 : K) < (m.nCell c : K) := by exact_mod_cast hn1
  obtain ⟨hx1, hx2⟩ := hx c
  have e : (x c + m.box c / 2) / (m.box c / (m.nCell c : K)) = (x c + L c / 2) / L c * (m.nCell c : K) := by
    rw [hm.box]; field_simp
  have h0 : 0 ≤ (x c + L c / 2) / L c * (m.nCell c : K) :=
    mul_nonneg (div_nonneg (by linarith) hLc.le) hnK.le
  have hf : m.index x c = ⌊(x c + L c / 2) / L c * (m.nCell c : K)⌋ := by
    unfold CellMap.index pyInt
    rw [e, if_pos h0]
  refine ⟨hf, by rw [hf]; exact Int.floor_nonneg.2 h0, ?_⟩
  rw [hf, Int.floor_lt]
  have : (x c + L c / 2) / L c < 1 := (div_lt_one hLc).2 (by linarith)
  nlinarith

/-- Particles that are near are in the same or in neighbouring subcells. -/
theorem near_offset {m : CellMap d K} {rcut : K} {L : Vec d K} {periodic : Fin d → Bool}
    {offs : List (Cell d)} (hm : m.For rcut L periodic offs) (hr : 0 < rcut) (hL : ∀ c, rcut ≤ L c)
    {x y : Vec d K} (hx : Spec.Inside L x) (hy : Spec.Inside L y) (h : Spec.Near periodic L rcut x y) :
    ∃ o : Cell d, (∀ c, -1 ≤ o c ∧ o c ≤ 1) ∧ ∃ k : Fin d → ℤ, (∀ c, periodic c = false → k c = 0) ∧
      ∀ c, m.index y c = m.index x c + o c + k c * m.nCell c := by
  obtain ⟨k, hk, hs⟩ := h
  have key : ∀ c, -1 ≤ m.index y c - m.index x c - k c * m.nCell c ∧
      m.index y c - m.index x c - k c * m.nCell c ≤ 1 := by
    intro c
    obtain ⟨h1, h2⟩ := nCell_le hr (hL c)
    have hLc : 0 < L c := lt_of_lt_of_le hr (hL c)
    have hn : m.nCell c = pyInt (L c / rcut) := by rw [hm.nCell]
    rw [← hn] at h1 h2
    have hnK : (0 : K) < (m.nCell c : K) := by exact_mod_cast h1
    rw [(index_eq hm hr hL hx c).1, (index_eq hm hr hL hy c).1]
    have hsq : (x c - y c + k c * L c) ^ 2 ≤ rcut ^ 2 :=
      le_trans (Finset.single_le_sum (f := fun c => (x c - y c + k c * L c) ^ 2)
        (fun c _ => sq_nonneg _) (Finset.mem_univ c)) hs
    have habs := abs_le_of_sq_le_sq' hsq hr.le
    set u := (x c + L c / 2) / L c * (m.nCell c : K) with hu
    set v := (y c + L c / 2) / L c * (m.nCell c : K) with hv
    have huv : u - v + k c * m.nCell c = (x c - y c + k c * L c) * ((m.nCell c : K) / L c) := by
      rw [hu, hv]; field_simp; ring
    have hb : rcut * ((m.nCell c : K) / L c) ≤ 1 := by
      rw [mul_div_assoc', div_le_one hLc, mul_comm]; exact h2
    have hpos : 0 < (m.nCell c : K) / L c := div_pos hnK hLc
    have l1 : -1 ≤ u - v + k c * m.nCell c := by
      rw [huv]
      have : -rcut * ((m.nCell c : K) / L c) ≤ (x c - y c + k c * L c) * ((m.nCell c : K) / L c) :=
        mul_le_mul_of_nonneg_right habs.1 hpos.le
      linarith
    have l2 : u - v + k c * m.nCell c ≤ 1 := by
      rw [huv]
      have : (x c - y c + k c * L c) * ((m.nCell c : K) / L c) ≤ rcut * ((m.nCell c : K) / L c) :=
        mul_le_mul_of_nonneg_right habs.2 hpos.le
      linarith
    have fu := Int.floor_le u
    have fu' := Int.lt_floor_add_one u
    have fv := Int.floor_le v
    have fv' := Int.lt_floor_add_one v
    constructor
    · by_contra hc
      push Not at hc
      have : ⌊v⌋ - ⌊u⌋ - k c * m.nCell c ≤ -2 := by omega
      have : ((⌊v⌋ - ⌊u⌋ - k c * m.nCell c : ℤ) : K) ≤ ((-2 : ℤ) : K) := by exact_mod_cast this
      push_cast at this
      linarith
    · by_contra hc
      push Not at hc
      have : 2 ≤ ⌊v⌋ - ⌊u⌋ - k c * m.nCell c := by omega
      have : ((2 : ℤ) : K) ≤ ((⌊v⌋ - ⌊u⌋ - k c * m.nCell c : ℤ) : K) := by exact_mod_cast this
      push_cast at this
      linarith
  exact ⟨fun c => m.index y c - m.index x c - k c * m.nCell c, key, k, hk, fun c => by ring⟩

/-- The number of times a particle is listed in the neighbouring subcells of another one. -/
def hits (m : CellMap d K) (x y : Vec d K) : ℕ :=
  m.offsets.countP fun o => decide (cellPbc m.periodic m.nCell (fun c => m.index x c + o c) = m.index y)

/-- Neighbours as computed by the loop. -/
theorem neighbors_ok (m : CellMap d K) (pos : List (Vec d K)) (other : Option (List (Vec d K)))
    (hpos : ∀ x ∈ pos, ∀ c, 0 ≤ m.index x c ∧ m.index x c < m.nCell c)
    (hoth : ∀ x ∈ other.getD pos, ∀ c, 0 ≤ m.index x c ∧ m.index x c < m.nCell c) :
    ∃ nb, m.neighbors pos other = .ok nb ∧ nb.length = pos.length ∧
      ∀ (i : ℕ) (x : Vec d K), pos[i]? = some x → ∃ l, nb[i]? = some l ∧
        (∀ j ∈ l, j < (other.getD pos).length) ∧
        ∀ (j : ℕ) (y : Vec d K), (other.getD pos)[j]? = some y →
          l.count j = (if m.index y = m.index x ∧ (other = none → i < j) then 1 else 0) + hits m x y := by
  set src := other.getD pos with hsrc
  set index := src.map m.index with hindex
  set out : ℕ → List ℕ := fun i =>
    match pos[i]? with
    | none => []
    | some x =>
      (match other with
        | none => (particlesInCell index (m.index x)).filter fun j => i < j
        | some _ => particlesInCell index (m.index x)) ++
      ((m.offsets.map fun o => cellPbc m.periodic m.nCell fun c => m.index x c + o c).filter
        fun t => !cellOutside m.nCell t).flatMap (particlesInCell index) with hout
  have hrun : m.neighbors pos other = .ok ((List.range pos.length).map out) := by
    have : ∀ l : List ℕ, (∀ i ∈ l, i < pos.length) →
        (l.mapM fun i => do
          let icell ← pyGet (pos.map m.index) i
          let own := match (generalizing := false) other with
            | none => (particlesInCell index icell).filter fun j => i < j
            | some _ => particlesInCell index icell
          let cells ← m.neigh icell
          return own ++ cells.flatMap (particlesInCell index)) = (.ok (l.map out) : Py (List (List ℕ))) := by
      intro l
      induction l with
      | nil => intro _; rfl
      | cons i l ih =>
        intro hl
        have hi := hl i (by simp)
        rw [List.mapM_cons, ih (fun j hj => hl j (by simp [hj]))]
        have h1 : pyGet (pos.map m.index) i = .ok (m.index pos[i]) := by
          unfold pyGet; simp [List.getElem?_eq_getElem hi]
        have h2 : m.neigh (m.index pos[i]) = .ok ((m.offsets.map fun o =>
            cellPbc m.periodic m.nCell fun c => m.index pos[i] c + o c).filter
            fun t => !cellOutside m.nCell t) := by
          unfold CellMap.neigh
          rw [if_pos (hpos _ (List.getElem_mem hi))]
        rw [h1]
        simp only [bind, Except.bind, h2, pure, Except.pure, List.map_cons]
        congr 2
        simp only [hout, List.getElem?_eq_getElem hi]
        cases other <;> rfl
    refine Eq.trans ?_ (this (List.range pos.length) (fun i hi => List.mem_range.1 hi))
    cases other <;> rfl
  refine ⟨_, hrun, by simp, ?_⟩
  intro i x hx
  have hi : i < pos.length := by
    by_contra hc
    rw [List.getElem?_eq_none (by omega)] at hx
    cases hx
  refine ⟨out i, by simp [hi], ?_, ?_⟩
  · intro j hj
    simp only [hout, hx] at hj
    have hlen : index.length = src.length := by simp [hindex]
    rw [List.mem_append] at hj
    rcases hj with hj | hj
    · cases other with
      | none => simp only [particlesInCell, List.mem_filter, List.mem_range] at hj; omega
      | some o => simp only [particlesInCell, List.mem_filter, List.mem_range] at hj; omega
    · rw [List.mem_flatMap] at hj
      obtain ⟨t, -, hj⟩ := hj
      simp only [particlesInCell, List.mem_filter, List.mem_range] at hj
      omega
  · intro j y hy
    have hyi : index[j]? = some (m.index y) := by simp [hindex, hy]
    have hymem : y ∈ src := List.mem_of_getElem? hy
    have hyin := hoth y hymem
    simp only [hout, hx]
    rw [List.count_append, List.count_flatMap]
    congr 1
    · cases other with
      | none =>
        rw [particlesInCell, List.filter_filter, count_filter_range]
        have : j < index.length := by
          by_contra hc
          rw [List.getElem?_eq_none (by omega)] at hyi
          cases hyi
        simp only [hyi, this, Option.some.injEq, Bool.and_eq_true, decide_eq_true_eq, true_and,
          forall_const]
        simp only [and_comm]
      | some o =>
        rw [count_particlesInCell, hyi]
        simp
    · have e1 : (List.count j ∘ particlesInCell index) = fun t => if t = m.index y then 1 else 0 := by
        funext t
        simp only [Function.comp_apply]
        rw [count_particlesInCell, hyi]
        simp only [Option.some.injEq, eq_comm]
      rw [e1, sum_ite_countP, List.countP_filter, List.countP_map]
      unfold hits
      apply List.countP_congr
      intro o _
      simp only [Function.comp_apply, Bool.and_eq_true, decide_eq_true_eq, Bool.not_eq_true']
      constructor
      · exact fun h => h.1
      · intro h
        refine ⟨h, ?_⟩
        rw [h]
        unfold cellOutside
        rw [decide_eq_false_iff_not]
        rintro ⟨c, hc⟩
        have := hyin c
        omega

end
end PP
