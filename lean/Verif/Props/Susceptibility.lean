import Verif.Model.Susceptibility
import Verif.Lemmas.Dict
import Verif.Lemmas.Expo
import Verif.Lemmas.Sk
import Mathlib.Algebra.Order.BigOperators.Group.List
import Mathlib.Tactic.Ring
import Mathlib.Tactic.FieldSimp
import Mathlib.Tactic.Linarith

/-!
# C73: the susceptibility
-/

set_option linter.unusedSectionVars false

namespace PP.Spec

/-- Population variance: mean of the squares minus square of the mean. -/
def popVariance {K : Type*} [Field K] (l : List K) : K :=
  (l.map fun y => y ^ 2).sum / (l.length : K) - (l.sum / (l.length : K)) ^ 2

/-- The values found at grid point `x` in a list of correlation functions, each a list of grid points and a list of
values. -/
def samplesAt {X K : Type*} [DecidableEq X] (x : X) (fs : List (List X × List K)) : List K :=
  fs.flatMap fun f => ((f.1.zip f.2).filter fun e => e.1 = x).map Prod.snd

/-- First frames of the sub-trajectories: the multiples of the stride below the limit. -/
def starts (limit : ℤ) (skip : ℕ) : List ℕ := (List.range limit.toNat).filter fun i => i % skip = 0

end PP.Spec

namespace PP.Props

variable {X K : Type} [LinearOrder X] [Field K] [LinearOrder K] [IsStrictOrderedRing K] [FloorRing K]

theorem sum_sub_sq (l : List K) (m : K) :
    (l.map fun y => (y - m) ^ 2).sum = (l.map fun y => y ^ 2).sum - 2 * m * l.sum + (l.length : K) * m ^ 2 := by
  induction l with
  | nil => simp
  | cons a l ih =>
    simp only [List.map_cons, List.sum_cons, ih, List.length_cons]
    push_cast
    ring

theorem npVar_eq {l : List K} (hl : l ≠ []) : npVar l = Spec.popVariance l := by
  have hn : (l.length : K) ≠ 0 := by
    have : l.length ≠ 0 := by simpa using hl
    exact_mod_cast this
  unfold npVar Spec.popVariance
  simp only
  rw [sum_sub_sq]
  field_simp
  ring

theorem popVariance_mul (l : List K) (a : K) : Spec.popVariance (l.map fun y => y * a) = a ^ 2 * Spec.popVariance l := by
  unfold Spec.popVariance
  rw [List.map_map, List.length_map]
  have h1 : (l.map ((fun y => y ^ 2) ∘ fun y => y * a)).sum = a ^ 2 * (l.map fun y => y ^ 2).sum := by
    rw [← List.sum_map_mul_left]
    congr 1
    apply List.map_congr_left
    intro y _
    simp only [Function.comp]
    ring
  have h2 : (l.map fun y => y * a).sum = a * l.sum := by
    have := List.sum_map_mul_left (l := l) (f := fun y => y) (r := a)
    simp only [List.map_id'] at this
    rw [← this]
    congr 1
    apply List.map_congr_left
    intro y _
    ring
  rw [h1, h2]
  ring

theorem popVariance_nonneg (l : List K) : 0 ≤ Spec.popVariance l := by
  rcases eq_or_ne l [] with rfl | hl
  · simp [Spec.popVariance]
  · rw [← npVar_eq hl]
    unfold npVar
    simp only
    apply div_nonneg
    · apply List.sum_nonneg
      intro x hx
      obtain ⟨y, _, rfl⟩ := List.mem_map.1 hx
      exact sq_nonneg _
    · positivity

theorem rangeList_starts (limit : ℤ) {skip : ℕ} (hs : 0 < skip) :
    rangeList 0 limit.toNat skip = Spec.starts limit skip := by
  rw [rangeList_eq_filter hs le_rfl]
  unfold Spec.starts
  apply List.filter_congr
  intro i hi
  rw [List.mem_range] at hi
  simp [hi]

/-- State of the dictionary after some sub-trajectories. -/
theorem susLoop (N : ℕ) (corr : ℕ → Py (List X × List K)) (f : ℕ → List X × List K) (is : List ℕ)
    (hok : ∀ i ∈ is, corr i = .ok (f i)) :
    is.foldlM (susStep N corr) [] = .ok ((is.flatMap fun i => ((f i).1.zip (f i).2).map fun e =>
      (e.1, e.2 * (N : K))).foldl (fun db e => ddAdd [] (fun l y => l ++ [y]) db e.1 e.2) []) := by
  have h := foldlM_inv_ok (f := susStep N corr)
    (g := fun db i => ((f i).1.zip (f i).2).foldl (fun db e => ddAdd [] (fun l y => l ++ [y]) db e.1 (e.2 * (N : K))) db)
    (P := fun _ => True) is [] trivial (fun s _ i hi => ⟨by unfold susStep; rw [hok i hi]; rfl, trivial⟩)
  rw [h.1]
  congr 1
  rw [List.flatMap, List.foldl_flatten, List.foldl_map]
  congr 1
  funext db i
  rw [List.foldl_map]

theorem foldl_append_singleton (l a : List K) : l.foldl (fun l y => l ++ [y]) a = a ++ l := by
  induction l generalizing a with
  | nil => simp
  | cons x l ih => rw [List.foldl_cons, ih]; simp

/-- **C73**: the sub-trajectories start at the multiples of the stride below the number of frames times the fraction of
time covered by the grid, minus the stride. If none of the correlation functions fails, the grid points are those of all
of them, in increasing order, and the value at each one is the number of particles times the population variance of the
values found at that point. -/
theorem C73_variance (o : SusObj K) (corr : ℕ → Py (List X × List K)) (f : ℕ → List X × List K) (t : K) (tg : List K)
    (hN : 0 < o.npart) (hs : 0 < o.skip) (htg : o.tgrid = some (tg ++ [t])) (hT : o.totalTime ≠ 0)
    (limit : ℤ) (hlim : limit = (if 0 ≤ (o.nsteps : K) * (t / o.totalTime) then
      ⌊(o.nsteps : K) * (t / o.totalTime)⌋ - o.skip else ⌈(o.nsteps : K) * (t / o.totalTime)⌉ - o.skip))
    (hok : ∀ i ∈ Spec.starts limit o.skip, corr i = .ok (f i)) :
      ∃ grid : List X, ∃ value : List K, susCompute o corr = .ok (grid, value.map some) ∧ grid.Pairwise (· < ·) ∧
        (∀ x, x ∈ grid ↔ Spec.samplesAt x ((Spec.starts limit o.skip).map f) ≠ []) ∧
        value = grid.map fun x => (o.npart : K) * Spec.popVariance (Spec.samplesAt x ((Spec.starts limit o.skip).map f)) := by
  have hstop : susStop o = .ok limit := by
    unfold susStop pyInt
    rw [htg]
    simp only [List.getLast?_append, List.getLast?_singleton, Option.some_or]
    rw [if_neg hT, hlim]
    split_ifs <;> first | rfl | (exfalso; linarith)
  set is := Spec.starts limit o.skip with his
  set E : List (X × K) := is.flatMap fun i => ((f i).1.zip (f i).2).map fun e => (e.1, e.2 * (o.npart : K)) with hE
  set db : List (X × List K) := E.foldl (fun db e => ddAdd [] (fun l y => l ++ [y]) db e.1 e.2) [] with hdb
  have hloop : is.foldlM (susStep o.npart corr) [] = .ok db := susLoop o.npart corr f is hok
  have hget : ∀ x, ddGet [] db x = (Spec.samplesAt x (is.map f)).map fun y => y * (o.npart : K) := by
    intro x
    rw [hdb, ddGet_foldl, foldl_append_singleton]
    simp only [ddGet, List.nil_append]
    unfold Spec.samplesAt
    rw [hE, List.filter_flatMap, List.map_flatMap, List.flatMap_map, List.map_flatMap]
    congr 1
    funext i
    rw [List.filter_map, List.map_map, List.map_map]
    rfl
  have hkeys : ∀ x, x ∈ dictKeys db ↔ Spec.samplesAt x (is.map f) ≠ [] := by
    intro x
    rw [hdb, mem_keys_foldl]
    have h0 : Spec.samplesAt x (is.map f) ≠ [] ↔ ∃ y, y ∈ Spec.samplesAt x (is.map f) := by
      constructor
      · exact fun h => List.exists_mem_of_ne_nil _ h
      · rintro ⟨y, hy⟩ h
        rw [h] at hy
        cases hy
    rw [h0]
    unfold Spec.samplesAt
    simp only [dictKeys, List.map_nil, List.not_mem_nil, false_or, hE, List.mem_flatMap, List.mem_map, List.mem_filter,
      decide_eq_true_eq]
    constructor
    · rintro ⟨e, ⟨i, hi, e', he', rfl⟩, rfl⟩
      exact ⟨e'.2, f i, ⟨i, hi, rfl⟩, e', ⟨he', rfl⟩, rfl⟩
    · rintro ⟨y, _, ⟨i, hi, rfl⟩, e', ⟨he', rfl⟩, rfl⟩
      exact ⟨_, ⟨i, hi, e', he', rfl⟩, rfl⟩
  have hnodup : (dictKeys db).Nodup := by
    rw [hdb]
    apply nodup_keys_foldl
    simp [dictKeys]
  refine ⟨pySorted (dictKeys db), (pySorted (dictKeys db)).map fun x => (o.npart : K) *
    Spec.popVariance (Spec.samplesAt x (is.map f)), ?_, pySorted_lt hnodup, ?_, rfl⟩
  · unfold susCompute pyRange
    rw [hstop]
    simp only [bind, Except.bind]
    rw [if_neg (by omega), rangeList_starts _ hs]
    simp only
    rw [hloop]
    show Except.ok _ = _
    congr 2
    rw [List.map_map]
    apply List.map_congr_left
    intro x hx
    rw [mem_pySorted, hkeys] at hx
    have hN' : (o.npart : K) ≠ 0 := by
      have : o.npart ≠ 0 := by omega
      exact_mod_cast this
    unfold npDiv
    simp only [Function.comp]
    rw [if_neg hN', hget, npVar_eq (by simpa using hx), popVariance_mul]
    congr 1
    field_simp
  · intro x
    rw [mem_pySorted, hkeys]

/-- **C73**: the values are not negative. -/
theorem C73_nonneg (o : SusObj K) (corr : ℕ → Py (List X × List K)) {grid : List X} {value : List (Option K)}
    (h : susCompute o corr = .ok (grid, value)) : ∀ a ∈ value, ∀ y, a = some y → 0 ≤ y := by
  unfold susCompute at h
  cases h1 : susStop o with
  | error e => rw [h1] at h; simp [bind, Except.bind] at h
  | ok stop =>
    cases h2 : pyRange 0 stop.toNat o.skip with
    | error e => rw [h1] at h; simp [bind, Except.bind, h2] at h
    | ok is =>
      cases h3 : is.foldlM (susStep o.npart corr) [] with
      | error e => rw [h1] at h; simp [bind, Except.bind, h2, h3] at h
      | ok db =>
        rw [h1] at h
        simp only [bind, Except.bind, h2, h3, pure, Except.pure, Except.ok.injEq, Prod.mk.injEq] at h
        obtain ⟨_, rfl⟩ := h
        intro a ha y hy
        obtain ⟨x, _, rfl⟩ := List.mem_map.1 ha
        unfold npDiv at hy
        simp only at hy
        split_ifs at hy with h0
        cases hy
        apply div_nonneg _ (by positivity)
        rcases eq_or_ne (ddGet [] db x) [] with h | h
        · rw [h]; simp [npVar]
        · rw [npVar_eq h]; exact popVariance_nonneg _

/-- **C73**: with fewer frames than twice the stride in the fraction of the trajectory covered by the time grid (for
instance with a single origin) there are no sub-trajectories, and the result is empty, without an error. -/
theorem C73_empty (o : SusObj K) (corr : ℕ → Py (List X × List K)) (t : K) (tg : List K) (hs : 0 < o.skip)
    (htg : o.tgrid = some (tg ++ [t])) (hT : 0 < o.totalTime)
    (hshort : (o.nsteps : K) * (t / o.totalTime) < o.skip + 1) : susCompute o corr = .ok ([], []) := by
  have hle : pyInt ((o.nsteps : K) * (t / o.totalTime)) - o.skip ≤ 0 := by
    unfold pyInt
    split_ifs with h0
    rotate_left
    · have : ⌈(o.nsteps : K) * (t / o.totalTime)⌉ ≤ 0 := by
        rw [Int.ceil_le]; push_cast; exact le_of_lt (by linarith)
      omega
    · have : ⌊(o.nsteps : K) * (t / o.totalTime)⌋ < o.skip + 1 := by
        rw [Int.floor_lt]; push_cast; exact hshort
      omega
  have hstop : susStop o = .ok (pyInt ((o.nsteps : K) * (t / o.totalTime)) - o.skip) := by
    unfold susStop
    rw [htg]
    simp only [List.getLast?_append, List.getLast?_singleton, Option.some_or]
    rw [if_neg hT.ne']
  unfold susCompute pyRange
  rw [hstop]
  simp only [bind, Except.bind]
  rw [if_neg (by omega), Int.toNat_of_nonpos hle]
  have : rangeList 0 0 o.skip = [] := by
    apply List.eq_nil_iff_forall_not_mem.2
    intro x hx
    rw [mem_rangeList hs] at hx
    omega
  rw [this]
  rfl

/-- **C73**: points found in a single sub-trajectory, as the longest times, have value zero. -/
theorem C73_single (y : K) : Spec.popVariance [y] = 0 := by simp [Spec.popVariance]

/-- **C73**: without a time grid among the keyword arguments there is always a `KeyError`. -/
theorem C73_no_tgrid (o : SusObj K) (corr : ℕ → Py (List X × List K)) (h : o.tgrid = none) :
    susCompute o corr = .error .keyError := by
  unfold susCompute susStop
  rw [h]
  rfl

/-- Three sub-trajectories, the last of which has a point less. -/
example : susCompute (X := ℤ) ⟨2, some [0, 1, (2 : ℚ)], 2, 4, 1⟩ (fun i => .ok (if i < 2 then [0, 10] else [0],
    [(i : ℚ), i + 1])) = .ok ([0, 10], [some (4 / 3), some (1 / 2)]) := by decide +kernel

end PP.Props
