import Verif.Props.Susceptibility
import Verif.Props.GrOpen
import Verif.Props.KObject
import Mathlib.Tactic.Positivity

/-!
# C174: units and bounds of the susceptibility
-/

set_option linter.unusedSectionVars false

namespace PP.Props
open PP

variable {X K : Type} [LinearOrder X] [Field K] [LinearOrder K] [IsStrictOrderedRing K] [FloorRing K]

theorem sum_map_affine (a c : K) (l : List K) : (l.map fun z => a * z + c).sum = a * l.sum + (l.length : K) * c := by
  induction l with
  | nil => simp
  | cons z l ih =>
    simp only [List.map_cons, List.sum_cons, ih, List.length_cons]
    push_cast
    ring

theorem npVar_affine (a c : K) (l : List K) : npVar (l.map fun z => a * z + c) = a ^ 2 * npVar l := by
  rcases eq_or_ne l [] with rfl | hl
  · simp [npVar]
  · have hn : (l.length : K) ≠ 0 := by
      have : l.length ≠ 0 := by simpa using hl
      exact_mod_cast this
    unfold npVar
    simp only
    rw [sum_map_affine, List.length_map, List.map_map, ← mul_div_assoc, ← List.sum_map_mul_left]
    congr 2
    apply List.map_congr_left
    intro y _
    simp only [Function.comp]
    have : (a * l.sum + (l.length : K) * c) / (l.length : K) = a * (l.sum / l.length) + c := by
      field_simp
    rw [this]
    ring

/-- Same dictionary with the values transformed. -/
def dbMap (φ : K → K) (db : List (X × List K)) : List (X × List K) := db.map fun e => (e.1, e.2.map φ)

theorem ddAdd_dbMap (φ : K → K) (db : List (X × List K)) (x : X) (y : K) :
    ddAdd [] (fun l y => l ++ [y]) (dbMap φ db) x (φ y) = dbMap φ (ddAdd [] (fun l y => l ++ [y]) db x y) := by
  induction db with
  | nil => simp [ddAdd, dbMap]
  | cons e db ih =>
    obtain ⟨x', l⟩ := e
    unfold dbMap at ih ⊢
    simp only [List.map_cons, ddAdd]
    by_cases h : x' = x
    · rw [if_pos h, if_pos h]; simp
    · rw [if_neg h, if_neg h, ih]; simp

theorem ddGet_dbMap (φ : K → K) (db : List (X × List K)) (x : X) :
    ddGet [] (dbMap φ db) x = (ddGet [] db x).map φ := by
  induction db with
  | nil => rfl
  | cons e db ih =>
    obtain ⟨x', l⟩ := e
    unfold dbMap at ih ⊢
    simp only [List.map_cons, ddGet]
    by_cases h : x' = x
    · rw [if_pos h, if_pos h]
    · rw [if_neg h, if_neg h, ih]

/-- **C174.** If the values `y` of the correlation function are replaced by `a y + b`, the susceptibility is multiplied by
`a²` at all grid points. If a correlation function raises, or there is no time grid, so it does in both cases. -/
theorem C174_affine (o : SusObj K) (corr : ℕ → Py (List X × List K)) (a b : K) :
    susCompute o (fun i => (corr i).map fun r => (r.1, r.2.map fun y => a * y + b)) =
      (susCompute o corr).map fun r => (r.1, r.2.map fun v => v.map fun y => a ^ 2 * y) := by
  unfold susCompute
  cases susStop o with
  | error e => rfl
  | ok stop =>
    simp only [bind, Except.bind]
    cases pyRange 0 stop.toNat o.skip with
    | error e => rfl
    | ok is =>
      simp only
      have hs := foldlM_map_state (dbMap fun z => a * z + b * (o.npart : K)) (g := susStep o.npart corr)
        (g' := susStep o.npart fun i => (corr i).map fun r => (r.1, r.2.map fun y => a * y + b)) (fun db i => by
          unfold susStep
          dsimp only
          cases corr i with
          | error e => rfl
          | ok r =>
            obtain ⟨xs, ys⟩ := r
            simp only [Except.map, bind, Except.bind, pure, Except.pure]
            congr 1
            rw [List.zip_map_right, List.foldl_map]
            simp only [Prod.map_fst, Prod.map_snd, id]
            induction xs.zip ys generalizing db with
            | nil => rfl
            | cons e l ih =>
              simp only [List.foldl_cons]
              rw [← ih, ← ddAdd_dbMap]
              congr 2
              ring) is []
      have h0 : dbMap (fun z => a * z + b * (o.npart : K)) ([] : List (X × List K)) = [] := rfl
      rw [h0] at hs
      rw [hs]
      cases is.foldlM (susStep o.npart corr) [] with
      | error e => rfl
      | ok db =>
        simp only [Except.map, pure, Except.pure]
        have hk : dictKeys (dbMap (fun z => a * z + b * (o.npart : K)) db) = dictKeys db := by
          unfold dictKeys dbMap
          rw [List.map_map]
          rfl
        rw [hk, List.map_map]
        congr 2
        apply List.map_congr_left
        intro x _
        simp only [Function.comp, ddGet_dbMap, npVar_affine, npDiv]
        split_ifs
        · rfl
        · simp [mul_div_assoc]

/-- A population variance is at most a quarter of the square of the width of an interval with all the values. -/
theorem npVar_le (l : List K) {lo hi : K} (h : ∀ z ∈ l, lo ≤ z ∧ z ≤ hi) : npVar l ≤ (hi - lo) ^ 2 / 4 := by
  rcases eq_or_ne l [] with rfl | hl
  · simp only [npVar, List.map_nil, List.sum_nil, List.length_nil, Nat.cast_zero, div_zero]
    positivity
  · have hn : (0 : K) < l.length := by
      have : 0 < l.length := List.length_pos_iff.2 hl
      exact_mod_cast this
    have h1 : (l.map fun z => z ^ 2).sum ≤ (lo + hi) * l.sum - (l.length : K) * (lo * hi) := by
      clear hl hn
      induction l with
      | nil => simp
      | cons z l ih =>
        have := ih fun w hw => h w (List.mem_cons_of_mem _ hw)
        obtain ⟨h2, h3⟩ := h z List.mem_cons_self
        simp only [List.map_cons, List.sum_cons, List.length_cons]
        push_cast
        nlinarith [mul_nonneg (sub_nonneg.2 h2) (sub_nonneg.2 h3)]
    rw [npVar_eq hl]
    unfold Spec.popVariance
    set m := l.sum / (l.length : K) with hm
    have h2 : (l.map fun z => z ^ 2).sum / (l.length : K) ≤ (lo + hi) * m - lo * hi := by
      rw [div_le_iff₀ hn, hm]
      have : ((lo + hi) * (l.sum / (l.length : K)) - lo * hi) * (l.length : K) =
          (lo + hi) * l.sum - (l.length : K) * (lo * hi) := by field_simp
      rw [this]
      exact h1
    nlinarith [sq_nonneg (2 * m - (lo + hi))]

theorem ddAdd_forall (P : K → Prop) (db : List (X × List K)) (x : X) (y : K) (hy : P y)
    (h : ∀ e ∈ db, ∀ z ∈ e.2, P z) : ∀ e ∈ ddAdd [] (fun l y => l ++ [y]) db x y, ∀ z ∈ e.2, P z := by
  induction db with
  | nil => intro e he z hz; simp only [ddAdd, List.nil_append, List.mem_singleton] at he; subst he; simp at hz; rwa [hz]
  | cons e db ih =>
    obtain ⟨x', l⟩ := e
    simp only [ddAdd]
    have ih' := ih fun e he => h e (List.mem_cons_of_mem _ he)
    have hl := h (x', l) List.mem_cons_self
    intro e he z hz
    by_cases hx : x' = x
    · rw [if_pos hx, List.mem_cons] at he
      rcases he with rfl | he
      · rcases List.mem_append.1 hz with hz | hz
        · exact hl z hz
        · rw [List.mem_singleton] at hz; rwa [hz]
      · exact h e (List.mem_cons_of_mem _ he) z hz
    · rw [if_neg hx, List.mem_cons] at he
      rcases he with rfl | he
      · exact hl z hz
      · exact ih' e he z hz

theorem ddGet_forall (P : K → Prop) (db : List (X × List K)) (x : X) (h : ∀ e ∈ db, ∀ z ∈ e.2, P z) :
    ∀ z ∈ ddGet [] db x, P z := by
  induction db with
  | nil => intro z hz; simp [ddGet] at hz
  | cons e db ih =>
    obtain ⟨x', l⟩ := e
    simp only [ddGet]
    by_cases hx : x' = x
    · rw [if_pos hx]; exact h (x', l) List.mem_cons_self
    · rw [if_neg hx]; exact ih fun e he => h e (List.mem_cons_of_mem _ he)

/-- **C174.** If all the values of the correlation functions are between `lo` and `hi`, the susceptibility is at most
`N (hi - lo)² / 4`, where `N` is the number of particles. -/
theorem C174_bound (o : SusObj K) (corr : ℕ → Py (List X × List K)) {lo hi : K}
    (hb : ∀ i r, corr i = .ok r → ∀ y ∈ r.2, lo ≤ y ∧ y ≤ hi) {grid : List X} {value : List (Option K)}
    (h : susCompute o corr = .ok (grid, value)) :
    ∀ v ∈ value, ∀ y, v = some y → 0 ≤ y ∧ y ≤ (o.npart : K) * (hi - lo) ^ 2 / 4 := by
  intro v hv y hy
  refine ⟨C73_nonneg o corr h v hv y hy, ?_⟩
  unfold susCompute at h
  cases h1 : susStop o with
  | error e => rw [h1] at h; simp [bind, Except.bind] at h
  | ok stop =>
    cases h2 : pyRange 0 stop.toNat o.skip with
    | error e => rw [h1] at h; simp [bind, Except.bind, h2] at h
    | ok is =>
      cases h3 : is.foldlM (susStep o.npart corr) [] with
      | error e => rw [h1] at h; simp [bind, Except.bind, h2, h3] at h
      | ok db =>
        rw [h1] at h
        simp only [bind, Except.bind, h2, h3, pure, Except.pure, Except.ok.injEq, Prod.mk.injEq] at h
        have hN : (0 : K) ≤ o.npart := Nat.cast_nonneg _
        have hdb : ∀ e ∈ db, ∀ z ∈ e.2, lo * (o.npart : K) ≤ z ∧ z ≤ hi * (o.npart : K) := by
          refine foldlM_ok_inv (fun db : List (X × List K) => ∀ e ∈ db, ∀ z ∈ e.2, lo * (o.npart : K) ≤ z ∧
            z ≤ hi * (o.npart : K)) _ is ?_ (by simp) h3
          intro s i s' _ hs hs'
          unfold susStep at hs'
          cases hc : corr i with
          | error e => rw [hc] at hs'; simp [bind, Except.bind] at hs'
          | ok r =>
            rw [hc] at hs'
            simp only [bind, Except.bind, pure, Except.pure, Except.ok.injEq] at hs'
            subst hs'
            have hz : ∀ e ∈ r.1.zip r.2, lo ≤ e.2 ∧ e.2 ≤ hi := fun e he => hb i r hc _ (List.of_mem_zip he).2
            clear h3 hc
            generalize r.1.zip r.2 = q at hz
            induction q generalizing s with
            | nil => exact hs
            | cons e l ih =>
              rw [List.foldl_cons]
              obtain ⟨g1, g2⟩ := hz e List.mem_cons_self
              have hs' := ddAdd_forall (fun z => lo * (o.npart : K) ≤ z ∧ z ≤ hi * (o.npart : K)) s e.1 _
                ⟨mul_le_mul_of_nonneg_right g1 hN, mul_le_mul_of_nonneg_right g2 hN⟩ hs
              have hz' : ∀ e ∈ l, lo ≤ e.2 ∧ e.2 ≤ hi := fun e he => hz e (List.mem_cons_of_mem _ he)
              exact ih _ hs' hz'
        obtain ⟨-, rfl⟩ := h
        obtain ⟨x, -, hx⟩ := List.mem_map.1 hv
        rw [hy] at hx
        unfold npDiv at hx
        simp only at hx
        split_ifs at hx with h0
        rw [Option.some.injEq] at hx
        rw [← hx]
        have hp : (0 : K) < o.npart := lt_of_le_of_ne hN (Ne.symm h0)
        rw [div_le_iff₀ hp]
        have := npVar_le _ (ddGet_forall _ db x hdb)
        calc _ ≤ _ := this
          _ = _ := by ring

/-- A population variance vanishes if and only if all the values are the same. -/
theorem npVar_zero (l : List K) : npVar l = 0 ↔ ∀ y ∈ l, ∀ z ∈ l, y = z := by
  rcases eq_or_ne l [] with rfl | hl
  · simp [npVar]
  · have hn : (0 : K) < l.length := by
      have : 0 < l.length := List.length_pos_iff.2 hl
      exact_mod_cast this
    constructor
    · intro h
      unfold npVar at h
      simp only [div_eq_zero_iff, hn.ne', or_false] at h
      have hall : ∀ y ∈ l, y = l.sum / (l.length : K) := by
        intro y hy
        have h1 := List.all_zero_of_le_zero_le_of_sum_eq_zero (l := l.map fun y => (y - l.sum / (l.length : K)) ^ 2)
          (by intro x hx; obtain ⟨w, -, rfl⟩ := List.mem_map.1 hx; positivity) h
          (List.mem_map.2 ⟨y, hy, rfl⟩)
        exact sub_eq_zero.1 (pow_eq_zero_iff two_ne_zero |>.1 h1)
      intro y hy z hz
      rw [hall y hy, hall z hz]
    · intro h
      obtain ⟨y, hy⟩ := List.exists_mem_of_ne_nil l hl
      have := npVar_le l (lo := y) (hi := y) fun z hz => ⟨(h y hy z hz).le, (h z hz y hy).le⟩
      rw [sub_self, zero_pow two_ne_zero, zero_div] at this
      exact le_antisymm this (by rw [npVar_eq hl]; exact popVariance_nonneg l)

/-- **C174.** The susceptibility at a grid point is zero if and only if all sub-trajectories have the same value there. -/
theorem C174_zero (o : SusObj K) (corr : ℕ → Py (List X × List K)) (f : ℕ → List X × List K) (t : K) (tg : List K)
    (hN : 0 < o.npart) (hs : 0 < o.skip) (htg : o.tgrid = some (tg ++ [t])) (hT : o.totalTime ≠ 0)
    (limit : ℤ) (hlim : limit = (if 0 ≤ (o.nsteps : K) * (t / o.totalTime) then
      ⌊(o.nsteps : K) * (t / o.totalTime)⌋ - o.skip else ⌈(o.nsteps : K) * (t / o.totalTime)⌉ - o.skip))
    (hok : ∀ i ∈ Spec.starts limit o.skip, corr i = .ok (f i)) :
    ∃ grid : List X, ∃ value : List K, susCompute o corr = .ok (grid, value.map some) ∧ value.length = grid.length ∧
      ∀ e ∈ grid.zip value, e.2 = 0 ↔ ∀ i ∈ Spec.starts limit o.skip, ∀ j ∈ Spec.starts limit o.skip, ∀ y z,
        (e.1, y) ∈ (f i).1.zip (f i).2 → (e.1, z) ∈ (f j).1.zip (f j).2 → y = z := by
  obtain ⟨grid, value, h1, -, h2, h3⟩ := C73_variance o corr f t tg hN hs htg hT limit hlim hok
  refine ⟨grid, value, h1, by rw [h3, List.length_map], ?_⟩
  intro e he
  have hg : e.1 ∈ grid := (List.of_mem_zip (a := e.1) (b := e.2) he).1
  have hv : e.2 = (o.npart : K) * Spec.popVariance (Spec.samplesAt e.1 ((Spec.starts limit o.skip).map f)) := by
    rw [h3, List.zip_map_right] at he
    obtain ⟨⟨x, y⟩, hxy, rfl⟩ := List.mem_map.1 he
    rw [List.zip_eq_zipWith] at hxy
    have : ∀ l : List X, (x, y) ∈ List.zipWith Prod.mk l l → x = y := by
      intro l
      induction l with
      | nil => simp
      | cons a l ih =>
        intro h
        rw [List.zipWith_cons_cons, List.mem_cons] at h
        rcases h with h | h
        · rw [Prod.mk.injEq] at h; rw [h.1, h.2]
        · exact ih h
    rw [this grid hxy]
    rfl
  have hn' : (o.npart : K) ≠ 0 := by exact_mod_cast hN.ne'
  rw [hv, mul_eq_zero, or_iff_right hn', ← npVar_eq ((h2 _).1 hg), npVar_zero]
  have hm : ∀ y, y ∈ Spec.samplesAt e.1 ((Spec.starts limit o.skip).map f) ↔
      ∃ i ∈ Spec.starts limit o.skip, (e.1, y) ∈ (f i).1.zip (f i).2 := by
    intro y
    unfold Spec.samplesAt
    simp only [List.mem_flatMap, List.mem_map, List.mem_filter, decide_eq_true_eq]
    constructor
    · rintro ⟨r, ⟨i, hi, rfl⟩, ⟨x, w⟩, ⟨hw, hx⟩, rfl⟩
      simp only at hx
      exact ⟨i, hi, by rw [← hx]; exact hw⟩
    · rintro ⟨i, hi, hy⟩
      exact ⟨f i, ⟨i, hi, rfl⟩, (e.1, y), ⟨hy, rfl⟩, rfl⟩
  constructor
  · intro h i hi j hj y z hy hz
    exact h y ((hm y).2 ⟨i, hi, hy⟩) z ((hm z).2 ⟨j, hj, hz⟩)
  · intro h y hy z hz
    obtain ⟨i, hi, hy⟩ := (hm y).1 hy
    obtain ⟨j, hj, hz⟩ := (hm z).1 hz
    exact h i hi j hj y z hy hz

/-- Two particles and two sub-trajectories with values between 0 and 1: the bound is reached at the first grid point, and
the second, where the values are the same, has susceptibility zero. -/
example : susCompute (X := ℤ) ⟨2, some [0, 1, (2 : ℚ)], 2, 3, 1⟩ (fun i => .ok ([0, 10], [(i : ℚ), 1])) =
      .ok ([0, 10], [some (2 * (1 - 0) ^ 2 / 4), some 0]) ∧
    susCompute (X := ℤ) ⟨2, some [0, 1, (2 : ℚ)], 2, 3, 1⟩ (fun i => .ok ([0, 10], [3 * (i : ℚ) + 5, 3 * 1 + 5])) =
      .ok ([0, 10], [some (9 / 2), some 0]) := by decide +kernel

end PP.Props
