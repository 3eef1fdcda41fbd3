import Verif.Props.TGrid
import Verif.Model.Dynamics
import Mathlib.Algebra.Order.BigOperators.Group.List
import Mathlib.Algebra.BigOperators.Group.List.Lemmas

/-! Lemmas on averages computed by `gcf_offset` with exact numbers. -/

set_option linter.unusedSectionVars false

namespace PP

theorem bind_ok_iff {α β : Type} {x : Py α} {f : α → Py β} {r : β} :
    (x >>= f) = .ok r ↔ ∃ a, x = .ok a ∧ f a = .ok r := by
  cases x with
  | error e => simp [bind, Except.bind]
  | ok a => simp [bind, Except.bind]

namespace Spec

/-- Arithmetic mean of a list. -/
def mean {K : Type*} [Field K] (l : List K) : K := l.sum / (l.length : K)

/-- Kernel values of the sampled pairs at lag `δ`. -/
def valuesAt {T X K : Type*} [DecidableEq T] [Sub T] (g : X → X → K) (skip : ℕ)
    (grid : List (ℕ × ℕ)) (t : List T) (x : List X) (δ : T) : List K :=
  (termsAt δ (terms t x (sampled x.length skip grid))).map fun p => g p.1 p.2

end Spec

section
variable {K : Type} [Field K]

theorem foldl_nan (l : List K) (a : K) :
    (l.map some).foldl (Arith.nan K).add (some a) = some (a + l.sum) := by
  induction l generalizing a with
  | nil => simp
  | cons b l ih =>
    rw [List.map_cons, List.foldl_cons]
    have : (Arith.nan K).add (some a) (some b) = some (a + b) := rfl
    rw [this, ih, List.sum_cons, add_assoc]

/-- `gcf_offset` with exact numbers: the value at each lag is the mean of the kernel over the
sampled pairs at that lag. -/
theorem gcfOffset_mean {T X : Type} [LinearOrder T] [Sub T] {f : X → X → Py (Option K)}
    {g : X → X → K} {grid : List (ℕ × ℕ)} {skip : ℕ} {t : List T} {x : List X} (hskip : 0 < skip)
    (ht : x.length ≤ t.length) (hf : ∀ a ∈ x, ∀ b ∈ x, f a b = .ok (some (g a b))) :
    ∃ lags : List T, lags.Pairwise (· < ·) ∧
      (∀ δ, δ ∈ lags ↔ ∃ e ∈ Spec.terms t x (Spec.sampled x.length skip grid), e.1 = δ) ∧
      gcfOffset (Arith.nan K) f grid skip t x
        = .ok (lags, lags.map fun δ => some (Spec.mean (Spec.valuesAt g skip grid t x δ))) := by
  obtain ⟨lags, h1, h2, h3⟩ := Props.C01_gcf_offset_mean (Arith.nan K) f (fun a b => some (g a b))
    grid skip t x hskip ht hf
  refine ⟨lags, h1, h2, ?_⟩
  rw [h3]
  congr 2
  apply List.map_congr_left
  intro δ _
  simp only
  have e : ((Spec.termsAt δ (Spec.terms t x (Spec.sampled x.length skip grid))).map
      fun p => some (g p.1 p.2)) = (Spec.valuesAt g skip grid t x δ).map some := by
    unfold Spec.valuesAt; rw [List.map_map]; rfl
  rw [e]
  have z : (Arith.nan K).zero = some 0 := rfl
  rw [z, foldl_nan, zero_add]
  simp [Arith.nan, Spec.mean, Spec.valuesAt]

/-- The kernel values at a lag come from pairs of frames at that time distance. -/
theorem mem_valuesAt {T X : Type} [LinearOrder T] [Sub T] {g : X → X → K} {grid : List (ℕ × ℕ)}
    {skip : ℕ} {t : List T} {x : List X} {δ : T} {v : K}
    (h : v ∈ Spec.valuesAt g skip grid t x δ) :
    ∃ (i0 i : ℕ) (ta tb : T) (xa xb : X), (i0, i) ∈ Spec.sampled x.length skip grid ∧
      t[i0 + i]? = some ta ∧ t[i0]? = some tb ∧ x[i0 + i]? = some xa ∧ x[i0]? = some xb ∧
      ta - tb = δ ∧ v = g xa xb := by
  unfold Spec.valuesAt Spec.termsAt Spec.terms at h
  simp only [List.mem_map, List.mem_filter, List.mem_filterMap, decide_eq_true_eq] at h
  obtain ⟨p, ⟨e, ⟨⟨q, hq, hqe⟩, hd⟩, rfl⟩, rfl⟩ := h
  unfold Spec.term at hqe
  cases h1 : t[q.1 + q.2]? <;> cases h2 : t[q.1]? <;> cases h3 : x[q.1 + q.2]? <;>
    cases h4 : x[q.1]? <;> simp only [h1, h2, h3, h4] at hqe <;> try cases hqe
  exact ⟨q.1, q.2, _, _, _, _, hq, h1, h2, h3, h4, hd, rfl⟩

theorem valuesAt_length {T X : Type} [LinearOrder T] [Sub T] {g : X → X → K} {grid : List (ℕ × ℕ)}
    {skip : ℕ} {t : List T} {x : List X} {δ : T}
    (h : ∃ e ∈ Spec.terms t x (Spec.sampled x.length skip grid), e.1 = δ) :
    0 < (Spec.valuesAt g skip grid t x δ).length := by
  unfold Spec.valuesAt
  rw [List.length_map]
  exact termsAt_length_pos h

variable [LinearOrder K] [IsStrictOrderedRing K]

theorem mean_nonneg {l : List K} (h : ∀ a ∈ l, 0 ≤ a) : 0 ≤ Spec.mean l :=
  div_nonneg (List.sum_nonneg h) (Nat.cast_nonneg _)

theorem mean_const {l : List K} {c : K} (hl : 0 < l.length) (h : ∀ a ∈ l, a = c) :
    Spec.mean l = c := by
  have : l = List.replicate l.length c := List.eq_replicate_iff.2 ⟨rfl, h⟩
  unfold Spec.mean
  rw [this, List.sum_replicate, List.length_replicate, nsmul_eq_mul]
  have : (l.length : K) ≠ 0 := by exact_mod_cast hl.ne'
  field_simp

theorem mean_le {l : List K} {c : K} (hl : 0 < l.length) (h : ∀ a ∈ l, a ≤ c) : Spec.mean l ≤ c := by
  unfold Spec.mean
  rw [div_le_iff₀ (by exact_mod_cast hl), mul_comm]
  have := List.sum_le_card_nsmul l c h
  rwa [nsmul_eq_mul] at this

theorem le_mean {l : List K} {c : K} (hl : 0 < l.length) (h : ∀ a ∈ l, c ≤ a) : c ≤ Spec.mean l := by
  unfold Spec.mean
  rw [le_div_iff₀ (by exact_mod_cast hl), mul_comm]
  have := List.card_nsmul_le_sum l c h
  rwa [nsmul_eq_mul] at this

variable [FloorRing K]

/-- The common tail of the correlators: real times and means. -/
theorem timeCorr_mean {X : Type} {f : X → X → Py (Option K)} {g : X → X → K} {tr : Traj K}
    {dg : List (ℕ × ℕ)} {skip : ℕ} {x : List X} (hskip : 0 < skip)
    (ht : x.length ≤ tr.steps.length) (hf : ∀ a ∈ x, ∀ b ∈ x, f a b = .ok (some (g a b))) :
    ∃ lags : List ℤ, lags.Pairwise (· < ·) ∧
      (∀ δ, δ ∈ lags ↔ ∃ e ∈ Spec.terms tr.steps x (Spec.sampled x.length skip dg), e.1 = δ) ∧
      timeCorr (Arith.nan K) f tr dg skip x = .ok (lags.map fun δ : ℤ => (δ : K) * tr.timestep,
        lags.map fun δ => some (Spec.mean (Spec.valuesAt g skip dg tr.steps x δ))) := by
  obtain ⟨lags, h1, h2, h3⟩ := gcfOffset_mean (grid := dg) (t := tr.steps) hskip ht hf
  refine ⟨lags, h1, h2, ?_⟩
  unfold timeCorr
  rw [h3]; rfl

/-- Replacing the data by their image under `h` amounts to composing the kernel with `h`. -/
theorem timeCorr_map {X Y V : Type} (ar : Arith V) (f : X → X → Py V) (h : Y → X) (tr : Traj K)
    (dg : List (ℕ × ℕ)) (skip : ℕ) (y : List Y) :
    timeCorr ar f tr dg skip (y.map h) = timeCorr ar (fun a b => f (h a) (h b)) tr dg skip y := by
  unfold timeCorr gcfOffset
  rw [Props.corrLoop_map, List.length_map]

end

end PP

namespace PP
section
variable {K : Type} [Field K] [LinearOrder K] [IsStrictOrderedRing K] [FloorRing K]

/-- A statement about every reported (time, value) follows from the same statement about every lag. -/
theorem timeCorr_forall {X : Type} {f : X → X → Py (Option K)} {g : X → X → K} {tr : Traj K}
    {dg : List (ℕ × ℕ)} {skip : ℕ} {x : List X} {ts : List K} {vs : List (Option K)}
    (hskip : 0 < skip) (ht : x.length ≤ tr.steps.length)
    (hf : ∀ a ∈ x, ∀ b ∈ x, f a b = .ok (some (g a b)))
    (h : timeCorr (Arith.nan K) f tr dg skip x = .ok (ts, vs)) {P : K → Option K → Prop}
    (hP : ∀ δ : ℤ, 0 < (Spec.valuesAt g skip dg tr.steps x δ).length →
      P ((δ : K) * tr.timestep) (some (Spec.mean (Spec.valuesAt g skip dg tr.steps x δ)))) :
    ts.length = vs.length ∧ ∀ p ∈ ts.zip vs, P p.1 p.2 := by
  obtain ⟨lags, -, h2, h3⟩ := timeCorr_mean (dg := dg) (tr := tr) hskip ht hf
  rw [h] at h3
  simp only [Except.ok.injEq, Prod.mk.injEq] at h3
  obtain ⟨rfl, rfl⟩ := h3
  refine ⟨by simp, ?_⟩
  intro p hp
  rw [List.zip_map'] at hp
  obtain ⟨δ, hδ, rfl⟩ := List.mem_map.1 hp
  exact hP δ (valuesAt_length ((h2 δ).1 hδ))

/-- With strictly increasing steps, lag zero only pairs a frame with itself. -/
theorem lag_zero_same {t : List ℤ} (h : t.Pairwise (· < ·)) {i j : ℕ} {a b : ℤ}
    (ha : t[i]? = some a) (hb : t[j]? = some b) (hab : a - b = 0) : i = j := by
  obtain ⟨hi, rfl⟩ := List.getElem?_eq_some_iff.1 ha
  obtain ⟨hj, rfl⟩ := List.getElem?_eq_some_iff.1 hb
  have hnd : t.Nodup := h.imp ne_of_lt
  exact (hnd.getElem_inj_iff).1 (by omega)

end
end PP
