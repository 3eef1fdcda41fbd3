import Verif.Props.Symmetry

/-!
# C110: sums of partial functions
-/

set_option linter.unusedSectionVars false

namespace PP.Props
open PP

variable {K : Type} [Field K] [LinearOrder K] [IsStrictOrderedRing K] [FloorRing K] {n d k : ℕ} {m : Fin k → ℕ}

/-- Componentwise arithmetic. -/
def Arith.tuple (K : Type) [Field K] (k : ℕ) : Arith (Fin k → K) := ⟨fun _ => 0, fun v w a => v a + w a, fun v c a => v a / (c : K)⟩

theorem tuple_proj (a : Fin k) : ArithHom (Arith.tuple K k) (Arith.nan K) (fun v => some (v a)) :=
  ⟨rfl, fun _ _ => rfl, fun _ _ => rfl⟩

theorem tuple_comb (w : Fin k → K) (s : K) :
    ArithHom (Arith.tuple K k) (Arith.nan K) (fun v => some ((∑ a, w a * v a) / s)) where
  zero := by simp [Arith.tuple, Arith.nan]
  add v u := by
    simp only [Arith.tuple, Arith.nan, bind, Option.bind, pure]
    congr 1
    rw [← add_div, ← Finset.sum_add_distrib]
    congr 1
    exact Finset.sum_congr rfl fun a _ => by ring
  div v c := by
    simp only [Arith.tuple, Arith.nan, Option.map_some]
    congr 1
    rw [div_right_comm]
    congr 1
    rw [Finset.sum_div]
    exact Finset.sum_congr rfl fun a _ => by rw [mul_div_assoc]

/-- The particles of group `a`, where `e` assigns to each particle of each group its place in the frame. -/
def group (e : (Σ a : Fin k, Fin (m a)) ≃ Fin n) (a : Fin k) (x : Frame n d K) : Frame (m a) d K :=
  selectFrame (fun p => e ⟨a, p⟩) x

/-- The total is the average of the partial functions weighted with the number of particles of each group, at the same
times; or all of them raise the same exception. -/
def WeightedSum (n : ℕ) (m : Fin k → ℕ) (total : Py (List K × List (Option K)))
    (part : Fin k → Py (List K × List (Option K))) : Prop :=
  (∃ (ts : List K) (w : List (Fin k → K)), (∀ a, part a = .ok (ts, w.map fun v => some (v a))) ∧
    total = .ok (ts, w.map fun v => some ((∑ a, (m a : K) * v a) / (n : K)))) ∨
  (∃ err, (∀ a, part a = .error err) ∧ total = .error err)

theorem weightedSum_timeCorr (e : (Σ a : Fin k, Fin (m a)) ≃ Fin n) (hn : 0 < n) (hm : ∀ a, 0 < m a)
    (S : {N : ℕ} → Frame N d K → Frame N d K → K)
    (hS : ∀ x y : Frame n d K, S x y = ∑ a, S (group e a x) (group e a y))
    (tr : Traj K) (dg : List (ℕ × ℕ)) (skip : ℕ) (x : List (Frame n d K)) :
    WeightedSum n m
      (timeCorr (Arith.nan K) (fun x y => .ok (perParticle n (S x y))) tr dg skip x)
      (fun a => timeCorr (Arith.nan K) (fun x y => .ok (perParticle (m a) (S x y))) tr dg skip (x.map (group e a))) := by
  let F : Frame n d K → Frame n d K → Py (Fin k → K) :=
    fun x y => .ok fun a => S (group e a x) (group e a y) / (m a : K)
  have h1 : ∀ a, timeCorr (Arith.nan K) (fun x y => .ok (perParticle (m a) (S x y))) tr dg skip (x.map (group e a))
      = (timeCorr (Arith.tuple K k) F tr dg skip x).map fun r => (r.1, r.2.map fun v => some (v a)) := by
    intro a
    rw [timeCorr_map, ← timeCorr_hom (tuple_proj a)]
    congr 1
    funext u v
    unfold perParticle
    rw [if_neg (hm a).ne']
    rfl
  have h2 : timeCorr (Arith.nan K) (fun x y => .ok (perParticle n (S x y))) tr dg skip x
      = (timeCorr (Arith.tuple K k) F tr dg skip x).map
        fun r => (r.1, r.2.map fun v => some ((∑ a, (m a : K) * v a) / (n : K))) := by
    rw [← timeCorr_hom (tuple_comb (fun a => (m a : K)) (n : K))]
    congr 1
    funext u v
    unfold perParticle
    rw [if_neg hn.ne']
    simp only [F, Except.map]
    congr 3
    rw [hS]
    refine Finset.sum_congr rfl fun a _ => ?_
    have : (m a : K) ≠ 0 := by exact_mod_cast (hm a).ne'
    field_simp
  cases hr : timeCorr (Arith.tuple K k) F tr dg skip x with
  | error err =>
    right
    refine ⟨err, fun a => ?_, ?_⟩
    · exact (h1 a).trans (by rw [hr]; rfl)
    · rw [h2, hr]; rfl
  | ok r =>
    left
    refine ⟨r.1, r.2, fun a => ?_, ?_⟩
    · exact (h1 a).trans (by rw [hr]; rfl)
    · rw [h2, hr]; rfl

theorem sum_groups (e : (Σ a : Fin k, Fin (m a)) ≃ Fin n) (f : Fin n → K) :
    ∑ p, f p = ∑ a, ∑ p : Fin (m a), f (e ⟨a, p⟩) := by
  rw [← Equiv.sum_comp e f, Fintype.sum_sigma]

theorem selfOverlap_sum (x y : Frame n d K) (a : K) :
    (selfOverlap x y a : K) = ∑ p, if sqDist (x p) (y p) < a then (1 : K) else 0 := by
  rw [selfOverlap_card, Finset.card_filter]
  push_cast
  rfl

theorem weightedSum_bind {α : Type} (r : Py α) (total : α → Py (List K × List (Option K)))
    (part : Fin k → α → Py (List K × List (Option K)))
    (h : ∀ x, r = .ok x → WeightedSum n m (total x) (fun a => part a x)) :
    WeightedSum n m (r >>= total) (fun a => r >>= part a) := by
  cases r with
  | error err => exact .inr ⟨err, fun _ => rfl, rfl⟩
  | ok x => exact h x rfl

/-- **C110.** For any division of the particles in non-empty groups, the mean square displacement (on a time grid given
by the user or extending over the whole trajectory), the velocity autocorrelation and the self overlap of the whole
system are the averages of those of the groups, weighted with the number of particles. -/
theorem C110_weighted_sum_partial (e : (Σ a : Fin k, Fin (m a)) ≃ Fin n) (hn : 0 < n) (hm : ∀ a, 0 < m a) (tr : Traj K)
    (skip : ℕ) (grid : Option (List K)) (tgrid : List K) (rmax : K) (tsamples : ℤ) (offset : Bool)
    (norigins : NOrigins) (cut : K) (x : List (Frame n d K)) (hr : grid = none → rmax ≤ 0) :
    WeightedSum n m (msdCompute tr skip grid rmax tsamples offset x)
      (fun a => msdCompute tr skip grid rmax tsamples offset (x.map (group e a))) ∧
    WeightedSum n m (vacfRun tr grid tsamples norigins x)
      (fun a => vacfRun tr grid tsamples norigins (x.map (group e a))) ∧
    WeightedSum n m (qstRun tr tgrid norigins cut x)
      (fun a => qstRun tr tgrid norigins cut (x.map (group e a))) := by
  refine ⟨?_, ?_, ?_⟩
  · have hg : ∀ {N : ℕ} (z : List (Frame N d K)), grid = none →
        msdGrid tr rmax tsamples z = linearGrid 0 tr.totalTime (.int tsamples) := by
      intro N z h
      unfold msdGrid
      rw [if_neg (not_lt.2 (hr h))]
    have key : ∀ g, WeightedSum n m
        (setupTGrid tr.steps tr.blockSize tr.timestep g offset >>= fun dg =>
          timeCorr (Arith.nan K) msdKernel tr dg skip x)
        (fun a => setupTGrid tr.steps tr.blockSize tr.timestep g offset >>= fun dg =>
          timeCorr (Arith.nan K) msdKernel tr dg skip (x.map (group e a))) := by
      intro g
      refine weightedSum_bind _ _ _ fun dg _ => ?_
      exact weightedSum_timeCorr e hn hm (fun x y => sqDisp x y)
        (fun x y => sum_groups e fun p => ∑ c, (x p c - y p c) ^ 2) tr dg skip x
    unfold msdCompute
    cases grid with
    | some g => exact key g
    | none =>
      simp only [hg _ rfl]
      exact weightedSum_bind _ _ _ fun g _ => key g
  · unfold vacfRun vacfCompute
    refine weightedSum_bind _ _ _ fun dg _ => ?_
    exact weightedSum_timeCorr e hn hm (fun x y => ∑ p, ∑ c, x p c * y p c)
      (fun x y => sum_groups e fun p => ∑ c, x p c * y p c) tr dg.2 _ x
  · unfold qstRun qstCompute
    refine weightedSum_bind _ _ _ fun s _ => ?_
    refine weightedSum_bind _ _ _ fun dg _ => ?_
    exact weightedSum_timeCorr e hn hm (fun x y => (selfOverlap x y (cut ^ 2) : K))
      (fun x y => by
        simp only [selfOverlap_sum]
        exact sum_groups e fun p => if sqDist (x p) (y p) < cut ^ 2 then (1 : K) else 0) tr dg _ x

/-- Two groups of two particles: the even and the odd places. -/
def evenOdd : (Σ _ : Fin 2, Fin 2) ≃ Fin 4 where
  toFun s := ⟨s.1 + 2 * s.2, by omega⟩
  invFun p := ⟨⟨p % 2, by omega⟩, ⟨p / 2, by omega⟩⟩
  left_inv := by
    rintro ⟨a, b⟩
    have := a.2
    have := b.2
    refine Sigma.ext (Fin.ext ?_) (heq_of_eq (Fin.ext ?_)) <;> simp <;> omega
  right_inv p := Fin.ext (by simp; omega)

/-- Even particles at rest and odd particles moving. -/
def restMoving : List (Frame 4 1 ℚ) :=
  [![![0], ![1], ![5], ![7]], ![![0], ![2], ![5], ![6]], ![![0], ![4], ![5], ![6]]]

example :
    let tr : Traj ℚ := ⟨[0, 1, 2], 1, 1, 2, [4, 4, 4]⟩
    msdCompute tr 1 (some [0, 1]) (-1) 30 true restMoving = .ok ([0, 1], [some 0, some (3 / 4)]) ∧
    msdCompute tr 1 (some [0, 1]) (-1) 30 true (restMoving.map (group evenOdd 0)) = .ok ([0, 1], [some 0, some 0]) ∧
    msdCompute tr 1 (some [0, 1]) (-1) 30 true (restMoving.map (group evenOdd 1))
      = .ok ([0, 1], [some 0, some (3 / 2)]) := by
  refine ⟨by decide +kernel, by decide +kernel, by decide +kernel⟩

/-- **C110, where it stops.** With a limit on the displacement (`rmax > 0`) and no time grid given, the grid is chosen
from the displacement of the group itself: the functions of the groups and of the whole system are not even evaluated at
the same times. -/
theorem C110_counterexample_rmax :
    let tr : Traj ℚ := ⟨[0, 1, 2], 1, 1, 2, [4, 4, 4]⟩
    ¬ WeightedSum 4 (fun _ : Fin 2 => 2) (msdCompute tr 1 none 1 3 true restMoving)
      (fun a => msdCompute tr 1 none 1 3 true (restMoving.map (group evenOdd a))) := by
  intro tr h
  have e0 : msdCompute tr 1 none 1 3 true (restMoving.map (group evenOdd 0)) = .ok ([0, 1, 2], [some 0, some 0, some 0]) := by
    decide +kernel
  have e1 : msdCompute tr 1 none 1 3 true (restMoving.map (group evenOdd 1)) = .ok ([0], [some 0]) := by decide +kernel
  rcases h with ⟨ts, w, hp, _⟩ | ⟨err, hp, _⟩
  · have h0 := e0.symm.trans (hp 0)
    have h1 := e1.symm.trans (hp 1)
    simp only [Except.ok.injEq, Prod.mk.injEq] at h0 h1
    have := h0.1.trans h1.1.symm
    simp at this
  · have := e0.symm.trans (hp 0)
    simp at this

end PP.Props
