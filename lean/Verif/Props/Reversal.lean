import Verif.Props.Symmetry
import Verif.Props.TGrid
import Verif.Props.GrLimits

/-!
# C111: time reversal
-/

set_option linter.unusedSectionVars false

namespace PP.Props
open PP

/-- Steps at equal distance. -/
def uniformSteps (N : ℕ) (s δ : ℤ) : List ℤ := (List.range N).map fun i : ℕ => s + δ * (i : ℤ)

/-- Earlier and later frame exchanged. -/
def swapTerm {X : Type} (e : ℤ × X × X) : ℤ × X × X := (e.1, e.2.2, e.2.1)

theorem term_reverse {X : Type} (x : List X) (s δ : ℤ) (d i : ℕ) (h : i + d < x.length) :
    Spec.term (uniformSteps x.length s δ) x.reverse (i, d)
      = (Spec.term (uniformSteps x.length s δ) x (x.length - d - 1 - i, d)).map swapTerm := by
  have hu : ∀ j, j < x.length → (uniformSteps x.length s δ)[j]? = some (s + δ * (j : ℤ)) := by
    intro j hj
    rw [uniformSteps, List.getElem?_map, List.getElem?_range hj]
    rfl
  have hx : ∀ j, j < x.length → ∃ a, x[j]? = some a := fun j hj => ⟨x[j], by simp [hj]⟩
  have e1 : x.length - 1 - (i + d) = x.length - d - 1 - i := by omega
  have e2 : x.length - 1 - i = x.length - d - 1 - i + d := by omega
  unfold Spec.term
  simp only
  rw [hu _ h, hu i (by omega), hu (x.length - d - 1 - i + d) (by omega), hu (x.length - d - 1 - i) (by omega),
    List.getElem?_reverse h, List.getElem?_reverse (by omega), e1, e2]
  obtain ⟨a, ha⟩ := hx (x.length - d - 1 - i) (by omega)
  obtain ⟨b, hb⟩ := hx (x.length - d - 1 - i + d) (by omega)
  rw [ha, hb]
  simp only [Option.map_some, swapTerm, Option.some.injEq, Prod.mk.injEq, and_true]
  push_cast
  ring

theorem sampled_row (n d : ℕ) :
    ((List.range n).filter fun i0 => decide (0 ≤ i0 ∧ (i0 - 0) % 1 = 0 ∧ i0 + d < n)) = List.range (n - d) := by
  have : ∀ i0, (0 ≤ i0 ∧ (i0 - 0) % 1 = 0 ∧ i0 + d < n) ↔ i0 < n - d := by intro i0; omega
  simp only [this]
  obtain ⟨m, hm⟩ : ∃ m, m = n - d := ⟨_, rfl⟩
  rw [← hm, show n = m + (n - m) by omega, List.range_add, List.filter_append,
    List.filter_eq_self.2 (by simp), List.filter_eq_nil_iff.2 (by simp), List.append_nil]

theorem terms_reverse {X : Type} (x : List X) (s δ : ℤ) (dg : List (ℕ × ℕ)) (h0 : ∀ g ∈ dg, g.1 = 0) :
    (Spec.terms (uniformSteps x.length s δ) x.reverse (Spec.sampled x.length 1 dg)).Perm
      ((Spec.terms (uniformSteps x.length s δ) x (Spec.sampled x.length 1 dg)).map swapTerm) := by
  unfold Spec.terms Spec.sampled
  rw [List.filterMap_flatMap, List.filterMap_flatMap, List.map_flatMap]
  refine List.Perm.flatMap_left _ fun g hg => ?_
  obtain ⟨o, d⟩ := g
  obtain rfl : o = 0 := h0 _ hg
  simp only
  rw [sampled_row, List.filterMap_map, List.filterMap_map]
  have hrev : (List.range (x.length - d)).reverse = (List.range (x.length - d)).map (x.length - d - 1 - ·) := by
    rw [List.reverse_eq_iff]
    apply List.ext_getElem
    · simp
    · intro i h1 h2
      simp at h1 h2 ⊢
      omega
  have : (List.range (x.length - d)).filterMap
      (Spec.term (uniformSteps x.length s δ) x.reverse ∘ fun i0 => (i0, d))
      = ((List.range (x.length - d)).reverse.filterMap
        (Spec.term (uniformSteps x.length s δ) x ∘ fun i0 => (i0, d))).map swapTerm := by
    rw [hrev, List.filterMap_map, List.map_filterMap]
    apply List.filterMap_congr
    intro i hi
    rw [List.mem_range] at hi
    simp only [Function.comp]
    exact term_reverse x s δ d i (by omega)
  rw [this]
  exact ((List.reverse_perm _).filterMap _).map _

theorem timeCorr_reverse {X V K : Type} [Field K] [LinearOrder K] [IsStrictOrderedRing K] [FloorRing K] (ar : Arith V)
    (hc : ∀ a b c, ar.add (ar.add a b) c = ar.add (ar.add a c) b) (f f' : X → X → Py V) (g : X → X → V)
    (x : List X) (hf : ∀ a ∈ x, ∀ b ∈ x, f a b = .ok (g a b)) (hf' : ∀ a ∈ x, ∀ b ∈ x, f' a b = .ok (g a b))
    (hg : ∀ a ∈ x, ∀ b ∈ x, g a b = g b a)
    (tr : Traj K) (s δ : ℤ) (hs : tr.steps = uniformSteps x.length s δ)
    (dg : List (ℕ × ℕ)) (h0 : ∀ p ∈ dg, p.1 = 0) :
    timeCorr ar f tr dg 1 x.reverse = timeCorr ar f' tr dg 1 x := by
  have hl : x.length ≤ tr.steps.length := by rw [hs]; simp [uniformSteps]
  obtain ⟨l1, a1, b1, c1⟩ := C01_gcf_offset_mean ar f' g dg 1 tr.steps x one_pos hl hf'
  obtain ⟨l2, a2, b2, c2⟩ := C01_gcf_offset_mean ar f g dg 1 tr.steps x.reverse one_pos (by simpa using hl)
    (by simpa using hf)
  rw [List.length_reverse] at b2 c2
  have hp := terms_reverse x s δ dg h0
  rw [← hs] at hp
  have hlag : l2 = l1 := by
    refine sorted_unique a2 a1 fun t => ?_
    rw [b1, b2]
    constructor
    · rintro ⟨e, he, rfl⟩
      obtain ⟨e', he', rfl⟩ := List.mem_map.1 (hp.mem_iff.1 he)
      exact ⟨e', he', rfl⟩
    · rintro ⟨e, he, rfl⟩
      exact ⟨swapTerm e, hp.mem_iff.2 (List.mem_map_of_mem he), rfl⟩
  have hval : gcfOffset ar f dg 1 tr.steps x.reverse = gcfOffset ar f' dg 1 tr.steps x := by
    rw [c1, c2, hlag]
    refine congrArg Except.ok (Prod.ext rfl ?_)
    refine List.map_congr_left fun t _ => ?_
    have h1 : (Spec.termsAt t (Spec.terms tr.steps x.reverse (Spec.sampled x.length 1 dg))).Perm
        ((Spec.termsAt t (Spec.terms tr.steps x (Spec.sampled x.length 1 dg))).map Prod.swap) := by
      unfold Spec.termsAt
      refine ((hp.filter _).map _).trans ?_
      rw [List.filter_map, List.map_map, List.map_map]
      rfl
    simp only
    rw [h1.length_eq, List.length_map]
    congr 1
    have h2 := h1.map fun p : X × X => g p.1 p.2
    rw [List.map_map] at h2
    have h3 : ((Spec.termsAt t (Spec.terms tr.steps x (Spec.sampled x.length 1 dg))).map
        ((fun p : X × X => g p.1 p.2) ∘ Prod.swap))
        = (Spec.termsAt t (Spec.terms tr.steps x (Spec.sampled x.length 1 dg))).map fun p => g p.1 p.2 := by
      refine List.map_congr_left fun p hp => ?_
      obtain ⟨_, hq⟩ : ∃ t : ℤ, (t, p) ∈ Spec.terms tr.steps x (Spec.sampled x.length 1 dg) := by
        unfold Spec.termsAt at hp
        obtain ⟨e, he, rfl⟩ := List.mem_map.1 hp
        exact ⟨e.1, (List.mem_filter.1 he).1⟩
      obtain ⟨q, _, hqe⟩ := List.mem_filterMap.1 hq
      unfold Spec.term at hqe
      split at hqe
      · rename_i h1 h2
        simp only [Option.some.injEq, Prod.mk.injEq] at hqe
        obtain ⟨-, rfl⟩ := hqe
        exact hg _ (List.mem_of_getElem? h2) _ (List.mem_of_getElem? h1)
      · cases hqe
    rw [h3] at h2
    exact h2.foldl_eq' (fun a _ b _ c => hc c a b) _
  unfold timeCorr
  rw [hval]

variable {K : Type} [Field K] [LinearOrder K] [IsStrictOrderedRing K] [FloorRing K] {n d : ℕ}

theorem nan_right_comm (a b c : Option K) :
    (Arith.nan K).add ((Arith.nan K).add a b) c = (Arith.nan K).add ((Arith.nan K).add a c) b := by
  rcases a with _ | a <;> rcases b with _ | b <;> rcases c with _ | c <;> try rfl
  simp only [Arith.nan, bind, Option.bind, pure]
  rw [add_right_comm]

theorem setupTGrid_origin {steps : List ℤ} {dt : K} {g : List K} {offset : Bool} {bs : ℕ} {dg : List (ℕ × ℕ)}
    (hb : bs = 1 ∨ offset = false) (h : setupTGrid steps bs dt g offset = .ok dg) : ∀ p ∈ dg, p.1 = 0 := by
  have ho : (if offset then List.range bs else [0]) = [0] := by
    rcases hb with rfl | rfl
    · cases offset <;> rfl
    · rfl
  unfold setupTGrid at h
  rw [ho] at h
  obtain ⟨D, hD, inv⟩ := offSamp_inv steps [0]
  obtain ⟨D', hD', h⟩ := bind_ok_iff.1 h
  obtain rfl : D' = D := by rw [hD] at hD'; exact (Except.ok.inj hD').symm
  obtain ⟨_, _, h⟩ := bind_ok_iff.1 h
  obtain ⟨ts, _, h⟩ := bind_ok_iff.1 h
  intro p hp
  obtain ⟨t, _, ht⟩ := mapM_ok_mem h p hp
  have hk : t ∈ dictKeys D' := by
    by_contra hk
    have : ∀ E : List (ℤ × (ℕ × ℕ)), t ∉ dictKeys E → dictGet E t ≠ .ok p := by
      intro E
      induction E with
      | nil => intro _ h; cases h
      | cons e E ih =>
        obtain ⟨a, b⟩ := e
        intro hE
        simp only [dictKeys, List.map_cons, List.mem_cons, not_or] at hE
        simp only [dictGet]
        rw [if_neg (fun h' => hE.1 h'.symm)]
        exact ih hE.2
    exact this D' hk ht
  obtain ⟨v, hv, hm⟩ := dictGet_mem hk
  obtain rfl : v = p := Except.ok.inj (hv.symm.trans ht)
  have := (inv.sound _ hm).1.1
  simpa using this

theorem sqDisp_comm (x y : Frame n d K) : sqDisp x y = sqDisp y x := by
  unfold sqDisp
  exact Finset.sum_congr rfl fun p _ => Finset.sum_congr rfl fun c _ => by ring

theorem sqDist_comm (u v : Fin d → K) : sqDist u v = sqDist v u := by
  unfold sqDist
  exact Finset.sum_congr rfl fun c _ => by ring

theorem pyGet_reverse_ends {X : Type} (x : List X) :
    pyGet x.reverse (x.reverse.length - 1) = pyGet x 0 ∧ pyGet x.reverse 0 = pyGet x (x.length - 1) := by
  unfold pyGet
  rcases Nat.eq_zero_or_pos x.length with h | h
  · obtain rfl := List.length_eq_zero_iff.1 h
    exact ⟨rfl, rfl⟩
  · rw [List.length_reverse, List.getElem?_reverse (by omega), List.getElem?_reverse h]
    rw [show x.length - 1 - (x.length - 1) = 0 by omega, show x.length - 1 - 0 = x.length - 1 by omega]
    exact ⟨rfl, rfl⟩

theorem msdGrid_reverse (tr : Traj K) (rmax : K) (tsamples : ℤ) (x : List (Frame n d K)) :
    msdGrid tr rmax tsamples x.reverse = msdGrid tr rmax tsamples x := by
  rcases Nat.eq_zero_or_pos x.length with h | h
  · obtain rfl := List.length_eq_zero_iff.1 h
    rfl
  · have h1 : pyGet x 0 = .ok (x[0]) := by unfold pyGet; rw [List.getElem?_eq_getElem h]
    have h2 : pyGet x (x.length - 1) = .ok (x[x.length - 1]) := by
      unfold pyGet; rw [List.getElem?_eq_getElem (by omega)]
    have hk : ∀ a b : Frame n d K, msdKernel a b = msdKernel b a := fun a b => by
      unfold msdKernel; rw [sqDisp_comm]
    unfold msdGrid
    rw [(pyGet_reverse_ends x).1, (pyGet_reverse_ends x).2, h1, h2]
    simp only [bind, Except.bind]
    rw [hk]

theorem alpha2Compute_reverse (tr : Traj K) (s δ : ℤ) (x : List (Frame n d K))
    (hs : tr.steps = uniformSteps x.length s δ) (dg : List (ℕ × ℕ)) (h0 : ∀ p ∈ dg, p.1 = 0) :
    alpha2Compute tr dg 1 x.reverse = alpha2Compute tr dg 1 x := by
  let y : List (ℕ × Frame n d K) := x.zipIdx.map fun e => (e.2, e.1)
  let h : ℕ × Frame n d K → ℕ × Frame n d K := fun e => (x.length - 1 - e.1, e.2)
  have hy : y.length = x.length := by simp [y]
  have hrev : (x.reverse.zipIdx.map fun e => (e.2, e.1)) = y.reverse.map h := by
    apply List.ext_getElem
    · simp [y]
    · intro i h1 h2
      have h3 : i < x.length := by simpa using h1
      simp [y, h]
      omega
  have hlt : ∀ e ∈ y, e.1 < x.length := by
    intro e he
    obtain ⟨p, hp, rfl⟩ := List.mem_map.1 he
    have := List.snd_lt_of_mem_zipIdx hp
    simpa using this
  let g : ℕ × Frame n d K → ℕ × Frame n d K → Option K := fun a b =>
    match alpha2Kernel a b with
    | .ok v => v
    | .error _ => none
  have hok : ∀ a b : ℕ × Frame n d K, alpha2Kernel a b = .ok (g a b) := by
    intro a b
    simp only [g]
    unfold alpha2Kernel
    split <;> rfl
  have hcomm : ∀ a b : ℕ × Frame n d K, alpha2Kernel a b = alpha2Kernel b a := by
    intro a b
    unfold alpha2Kernel
    have e1 : sqDisp a.2 b.2 = sqDisp b.2 a.2 := sqDisp_comm _ _
    have e2 : ∑ p, (∑ c, (a.2 p c - b.2 p c) ^ 2) ^ 2 = ∑ p, (∑ c, (b.2 p c - a.2 p c) ^ 2) ^ 2 :=
      Finset.sum_congr rfl fun p _ => by rw [show ∑ c, (a.2 p c - b.2 p c) ^ 2 = _ from sqDist_comm (a.2 p) (b.2 p)]; rfl
    rw [e1, e2]
    by_cases hab : a.1 = b.1
    · rw [if_pos hab, if_pos hab.symm]
    · rw [if_neg hab, if_neg (fun h => hab h.symm)]
  unfold alpha2Compute
  rw [hrev, timeCorr_map]
  refine timeCorr_reverse (Arith.nan K) nan_right_comm _ _ g y ?_ (fun a _ b _ => hok a b) ?_ tr s δ
    (by rw [hy]; exact hs) dg h0
  · intro a ha b hb
    rw [← hok]
    have h1 := hlt a ha
    have h2 := hlt b hb
    unfold alpha2Kernel
    have : (h a).1 = (h b).1 ↔ a.1 = b.1 := by simp only [h]; omega
    simp only [this]
    rfl
  · intro a _ b _
    have := (hok a b).symm.trans ((hcomm a b).trans (hok b a))
    exact Except.ok.inj this

/-- **C111.** Read backwards, with the velocities reversed, a trajectory sampled at equal intervals gives the same mean
square displacement, velocity autocorrelation, non-Gaussian parameter and overlaps, if all frames are time origins and
the trajectory has no blocks. -/
theorem C111_time_reversal_partial (tr : Traj K) (s δ : ℤ) (x : List (Frame n d K))
    (hs : tr.steps = uniformSteps x.length s δ) (hb : tr.blockSize = 1) (grid : Option (List K)) (tgrid : List K)
    (rmax : K) (tsamples : ℤ) (offset : Bool) (norigins : NOrigins) (cut : K) (dg : List (ℕ × ℕ))
    (hdg : setupTGrid tr.steps tr.blockSize tr.timestep tgrid norigins.offset = .ok dg) :
    msdCompute tr 1 grid rmax tsamples offset x.reverse = msdCompute tr 1 grid rmax tsamples offset x ∧
    vacfRun tr grid tsamples norigins (x.reverse.map fun v => -v) = vacfRun tr grid tsamples norigins x ∧
    alpha2Compute tr dg 1 x.reverse = alpha2Compute tr dg 1 x ∧
    qstCompute tr dg 1 cut x.reverse = qstCompute tr dg 1 cut x ∧
    qtCompute tr dg 1 cut x.reverse = qtCompute tr dg 1 cut x := by
  have h0 := setupTGrid_origin (.inl hb) hdg
  have tc : ∀ (g : Frame n d K → Frame n d K → Option K), (∀ a b, g a b = g b a) →
      ∀ dg : List (ℕ × ℕ), (∀ p ∈ dg, p.1 = 0) →
      timeCorr (Arith.nan K) (fun a b => .ok (g a b)) tr dg 1 x.reverse
        = timeCorr (Arith.nan K) (fun a b => .ok (g a b)) tr dg 1 x := fun g hg dg h0 =>
    timeCorr_reverse (Arith.nan K) nan_right_comm _ _ g x (fun _ _ _ _ => rfl) (fun _ _ _ _ => rfl)
      (fun _ _ _ _ => hg _ _) tr s δ hs dg h0
  refine ⟨?_, ?_, alpha2Compute_reverse tr s δ x hs dg h0, ?_, ?_⟩
  · have key : ∀ g, (setupTGrid tr.steps tr.blockSize tr.timestep g offset >>= fun dg =>
        timeCorr (Arith.nan K) msdKernel tr dg 1 x.reverse) =
        (setupTGrid tr.steps tr.blockSize tr.timestep g offset >>= fun dg =>
          timeCorr (Arith.nan K) msdKernel tr dg 1 x) := by
      intro g
      cases h : setupTGrid tr.steps tr.blockSize tr.timestep g offset with
      | error e => rfl
      | ok dg =>
        exact tc (fun x y => perParticle n (sqDisp x y)) (fun a b => by rw [sqDisp_comm]) dg
          (setupTGrid_origin (.inl hb) h)
    unfold msdCompute
    cases grid with
    | some g => exact key g
    | none =>
      simp only [msdGrid_reverse]
      cases msdGrid tr rmax tsamples x with
      | error e => rfl
      | ok g => exact key g
  · unfold vacfRun vacfCompute
    cases h : vacfInit tr grid tsamples norigins norigins.offset with
    | error e => rfl
    | ok r =>
      simp only [bind, Except.bind]
      rw [hb, timeCorr_map]
      have hn : ∀ a b : Frame n d K, vacfKernel (-a) (-b) = vacfKernel a b := by
        intro a b
        unfold vacfKernel
        simp
      simp only [hn]
      refine tc (fun x y => perParticle n (∑ p, ∑ c, x p c * y p c)) (fun a b => ?_) r.2 ?_
      · congr 1
        exact Finset.sum_congr rfl fun p _ => Finset.sum_congr rfl fun c _ => mul_comm _ _
      · unfold vacfInit at h
        obtain ⟨_, _, h⟩ := bind_ok_iff.1 h
        cases grid with
        | none =>
          obtain ⟨_, _, h⟩ := bind_ok_iff.1 h
          obtain ⟨_, _, h⟩ := bind_ok_iff.1 h
          cases h
        | some g =>
          obtain ⟨_, _, h⟩ := bind_ok_iff.1 h
          obtain ⟨dg, h', h⟩ := bind_ok_iff.1 h
          cases h
          exact setupTGrid_origin (.inl hb) h'
  · exact tc (fun x y => perParticle n (selfOverlap x y (cut ^ 2) : K)) (fun a b => by
      unfold selfOverlap; simp only [sqDist_comm]) dg h0
  · refine tc (fun x y => perParticle n (collectiveOverlap x y (cut ^ 2) : K)) (fun a b => ?_) dg h0
    rw [collectiveOverlap_pairs, collectiveOverlap_pairs]
    congr 2
    refine Finset.card_bij (fun e _ => (e.2, e.1)) ?_ ?_ ?_
    · intro e he
      rw [Finset.mem_filter] at he ⊢
      exact ⟨Finset.mem_univ _, by rw [sqDist_comm]; exact he.2⟩
    · intro e _ e' _ h
      simp only [Prod.mk.injEq] at h
      exact Prod.ext h.2 h.1
    · intro e he
      rw [Finset.mem_filter] at he
      exact ⟨(e.2, e.1), Finset.mem_filter.2 ⟨Finset.mem_univ _, by rw [sqDist_comm]; exact he.2⟩, rfl⟩

example :
    let tr : Traj ℚ := ⟨[5, 7, 9], 1, 1, 4, [1, 1, 1]⟩
    let x : List (Frame 1 1 ℚ) := [![![0]], ![![1]], ![![3]]]
    tr.steps = uniformSteps x.length 5 2 ∧ setupTGrid tr.steps 1 tr.timestep [0, 2] true = .ok [(0, 0), (0, 1)] ∧
    msdCompute tr 1 (some [0, 2]) (-1) 30 true x = .ok ([0, 2], [some 0, some (5 / 2)]) ∧
    msdCompute tr 1 (some [0, 2]) (-1) 30 true x.reverse = .ok ([0, 2], [some 0, some (5 / 2)]) := by
  refine ⟨by decide +kernel, by decide +kernel, by decide +kernel, by decide +kernel⟩

/-- **C111, where it stops.** With a stride larger than one the first frame is always a time origin and the last frame
of the interval is not: with three frames and every second frame as origin, the mean square displacement is that of the
first interval. -/
theorem C111_counterexample_stride (a b c : K) (h : (b - a) ^ 2 ≠ (c - b) ^ 2) :
    let tr : Traj K := ⟨[0, 1, 2], 1, 1, 2, [1, 1, 1]⟩
    let x : List (Frame 1 1 K) := [![![a]], ![![b]], ![![c]]]
    tr.steps = uniformSteps x.length 0 1 ∧
    timeCorr (Arith.nan K) msdKernel tr [(0, 1)] 2 x.reverse ≠ timeCorr (Arith.nan K) msdKernel tr [(0, 1)] 2 x := by
  have key : ∀ a b c : K, timeCorr (Arith.nan K) msdKernel (⟨[0, 1, 2], 1, 1, 2, [1, 1, 1]⟩ : Traj K) [(0, 1)] 2
      [![![a]], ![![b]], ![![c]]] = .ok ([1], [some ((b - a) ^ 2)]) := by
    intro a b c
    simp [timeCorr, gcfOffset, corrLoop, corrStep, pyRange, rangeList, pyGet, ddAdd, ddGet, msdKernel, perParticle,
      sqDisp, Arith.nan, pySorted, dictKeys, bind, Except.bind, pure, Except.pure, Functor.map, Except.map]
  refine ⟨by rfl, ?_⟩
  simp only [List.reverse_cons, List.reverse_nil, List.nil_append, List.cons_append]
  rw [key, key]
  intro h'
  simp only [Except.ok.injEq, Prod.mk.injEq, List.cons.injEq, and_true, Option.some.injEq, true_and] at h'
  exact h (by rw [← h']; ring)

end PP.Props
