import Verif.Model.Relax
import Verif.Props.Peaks
import Verif.Props.Overlap
import Verif.Props.Chi4
import Verif.Props.Fkt
import Verif.Props.Partials
import Mathlib.Data.List.Dedup

/-!
# C141–C146: peaks and relaxation times, files of the relaxation times, trajectories in memory
-/

namespace PP.Props

section
variable {K : Type} [Field K] [LinearOrder K]

/-! ## C141 -/

theorem firstExtremumNan_map (better : K → K → Bool) (f : List K) :
    firstExtremumNan better (f.map some) = firstExtremum better f := by
  cases f with
  | nil => rfl
  | cons a r =>
    show Except.ok _ = Except.ok _
    rw [List.foldl_map]
    congr 1
    show ((a :: r).map some).findIdx _ = _
    rw [List.findIdx_map]
    congr 1
    funext v
    simp only [Function.comp_apply, Option.some.injEq]

theorem pyGet_map_some {α : Type} (l : List α) (i : ℕ) : pyGet (l.map some) i = (pyGet l i).map some := by
  by_cases h : i < l.length
  · rw [PP.pyGet_ok h, PP.pyGet_ok (by simpa using h)]
    simp [Except.map]
  · have h1 : l[i]? = none := by simpa using h
    have h2 : (l.map some)[i]? = none := by simpa using h
    unfold pyGet
    rw [h1, h2]
    rfl

theorem interpolateAtNan_map (x f : List K) (i : ℕ) :
    interpolateAtNan x (f.map some) i = (interpolateAt x f i).map fun p => (some p.1, some p.2) := by
  unfold interpolateAtNan interpolateAt
  rw [List.length_map]
  split_ifs
  · rw [pyGet_map_some]
    cases pyGet x i with
    | error e => rfl
    | ok a => cases pyGet f i <;> rfl
  · simp only [pyGet_map_some]
    cases pyGet x (i - 1) with
    | error e => rfl
    | ok a =>
    cases pyGet f (i - 1) with
    | error e => rfl
    | ok b =>
    cases pyGet x i with
    | error e => rfl
    | ok c =>
    cases pyGet f i with
    | error e => rfl
    | ok d =>
    cases pyGet x (i + 1) with
    | error e => rfl
    | ok e =>
    cases pyGet f (i + 1) with
    | error e => rfl
    | ok g =>
    simp only [bind, Except.bind, Except.map]
    cases parabola3 a b c d e g with
    | error e => rfl
    | ok v =>
      simp only
      cases vertexParabola v.1 v.2.1 v.2.2 <;> rfl

/-- On data without nan, `ifabsmm` is the function on numbers. -/
theorem ifabsmmNan_map (x f : List K) :
    ifabsmmNan x (f.map some) = (ifabsmm x f).map fun r => ((some r.1.1, some r.1.2), (some r.2.1, some r.2.2)) := by
  unfold ifabsmmNan ifabsmm
  simp only [firstExtremumNan_map]
  cases firstExtremum (fun b a => decide (b < a)) f with
  | error e => rfl
  | ok i =>
  cases firstExtremum (fun b a => decide (a < b)) f with
  | error e => rfl
  | ok j =>
  simp only [bind, Except.bind, interpolateAtNan_map]
  cases interpolateAt x f i with
  | error e => rfl
  | ok p =>
  simp only [Except.map]
  cases interpolateAt x f j <;> rfl

variable [IsStrictOrderedRing K]

theorem peakAnalyze_numbers (ts vs : List K) (hlen : ts.length = vs.length) (hne : vs ≠ [])
    (hts : ts.Pairwise (· < ·)) :
    ∃ p : K × K, peakAnalyze ts (vs.map some) = .ok (some (some p.1, some p.2)) ∧ Spec.IsPeak ts vs p ∧
      ∀ v ∈ vs, v ≤ p.2 := by
  obtain ⟨lo, hi, h, -, hp⟩ := C10_ifabsmm ts vs hlen hne hts
  refine ⟨hi, ?_, hp, ?_⟩
  · unfold peakAnalyze
    rw [ifabsmmNan_map, h]
    rfl
  · obtain ⟨i, xi, fi, h1, h2, h3, -, h5, h6⟩ := hp
    intro v hv
    refine (h3 v hv).trans ?_
    have hi1 := (List.getElem?_eq_some_iff.1 h2).1
    by_cases he : i = 0 ∨ i + 1 = vs.length
    · rw [h5 he]
    · have h7 : i - 1 < ts.length := by omega
      have h8 : i + 1 < ts.length := by omega
      exact (h6 (by omega) (by omega) _ _ (List.getElem?_eq_getElem h7) (List.getElem?_eq_getElem h8)).2.2.1

variable [FloorRing K] {n d : ℕ}

/-- The times of a time correlation function increase. -/
theorem timeCorr_sorted {X V : Type} (ar : Arith V) (f : X → X → Py V) (tr : Traj K) (dg : List (ℕ × ℕ)) (skip : ℕ)
    (x : List X) (ts : List K) (vs : List V) (h : timeCorr ar f tr dg skip x = .ok (ts, vs)) (hdt : 0 < tr.timestep) :
    ts.Pairwise (· < ·) ∧ ts.length = vs.length := by
  unfold timeCorr at h
  cases hg : gcfOffset ar f dg skip tr.steps x with
  | error e => rw [hg] at h; cases h
  | ok r =>
    obtain ⟨lags, vals⟩ := r
    rw [hg] at h
    obtain ⟨h1, h2⟩ := C02_gcf_offset_sorted ar f dg skip tr.steps x lags vals hg
    simp only [bind, Except.bind, pure, Except.pure, Except.ok.injEq, Prod.mk.injEq] at h
    obtain ⟨rfl, rfl⟩ := h
    refine ⟨?_, by simp [h2]⟩
    rw [List.pairwise_map]
    refine h1.imp fun {a b} hab => ?_
    have : (a : K) < (b : K) := by exact_mod_cast hab
    exact mul_lt_mul_of_pos_right this hdt

/-- **C141**, non-Gaussian parameter: if all values are numbers, the analysis gives the peak of the function: the time
is that of the top of the parabola through the largest value and its neighbours, and the height is not below any value,
hence not negative if the grid includes time zero. -/
theorem C141_alpha2_partial (tr : Traj K) (dg : List (ℕ × ℕ)) (skip : ℕ) (pos : List (Frame n d K)) (ts : List K)
    (vs : List K) (hskip : 0 < skip) (hlen : pos.length ≤ tr.steps.length) (hdt : 0 < tr.timestep)
    (hs : tr.steps.Pairwise (· < ·)) (h : alpha2Compute tr dg skip pos = .ok (ts, vs.map some)) (hne : vs ≠ []) :
    ∃ p : K × K, peakAnalyze ts (vs.map some) = .ok (some (some p.1, some p.2)) ∧ Spec.IsPeak ts vs p ∧
      (∀ v ∈ vs, v ≤ p.2) ∧ (0 ∈ ts → 0 ≤ p.2) := by
  obtain ⟨h1, h2⟩ := timeCorr_sorted _ _ _ _ _ _ _ _ h hdt
  rw [List.length_map] at h2
  obtain ⟨p, hp1, hp2, hp3⟩ := peakAnalyze_numbers ts vs h2 hne h1
  refine ⟨p, hp1, hp2, hp3, fun h0 => ?_⟩
  obtain ⟨-, hz⟩ := C28_alpha2 tr dg skip pos ts (vs.map some) hskip hlen hdt.ne' hs h
  obtain ⟨i, hi, hi0⟩ := List.getElem_of_mem h0
  have hv := hz (ts[i], (vs.map some)[i]'(by simp; omega)) (List.mem_iff_getElem.2 ⟨i, by simp; omega, by simp⟩)
  have hv := hv.2 hi0
  simp only [List.getElem_map, Option.some.injEq] at hv
  exact hv ▸ hp3 _ (List.getElem_mem (by omega))

/-- **C141**, dynamic susceptibility: if the times increase, the analysis gives the peak, whose height is not
negative. -/
theorem C141_chi4 (tr : Traj K) (frames : List (Frame n d K)) (skip : ℕ) (a : K) (grid : List K) (dg : List (ℕ × ℕ))
    (hskip : 0 < skip) (hfr : 0 < frames.length) (hg : ∀ g ∈ dg, g.1 + g.2 < tr.steps.length) (hne : dg ≠ [])
    (s : Chi4State n d K) (h : chi4ComputeFull tr frames skip a dg (.init grid) = .ok s)
    (hts : s.grid.Pairwise (· < ·)) :
    ∃ p : K × K, peakAnalyze s.grid (s.value.map some) = .ok (some (some p.1, some p.2)) ∧
      Spec.IsPeak s.grid s.value p ∧ (∀ v ∈ s.value, v ≤ p.2) ∧ 0 ≤ p.2 := by
  obtain ⟨s', h1, h2, h3, -⟩ := C31_chi4_variance tr frames skip a grid dg hskip hfr hg
  rw [h] at h1
  cases h1
  have hl : s.grid.length = s.value.length := by rw [← h2.length_eq, h3.length_eq]
  have hv : s.value ≠ [] := by
    intro h0
    have := h3.length_eq
    rw [h0] at this
    exact hne (List.length_eq_zero_iff.1 this)
  obtain ⟨p, hp1, hp2, hp3⟩ := peakAnalyze_numbers s.grid s.value hl hv hts
  refine ⟨p, hp1, hp2, hp3, ?_⟩
  obtain ⟨v, hvm⟩ := List.exists_mem_of_ne_nil _ hv
  refine le_trans ?_ (hp3 v hvm)
  obtain ⟨i, hi, rfl⟩ := List.getElem_of_mem hvm
  have := (List.forall₂_iff_get.1 h3).2 i (by rw [h3.length_eq]; exact hi) hi
  exact this.2.1

omit [IsStrictOrderedRing K] [FloorRing K] in
theorem foldl_skip_mem (better : K → K → Bool) (r : List (Option K)) (a : K) :
    r.foldl (fun best b => match b with
      | some b => if better b best then b else best
      | none => best) a = a ∨ some (r.foldl (fun best b => match b with
      | some b => if better b best then b else best
      | none => best) a) ∈ r := by
  induction r generalizing a with
  | nil => exact Or.inl rfl
  | cons b r ih =>
    rw [List.foldl_cons]
    cases b with
    | none => exact (ih a).imp id (List.mem_cons_of_mem _)
    | some b =>
      dsimp only
      by_cases h : better b a = true
      · rw [if_pos h]
        rcases ih b with h' | h'
        · right; rw [h']; exact List.mem_cons_self
        · exact Or.inr (List.mem_cons_of_mem _ h')
      · rw [if_neg h]
        exact (ih a).imp id (List.mem_cons_of_mem _)

omit [IsStrictOrderedRing K] [FloorRing K] in
theorem firstExtremumNan_lt (better : K → K → Bool) (f : List (Option K)) (hf : f ≠ []) :
    ∃ i, firstExtremumNan better f = .ok i ∧ i < f.length := by
  match f, hf with
  | none :: r, _ => exact ⟨0, rfl, by simp⟩
  | some a :: r, _ =>
    refine ⟨_, rfl, List.findIdx_lt_length_of_exists ?_⟩
    rcases foldl_skip_mem better r a with h | h
    · exact ⟨some a, List.mem_cons_self, decide_eq_true (congrArg some h.symm)⟩
    · exact ⟨_, List.mem_cons_of_mem _ h, decide_eq_true rfl⟩

theorem okOrZero_bind {α β : Type} {m : Py α} {f : α → Py β}
    (hm : (∃ r, m = .ok r) ∨ m = .error .zeroDivisionError)
    (hf : ∀ a, (∃ r, f a = .ok r) ∨ f a = .error .zeroDivisionError) :
    (∃ r, (m >>= f) = .ok r) ∨ (m >>= f) = .error .zeroDivisionError := by
  rcases hm with ⟨a, rfl⟩ | rfl
  · exact hf a
  · exact Or.inr rfl

omit [IsStrictOrderedRing K] [FloorRing K] in
theorem interpolateAtNan_ok (x : List K) (f : List (Option K)) (hl : x.length = f.length) (i : ℕ) (hi : i < f.length) :
    (∃ r, interpolateAtNan x f i = .ok r) ∨ interpolateAtNan x f i = .error .zeroDivisionError := by
  have hd : ∀ a b : K, (∃ c, pyDiv a b = .ok c) ∨ pyDiv a b = .error .zeroDivisionError := by
    intro a b
    unfold pyDiv
    split_ifs
    · exact Or.inr rfl
    · exact Or.inl ⟨_, rfl⟩
  have hx : ∀ j, j < f.length → (∃ c, pyGet x j = .ok c) ∨ pyGet x j = .error .zeroDivisionError :=
    fun j hj => Or.inl ⟨_, PP.pyGet_ok (by omega)⟩
  have hf : ∀ j, j < f.length → (∃ c, pyGet f j = .ok c) ∨ pyGet f j = .error .zeroDivisionError :=
    fun j hj => Or.inl ⟨_, PP.pyGet_ok hj⟩
  unfold interpolateAtNan
  by_cases hb : i = f.length - 1 ∨ i = 0
  · rw [if_pos hb]
    exact okOrZero_bind (hx i hi) fun _ => okOrZero_bind (hf i hi) fun _ => Or.inl ⟨_, rfl⟩
  · rw [if_neg hb]
    refine okOrZero_bind (hx _ (by omega)) fun x1 => okOrZero_bind (hf _ (by omega)) fun f1 =>
      okOrZero_bind (hx _ hi) fun x2 => okOrZero_bind (hf _ hi) fun f2 =>
      okOrZero_bind (hx _ (by omega)) fun x3 => okOrZero_bind (hf _ (by omega)) fun f3 => ?_
    match f1, f2, f3 with
    | some f1, some f2, some f3 =>
      refine okOrZero_bind ?_ fun abc => okOrZero_bind ?_ fun v => Or.inl ⟨_, rfl⟩
      · unfold parabola3
        exact okOrZero_bind (hd _ _) fun _ => okOrZero_bind (hd _ _) fun _ => okOrZero_bind (hd _ _) fun _ => Or.inl ⟨_, rfl⟩
      · unfold vertexParabola
        exact okOrZero_bind (hd _ _) fun _ => okOrZero_bind (hd _ _) fun _ => Or.inl ⟨_, rfl⟩
    | none, _, _ => exact Or.inl ⟨_, rfl⟩
    | some _, none, _ => exact Or.inl ⟨_, rfl⟩
    | some _, some _, none => exact Or.inl ⟨_, rfl⟩

omit [IsStrictOrderedRing K] [FloorRing K] in
/-- **C141**: the analysis of the peak raises no exception, whatever the times and the values, nan or not, if there are as
many times as values and at least one: where the interpolation fails the peak is not set. -/
theorem C141_never_raises (grid : List K) (value : List (Option K)) (hl : grid.length = value.length) (hv : value ≠ []) :
    ∃ r, peakAnalyze grid value = .ok r := by
  have hz : (∃ r, ifabsmmNan grid value = .ok r) ∨ ifabsmmNan grid value = .error .zeroDivisionError := by
    obtain ⟨i, hi, hil⟩ := firstExtremumNan_lt (fun b a => decide (b < a)) value hv
    obtain ⟨j, hj, hjl⟩ := firstExtremumNan_lt (fun b a => decide (a < b)) value hv
    unfold ifabsmmNan
    rw [hi, hj]
    show (∃ r, (interpolateAtNan grid value i >>= fun lo => interpolateAtNan grid value j >>= fun hi => pure (lo, hi)) = .ok r) ∨
      (interpolateAtNan grid value i >>= fun lo => interpolateAtNan grid value j >>= fun hi => pure (lo, hi)) = .error _
    exact okOrZero_bind (interpolateAtNan_ok grid value hl i hil) fun _ =>
      okOrZero_bind (interpolateAtNan_ok grid value hl j hjl) fun _ => Or.inl ⟨_, rfl⟩
  unfold peakAnalyze
  rcases hz with ⟨r, hr⟩ | hr
  · rw [hr]; exact ⟨_, rfl⟩
  · rw [hr]; exact ⟨_, rfl⟩

/-- A time is repeated next to the largest value: the peak is not set. -/
example : peakAnalyze ([0, 1, 1, 3] : List ℚ) [some 0, some 2, some 1, some 0] = .ok none := by decide +kernel

omit [IsStrictOrderedRing K] [FloorRing K] in
/-- **C141** is false if the first value is nan: the height of the peak is nan, whatever the other values. -/
theorem C141_counterexample_first (t : K) (ts : List K) (vs : List (Option K)) :
    peakAnalyze (t :: ts) (none :: vs) = .ok (some (some t, none)) := by
  unfold peakAnalyze ifabsmmNan firstExtremumNan
  simp [interpolateAtNan, pyGet, bind, Except.bind, pure, Except.pure]

omit [IsStrictOrderedRing K] [FloorRing K] in
theorem foldl_skip_le (r : List (Option K)) (a m : K) (ha : a ≤ m) (hr : ∀ v, some v ∈ r → v ≤ m) :
    r.foldl (fun best b => match b with
      | some b => if decide (best < b) = true then b else best
      | none => best) a ≤ m := by
  induction r generalizing a with
  | nil => exact ha
  | cons b r ih =>
    rw [List.foldl_cons]
    refine ih _ ?_ fun v hv => hr v (List.mem_cons_of_mem _ hv)
    cases b with
    | none => exact ha
    | some b => dsimp only; split_ifs; exacts [hr b List.mem_cons_self, ha]

omit [IsStrictOrderedRing K] [FloorRing K] in
theorem foldl_skip_ge (r : List (Option K)) (a : K) : a ≤ r.foldl (fun best b => match b with
      | some b => if decide (best < b) = true then b else best
      | none => best) a ∧ ∀ v, some v ∈ r → v ≤ r.foldl (fun best b => match b with
      | some b => if decide (best < b) = true then b else best
      | none => best) a := by
  induction r generalizing a with
  | nil => simp
  | cons b r ih =>
    rw [List.foldl_cons]
    cases b with
    | none =>
      obtain ⟨h1, h2⟩ := ih a
      exact ⟨h1, fun v hv => h2 v (by simpa using hv)⟩
    | some b =>
      obtain ⟨h1, h2⟩ := ih (if decide (a < b) = true then b else a)
      dsimp only at h1 h2 ⊢
      have ha : a ≤ if decide (a < b) = true then b else a := by
        split_ifs with h
        · exact (of_decide_eq_true h).le
        · exact le_rfl
      have hb : b ≤ if decide (a < b) = true then b else a := by
        split_ifs with h
        · exact le_rfl
        · exact not_lt.1 fun h' => h (by simpa using h')
      refine ⟨ha.trans h1, fun v hv => ?_⟩
      rcases List.mem_cons.1 hv with hv | hv
      · cases hv; exact hb.trans h1
      · exact h2 v hv

omit [IsStrictOrderedRing K] [FloorRing K] in
theorem foldl_skip_min (r : List (Option K)) (a : K) (hr : ∀ v, some v ∈ r → a ≤ v) :
    r.foldl (fun best b => match b with
      | some b => if decide (b < best) = true then b else best
      | none => best) a = a := by
  induction r with
  | nil => rfl
  | cons b r ih =>
    rw [List.foldl_cons]
    cases b with
    | none => exact ih fun v hv => hr v (List.mem_cons_of_mem _ hv)
    | some b =>
      dsimp only
      rw [if_neg (by simpa using hr b List.mem_cons_self)]
      exact ih fun v hv => hr v (List.mem_cons_of_mem _ hv)

omit [IsStrictOrderedRing K] [FloorRing K] in
/-- **C141** is false if a value next to the largest one is nan: both the time and the height of the peak are nan,
although the largest value is a number. For functions that start from their smallest value, as the non-Gaussian
parameter usually does. -/
theorem C141_counterexample_next (t : K) (ts : List K) (a m : K) (vs : List (Option K)) (i : ℕ)
    (hlen : ts.length = vs.length) (hmin : ∀ v, some v ∈ vs → a ≤ v) (hi : i + 1 < vs.length)
    (hm : vs[i]? = some (some m)) (hmax : ∀ v, some v ∈ vs → v ≤ m) (ham : a < m)
    (hfirst : ∀ j < i, vs[j]? ≠ some (some m))
    (hnan : (some a :: vs)[i]? = some none ∨ vs[i + 1]? = some none) :
    peakAnalyze (t :: ts) (some a :: vs) = .ok (some (none, none)) := by
  have hmem : some m ∈ vs := List.mem_of_getElem? hm
  have e1 : vs.foldl (fun best b => match b with
      | some b => if decide (best < b) = true then b else best
      | none => best) a = m :=
    le_antisymm (foldl_skip_le vs a m ham.le hmax) ((foldl_skip_ge vs a).2 m hmem)
  have e2 := foldl_skip_min vs a hmin
  have himax : firstExtremumNan (fun b a => decide (a < b)) (some a :: vs) = .ok (i + 1) := by
    rw [show firstExtremumNan (fun b a => decide (a < b)) (some a :: vs)
      = .ok ((some a :: vs).findIdx fun v => decide (v = some (vs.foldl (fun best b => match b with
        | some b => if decide (best < b) = true then b else best
        | none => best) a))) from rfl, e1]
    congr 1
    have hlt : (some a :: vs).findIdx (fun v => decide (v = some m)) = i + 1 := by
      rw [List.findIdx_cons]
      have : decide (some a = some m) = false := by simpa using ham.ne
      rw [this, cond_false]
      congr 1
      rw [List.findIdx_eq (by omega)]
      have hmi := (List.getElem?_eq_some_iff.1 hm).2
      refine ⟨by simpa using hmi, fun j hj => ?_⟩
      have := hfirst j hj
      rw [List.getElem?_eq_getElem (by omega)] at this
      simpa using this
    exact hlt
  have himin : firstExtremumNan (fun b a => decide (b < a)) (some a :: vs) = .ok 0 := by
    rw [show firstExtremumNan (fun b a => decide (b < a)) (some a :: vs)
      = .ok ((some a :: vs).findIdx fun v => decide (v = some (vs.foldl (fun best b => match b with
        | some b => if decide (b < best) = true then b else best
        | none => best) a))) from rfl, e2]
    simp [List.findIdx_cons]
  have hlo : interpolateAtNan (t :: ts) (some a :: vs) 0 = .ok (some t, some a) := by
    simp [interpolateAtNan, pyGet, bind, Except.bind, pure, Except.pure]
  have hhi : interpolateAtNan (t :: ts) (some a :: vs) (i + 1) = .ok (none, none) := by
    unfold interpolateAtNan
    rw [if_neg (by simp; omega), PP.pyGet_ok (by simp; omega), PP.pyGet_ok (by simp; omega),
      PP.pyGet_ok (by simp; omega), PP.pyGet_ok (by simp; omega), PP.pyGet_ok (by simp; omega),
      PP.pyGet_ok (by simp; omega)]
    simp only [bind, Except.bind, pure, Except.pure]
    rcases hnan with h | h
    · have := (List.getElem?_eq_some_iff.1 h).2
      split
      · rename_i h1 _ _
        simp only [Nat.add_sub_cancel] at h1
        rw [this] at h1
        cases h1
      · rfl
    · have := (List.getElem?_eq_some_iff.1 h).2
      split
      · rename_i _ _ h3
        rw [List.getElem_cons_succ, this] at h3
        cases h3
      · rfl
  unfold peakAnalyze ifabsmmNan
  rw [himin, himax]
  simp only [bind, Except.bind, hlo, hhi, pure, Except.pure]

end

/-- The hypotheses of the previous theorem: the peak is at the second point, and the third is nan. -/
example : peakAnalyze ([0, 1, 2, 3] : List ℚ) [some 0, some 2, none, some 1] = .ok (some (none, none)) :=
  C141_counterexample_next 0 [1, 2, 3] 0 2 [some 2, none, some 1] 0 rfl (by simp) (by simp) rfl (by simp)
    (by norm_num) (by simp) (Or.inr rfl)

/-- Two particles that do not move between the first two frames: the function at lag one is nan in every average. -/
def stillExample : List (Frame 2 1 ℚ) :=
  [fun _ _ => 0, fun _ _ => 0, fun i _ => (i.val : ℚ) + 1, fun i _ => 2 * (i.val : ℚ) + 5]

example : (alpha2Compute (K := ℚ) ⟨[0, 1, 2, 3], 1, 1, 3, [2, 2, 2, 2]⟩ [(0, 0), (0, 1), (0, 2), (0, 3)] 1 stillExample >>= fun r =>
    (peakAnalyze r.1 r.2 >>= fun p => .ok (r.2.map Option.isSome, p)))
    = .ok ([true, false, true, true], some (some 0, some 0)) := by
  decide +kernel

/-- The hypotheses of `C141_alpha2_partial`. -/
example : (alpha2Compute (K := ℚ) ⟨[0, 1, 2, 3], 1, 1, 3, [2, 2, 2, 2]⟩ [(0, 0), (0, 2), (0, 3)] 1 stillExample
    >>= fun r => .ok (r.1, r.2.map Option.isSome)) = .ok ([0, 2, 3], [true, true, true]) := by
  decide +kernel

/-- The hypotheses of `C141_chi4`, with the peak inside. -/
example : (chi4ComputeFull (K := ℚ) ⟨[0, 1, 2, 3], 1, 1, 3, [2, 2, 2, 2]⟩ stillExample 1 (3 / 2) [(0, 0), (0, 1), (0, 2)]
    (.init []) >>= fun s => peakAnalyze s.grid (s.value.map some) >>= fun p => .ok (s.grid, s.value, p))
    = .ok ([0, 1, 2], [0, 1 / 8, 0], some (some 1, some (1 / 8))) := by
  decide +kernel

/-! ## C142 -/

theorem qst_numbers {n d : ℕ} (tr : Traj ℝ) (dg : List (ℕ × ℕ)) (skip : ℕ) (a : ℝ) (pos : List (Frame n d ℝ))
    (ts : List ℝ) (vs : List (Option ℝ)) (hn : 0 < n) (hskip : 0 < skip) (hlen : pos.length ≤ tr.steps.length)
    (hdt : tr.timestep ≠ 0) (hs : tr.steps.Pairwise (· < ·)) (h : qstCompute tr dg skip a pos = .ok (ts, vs)) :
    ∃ ws : List ℝ, vs = ws.map some := by
  obtain ⟨h1, h2⟩ := C29_self_overlap tr dg skip a pos ts vs hn hskip hlen hdt hs h
  refine ⟨vs.map fun v => v.getD 0, ?_⟩
  rw [List.map_map]
  refine (List.map_id vs).symm.trans (List.map_congr_left fun v hv => ?_)
  obtain ⟨i, hi, rfl⟩ := List.getElem_of_mem hv
  obtain ⟨w, hw, -⟩ := h2 (ts[i], vs[i]) (List.mem_iff_getElem.2 ⟨i, by simp; omega, by simp⟩)
  simp only at hw
  simp [hw]

/-- **C142**: if the time grid starts at zero, the analysis of the self overlap gives the first time at which it is
strictly below `1/e`, interpolated linearly, and `None` if and only if it never is. `e` is any number above one. -/
theorem C142_tau_partial {n d : ℕ} (e : ℝ) (he : 1 < e) (tr : Traj ℝ) (dg : List (ℕ × ℕ)) (skip : ℕ) (a : ℝ)
    (pos : List (Frame n d ℝ)) (ts : List ℝ) (vs : List (Option ℝ)) (hn : 0 < n) (ha : a ≠ 0) (hskip : 0 < skip)
    (hlen : pos.length ≤ tr.steps.length) (hdt : 0 < tr.timestep) (hs : tr.steps.Pairwise (· < ·))
    (h : qstCompute tr dg skip a pos = .ok (ts, vs)) (h0 : ts.head? = some 0) :
    ∃ ws r, vs = ws.map some ∧ ws.head? = some 1 ∧ qstAnalyze e ts ws = .ok r ∧ IsTau e ts ws 1 r := by
  obtain ⟨ws, rfl⟩ := qst_numbers tr dg skip a pos ts vs hn hskip hlen hdt.ne' hs h
  obtain ⟨h1, h2⟩ := C29_self_overlap tr dg skip a pos ts _ hn hskip hlen hdt.ne' hs h
  obtain ⟨hts, -⟩ := timeCorr_sorted _ _ _ _ _ _ _ _ h hdt
  cases ts with
  | nil => cases h0
  | cons t ts =>
    simp only [List.head?_cons, Option.some.injEq] at h0
    subst h0
    cases ws with
    | nil => simp at h1
    | cons w ws =>
      obtain ⟨v, hv, -, -, hv1, -⟩ := h2 (0, some w) (by simp)
      simp only [Option.some.injEq] at hv
      have hw := hv1 rfl ha
      rw [← hv] at hw
      subst hw
      obtain ⟨r, hr, hi⟩ := tauRoot_spec e he (0 :: ts) (1 :: ws) 1 rfl one_pos hts
      refine ⟨1 :: ws, r, rfl, rfl, ?_, hi⟩
      rw [← hr, one_mul]
      unfold qstAnalyze extractTau.tauRoot
      cases feqc (0 :: ts) (1 :: ws) (1 / e) with
      | ok r => rfl
      | error err => cases err <;> rfl

/-- **C142** is false if the grid does not start at zero and the overlap has already decayed: the analysis of a
function that starts below `1/e` and does not increase is `None`. -/
theorem C142_counterexample_decayed {K : Type} [Field K] [LinearOrder K] [IsStrictOrderedRing K] (e : K) (ts ws : List K)
    (hts : ts.Pairwise (· < ·)) (w : K) (h0 : ws.head? = some w) (hw : w < 1 / e) (hd : ∀ v ∈ ws, v ≤ w) :
    qstAnalyze e ts ws = .ok none := by
  have h0' : ws[0]? = some w := by rw [← h0, List.head?_eq_getElem?]
  rcases C12_feqc ts ws (1 / e) w h0' hts with ⟨h, -⟩ | ⟨_, i, _, _, _, fi, -, -, -, -, -, hfi, ho, -⟩
  · unfold qstAnalyze
    rw [h]
    rfl
  · have := hd fi (List.mem_of_getElem? hfi)
    rcases ho with ⟨-, ho⟩ | ⟨ho, -⟩
    · exact absurd (hw.trans ho) (not_lt.2 this)
    · exact absurd hw (not_lt.2 ho.le)

/-- **C142**, the same with a function that comes back: the time reported is that at which the overlap grows above
`1/e`. -/
theorem C142_counterexample_upwards {K : Type} [Field K] [LinearOrder K] [IsStrictOrderedRing K] (e : K) (ts ws : List K)
    (hts : ts.Pairwise (· < ·)) (w : K) (h0 : ws.head? = some w) (hw : w < 1 / e) (τ : K)
    (h : qstAnalyze e ts ws = .ok (some τ)) :
    ∃ i tp ti fp fi, 1 ≤ i ∧ ts[i - 1]? = some tp ∧ ts[i]? = some ti ∧ ws[i - 1]? = some fp ∧ ws[i]? = some fi ∧
      tp ≤ τ ∧ τ < ti ∧ fp ≤ 1 / e ∧ 1 / e < fi := by
  have h0' : ws[0]? = some w := by rw [← h0, List.head?_eq_getElem?]
  rcases C12_feqc ts ws (1 / e) w h0' hts with ⟨h', -⟩ | ⟨x, i, tp, ti, fp, fi, h1, h2, h3, h4, h5, h6, ho, hb, h9, h10, -⟩
  · unfold qstAnalyze at h
    rw [h'] at h
    cases h
  · unfold qstAnalyze at h
    rw [h1] at h
    simp only [Option.map_some, Except.ok.injEq, Option.some.injEq] at h
    subst h
    refine ⟨i, tp, ti, fp, fi, h2, h3, h4, h5, h6, h9, h10, ?_, ?_⟩
    · exact not_lt.1 fun hc => hb (i - 1) (by omega) fp h5 (Or.inl ⟨hw, hc⟩)
    · rcases ho with ⟨-, ho⟩ | ⟨ho, -⟩
      · exact ho
      · exact absurd hw (not_lt.2 ho.le)

/-- The overlap of three particles at times 1, 2, 3, with `e` replaced by 2. -/
example : qstAnalyze (2 : ℚ) [1, 2, 3] [1 / 3, 1 / 3, 0] = .ok none ∧
    qstAnalyze (2 : ℚ) [1, 2, 3] [1 / 3, 0, 2 / 3] = .ok (some (11 / 4)) ∧
    qstAnalyze (2 : ℚ) [0, 1, 2] [1, 2 / 3, 0] = .ok (some (5 / 4)) := by
  decide +kernel

/-! ## C143 -/

theorem tauLine_eq {K : Type} (fmt : K → Str) (e : K × Option K) :
    tauLine fmt e = fmt e.1 ++ (e.2.elim [] fun x => ' ' :: fmt x) ++ "\n".toList := by
  unfold tauLine
  cases e.2 with
  | none => simp
  | some t => simp

/-- The comments at the top of the file of relaxation times. -/
def tauComments : Str :=
  ("# title: relaxation times tau(k) as a function of k\n# columns: k, tau(k)\n" ++
   "# note: tau is the time at which the correlation function has decayed to 1/e\n").toList

theorem tauHeader_eq : tauHeader = tauComments := by decide +kernel

/-- **C143**: with wave-numbers that are all different and times that start at zero, `do` writes the function to its
file, and to the file with suffix `.tau` the header and one line per wave-number, in the order of the grid, with the
time at which the function has decayed to `1/e`, if it has. No other file is changed. -/
theorem C143_tau_file (fmt : ℝ → Str) (e : ℝ) (he : 1 < e) (f : Str) (hf : f ≠ "/dev/stdout".toList) (trajTime : ℤ)
    (mtime : Str → Option ℤ) (ks t : List ℝ) (v : List (List ℝ))
    (text : List ℝ × List ℝ × List (List ℝ) → Option (List (ℝ × Option ℝ)) → Py Str)
    (htext : ∀ r a, ∃ s, text r a = .ok s) (fs : List (Str × Str)) (hlen : ks.length ≤ v.length) (hk : ks.Nodup)
    (ht : t.Pairwise (· < ·)) (ht0 : t.head? = some 0) (hv : ∀ row ∈ v, ∃ f0, row.head? = some f0 ∧ 0 < f0) :
    ∃ τ : ℕ → Option ℝ, (∀ i < ks.length, IsTau e t (v.getD i []) ((v.getD i []).getD 0 0) (τ i)) ∧
      ∃ fs', fktDo fmt e (some f) trajTime mtime (.ok (ks, t, v)) text false fs = (fs', .ok ()) ∧
        dictGet fs' (f ++ ".tau".toList) = .ok (tauComments ++ (ks.zipIdx.map fun ki =>
          fmt ki.1 ++ ((τ ki.2).elim [] fun x => ' ' :: fmt x) ++ "\n".toList).flatten) ∧
        dictGet fs' f = text (ks, t, v) (some (ks.zipIdx.map fun ki => (ki.1, τ ki.2))) ∧
        ∀ g, g ≠ f → g ≠ f ++ ".tau".toList → dictGet fs' g = dictGet fs g := by
  rw [← tauHeader_eq]
  obtain ⟨τ, h1, h2⟩ := C84_relaxation_times e he ks t v hlen hk ht ht0 hv
  refine ⟨τ, h2, ?_⟩
  obtain ⟨s, hs⟩ := htext (ks, t, v) (some (ks.zipIdx.map fun ki => (ki.1, τ ki.2)))
  have hne : f ++ ".tau".toList ≠ f := fun h => by simpa using congrArg List.length h
  refine ⟨dictSet (dictSet fs f s) (f ++ ".tau".toList)
    (tauHeader ++ (ks.zipIdx.map fun ki => (ki.1, τ ki.2)).flatMap (tauLine fmt)), ?_, ?_, ?_, ?_⟩
  · unfold fktDo doFiles fktAnalyze
    simp only [Bool.false_eq_true, if_false, h1, fktWrite, hs, writeText, if_neg hf]
  · rw [dictGet_dictSet, if_pos rfl, List.flatMap_map, List.flatMap_def]
    simp only [tauLine_eq]
  · rw [dictGet_dictSet, if_neg hne.symm, dictGet_dictSet, if_pos rfl, hs]
  · intro g h3 h4
    rw [dictGet_dictSet, if_neg h4, dictGet_dictSet, if_neg h3]

theorem dictKeys_dictSet {κ V : Type} [DecidableEq κ] (D : List (κ × V)) (k : κ) (v : V) :
    dictKeys (dictSet D k v) = if k ∈ dictKeys D then dictKeys D else dictKeys D ++ [k] := by
  induction D with
  | nil => rfl
  | cons x r ih =>
    by_cases h : x.1 = k
    · simp [dictSet, dictKeys, h]
    · have : k ≠ x.1 := fun hh => h hh.symm
      unfold dictSet
      rw [if_neg h]
      unfold dictKeys at ih ⊢
      simp only [List.map_cons, ih, List.mem_cons, this, false_or]
      split_ifs <;> rfl

theorem tauFold_keys (g : ℕ → Py (Option ℝ)) (l : List (ℝ × ℕ)) (D D' : List (ℝ × Option ℝ))
    (h : l.foldlM (fun tau ki => do
      let r ← g ki.2
      return dictSet tau ki.1 r) D = .ok D') (hD : (dictKeys D).Nodup) :
    (dictKeys D').Nodup ∧ ∀ k, k ∈ dictKeys D' ↔ k ∈ dictKeys D ∨ k ∈ l.map Prod.fst := by
  induction l generalizing D with
  | nil =>
    cases h
    simp [hD]
  | cons x l ih =>
    rw [List.foldlM_cons] at h
    cases hx : g x.2 with
    | error e => rw [hx] at h; cases h
    | ok r =>
      rw [hx] at h
      obtain ⟨h1, h2⟩ := ih (dictSet D x.1 r) h (by
        rw [dictKeys_dictSet]
        split_ifs with hm
        · exact hD
        · rw [List.nodup_append]
          refine ⟨hD, by simp, ?_⟩
          intro a ha b hb hab
          rw [List.mem_singleton] at hb
          exact hm (hb ▸ hab ▸ ha))
      refine ⟨h1, fun k => ?_⟩
      rw [h2, dictKeys_dictSet, List.map_cons, List.mem_cons]
      split_ifs with hm
      · constructor
        · rintro (h | h)
          exacts [Or.inl h, Or.inr (Or.inr h)]
        · rintro (h | rfl | h)
          exacts [Or.inl h, Or.inl hm, Or.inr h]
      · rw [List.mem_append, List.mem_singleton, or_assoc]

/-- The relaxation times have one entry per different wave-number. -/
theorem extractTau_length (e : ℝ) (ks t : List ℝ) (v : List (List ℝ)) (db : List (ℝ × Option ℝ))
    (h : extractTau e ks t v = .ok db) : db.length = ks.dedup.length := by
  unfold extractTau at h
  cases ht : pyGet t 0 with
  | error e => rw [ht] at h; cases h
  | ok t0 =>
    rw [ht] at h
    simp only [bind, Except.bind] at h
    split_ifs at h
    obtain ⟨h1, h2⟩ := tauFold_keys (fun i => do
      let fi ← pyGet v i
      let f0 ← pyGet fi 0
      extractTau.tauRoot t fi (f0 * (1 / e))) ks.zipIdx [] db (by
        rw [← h]
        congr 1
        funext tau ki
        simp only [bind, Except.bind]
        cases pyGet v ki.2 with
        | error e => rfl
        | ok fi =>
          simp only
          cases pyGet fi 0 <;> rfl) List.nodup_nil
    have : (dictKeys db).Perm ks.dedup := by
      rw [List.perm_ext_iff_of_nodup h1 (List.nodup_dedup _)]
      intro k
      rw [h2, List.mem_dedup]
      simp [dictKeys]
    rw [← this.length_eq]
    simp [dictKeys]

theorem dedup_length_lt {α : Type} [DecidableEq α] {l : List α} (h : ¬ l.Nodup) : l.dedup.length < l.length := by
  have h1 := (List.dedup_sublist l).length_le
  rcases h1.lt_or_eq with h1 | h1
  · exact h1
  · have := (List.dedup_sublist l).eq_of_length h1
    exact absurd (this ▸ List.nodup_dedup l) h

/-- **C143** is false if two groups of wave-vectors have the same wave-number: the file has fewer lines than the
wave-numbers, whatever the function. -/
theorem C143_counterexample_equal (fmt : ℝ → Str) (e : ℝ) (f : Str) (hf : f ≠ "/dev/stdout".toList) (trajTime : ℤ)
    (mtime : Str → Option ℤ) (ks t : List ℝ) (v : List (List ℝ))
    (text : List ℝ × List ℝ × List (List ℝ) → Option (List (ℝ × Option ℝ)) → Py Str) (fs fs' : List (Str × Str))
    (h : fktDo fmt e (some f) trajTime mtime (.ok (ks, t, v)) text false fs = (fs', .ok ())) (hk : ¬ ks.Nodup) :
    ∃ lines : List Str, lines.length < ks.length ∧
      dictGet fs' (f ++ ".tau".toList) = .ok (tauComments ++ lines.flatten) ∧
      ∀ l ∈ lines, ∃ k, ∃ τ : Option ℝ, l = fmt k ++ (τ.elim [] fun x => ' ' :: fmt x) ++ "\n".toList := by
  rw [← tauHeader_eq]
  have hmod : ∃ db, extractTau e ks t v = .ok db := by
    cases hx : extractTau e ks t v with
    | ok db => exact ⟨db, rfl⟩
    | error err =>
      unfold fktDo doFiles fktAnalyze at h
      simp only [Bool.false_eq_true, if_false, hx] at h
      have hn : ∀ x, fktWrite fmt (some f) (text (ks, t, v) none) none fs ≠ (x, .ok ()) := by
        intro x hx
        unfold fktWrite writeText at hx
        cases ht : text (ks, t, v) none with
        | error e => rw [ht] at hx; exact absurd (congrArg Prod.snd hx) (by simp)
        | ok s =>
          rw [ht] at hx
          simp only [if_neg hf] at hx
          exact absurd (congrArg Prod.snd hx) (by simp)
      cases err <;> first | exact absurd h (hn _) | exact absurd (congrArg Prod.snd h) (by simp)
  obtain ⟨db, hdb⟩ := hmod
  refine ⟨db.map (tauLine fmt), ?_, ?_, ?_⟩
  · rw [List.length_map, extractTau_length e ks t v db hdb]
    exact dedup_length_lt hk
  · unfold fktDo doFiles fktAnalyze at h
    simp only [Bool.false_eq_true, if_false, hdb, fktWrite] at h
    cases ht : text (ks, t, v) (some db) with
    | error err => simp [writeText, ht] at h
    | ok s =>
      simp only [writeText, ht, if_neg hf, Prod.mk.injEq, and_true] at h
      rw [← h, dictGet_dictSet, if_pos rfl, List.flatMap_def]
  · intro l hl
    obtain ⟨x, -, rfl⟩ := List.mem_map.1 hl
    exact ⟨x.1, x.2, tauLine_eq fmt x⟩

theorem tauFold_ok (g : ℕ → Py (Option ℝ)) (l : List (ℝ × ℕ)) (D : List (ℝ × Option ℝ))
    (h : ∀ x ∈ l, ∃ r, g x.2 = .ok r) :
    ∃ D', l.foldlM (fun tau ki => do
      let r ← g ki.2
      return dictSet tau ki.1 r) D = .ok D' := by
  induction l generalizing D with
  | nil => exact ⟨D, rfl⟩
  | cons x l ih =>
    obtain ⟨r, hr⟩ := h x List.mem_cons_self
    rw [List.foldlM_cons, hr]
    exact ih (dictSet D x.1 r) fun y hy => h y (List.mem_cons_of_mem _ hy)

/-- The relaxation times are found for all grids of times that start at zero, also with equal wave-numbers. -/
theorem extractTau_ok (e : ℝ) (he : 1 < e) (ks t : List ℝ) (v : List (List ℝ)) (hlen : ks.length ≤ v.length)
    (ht : t.Pairwise (· < ·)) (ht0 : t.head? = some 0) (hv : ∀ row ∈ v, ∃ f0, row.head? = some f0 ∧ 0 < f0) :
    ∃ db, extractTau e ks t v = .ok db := by
  cases t with
  | nil => cases ht0
  | cons t0 t =>
    simp only [List.head?_cons, Option.some.injEq] at ht0
    subst ht0
    obtain ⟨db, hdb⟩ := tauFold_ok (fun i => do
      let fi ← pyGet v i
      let f0 ← pyGet fi 0
      extractTau.tauRoot (0 :: t) fi (f0 * (1 / e))) ks.zipIdx [] (by
        intro x hx
        have hi : x.2 < v.length := by
          have := List.snd_lt_add_of_mem_zipIdx hx
          omega
        obtain ⟨f0, h0, hpos⟩ := hv v[x.2] (List.getElem_mem _)
        have h0' : v[x.2][0]? = some f0 := by rw [← h0, List.head?_eq_getElem?]
        obtain ⟨r, hr, -⟩ := tauRoot_spec e he (0 :: t) v[x.2] f0 h0' hpos ht
        refine ⟨r, ?_⟩
        rw [PP.pyGet_ok hi]
        show Except.bind (pyGet v[x.2] 0) _ = _
        rw [pyGet_some h0']
        exact hr)
    refine ⟨db, ?_⟩
    unfold extractTau
    rw [show pyGet ((0 : ℝ) :: t) 0 = .ok 0 from rfl]
    simp only [bind, Except.bind, lt_self_iff_false, gt_iff_lt, if_false]
    rw [← hdb]
    congr 1
    funext tau ki
    simp only [bind, Except.bind]
    cases pyGet v ki.2 with
    | error e => rfl
    | ok fi =>
      simp only
      cases pyGet fi 0 <;> rfl

/-- **C143** is false if `write` is called without the analysis: `KeyError`, with a file of relaxation times that only
has the header. -/
theorem C143_counterexample_analysis {K : Type} [Field K] [LinearOrder K] (fmt : K → Str) (f : Str)
    (hf : f ≠ "/dev/stdout".toList) (s : Str) (fs : List (Str × Str)) :
    (fktWrite fmt (some f) (.ok s) none fs).2 = .error .keyError ∧
      dictGet (fktWrite fmt (some f) (.ok s) none fs).1 (f ++ ".tau".toList) = .ok tauComments := by
  rw [← tauHeader_eq]
  unfold fktWrite writeText
  simp only [if_neg hf, dictGet_dictSet, if_true, and_self]

/-- Two wave-numbers, one of which has decayed. -/
example : fktWrite (fun x : ℚ => (toString x).toList) (some "a.pp".toList) (.ok "text".toList)
    (some [(1, some (3 / 2)), (2, none)]) [("a".toList, [])]
    = ([("a".toList, []), ("a.pp".toList, "text".toList),
        ("a.pp.tau".toList, tauComments ++ "1 3/2\n2\n".toList)], .ok ()) := by
  decide +kernel

/-! ## C144 -/

/-- The output path of a function of a trajectory in memory is `None`. -/
theorem memory_file (given : Option (List PathPiece)) (o : Named) : outputFileOpt (initOutputPath none given) o = none := rfl

/-- **C144**, functions other than the intermediate scattering functions: for a trajectory in memory `do` computes and
analyses the function, and writes no file. -/
theorem C144_memory_partial {R A : Type} (given : Option (List PathPiece)) (o : Named) (trajTime : ℤ)
    (mtime : Str → Option ℤ) (r : R) (analyze : R → Py A) (text : R → Option A → Str) (fs : List (Str × Str))
    (ha : (∃ a, analyze r = .ok a) ∨ analyze r = .error .importError) :
    doFiles (outputFileOpt (initOutputPath none given) o) trajTime mtime (.ok r) analyze
      (fun r a => writeText (outputFileOpt (initOutputPath none given) o) (.ok (text r a))) false fs = (fs, .ok ()) := by
  rw [memory_file]
  unfold doFiles
  rcases ha with ⟨a, ha⟩ | ha <;> simp [ha, writeText]

/-- **C144** is false for the intermediate scattering functions: for a trajectory in memory `do` always fails, with a
`TypeError` after the calculation if that and the analysis succeed. -/
theorem C144_counterexample_fkt (fmt : ℝ → Str) (e : ℝ) (given : Option (List PathPiece)) (o : Named) (trajTime : ℤ)
    (mtime : Str → Option ℤ) (compute : Py (List ℝ × List ℝ × List (List ℝ)))
    (text : List ℝ × List ℝ × List (List ℝ) → Option (List (ℝ × Option ℝ)) → Py Str) (update : Bool)
    (fs : List (Str × Str)) :
    (∃ err, fktDo fmt e (outputFileOpt (initOutputPath none given) o) trajTime mtime compute text update fs
      = (fs, .error err)) ∧
    ∀ r a s, compute = .ok r → fktAnalyze e r = .ok a → text r (some a) = .ok s →
      fktDo fmt e (outputFileOpt (initOutputPath none given) o) trajTime mtime compute text update fs
        = (fs, .error .typeError) := by
  rw [memory_file]
  have hw : ∀ (tx : Py Str) (db : Option (List (ℝ × Option ℝ))), ∃ err, fktWrite fmt none tx db fs = (fs, .error err) := by
    intro tx db
    unfold fktWrite writeText
    cases tx with
    | error err => exact ⟨err, rfl⟩
    | ok s => exact ⟨.typeError, rfl⟩
  constructor
  · unfold fktDo doFiles
    cases update with
    | true => exact ⟨.typeError, rfl⟩
    | false =>
      simp only [Bool.false_eq_true, if_false]
      cases compute with
      | error err => exact ⟨err, rfl⟩
      | ok r =>
        cases ha : fktAnalyze e r with
        | ok a => simpa only [ha] using hw _ _
        | error err =>
          cases err <;> simp only [ha] <;> first | exact hw _ _ | exact ⟨_, rfl⟩
  · intro r a s hr ha hs
    subst hr
    unfold fktDo doFiles
    cases update with
    | true => rfl
    | false => simp [ha, hs, fktWrite, writeText]

/-- **C144** is false with `update=True`, for all functions: `TypeError`. -/
theorem C144_counterexample_update {R A : Type} (given : Option (List PathPiece)) (o : Named) (trajTime : ℤ)
    (mtime : Str → Option ℤ) (compute : Py R) (analyze : R → Py A)
    (write : R → Option A → List (Str × Str) → List (Str × Str) × Py Unit) (fs : List (Str × Str)) :
    doFiles (outputFileOpt (initOutputPath none given) o) trajTime mtime compute analyze write true fs
      = (fs, .error .typeError) := rfl

/-- A mean square displacement computed in memory, with an analysis that gives a number. -/
example : doFiles (R := List ℚ) (A := ℚ) (outputFileOpt (initOutputPath none none)
      ⟨"msd".toList, "dr^2(t)".toList, "mean square displacement".toList, [], [], "None".toList⟩) 0 (fun _ => none)
    (.ok [0, 1, 2]) (fun r => pyGet r 1) (fun r a => writeText none (.ok (toString (r.length, a.isSome)).toList)) false
    [("a".toList, "b".toList)] = ([("a".toList, "b".toList)], .ok ()) := by
  decide +kernel

/-! ## C145 -/

/-- **C145**: the function that was computed is written, whatever the analysis finds, if the times start at zero and the
functions are positive there. -/
theorem C145_written_partial (fmt : ℝ → Str) (e : ℝ) (he : 1 < e) (f : Str) (hf : f ≠ "/dev/stdout".toList)
    (trajTime : ℤ) (mtime : Str → Option ℤ) (ks t : List ℝ) (v : List (List ℝ)) (s : Str) (fs : List (Str × Str))
    (hlen : ks.length ≤ v.length) (ht : t.Pairwise (· < ·)) (ht0 : t.head? = some 0)
    (hv : ∀ row ∈ v, ∃ f0, row.head? = some f0 ∧ 0 < f0) :
    ∃ fs', fktDo fmt e (some f) trajTime mtime (.ok (ks, t, v)) (fun _ _ => .ok s) false fs = (fs', .ok ()) ∧
      dictGet fs' f = .ok s := by
  obtain ⟨db, hdb⟩ := extractTau_ok e he ks t v hlen ht ht0 hv
  have hne : f ++ ".tau".toList ≠ f := fun h => by simpa using congrArg List.length h
  refine ⟨dictSet (dictSet fs f s) (f ++ ".tau".toList) (tauHeader ++ db.flatMap (tauLine fmt)), ?_, ?_⟩
  · unfold fktDo doFiles fktAnalyze
    simp only [Bool.false_eq_true, if_false, hdb, fktWrite, writeText, if_neg hf]
  · rw [dictGet_dictSet, if_neg hne.symm, dictGet_dictSet, if_pos rfl]

/-- The hypotheses of the previous theorem and those of `C143_counterexample_equal`: two groups of wave-vectors with the
same wave-number. -/
example (fmt : ℝ → Str) : ∃ fs', fktDo fmt 2 (some "a".toList) 0 (fun _ => none) (.ok ([1, 1], [0, 1], [[1, 0], [1, 1]]))
    (fun _ _ => .ok []) false [] = (fs', .ok ()) ∧ ¬ ([1, 1] : List ℝ).Nodup := by
  obtain ⟨fs', h, -⟩ := C145_written_partial fmt 2 (by norm_num) "a".toList (by decide) 0 (fun _ => none) [1, 1] [0, 1]
    [[1, 0], [1, 1]] [] [] (by simp) (by simp) rfl (by
      intro row hrow
      simp only [List.mem_cons, List.not_mem_nil, or_false] at hrow
      rcases hrow with rfl | rfl <;> exact ⟨1, rfl, one_pos⟩)
  exact ⟨fs', h, by simp⟩

/-- **C145** is false if the times do not start at zero, which is possible without normalisation: whatever was
computed, `do` fails with a `ValueError` and writes nothing. -/
theorem C145_counterexample_time (fmt : ℝ → Str) (e : ℝ) (f : Option Str) (trajTime : ℤ) (mtime : Str → Option ℤ)
    (ks t : List ℝ) (v : List (List ℝ)) (t0 : ℝ) (ht : t.head? = some t0) (h0 : 0 < t0)
    (text : List ℝ × List ℝ × List (List ℝ) → Option (List (ℝ × Option ℝ)) → Py Str) (fs : List (Str × Str)) :
    fktDo fmt e f trajTime mtime (.ok (ks, t, v)) text false fs = (fs, .error .valueError) := by
  have : fktAnalyze e (ks, t, v) = .error .valueError := by
    unfold fktAnalyze extractTau
    cases t with
    | nil => cases ht
    | cons a t =>
      simp only [List.head?_cons, Option.some.injEq] at ht
      subst ht
      rw [show pyGet (a :: t) 0 = .ok a from rfl]
      simp only [bind, Except.bind]
      rw [if_pos h0]
  unfold fktDo doFiles
  simp [this]

example : fktDo (fun _ => []) 2 (some "a".toList) 0 (fun _ => none) (.ok ([1], [1, 2], [[1, 0]])) (fun _ _ => .ok []) false
    [] = ([], .error .valueError) :=
  C145_counterexample_time _ _ _ _ _ _ _ _ 1 rfl one_pos _ _

/-- **C64**, the files: with `update`, nothing is computed and no file changes if the output file is newer than the
trajectory; otherwise `do` works as without `update`. -/
theorem C64_do_files {R A : Type} (f : Str) (trajTime : ℤ) (mtime : Str → Option ℤ) (compute : Py R) (analyze : R → Py A)
    (write : R → Option A → List (Str × Str) → List (Str × Str) × Py Unit) (fs : List (Str × Str)) :
    ((∃ t, mtime f = some t ∧ trajTime < t ∧ f ≠ "/dev/stdout".toList) →
      doFiles (some f) trajTime mtime compute analyze write true fs = (fs, .ok ())) ∧
    ((mtime f = none ∨ (∃ t, mtime f = some t ∧ t ≤ trajTime) ∨ f = "/dev/stdout".toList) →
      doFiles (some f) trajTime mtime compute analyze write true fs =
        doFiles (some f) trajTime mtime compute analyze write false fs) := by
  constructor
  · rintro ⟨t, h1, h2, h3⟩
    have hn : needUpdateAt (some f) trajTime mtime = .ok false := by
      unfold needUpdateAt
      simp only [h1, if_neg h3, decide_eq_true h2, Bool.not_true]
    unfold doFiles
    rw [if_pos rfl, hn]
  · intro h
    have hn : needUpdateAt (some f) trajTime mtime = .ok true := by
      unfold needUpdateAt
      cases hm : mtime f with
      | none => simp only [hm]
      | some t =>
        rcases h with h | ⟨t', h, ht⟩ | h
        · rw [hm] at h; cases h
        · rw [hm] at h; cases h
          simp only [hm, decide_eq_false (not_lt.2 ht), Bool.not_false, ite_self]
        · simp only [hm, if_pos h]
    unfold doFiles
    rw [if_pos rfl, hn, if_neg (by decide)]

/-- A file newer than the trajectory and one that is older. -/
example : doFiles (R := ℕ) (A := ℕ) (some "a".toList) 5 (fun _ => some 6) (.ok 1) (fun r => .ok r)
      (fun r _ => writeText (some "a".toList) (.ok (toString r).toList)) true [] = ([], .ok ()) ∧
    doFiles (R := ℕ) (A := ℕ) (some "a".toList) 5 (fun _ => some 5) (.ok 1) (fun r => .ok r)
      (fun r _ => writeText (some "a".toList) (.ok (toString r).toList)) true [] = ([("a".toList, "1".toList)], .ok ()) := by
  decide +kernel

/-! ## C146 -/

/-- **C146**: `compute` of the functions in real space returns the grid and the values that the object then has. -/
theorem C146_returns_partial {O R : Type} (setup compute : O → Py O) (result : O → R) (o : O) (c : Called O R)
    (h : corrCompute setup compute result o = .ok c) : c.returned = some (result c.object) := by
  unfold corrCompute at h
  cases h1 : setup o with
  | error e => rw [h1] at h; cases h
  | ok o1 =>
    rw [h1] at h
    simp only [bind, Except.bind] at h
    cases h2 : compute o1 with
    | error e => rw [h2] at h; cases h
    | ok o2 => rw [h2] at h; cases h; rfl

/-- **C146** is false in Fourier space: `compute` returns `None`, whatever the function. -/
theorem C146_counterexample_fourier {O R : Type} (setupGrid setup compute : O → Py O) (result : O → R) (o : O)
    (c : Called O R) (h : fourierCompute setupGrid setup compute result o = .ok c) :
    c.returned = none ∧ ∃ o', setupGrid o = .ok o' ∧
      corrCompute setup compute result o' = .ok ⟨c.object, some (result c.object)⟩ := by
  unfold fourierCompute at h
  cases h1 : setupGrid o with
  | error e => rw [h1] at h; cases h
  | ok o1 =>
    rw [h1] at h
    simp only [bind, Except.bind] at h
    cases h2 : corrCompute setup compute result o1 with
    | error e => rw [h2] at h; cases h
    | ok c2 =>
      have := C146_returns_partial setup compute result o1 c2 h2
      rw [h2] at h
      cases h
      refine ⟨rfl, o1, rfl, ?_⟩
      rw [h2]
      cases c2
      simp only at this
      rw [this]

example : (fourierCompute (fun n : ℕ => .ok (n + 1)) (fun n => .ok n) (fun n => .ok (2 * n)) (fun n => [n]) 3 >>= fun c =>
    .ok (c.object, c.returned)) = .ok (8, none) := rfl

end PP.Props
