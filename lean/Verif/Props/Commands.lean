import Verif.Model.Commands
import Verif.Props.Runs
import Verif.Props.Chi4Run
import Verif.Props.Api

/-!
# C217: the times that the commands report
-/

namespace PP.Props
open PP

variable {n d : ℕ}

/-- The grids contain both ends and do not exceed the larger one, whichever comes first. -/
theorem grid_ends (f : GridFunc) (m : ℕ) (hm : 2 ≤ m) (a b : ℝ) (ha : 0 < a) (hb : 0 ≤ b) :
    ∃ l, f.grid m a b = .ok l ∧ a ∈ l ∧ b ∈ l ∧ ∀ t ∈ l, t ≤ max a b := by
  cases f with
  | linear =>
    obtain ⟨l, h1, h2, h3, h4, h5⟩ := C06_linear_grid_count a b (m : ℤ)
    have hlen : l.length = m := by
      have : (l.length : ℤ) = m := by rw [h2]; simp
      exact_mod_cast this
    refine ⟨l, h1, ?_, ?_, ?_⟩
    · rw [← h3 (by omega)]
      exact List.getElem_mem _
    · rw [← h4 (by omega) (by omega)]
      exact List.getElem_mem _
    · have hmp : (0 : ℝ) < (m : ℝ) - 1 := by
        have : (2 : ℝ) ≤ m := by exact_mod_cast hm
        linarith
      have hval : ∀ i (h : i < l.length), l[i] = a + (i : ℝ) * ((b - a) / ((m : ℝ) - 1)) := by
        intro i
        induction i with
        | zero => intro h; rw [h3 h]; simp
        | succ i ih =>
          intro h
          have e := h5 i h
          rw [ih (by omega)] at e
          push_cast at e ⊢
          linarith
      intro t ht
      obtain ⟨i, hi, rfl⟩ := List.getElem_of_mem ht
      rw [hval i hi]
      have hi' : (i : ℝ) ≤ (m : ℝ) - 1 := by
        have : ((i + 1 : ℕ) : ℝ) ≤ (m : ℝ) := by exact_mod_cast (by omega : i + 1 ≤ m)
        push_cast at this
        linarith
      have hi0 : (0 : ℝ) ≤ i := Nat.cast_nonneg i
      have hq : (i : ℝ) * ((b - a) / ((m : ℝ) - 1)) = (i : ℝ) / ((m : ℝ) - 1) * (b - a) := by ring
      have q0 : 0 ≤ (i : ℝ) / ((m : ℝ) - 1) := div_nonneg hi0 hmp.le
      have q1 : (i : ℝ) / ((m : ℝ) - 1) ≤ 1 := (div_le_one hmp).2 hi'
      rw [hq]
      rcases le_total a b with h | h
      · exact le_trans (by nlinarith) (le_max_right a b)
      · exact le_trans (by nlinarith) (le_max_left a b)
  | logx =>
    have hm0 : m ≠ 0 := by omega
    have hr : 0 ≤ b / a := div_nonneg hb ha.le
    set q := (b / a) ^ ((1 : ℝ) / m) with hq
    have hq0 : 0 ≤ q := Real.rpow_nonneg hr _
    have hqm : q ^ m = b / a := by
      rw [hq, one_div]
      exact Real.rpow_inv_natCast_pow hr hm0
    have hab : a * (b / a) = b := by field_simp
    refine ⟨[a] ++ (rangeList 1 m 1).map fun i => a * q ^ (i + 1), ?_, by simp, ?_, ?_⟩
    · show logxGrid a b m = _
      unfold logxGrid
      rw [if_neg hm0, if_pos ha]
    · rw [List.mem_append]
      right
      rw [List.mem_map]
      refine ⟨m - 1, ?_, ?_⟩
      · simp only [rangeList, List.mem_map, List.mem_range]
        exact ⟨m - 2, by simp; omega, by omega⟩
      · rw [show m - 1 + 1 = m by omega, hqm, hab]
    · intro t ht
      rcases List.mem_append.1 ht with h | h
      · rw [List.mem_singleton.1 h]
        exact le_max_left _ _
      · obtain ⟨i, hi, rfl⟩ := List.mem_map.1 h
        have him : i + 1 ≤ m := by
          simp only [rangeList, List.mem_map, List.mem_range] at hi
          obtain ⟨j, hj, rfl⟩ := hi
          simp at hj
          omega
        rcases le_total q 1 with h1 | h1
        · refine le_trans ?_ (le_max_left _ _)
          exact mul_le_of_le_one_right ha.le (pow_le_one₀ hq0 h1)
        · refine le_trans ?_ (le_max_right a b)
          calc a * q ^ (i + 1) ≤ a * q ^ m := mul_le_mul_of_nonneg_left (pow_le_pow_right₀ h1 him) ha.le
            _ = b := by rw [hqm, hab]

/-- What is reported: as many values as times, which increase from zero, are times between two frames of the trajectory, and
include one that is as close to `M` as any frame is, counted from the first one, up to a step. -/
def _root_.PP.Spec.TimesUpTo (steps : List ℤ) (dt M : ℝ) {V : Type} (r : List ℝ × List V) : Prop :=
  r.1.length = r.2.length ∧ r.1.Pairwise (· < ·) ∧ r.1.head? = some 0 ∧
  (∀ t ∈ r.1, ∃ (i j : ℕ) (a b : ℤ), i ≤ j ∧ steps[i]? = some a ∧ steps[j]? = some b ∧ t = ((b - a : ℤ) : ℝ) * dt) ∧
  ∃ t ∈ r.1, ∀ a b, steps.head? = some a → b ∈ steps → |t - M| ≤ |((b - a : ℤ) : ℝ) * dt - M| + dt

theorem near_times (tr : Traj ℝ) (hdt : 0 < tr.timestep) (M : ℝ) (os : List ℕ) (h00 : 0 ∈ os) (v : ℤ)
    (hnear : ∀ w, Spec.IsScannedLag tr.steps os w → |(v : ℝ) - M / tr.timestep| ≤ |(w : ℝ) - M / tr.timestep| + 1) :
    ∀ a b, tr.steps.head? = some a → b ∈ tr.steps →
      |(v : ℝ) * tr.timestep - M| ≤ |((b - a : ℤ) : ℝ) * tr.timestep - M| + tr.timestep := by
  intro a b ha hb
  obtain ⟨j, hj, rfl⟩ := List.getElem_of_mem hb
  have hw : Spec.IsScannedLag tr.steps os (tr.steps[j] - a) := by
    refine ⟨(0, j), ⟨h00, by simpa using hj⟩, ?_⟩
    have e1 : tr.steps[0]? = some a := by rw [← List.head?_eq_getElem?]; exact ha
    unfold Spec.lag
    rw [List.getD_eq_getElem?_getD, List.getD_eq_getElem?_getD, e1, zero_add, List.getElem?_eq_getElem hj]
    rfl
  have hk := hnear _ hw
  have key : ∀ y : ℝ, |y * tr.timestep - M| = |y - M / tr.timestep| * tr.timestep := by
    intro y
    rw [← abs_of_pos hdt, ← abs_mul, abs_of_pos hdt]
    congr 1
    field_simp
  rw [key, key]
  calc _ ≤ (|((tr.steps[j] - a : ℤ) : ℝ) - M / tr.timestep| + 1) * tr.timestep := mul_le_mul_of_nonneg_right hk hdt.le
    _ = _ := by ring

theorem timeCorr_upTo {X : Type} (f : X → X → Py (Option ℝ)) (k : X → X → Option ℝ) (tr : Traj ℝ) (g : List ℝ) (M : ℝ)
    (hM : M ∈ g) (h0 : 0 ∈ g) (hle : ∀ t ∈ g, t ≤ M)
    (hs : tr.steps.Pairwise (· < ·)) (hne : tr.steps ≠ []) (hbs : 0 < tr.blockSize) (hdt : 0 < tr.timestep) (offset : Bool)
    (skip : ℕ) (hskip : 0 < skip) (x : List X) (hx : x.length = tr.steps.length) (hf : ∀ a ∈ x, ∀ b ∈ x, f a b = .ok (k a b)) :
    ∃ dg r, setupTGrid tr.steps tr.blockSize tr.timestep g offset = .ok dg ∧
      timeCorr (Arith.nan ℝ) f tr dg skip x = .ok r ∧ Spec.TimesUpTo tr.steps tr.timestep M r := by
  obtain ⟨dg, hdg, hspan⟩ := tgrid_span tr.steps hs hne tr.blockSize hbs tr.timestep hdt g M h0 hM hle offset
  have h00 : 0 ∈ (if offset then List.range tr.blockSize else [0]) := by cases offset <;> simp [hbs]
  obtain ⟨dg', hdg', hscan, -, -⟩ := setupTGrid_spec tr.steps tr.blockSize tr.timestep g offset _ rfl h00 hne hdt.ne'
  rw [hdg] at hdg'
  cases hdg'
  obtain ⟨lags, l1, l2, l3⟩ := C01_gcf_offset_mean (Arith.nan ℝ) f k dg skip tr.steps x hskip hx.le hf
  have hdgl : ∀ p ∈ dg, Spec.lag tr.steps p ∈ lags := by
    intro p hp
    obtain ⟨-, hlt⟩ := hscan p hp
    rw [l2]
    have e1 : tr.steps[p.1 + p.2]? = some (tr.steps[p.1 + p.2]'(by omega)) := List.getElem?_eq_getElem _
    have e2 : tr.steps[p.1]? = some (tr.steps[p.1]'(by omega)) := List.getElem?_eq_getElem _
    have e3 : x[p.1 + p.2]? = some (x[p.1 + p.2]'(by omega)) := List.getElem?_eq_getElem _
    have e4 : x[p.1]? = some (x[p.1]'(by omega)) := List.getElem?_eq_getElem _
    refine ⟨(tr.steps[p.1 + p.2]'(by omega) - tr.steps[p.1]'(by omega), x[p.1 + p.2]'(by omega), x[p.1]'(by omega)), ?_, ?_⟩
    · unfold Spec.terms
      rw [List.mem_filterMap]
      refine ⟨(p.1, p.2), ?_, ?_⟩
      · unfold Spec.sampled
        rw [List.mem_flatMap]
        refine ⟨p, hp, ?_⟩
        rw [List.mem_map]
        refine ⟨p.1, ?_, rfl⟩
        rw [List.mem_filter]
        refine ⟨by rw [List.mem_range]; omega, ?_⟩
        simp only [le_refl, Nat.sub_self, Nat.zero_mod, true_and, decide_eq_true_eq]
        omega
      · unfold Spec.term
        simp only [e1, e2, e3, e4]
    · show tr.steps[p.1 + p.2]'(by omega) - tr.steps[p.1]'(by omega) = Spec.lag tr.steps p
      unfold Spec.lag
      rw [List.getD_eq_getElem?_getD, List.getD_eq_getElem?_getD, e1, e2]
      rfl
  have hlagm : ∀ δ ∈ lags, ∃ (i j : ℕ) (a b : ℤ), i ≤ j ∧ tr.steps[i]? = some a ∧ tr.steps[j]? = some b ∧ δ = b - a := by
    intro δ hδ
    obtain ⟨e, he, rfl⟩ := (l2 δ).1 hδ
    unfold Spec.terms at he
    rw [List.mem_filterMap] at he
    obtain ⟨p, -, hp⟩ := he
    unfold Spec.term at hp
    split at hp
    · rename_i ta tb xa xb h1 h2 h3 h4
      cases hp
      exact ⟨p.1, p.1 + p.2, tb, ta, by omega, h2, h1, rfl⟩
    · cases hp
  have hnn : ∀ δ ∈ lags, 0 ≤ δ := by
    intro δ hδ
    obtain ⟨i, j, a, b, hij, ha, hb, rfl⟩ := hlagm δ hδ
    obtain ⟨hi, rfl⟩ := List.getElem?_eq_some_iff.1 ha
    obtain ⟨hj, rfl⟩ := List.getElem?_eq_some_iff.1 hb
    rcases hij.eq_or_lt with rfl | hlt
    · simp
    · have := List.pairwise_iff_getElem.1 hs i j hi hj hlt
      omega
  obtain ⟨vs, hvs, hvl⟩ : ∃ vs, gcfOffset (Arith.nan ℝ) f dg skip tr.steps x = .ok (lags, vs) ∧ vs.length = lags.length :=
    ⟨_, l3, by simp⟩
  refine ⟨dg, (lags.map fun δ : ℤ => (δ : ℝ) * tr.timestep, vs), hdg, ?_, ?_, ?_, ?_, ?_, ?_⟩
  · unfold timeCorr
    rw [hvs]
    rfl
  · simp [hvl]
  · show (lags.map fun δ : ℤ => (δ : ℝ) * tr.timestep).Pairwise (· < ·)
    rw [List.pairwise_map]
    refine l1.imp ?_
    intro a b hab
    have : (a : ℝ) < b := by exact_mod_cast hab
    exact mul_lt_mul_of_pos_right this hdt
  · obtain ⟨p, hp, hp0⟩ := hspan.1
    have h0m : (0 : ℤ) ∈ lags := by rw [← hp0]; exact hdgl p hp
    cases lags with
    | nil => simp at h0m
    | cons a l =>
      have ha : a = 0 := by
        have h1 := hnn a (by simp)
        rcases List.mem_cons.1 h0m with h | h
        · exact h.symm
        · have := (List.pairwise_cons.1 l1).1 0 h
          omega
      simp [ha]
  · intro t ht
    obtain ⟨δ, hδ, rfl⟩ := List.mem_map.1 ht
    obtain ⟨i, j, a, b, hij, ha, hb, rfl⟩ := hlagm δ hδ
    exact ⟨i, j, a, b, hij, ha, hb, rfl⟩
  · obtain ⟨-, p, hp, -, hnear⟩ := hspan
    exact ⟨(Spec.lag tr.steps p : ℝ) * tr.timestep, List.mem_map.2 ⟨_, hdgl p hp, rfl⟩,
      near_times tr hdt M _ h00 _ hnear⟩

theorem adjustSkip_pos {len bs : ℕ} {npart : List ℕ} {m : NOrigins} {skip : ℤ} (hl : 0 < len)
    (h : adjustSkip len bs npart m = .ok skip) : 0 < skip.toNat := by
  have key : ∃ s : ℤ, skip = min (len : ℤ) (max 1 s) := by
    unfold adjustSkip at h
    obtain ⟨s, -, h⟩ := bind_ok_iff.1 h
    split_ifs at h
    · obtain ⟨i, -, h⟩ := bind_ok_iff.1 h
      split_ifs at h
      cases h
      exact ⟨s, rfl⟩
    · cases h
      exact ⟨s, rfl⟩
  obtain ⟨s, rfl⟩ := key
  omega

/-- **C217, what holds**: if a largest time or a fraction of the total time is given, the commands msd, vacf, alpha2, qst and
qt, with the linear or the logarithmic grid and at least two samples, succeed for every trajectory with frames at increasing
steps for which the stride can be computed. The times reported increase from zero and include the available one closest to
the largest time requested, or to the time step if this is larger. -/
theorem C217_times_partial (c : Command) (hc : c ∈ [.msd, .vacf, .alpha2, .qst, .qt]) (o : TimeOptions)
    (hfunc : o.func ∈ ["linear".toList, "linear_grid".toList, "logx".toList, "logx_grid".toList]) (hm : 2 ≤ o.tsamples)
    (h : 0 < o.tmax ∨ 0 < o.fraction) (tr : Traj ℝ) (hs : tr.steps.Pairwise (· < ·)) (hne : tr.steps ≠ [])
    (hbs : 0 < tr.blockSize) (hdt : 0 < tr.timestep) (hT : 0 ≤ tr.totalTime) (skip : ℤ)
    (hskip : adjustSkip tr.steps.length tr.blockSize tr.npart o.norigins = .ok skip)
    (x : List (Frame n d ℝ)) (hx : x.length = tr.steps.length) :
    ∃ r, timeCommand c o tr x = some (.ok r) ∧
      Spec.TimesUpTo tr.steps tr.timestep (max tr.timestep (lastTime c tr.totalTime o.tmax o.fraction)) r := by
  have hsk := adjustSkip_pos (List.length_pos_iff.2 hne) hskip
  obtain ⟨f, hf⟩ : ∃ f, funcOf o.func = .ok f := by
    simp only [List.mem_cons, List.not_mem_nil, or_false] at hfunc
    rcases hfunc with e | e | e | e <;> rw [e] <;> exact ⟨_, rfl⟩
  have hL : 0 ≤ lastTime c tr.totalTime o.tmax o.fraction := by
    unfold lastTime
    split_ifs with h1 h2
    · exact le_min hT h1.le
    · exact h1.le
    · exact mul_nonneg ((h.resolve_left h1).le) hT
  obtain ⟨g, hg, g1, g2, g3⟩ := grid_ends f o.tsamples hm tr.timestep _ hdt hL
  have hgrid : (do
      let f ← funcOf o.func
      apiTimeGrid c (f.grid o.tsamples) tr.timestep tr.totalTime o.tmax o.fraction) = .ok (some (0 :: g)) := by
    rw [hf]
    exact apiTimeGrid_eq c _ _ _ _ _ h g hg
  generalize lastTime c tr.totalTime o.tmax o.fraction = L at *
  have hM : max tr.timestep L ∈ (0 :: g) := by
    rcases max_choice tr.timestep L with e | e <;> rw [e] <;> simp [g1, g2]
  have hle : ∀ t ∈ (0 :: g), t ≤ max tr.timestep L := by
    intro t ht
    rcases List.mem_cons.1 ht with rfl | ht
    · exact hL.trans (le_max_right _ _)
    · exact g3 t ht
  have main := fun {X : Type} (f : X → X → Py (Option ℝ)) (k : X → X → Option ℝ) (off : Bool) (sk : ℕ) (h1 : 0 < sk) (x : List X)
      (h2 : x.length = tr.steps.length) (h3 : ∀ a ∈ x, ∀ b ∈ x, f a b = .ok (k a b)) =>
    timeCorr_upTo f k tr (0 :: g) _ hM (by simp) hle hs hne hbs hdt off sk h1 x h2 h3
  simp only [List.mem_cons, List.not_mem_nil, or_false] at hc
  rcases hc with rfl | rfl | rfl | rfl | rfl
  · obtain ⟨dg, r, e1, e2, e3⟩ := main msdKernel _ (o.norigins.offset && !o.noOffset) _ hsk x hx fun a _ b _ => rfl
    refine ⟨r, ?_, e3⟩
    unfold timeCommand
    simp only [hgrid]
    show some (msdRun (.object tr) (some (0 :: g)) o.rmsdMax 30 o.norigins o.noOffset x) = _
    unfold msdRun TrajArg.traj
    simp only
    rw [hskip]
    show some (setupTGrid tr.steps tr.blockSize tr.timestep (0 :: g) (o.norigins.offset && !o.noOffset) >>= _) = _
    rw [e1]
    exact congrArg some e2
  · obtain ⟨dg, r, e1, e2, e3⟩ := main vacfKernel _ o.norigins.offset tr.blockSize hbs x hx fun a _ b _ => rfl
    refine ⟨r, ?_, e3⟩
    unfold timeCommand
    simp only [hgrid]
    show some (vacfRun tr (some (0 :: g)) 30 o.norigins x) = _
    unfold vacfRun vacfInit
    rw [hskip]
    show some ((setupTGrid tr.steps tr.blockSize tr.timestep (0 :: g) o.norigins.offset >>= _) >>= _) = _
    rw [e1]
    exact congrArg some e2
  · obtain ⟨k, hk⟩ : ∃ k : ℕ × Frame n d ℝ → ℕ × Frame n d ℝ → Option ℝ, ∀ a b, alpha2Kernel a b = .ok (k a b) := by
      have : ∀ a b : ℕ × Frame n d ℝ, ∃ v, alpha2Kernel a b = .ok v := by
        intro a b
        unfold alpha2Kernel
        split_ifs <;> exact ⟨_, rfl⟩
      choose k hk using this
      exact ⟨k, hk⟩
    obtain ⟨dg, r, e1, e2, e3⟩ := main alpha2Kernel k o.norigins.offset _ hsk (x.zipIdx.map fun e => (e.2, e.1))
      (by simpa using hx) fun a _ b _ => hk a b
    refine ⟨r, ?_, e3⟩
    unfold timeCommand
    simp only [hgrid]
    show some (alpha2Run (.object tr) (some (0 :: g)) 30 o.norigins x) = _
    unfold alpha2Run alpha2Init timeInit TrajArg.traj
    simp only
    rw [hskip]
    show some ((setupTGrid tr.steps tr.blockSize tr.timestep (0 :: g) o.norigins.offset >>= _) >>= _) = _
    rw [e1]
    exact congrArg some e2
  · obtain ⟨dg, r, e1, e2, e3⟩ := main (fun a b : Frame n d ℝ => .ok (perParticle n (selfOverlap a b ((3 / 10) ^ 2) : ℝ))) _
      o.norigins.offset _ hsk x hx fun a _ b _ => rfl
    refine ⟨r, ?_, e3⟩
    unfold timeCommand
    simp only [hgrid]
    show some (qstRunR (.object tr) (some (0 :: g)) 60 o.norigins (3 / 10) x) = _
    unfold qstRunR qstInit timeInit TrajArg.traj
    simp only
    rw [hskip]
    show some ((setupTGrid tr.steps tr.blockSize tr.timestep (0 :: g) o.norigins.offset >>= _) >>= _) = _
    rw [e1]
    exact congrArg some e2
  · obtain ⟨dg, r, e1, e2, e3⟩ := main (fun a b : Frame n d ℝ => .ok (perParticle n (collectiveOverlap a b ((3 / 10) ^ 2) : ℝ))) _
      o.norigins.offset _ hsk x hx fun a _ b _ => rfl
    refine ⟨r, ?_, e3⟩
    unfold timeCommand
    simp only [hgrid]
    show some (qtRun (.object tr) (some (0 :: g)) 60 o.norigins (3 / 10) x) = _
    unfold qtRun qtInit timeInit TrajArg.traj
    simp only
    rw [hskip]
    show some ((setupTGrid tr.steps tr.blockSize tr.timestep (0 :: g) o.norigins.offset >>= _) >>= _) = _
    rw [e1]
    exact congrArg some e2

/-- **C217** for the command chi4qs: the same holds, whatever the distance `a`. -/
theorem C217_chi4qs_partial (o : TimeOptions)
    (hfunc : o.func ∈ ["linear".toList, "linear_grid".toList, "logx".toList, "logx_grid".toList]) (hm : 2 ≤ o.tsamples)
    (h : 0 < o.tmax ∨ 0 < o.fraction) (a : ℝ) (tr : Traj ℝ) (hs : tr.steps.Pairwise (· < ·)) (hne : tr.steps ≠ [])
    (hbs : 0 < tr.blockSize) (hdt : 0 < tr.timestep) (hT : 0 ≤ tr.totalTime) (skip : ℤ)
    (hskip : adjustSkip tr.steps.length tr.blockSize tr.npart o.norigins = .ok skip)
    (x : List (Frame n d ℝ)) (hx : x.length = tr.steps.length) :
    ∃ s, chi4Command o a tr x = .ok s ∧
      Spec.TimesUpTo tr.steps tr.timestep
        (max tr.timestep (if 0 < o.tmax then min tr.totalTime o.tmax else o.fraction * tr.totalTime)) (s.grid, s.value) := by
  obtain ⟨f, hf⟩ : ∃ f, funcOf o.func = .ok f := by
    simp only [List.mem_cons, List.not_mem_nil, or_false] at hfunc
    rcases hfunc with e | e | e | e <;> rw [e] <;> exact ⟨_, rfl⟩
  have hlast : lastTime .chi4qs tr.totalTime o.tmax o.fraction =
      if 0 < o.tmax then min tr.totalTime o.tmax else o.fraction * tr.totalTime := by
    unfold lastTime
    simp
  have hL : 0 ≤ lastTime .chi4qs tr.totalTime o.tmax o.fraction := by
    rw [hlast]
    split_ifs with h1
    · exact le_min hT h1.le
    · exact mul_nonneg ((h.resolve_left h1).le) hT
  obtain ⟨g, hg, g1, g2, g3⟩ := grid_ends f o.tsamples hm tr.timestep _ hdt hL
  have hgrid : apiTimeGrid .chi4qs (f.grid o.tsamples) tr.timestep tr.totalTime o.tmax o.fraction = .ok (some (0 :: g)) :=
    apiTimeGrid_eq _ _ _ _ _ _ h g hg
  rw [hlast] at g2 g3 hL
  generalize (if 0 < o.tmax then min tr.totalTime o.tmax else o.fraction * tr.totalTime) = L at *
  have hM : max tr.timestep L ∈ (0 :: g) := by
    rcases max_choice tr.timestep L with e | e <;> rw [e] <;> simp [g1, g2]
  have hle : ∀ t ∈ (0 :: g), t ≤ max tr.timestep L := by
    intro t ht
    rcases List.mem_cons.1 ht with rfl | ht
    · exact hL.trans (le_max_right _ _)
    · exact g3 t ht
  obtain ⟨s, dg, e1, e2, e3, e4, -⟩ := C31_run (.object tr) (0 :: g) 60 o.norigins a x hx hne hdt.ne' hbs hskip
  obtain ⟨dg1, f1, hspan⟩ := tgrid_span tr.steps hs hne tr.blockSize hbs tr.timestep hdt (0 :: g) _ (by simp) hM hle
    o.norigins.offset
  have h00 : 0 ∈ (if o.norigins.offset then List.range tr.blockSize else [0]) := by cases o.norigins.offset <;> simp [hbs]
  obtain ⟨dg2, f2, hscan, hpw, -⟩ := setupTGrid_spec tr.steps tr.blockSize tr.timestep (0 :: g) o.norigins.offset _ rfl h00 hne
    hdt.ne'
  have q1 : dg1 = dg := by
    have := f1.symm.trans e2
    simpa using this
  have q2 : dg2 = dg := by
    have := f2.symm.trans e2
    simpa using this
  subst q1
  subst q2
  have hgr : s.grid = dg2.map fun p => ((Spec.lag tr.steps p : ℤ) : ℝ) * tr.timestep := by
    have e3' : List.Forall₂ (fun p t => t = ((Spec.lag tr.steps p : ℤ) : ℝ) * tr.timestep) dg2 s.grid := e3
    clear e3 e4 hspan hscan hpw f1 f2 e2
    generalize s.grid = gr at e3'
    induction e3' with
    | nil => rfl
    | cons h _ ih => rw [List.map_cons, h, ih]
  refine ⟨s, ?_, ?_, ?_, ?_, ?_, ?_⟩
  · unfold chi4Command
    rw [hf]
    show (apiTimeGrid .chi4qs (f.grid o.tsamples) tr.timestep tr.totalTime o.tmax o.fraction >>= _) = _
    rw [hgrid]
    exact e1
  · exact e3.length_eq.symm.trans e4.length_eq
  · show s.grid.Pairwise (· < ·)
    rw [hgr, List.pairwise_map]
    rw [List.pairwise_map] at hpw
    refine hpw.imp ?_
    intro a b hab
    exact mul_lt_mul_of_pos_right (by exact_mod_cast hab) hdt
  · show s.grid.head? = some 0
    obtain ⟨⟨p, hp, hp0⟩, q, -, hq, -⟩ := hspan
    rw [hgr]
    cases dg2 with
    | nil => simp at hp
    | cons b l =>
      have hb0 := (hq b (by simp)).1
      have : Spec.lag tr.steps b = 0 := by
        rcases List.mem_cons.1 hp with h | h
        · rw [← h]; exact hp0
        · rw [List.map_cons, List.pairwise_cons] at hpw
          have := hpw.1 _ (List.mem_map.2 ⟨p, h, rfl⟩)
          omega
      simp [this]
  · intro t ht
    change t ∈ s.grid at ht
    rw [hgr] at ht
    obtain ⟨p, hp, rfl⟩ := List.mem_map.1 ht
    obtain ⟨-, hlt⟩ := hscan p hp
    have a1 : tr.steps[p.1 + p.2]? = some (tr.steps[p.1 + p.2]'(by omega)) := List.getElem?_eq_getElem _
    have a2 : tr.steps[p.1]? = some (tr.steps[p.1]'(by omega)) := List.getElem?_eq_getElem _
    refine ⟨p.1, p.1 + p.2, _, _, by omega, a2, a1, ?_⟩
    unfold Spec.lag
    rw [List.getD_eq_getElem?_getD, List.getD_eq_getElem?_getD, a1, a2]
    rfl
  · obtain ⟨-, p, hp, -, hnear⟩ := hspan
    refine ⟨(Spec.lag tr.steps p : ℝ) * tr.timestep, ?_, ?_⟩
    · show _ ∈ s.grid
      rw [hgr]
      exact List.mem_map.2 ⟨p, hp, rfl⟩
    exact near_times tr hdt _ _ h00 _ hnear

/-- **C217** is false: without any limit of the time the command vacf never gives a result. -/
theorem C217_counterexample_vacf (o : TimeOptions) (h1 : o.tmax ≤ 0) (h2 : o.fraction ≤ 0) (tr : Traj ℝ)
    (x : List (Frame n d ℝ)) (skip : ℤ) (hskip : adjustSkip tr.steps.length tr.blockSize tr.npart o.norigins = .ok skip)
    (f : GridFunc) (hf : funcOf o.func = .ok f) : timeCommand .vacf o tr x = some (.error .typeError) := by
  have hgrid : (do
      let f ← funcOf o.func
      apiTimeGrid .vacf (f.grid o.tsamples) tr.timestep tr.totalTime o.tmax o.fraction) = .ok none := by
    rw [hf]
    show apiTimeGrid _ _ _ _ _ _ = _
    unfold apiTimeGrid
    rw [if_neg (by linarith), if_neg (by linarith)]
    rfl
  unfold timeCommand
  simp only [hgrid]
  show some (vacfRun tr none 30 o.norigins x) = _
  unfold vacfRun vacfInit
  rw [hskip]
  obtain ⟨D, hD, -⟩ := offSamp_inv tr.steps (if o.norigins.offset then List.range tr.blockSize else [0])
  obtain ⟨l, hl, -⟩ := C06_linear_grid_count (0 : ℝ) (tr.totalTime * (1 / 10)) 30
  simp only [bind, Except.bind, hl, hD]

/-- A non-trivial case: ten frames in blocks of two, the default options of msd with logarithmic times; the stride is that of
all the frames. -/
example : let tr : Traj ℝ := ⟨[0, 1, 10, 11, 20, 21, 30, 31, 40, 41], 1 / 100, 2, 41 / 100, [5]⟩
    let o : TimeOptions := ⟨-1, 3 / 4, 30, "logx".toList, .num 5, -1, false⟩
    ∀ x : List (Frame 5 3 ℝ), x.length = 10 → ∃ r, timeCommand .msd o tr x = some (.ok r) ∧
      Spec.TimesUpTo tr.steps tr.timestep (max (1 / 100) (3 / 4 * (41 / 100))) r := by
  intro tr o x hx
  have hl : lastTime .msd tr.totalTime o.tmax o.fraction = 3 / 4 * (41 / 100) := by
    unfold lastTime
    rw [if_neg (by norm_num [o])]
  have := C217_times_partial .msd (by simp) o (by decide +kernel) (by norm_num [o]) (Or.inr (by norm_num [o])) tr
    (by decide +kernel) (by simp [tr]) (by norm_num [tr]) (by norm_num [tr]) (by norm_num [tr]) 2 (by decide +kernel) x hx
  rw [hl] at this
  exact this

/-- A non-trivial case: the command chi4qs on the same frames, with the largest time beyond the end of the trajectory. -/
example : let tr : Traj ℝ := ⟨[0, 1, 10, 11, 20, 21, 30, 31, 40, 41], 1 / 100, 2, 41 / 100, [5]⟩
    let o : TimeOptions := ⟨2, 3 / 4, 30, "logx".toList, .num 5, -1, false⟩
    ∀ x : List (Frame 5 3 ℝ), x.length = 10 → ∃ s, chi4Command o (3 / 10) tr x = .ok s ∧
      Spec.TimesUpTo tr.steps tr.timestep (max (1 / 100) (41 / 100)) (s.grid, s.value) := by
  intro tr o x hx
  have := C217_chi4qs_partial o (by decide +kernel) (by norm_num [o]) (Or.inl (by norm_num [o])) (3 / 10) tr
    (by decide +kernel) (by simp [tr]) (by norm_num [tr]) (by norm_num [tr]) (by norm_num [tr]) 2 (by decide +kernel) x hx
  rw [if_pos (by norm_num [o]), min_eq_left (by norm_num [o, tr])] at this
  exact this

/-- A non-trivial case: no limit of the time for vacf. -/
example (tr : Traj ℝ) (skip : ℤ) (hskip : adjustSkip tr.steps.length tr.blockSize tr.npart .none = .ok skip)
    (x : List (Frame n d ℝ)) :
    timeCommand .vacf ⟨-1, 0, 30, "linear".toList, .none, -1, false⟩ tr x = some (.error .typeError) :=
  C217_counterexample_vacf _ (by norm_num) le_rfl tr x skip hskip .linear rfl

end PP.Props
