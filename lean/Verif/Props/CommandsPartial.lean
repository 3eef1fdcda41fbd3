import Verif.Model.CommandsPartial
import Verif.Props.CommandsTime
import Verif.Props.Inequalities

/-!
# C225: the partial functions of the commands for time correlations and the function of the whole system
-/

namespace PP.Props
open PP

variable {n d : ℕ} {S : Type} [DecidableEq S]

/-- Sum over the particles of what the commands average. -/
noncomputable def timeSum (c : Command) {N : ℕ} (u v : Frame N d ℝ) : ℝ :=
  match c with
  | .msd => ∑ p, ∑ a, (u p a - v p a) ^ 2
  | .vacf => ∑ p, ∑ a, u p a * v p a
  | .qst => ∑ p, if ∑ a, (u p a - v p a) ^ 2 < (3 / 10) ^ 2 then 1 else 0
  | .qt => ∑ p, ∑ q, if ∑ a, (u p a - v q a) ^ 2 < (3 / 10) ^ 2 then 1 else 0
  | _ => 0

theorem timeCommand_corr (c : Command) (hc : c ∈ [.msd, .vacf, .qst, .qt]) (o : TimeOptions)
    (hfunc : o.func ∈ ["linear".toList, "linear_grid".toList, "logx".toList, "logx_grid".toList]) (hm : 2 ≤ o.tsamples)
    (h : 0 < o.tmax ∨ 0 < o.fraction) (tr : Traj ℝ) (hne : tr.steps ≠ [])
    (hbs : 0 < tr.blockSize) (hdt : 0 < tr.timestep) (hT : 0 ≤ tr.totalTime) (skip : ℤ)
    (hskip : adjustSkip tr.steps.length tr.blockSize tr.npart o.norigins = .ok skip) :
    ∃ (dg : List (ℕ × ℕ)) (s : ℕ), 0 < s ∧ ∀ (N : ℕ) (_ : 0 < N) (y : List (Frame N d ℝ)), timeCommand c o tr y =
      some (timeCorr (Arith.nan ℝ) (fun u v => .ok (some (timeSum c u v / (N : ℝ)))) tr dg s y) := by
  have hsk := adjustSkip_pos (List.length_pos_iff.2 hne) hskip
  obtain ⟨f, hf⟩ : ∃ f, funcOf o.func = .ok f := by
    simp only [List.mem_cons, List.not_mem_nil, or_false] at hfunc
    rcases hfunc with e | e | e | e <;> rw [e] <;> exact ⟨_, rfl⟩
  have hL : 0 ≤ lastTime c tr.totalTime o.tmax o.fraction := by
    unfold lastTime
    split_ifs with h1 h2
    · exact le_min hT h1.le
    · exact h1.le
    · exact mul_nonneg ((h.resolve_left h1).le) hT
  obtain ⟨g, hg, -⟩ := grid_ends f o.tsamples hm tr.timestep _ hdt hL
  have hgrid : (do
      let f ← funcOf o.func
      apiTimeGrid c (f.grid o.tsamples) tr.timestep tr.totalTime o.tmax o.fraction) = .ok (some (0 :: g)) := by
    rw [hf]
    exact apiTimeGrid_eq c _ _ _ _ _ h g hg
  have hgr : ∀ off : Bool, ∃ dg, setupTGrid tr.steps tr.blockSize tr.timestep (0 :: g) off = .ok dg := by
    intro off
    obtain ⟨dg, e, -⟩ := setupTGrid_spec tr.steps tr.blockSize tr.timestep (0 :: g) off _ rfl
      (by cases off <;> simp [hbs]) hne hdt.ne'
    exact ⟨dg, e⟩
  have hpp : ∀ (N : ℕ), 0 < N → ∀ y : ℝ, perParticle N y = some (y / N) := fun N hN y => by
    unfold perParticle; rw [if_neg hN.ne']
  simp only [List.mem_cons, List.not_mem_nil, or_false] at hc
  rcases hc with rfl | rfl | rfl | rfl
  · obtain ⟨dg, e1⟩ := hgr (o.norigins.offset && !o.noOffset)
    refine ⟨dg, skip.toNat, hsk, fun N hN y => ?_⟩
    unfold timeCommand
    simp only [hgrid]
    show some (msdRun (.object tr) (some (0 :: g)) o.rmsdMax 30 o.norigins o.noOffset _) = _
    unfold msdRun TrajArg.traj
    simp only
    rw [hskip]
    show some (setupTGrid tr.steps tr.blockSize tr.timestep (0 :: g) (o.norigins.offset && !o.noOffset) >>= _) = _
    rw [e1]
    show some (timeCorr (Arith.nan ℝ) msdKernel tr dg _ y) = _
    congr 2
    funext u v
    unfold msdKernel
    rw [hpp N hN]
    rfl
  · obtain ⟨dg, e1⟩ := hgr o.norigins.offset
    refine ⟨dg, tr.blockSize, hbs, fun N hN y => ?_⟩
    unfold timeCommand
    simp only [hgrid]
    show some (vacfRun tr (some (0 :: g)) 30 o.norigins _) = _
    unfold vacfRun vacfInit
    rw [hskip]
    show some ((setupTGrid tr.steps tr.blockSize tr.timestep (0 :: g) o.norigins.offset >>= _) >>= _) = _
    rw [e1]
    show some (timeCorr (Arith.nan ℝ) vacfKernel tr dg _ y) = _
    congr 2
    funext u v
    unfold vacfKernel
    rw [hpp N hN]
    rfl
  · obtain ⟨dg, e1⟩ := hgr o.norigins.offset
    refine ⟨dg, skip.toNat, hsk, fun N hN y => ?_⟩
    unfold timeCommand
    simp only [hgrid]
    show some (qstRunR (.object tr) (some (0 :: g)) 60 o.norigins (3 / 10) _) = _
    unfold qstRunR qstInit timeInit TrajArg.traj
    simp only
    rw [hskip]
    show some ((setupTGrid tr.steps tr.blockSize tr.timestep (0 :: g) o.norigins.offset >>= _) >>= _) = _
    rw [e1]
    show some (timeCorr (Arith.nan ℝ) (fun a b : Frame N d ℝ => .ok (perParticle N (selfOverlap a b ((3 / 10) ^ 2) : ℝ))) tr dg _ y) = _
    congr 2
    funext u v
    rw [hpp N hN, selfOverlap_card, Finset.card_filter]
    push_cast
    rfl
  · obtain ⟨dg, e1⟩ := hgr o.norigins.offset
    refine ⟨dg, skip.toNat, hsk, fun N hN y => ?_⟩
    unfold timeCommand
    simp only [hgrid]
    show some (qtRun (.object tr) (some (0 :: g)) 60 o.norigins (3 / 10) _) = _
    unfold qtRun qtInit timeInit TrajArg.traj
    simp only
    rw [hskip]
    show some ((setupTGrid tr.steps tr.blockSize tr.timestep (0 :: g) o.norigins.offset >>= _) >>= _) = _
    rw [e1]
    show some (timeCorr (Arith.nan ℝ) (fun a b : Frame N d ℝ => .ok (perParticle N (collectiveOverlap a b ((3 / 10) ^ 2) : ℝ))) tr dg _ y) = _
    congr 2
    funext u v
    rw [hpp N hN, collectiveOverlap_card]
    unfold Spec.pairsBelow timeSum
    rw [Finset.card_filter, ← Finset.univ_product_univ, Finset.sum_product]
    push_cast
    rfl

theorem sum_speciesPlaces (sp : Fin n → S) (a : S) (f : Fin n → ℝ) :
    ∑ p : Fin (speciesPlaces sp a).length, f (speciesPlaces sp a)[p] = ∑ p ∈ Finset.univ.filter (sp · = a), f p := by
  have hnd : (speciesPlaces sp a).Nodup := (List.nodup_finRange n).filter _
  have h1 : ∑ p : Fin (speciesPlaces sp a).length, f (speciesPlaces sp a)[p] = ((speciesPlaces sp a).map f).sum := by
    rw [← List.sum_ofFn]
    congr 1
    apply List.ext_getElem <;> simp
  rw [h1, ← List.sum_toFinset _ hnd]
  congr 1
  ext p
  simp [speciesPlaces]

theorem speciesPlaces_length (sp : Fin n → S) (a : S) :
    (speciesPlaces sp a).length = (Finset.univ.filter (sp · = a)).card := by
  have hnd : (speciesPlaces sp a).Nodup := (List.nodup_finRange n).filter _
  rw [← List.toFinset_card_of_nodup hnd]
  congr 1
  ext p
  simp [speciesPlaces]

theorem timeSum_species (c : Command) (sp : Fin n → S) (u v : Frame n d ℝ) :
    (c ∈ [.msd, .vacf, .qst] → ∑ a ∈ Finset.univ.image sp, timeSum c (speciesFrame sp a u) (speciesFrame sp a v) = timeSum c u v) ∧
    (c = .qt → ∑ a ∈ Finset.univ.image sp, timeSum c (speciesFrame sp a u) (speciesFrame sp a v) ≤ timeSum c u v) := by
  have key : ∀ f : Fin n → ℝ, ∑ a ∈ Finset.univ.image sp, ∑ p : Fin (speciesPlaces sp a).length, f (speciesPlaces sp a)[p] = ∑ p, f p := by
    intro f
    simp only [sum_speciesPlaces]
    exact Finset.sum_fiberwise_of_maps_to (fun p _ => Finset.mem_image_of_mem sp (Finset.mem_univ p)) f
  constructor
  · intro hc
    simp only [List.mem_cons, List.not_mem_nil, or_false] at hc
    rcases hc with rfl | rfl | rfl
    · exact key fun p => ∑ a, (u p a - v p a) ^ 2
    · exact key fun p => ∑ a, u p a * v p a
    · exact key fun p => if ∑ a, (u p a - v p a) ^ 2 < (3 / 10) ^ 2 then 1 else 0
  · rintro rfl
    set w : Fin n → Fin n → ℝ := fun p q => if ∑ a, (u p a - v q a) ^ 2 < (3 / 10) ^ 2 then 1 else 0 with hw
    have hw0 : ∀ p q, 0 ≤ w p q := fun p q => by rw [hw]; simp only; split_ifs <;> norm_num
    have h1 : ∀ a, timeSum .qt (speciesFrame sp a u) (speciesFrame sp a v) =
        ∑ p ∈ Finset.univ.filter (sp · = a), ∑ q ∈ Finset.univ.filter (sp · = a), w p q := by
      intro a
      rw [← sum_speciesPlaces sp a]
      refine Finset.sum_congr rfl fun p _ => ?_
      rw [← sum_speciesPlaces sp a]
      rfl
    simp only [h1]
    show _ ≤ ∑ p, ∑ q, w p q
    rw [← Finset.sum_fiberwise_of_maps_to (fun p _ => Finset.mem_image_of_mem sp (Finset.mem_univ p)) (fun p => ∑ q, w p q)]
    refine Finset.sum_le_sum fun a _ => Finset.sum_le_sum fun p _ => ?_
    exact Finset.sum_le_sum_of_subset_of_nonneg (Finset.subset_univ _) fun q _ _ => hw0 p q

theorem mean_sum_map {α : Type} (F : Finset S) (l : List α) (f : S → α → ℝ) :
    Spec.mean (l.map fun b => ∑ a ∈ F, f a b) = ∑ a ∈ F, Spec.mean (l.map (f a)) := by
  classical
  induction F using Finset.induction_on with
  | empty =>
    simp only [Finset.sum_empty]
    unfold Spec.mean
    simp
  | insert a F ha ih =>
    simp only [Finset.sum_insert ha]
    rw [mean_add_map, ih]

/-- **C225.** With several species, the commands msd, vacf, qst and qt compute one function per species in addition to the one of
the whole system, at the same times. At each time the function of the whole system is the average of those of the species,
weighted with the number of particles; for the collective overlap it is at least this average. -/
theorem C225_sum (c : Command) (hc : c ∈ [.msd, .vacf, .qst, .qt]) (o : TimeOptions)
    (hfunc : o.func ∈ ["linear".toList, "linear_grid".toList, "logx".toList, "logx_grid".toList]) (hm : 2 ≤ o.tsamples)
    (h : 0 < o.tmax ∨ 0 < o.fraction) (tr : Traj ℝ) (hst : tr.steps.Pairwise (· < ·)) (hne : tr.steps ≠ [])
    (hbs : 0 < tr.blockSize) (hdt : 0 < tr.timestep) (hT : 0 ≤ tr.totalTime) (skip : ℤ)
    (hskip : adjustSkip tr.steps.length tr.blockSize tr.npart o.norigins = .ok skip)
    (x : List (Frame n d ℝ)) (hx : x.length = tr.steps.length) (hn : 0 < n) (sp : Fin n → S) (ids : List S)
    (hids : ∀ a, a ∈ ids ↔ ∃ p, sp p = a) (h2 : 1 < ids.length) :
    ∃ (ts total : List ℝ) (part : S → List ℝ), timeCommand c o tr x = some (.ok (ts, total.map some)) ∧
      timePartials c o false tr ids sp x = (ids.map fun a => (a, some (.ok (ts, (part a).map some)))) ∧
      total.length = ts.length ∧ (∀ a, (part a).length = ts.length) ∧
      Spec.TimesUpTo tr.steps tr.timestep (max tr.timestep (lastTime c tr.totalTime o.tmax o.fraction)) (ts, total.map some) ∧
      ∀ (i : ℕ) (hi : i < ts.length), (c ≠ .qt → total.getD i 0 =
          (∑ a ∈ Finset.univ.image sp, ((Finset.univ.filter (sp · = a)).card : ℝ) * (part a).getD i 0) / n) ∧
        (c = .qt → (∑ a ∈ Finset.univ.image sp, ((Finset.univ.filter (sp · = a)).card : ℝ) * (part a).getD i 0) / n ≤
          total.getD i 0) := by
  obtain ⟨dg, s, hs, hcmd⟩ := timeCommand_corr (d := d) c hc o hfunc hm h tr hne hbs hdt hT skip hskip
  set L := lagList tr.steps (Spec.sampled x.length s dg) with hL
  set g : Frame n d ℝ → Frame n d ℝ → ℝ := fun u v => timeSum c u v / (n : ℝ) with hg
  set ga : S → Frame n d ℝ → Frame n d ℝ → ℝ := fun a u v =>
    timeSum c (speciesFrame sp a u) (speciesFrame sp a v) / ((speciesPlaces sp a).length : ℝ) with hga
  have hpos : ∀ a, a ∈ ids → 0 < (speciesPlaces sp a).length := by
    intro a ha
    obtain ⟨p, hp⟩ := (hids a).1 ha
    rw [speciesPlaces_length]
    exact Finset.card_pos.2 ⟨p, by simp [hp]⟩
  have e1 := timeCorr_closed (dg := dg) (tr := tr) (x := x) (f := fun u v => .ok (some (g u v))) (g := g) hs hx.le
    (fun a _ b _ => rfl)
  have e2 := fun a => timeCorr_closed (dg := dg) (tr := tr) (x := x) (f := fun u v => .ok (some (ga a u v))) (g := ga a) hs hx.le
    (fun a _ b _ => rfl)
  have htot : timeCommand c o tr x = some (.ok (L.map fun δ : ℤ => (δ : ℝ) * tr.timestep,
      (L.map fun δ => Spec.mean (Spec.valuesAt g s dg tr.steps x δ)).map some)) := by
    rw [hcmd n hn x, List.map_map]
    exact congrArg some e1
  refine ⟨L.map fun δ : ℤ => (δ : ℝ) * tr.timestep, L.map fun δ => Spec.mean (Spec.valuesAt g s dg tr.steps x δ),
    fun a => L.map fun δ => Spec.mean (Spec.valuesAt (ga a) s dg tr.steps x δ), htot, ?_, by simp, by simp, ?_, ?_⟩
  · unfold timePartials
    rw [if_pos ⟨h2, rfl⟩]
    refine List.map_congr_left fun a ha => ?_
    rw [hcmd _ (hpos a ha), timeCorr_map, List.map_map]
    exact congrArg (fun r => (a, some r)) (e2 a)
  · obtain ⟨r, hr, ht⟩ := C217_times_partial c (by
      simp only [List.mem_cons, List.not_mem_nil, or_false] at hc ⊢
      tauto) o hfunc hm h tr hst hne hbs hdt hT skip hskip x hx
    rw [htot] at hr
    rw [Except.ok.inj (Option.some.inj hr)]
    exact ht
  · intro i hi
    rw [List.length_map] at hi
    have hgetD : ∀ f : ℤ → ℝ, (L.map f).getD i 0 = f L[i] := by
      intro f
      rw [List.getD_eq_getElem _ _ (by simpa using hi)]
      simp
    simp only [hgetD]
    set δ := L[i]
    set P := Spec.framePairs tr.steps s dg x δ with hP
    have v1 : Spec.valuesAt g s dg tr.steps x δ = P.map fun p => g p.1 p.2 := rfl
    have v2 : ∀ a, Spec.valuesAt (ga a) s dg tr.steps x δ = P.map fun p => ga a p.1 p.2 := fun a => rfl
    have hsum : (∑ a ∈ Finset.univ.image sp, ((Finset.univ.filter (sp · = a)).card : ℝ) *
        Spec.mean (Spec.valuesAt (ga a) s dg tr.steps x δ)) / n = Spec.mean (P.map fun p =>
          (1 / (n : ℝ)) * ∑ a ∈ Finset.univ.image sp, timeSum c (speciesFrame sp a p.1) (speciesFrame sp a p.2)) := by
      rw [mean_mul_map, mean_sum_map, div_eq_mul_one_div, mul_comm]
      congr 1
      refine Finset.sum_congr rfl fun a ha => ?_
      rw [v2, ← mean_mul_map]
      congr 1
      refine List.map_congr_left fun p _ => ?_
      have hq := hpos a ((hids a).2 (by simpa using ha))
      rw [← speciesPlaces_length]
      have : ((speciesPlaces sp a).length : ℝ) ≠ 0 := by exact_mod_cast hq.ne'
      simp only [hga]
      field_simp
    rw [hsum, v1]
    constructor
    · intro hq
      congr 1
      refine List.map_congr_left fun p _ => ?_
      rw [(timeSum_species c sp p.1 p.2).1 (by
        simp only [List.mem_cons, List.not_mem_nil, or_false] at hc ⊢
        tauto)]
      simp only [hg]
      ring
    · intro hq
      refine mean_le_map _ _ _ fun p _ => ?_
      have := (timeSum_species c sp p.1 p.2).2 hq
      simp only [hg]
      rw [one_div, inv_mul_eq_div]
      exact div_le_div_of_nonneg_right this (Nat.cast_nonneg _)

/-- The two particles of `exMoving` are of different species. -/
example (c : Command) (hc : c ∈ [.msd, .vacf, .qst, .qt]) :
    ∃ (ts total : List ℝ) (part : String → List ℝ),
      timeCommand c exEvenOptions exEven ((List.range 4).map exMoving) = some (.ok (ts, total.map some)) ∧
      timePartials c exEvenOptions false exEven ["A", "B"] ![("B" : String), "A"] ((List.range 4).map exMoving) =
        [("A", some (.ok (ts, (part "A").map some))), ("B", some (.ok (ts, (part "B").map some)))] ∧
      ∀ i < ts.length, c ≠ .qt → total.getD i 0 = ((part "A").getD i 0 + (part "B").getD i 0) / 2 := by
  have hfunc : exEvenOptions.func = "linear".toList := rfl
  have hfm : exEvenOptions.func ∈ ["linear".toList, "linear_grid".toList, "logx".toList, "logx_grid".toList] := by
    rw [hfunc]
    exact List.mem_cons_self
  have ht : 2 ≤ exEvenOptions.tsamples := by norm_num [exEvenOptions]
  have hfr : 0 < exEvenOptions.fraction := by norm_num [exEvenOptions]
  have hdt : 0 < exEven.timestep := by norm_num [exEven]
  have hT : 0 ≤ exEven.totalTime := by norm_num [exEven]
  have hsp : exEven.steps.Pairwise (· < ·) := by simp [exEven]
  have hskip : adjustSkip exEven.steps.length exEven.blockSize exEven.npart exEvenOptions.norigins = .ok 2 := by
    show adjustSkip 4 1 [2, 2, 2, 2] (.str ['2']) = .ok 2
    decide +kernel
  have hids : ∀ a, a ∈ ["A", "B"] ↔ ∃ p, (![("B" : String), "A"] : Fin 2 → String) p = a := by
    intro a
    simp [Fin.exists_fin_two, eq_comm, or_comm]
  obtain ⟨ts, total, part, h1, h2, -, -, -, h3⟩ := C225_sum c hc exEvenOptions hfm ht (Or.inr hfr) exEven hsp (by simp [exEven])
    one_pos hdt hT 2 hskip ((List.range 4).map exMoving) rfl two_pos ![("B" : String), "A"] ["A", "B"] hids (by decide)
  refine ⟨ts, total, part, h1, h2, fun i hi hq => ?_⟩
  rw [(h3 i hi).1 hq]
  have him : Finset.univ.image (![("B" : String), "A"] : Fin 2 → String) = {"A", "B"} := by decide
  rw [him, Finset.sum_insert (by decide), Finset.sum_singleton]
  have ca : (Finset.univ.filter fun p => (![("B" : String), "A"] : Fin 2 → String) p = "A").card = 1 := by decide
  have cb : (Finset.univ.filter fun p => (![("B" : String), "A"] : Fin 2 → String) p = "B").card = 1 := by decide
  rw [ca, cb]
  norm_num

end PP.Props
