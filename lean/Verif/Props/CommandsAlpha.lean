import Verif.Props.CommandsPartial
import Verif.Props.Gaussian

/-!
# C230: the non-Gaussian parameters that the command alpha2 gives for the species and for the whole system
-/

namespace PP.Spec

variable {n d : ℕ} {S : Type} [DecidableEq S]

/-- The non-Gaussian parameter of the displacements of the particles of species `a` between frames `i` and `j`. -/
noncomputable def speciesAlpha (sp : Fin n → S) (a : S) (x : ℕ → Frame n d ℝ) (i j : ℕ) : ℝ :=
  let r2 : Fin n → ℝ := fun p => ∑ c, (x j p c - x i p c) ^ 2
  let A : Finset (Fin n) := Finset.univ.filter (sp · = a)
  if i = j then 0 else 3 * ((∑ p ∈ A, r2 p ^ 2) / A.card) / (5 * ((∑ p ∈ A, r2 p) / A.card) ^ 2) - 1

/-- Average of `k i (i + j)` over the time origins `i = 0, s, 2s, ...` of `N` frames. -/
noncomputable def originMean (N s : ℕ) (k : ℕ → ℕ → ℝ) (j : ℕ) : ℝ :=
  (∑ i ∈ (Finset.range (N - j)).filter (s ∣ ·), k i (i + j)) / (((Finset.range (N - j)).filter (s ∣ ·)).card : ℝ)

end PP.Spec

namespace PP.Props
open PP

variable {n d : ℕ} {S : Type} [DecidableEq S]

/-- The command alpha2 for frames saved at regular intervals: the times are the same for all systems of particles. -/
theorem alpha2_regular (o : TimeOptions)
    (hfunc : o.func ∈ ["linear".toList, "linear_grid".toList, "logx".toList, "logx_grid".toList]) (hts : 2 ≤ o.tsamples)
    (h : 0 < o.tmax ∨ 0 < o.fraction) (N : ℕ) (hN : 0 < N) (s0 m : ℤ) (hm : 0 < m) (tr : Traj ℝ)
    (hst : tr.steps = (List.range N).map fun i : ℕ => s0 + m * i) (hbs : tr.blockSize = 1) (hdt : 0 < tr.timestep)
    (hT : 0 ≤ tr.totalTime) (s : ℕ) (hs : 0 < s) (hskip : adjustSkip tr.steps.length tr.blockSize tr.npart o.norigins = .ok (s : ℤ)) :
    ∃ js : List ℕ, js.Pairwise (· < ·) ∧ js.head? = some 0 ∧ (∀ j ∈ js, j < N) ∧
      ∀ (M : ℕ) (_ : 0 < M) (y : ℕ → Frame M d ℝ) (_ : ∀ i j, i < j → j < N → y i ≠ y j),
        timeCommand .alpha2 o tr ((List.range N).map y) = some (.ok (js.map fun j : ℕ => ((m * j : ℤ) : ℝ) * tr.timestep,
          js.map fun j => some (Spec.originMean N s (Spec.pairValue .alpha2 y) j))) := by
  have hlen : tr.steps.length = N := by rw [hst]; simp
  obtain ⟨f, hf⟩ : ∃ f, funcOf o.func = .ok f := by
    simp only [List.mem_cons, List.not_mem_nil, or_false] at hfunc
    rcases hfunc with e | e | e | e <;> rw [e] <;> exact ⟨_, rfl⟩
  have hL : 0 ≤ lastTime .alpha2 tr.totalTime o.tmax o.fraction := by
    unfold lastTime
    split_ifs with h1 h2
    · exact le_min hT h1.le
    · exact h1.le
    · exact mul_nonneg ((h.resolve_left h1).le) hT
  obtain ⟨g, hg, -⟩ := grid_ends f o.tsamples hts tr.timestep _ hdt hL
  have hgrid : (do
      let f ← funcOf o.func
      apiTimeGrid .alpha2 (f.grid o.tsamples) tr.timestep tr.totalTime o.tmax o.fraction) = .ok (some (0 :: g)) := by
    rw [hf]
    exact apiTimeGrid_eq .alpha2 _ _ _ _ _ h g hg
  obtain ⟨dg, r0, e1, e2, js, j1, j2, j3, j4⟩ := regular_corr N hN s0 m hm tr.timestep hdt tr hst hbs rfl s hs (fun _ => ())
    (fun _ _ => .ok (some 0)) (fun _ _ => 0) (fun _ _ _ _ => rfl) (fun _ _ => ⟨_, rfl⟩) (0 :: g) (by simp) o.norigins.offset
  refine ⟨js, j1, j2, j3, fun M hM y hy => ?_⟩
  have hM' : (M : ℝ) ≠ 0 := by exact_mod_cast hM.ne'
  have hpp : ∀ z : ℝ, perParticle M z = some (z / M) := fun z => by unfold perParticle; rw [if_neg hM.ne']
  have hz : (((List.range N).map y).zipIdx.map fun e => (e.2, e.1)) = (List.range N).map fun i => (i, y i) := by
    apply List.ext_getElem
    · simp
    · intro i h1 h2
      simp
  have hnd : ((List.range N).map y).Nodup := by
    rw [List.nodup_map_iff_inj_on List.nodup_range]
    intro i hi j hj e
    rw [List.mem_range] at hi hj
    rcases lt_trichotomy i j with h | h | h
    · exact absurd e (hy i j h hj)
    · exact h
    · exact absurd e.symm (hy j i h hi)
  obtain ⟨dg', r, e1', e2', js', k1, k2, k3, k4⟩ := regular_corr N hN s0 m hm tr.timestep hdt tr hst hbs rfl s hs (fun i => (i, y i))
    alpha2Kernel (Spec.pairValue .alpha2 y)
    (fun i j hij hj => by
      unfold alpha2Kernel Spec.pairValue
      simp only
      by_cases e : i = j
      · rw [if_pos e.symm, if_pos e]
      · rw [if_neg (Ne.symm e), if_neg e, hpp, hpp]
        have hne : sqDisp (y j) (y i) / (M : ℝ) ≠ 0 := by
          rw [← moment_one]
          exact (moment_one_pos _ _ (hy i j (by omega) hj).symm).ne'
        simp only [if_neg hne]
        rfl)
    (fun a b => by unfold alpha2Kernel; split_ifs <;> exact ⟨_, rfl⟩) (0 :: g) (by simp) o.norigins.offset
  obtain rfl : dg = dg' := by rw [e1] at e1'; exact Except.ok.inj e1'
  have c1 := timeCorr_closed (dg := dg) (tr := tr) (x := (List.range N).map fun _ : ℕ => ()) (f := fun _ _ => .ok (some (0 : ℝ)))
    (g := fun _ _ => 0) hs (by rw [hlen]; simp) (fun a _ b _ => rfl)
  have c2 := timeCorr_closed (dg := dg) (tr := tr) (x := (List.range N).map fun i => (i, y i)) (f := alpha2Kernel)
    (g := fun a b => ratio a.2 b.2) hs (by rw [hlen]; simp) (by rw [← hz]; exact alpha2Kernel_ratio _ hnd)
  rw [e2] at c1
  rw [e2'] at c2
  have t1 := congrArg Prod.fst (Except.ok.inj c1)
  have t2 := congrArg Prod.fst (Except.ok.inj c2)
  rw [j4] at t1
  rw [k4] at t2
  simp only [List.length_map] at t1 t2
  have hjs : js = js' := by
    have e := t1.trans t2.symm
    refine List.map_injective_iff.2 (fun a b hab => ?_) e
    have h1 := mul_right_cancel₀ hdt.ne' hab
    have h2 : m * (a : ℤ) = m * (b : ℤ) := by exact_mod_cast h1
    exact_mod_cast mul_left_cancel₀ hm.ne' h2
  unfold timeCommand
  simp only [hgrid]
  show some (alpha2Run (.object tr) (some (0 :: g)) 30 o.norigins _) = _
  unfold alpha2Run alpha2Init timeInit TrajArg.traj
  simp only
  rw [hskip]
  show some ((setupTGrid tr.steps tr.blockSize tr.timestep (0 :: g) o.norigins.offset >>= _) >>= _) = _
  rw [e1]
  show some (timeCorr (Arith.nan ℝ) alpha2Kernel tr dg s (((List.range N).map y).zipIdx.map fun e => (e.2, e.1))) = _
  rw [hz, e2', k4, hjs]
  rfl

theorem pairValue_species (sp : Fin n → S) (a : S) (x : ℕ → Frame n d ℝ) :
    Spec.pairValue .alpha2 (fun i => speciesFrame sp a (x i)) = Spec.speciesAlpha sp a x := by
  funext i j
  unfold Spec.pairValue Spec.speciesAlpha
  simp only
  rw [← sum_speciesPlaces sp a, ← sum_speciesPlaces sp a, ← speciesPlaces_length]
  rfl

/-- Between two frames the value of the whole system is not below the smallest one of the species. -/
theorem alpha_mixture (sp : Fin n → S) (x : ℕ → Frame n d ℝ) (i j : ℕ)
    (hx : i ≠ j → ∀ a ∈ Finset.univ.image sp, 0 < ∑ p ∈ Finset.univ.filter (sp · = a), ∑ c, (x j p c - x i p c) ^ 2) (hn : 0 < n) (b : S)
    (hb : ∀ a ∈ Finset.univ.image sp, Spec.speciesAlpha sp b x i j ≤ Spec.speciesAlpha sp a x i j) :
    Spec.speciesAlpha sp b x i j ≤ Spec.pairValue .alpha2 x i j := by
  by_cases hij : i = j
  · unfold Spec.speciesAlpha Spec.pairValue
    simp [hij]
  set F := Finset.univ.image sp with hF
  set r2 : Fin n → ℝ := fun p => ∑ c, (x j p c - x i p c) ^ 2 with hr2
  set A : S → Finset (Fin n) := fun a => Finset.univ.filter (sp · = a) with hA
  have hcard : ∀ a ∈ F, (0 : ℝ) < (A a).card := by
    intro a ha
    obtain ⟨p, -, hp⟩ := Finset.mem_image.1 ha
    exact_mod_cast Finset.card_pos.2 ⟨p, by simp [hA, hp]⟩
  have hS : ∀ a ∈ F, 0 < ∑ p ∈ A a, r2 p := hx hij
  have hmaps : ∀ p ∈ (Finset.univ : Finset (Fin n)), sp p ∈ F := fun p _ => Finset.mem_image_of_mem sp (Finset.mem_univ p)
  have s1 : ∑ a ∈ F, ∑ p ∈ A a, r2 p = ∑ p, r2 p := Finset.sum_fiberwise_of_maps_to hmaps r2
  have s2 : ∑ a ∈ F, ∑ p ∈ A a, r2 p ^ 2 = ∑ p, r2 p ^ 2 := Finset.sum_fiberwise_of_maps_to hmaps _
  have s3 : ∑ a ∈ F, ((A a).card : ℝ) = n := by
    have := Finset.card_eq_sum_card_fiberwise hmaps
    rw [Finset.card_univ, Fintype.card_fin] at this
    exact_mod_cast this.symm
  set ρ : S → ℝ := fun a => (A a).card * (∑ p ∈ A a, r2 p ^ 2) / (∑ p ∈ A a, r2 p) ^ 2 with hρ
  have hval : ∀ a, (0 : ℝ) < (A a).card → 0 < ∑ p ∈ A a, r2 p → Spec.speciesAlpha sp a x i j = 3 / 5 * ρ a - 1 := by
    intro a h1 h2
    unfold Spec.speciesAlpha
    simp only [if_neg hij]
    show 3 * ((∑ p ∈ A a, r2 p ^ 2) / (A a).card) / (5 * ((∑ p ∈ A a, r2 p) / (A a).card) ^ 2) - 1 = _
    simp only [hρ]
    field_simp
  have hn' : (0 : ℝ) < n := by exact_mod_cast hn
  have hF0 : F.Nonempty := ⟨sp ⟨0, hn⟩, hmaps _ (Finset.mem_univ _)⟩
  have hSpos : 0 < ∑ p, r2 p := by rw [← s1]; exact Finset.sum_pos hS hF0
  have htot : Spec.pairValue .alpha2 x i j = 3 / 5 * (n * (∑ p, r2 p ^ 2) / (∑ p, r2 p) ^ 2) - 1 := by
    unfold Spec.pairValue
    simp only [if_neg hij]
    show 3 * ((∑ p, r2 p ^ 2) / n) / (5 * ((∑ p, r2 p) / n) ^ 2) - 1 = _
    field_simp
  rw [htot]
  set β := 5 / 3 * (Spec.speciesAlpha sp b x i j + 1) with hβ
  have hβa : ∀ a ∈ F, β ≤ ρ a := by
    intro a ha
    have := hb a ha
    rw [hval a (hcard a ha) (hS a ha)] at this
    rw [hβ]
    linarith
  suffices β ≤ n * (∑ p, r2 p ^ 2) / (∑ p, r2 p) ^ 2 by rw [hβ] at this; linarith
  rw [le_div_iff₀ (by positivity)]
  have hT := Finset.sq_sum_div_le_sum_sq_div F (fun a => ∑ p ∈ A a, r2 p) (g := fun a => ((A a).card : ℝ)) hcard
  rw [s1, s3, div_le_iff₀ hn'] at hT
  have hq : ∀ a ∈ F, (∑ p ∈ A a, r2 p) ^ 2 / (A a).card * β ≤ ∑ p ∈ A a, r2 p ^ 2 := by
    intro a ha
    have h1 := hcard a ha
    have h2 := hS a ha
    have e : ∑ p ∈ A a, r2 p ^ 2 = (∑ p ∈ A a, r2 p) ^ 2 / (A a).card * ρ a := by
      simp only [hρ]
      field_simp
    rw [e]
    exact mul_le_mul_of_nonneg_left (hβa a ha) (by positivity)
  have hsum := Finset.sum_le_sum hq
  rw [s2, ← Finset.sum_mul] at hsum
  by_cases hneg : β ≤ 0
  · have : 0 ≤ (n : ℝ) * ∑ p, r2 p ^ 2 := by positivity
    nlinarith [sq_nonneg (∑ p, r2 p)]
  · push Not at hneg
    nlinarith [mul_le_mul_of_nonneg_left hT hneg.le, mul_le_mul_of_nonneg_left hsum hn'.le]

/-- **C230, what holds**: for frames saved at regular intervals and several species, the command alpha2 gives the non-Gaussian parameter
of the whole system and one for each species, at the same times, each of them averaged over the time origins. At each time the value of
the whole system is not below the one of a species that has the smallest value for each time origin; so with a single time origin it
is not below the smallest one. -/
theorem C230_smallest_partial (o : TimeOptions)
    (hfunc : o.func ∈ ["linear".toList, "linear_grid".toList, "logx".toList, "logx_grid".toList]) (hts : 2 ≤ o.tsamples)
    (h : 0 < o.tmax ∨ 0 < o.fraction) (N : ℕ) (hN : 0 < N) (s0 m : ℤ) (hm : 0 < m) (tr : Traj ℝ)
    (hst : tr.steps = (List.range N).map fun i : ℕ => s0 + m * i) (hbs : tr.blockSize = 1) (hdt : 0 < tr.timestep)
    (hT : 0 ≤ tr.totalTime) (hn : 0 < n) (hnp : tr.npart.head? = some n) (s : ℕ) (hs : Spec.OriginStride o.norigins N n s)
    (sp : Fin n → S) (ids : List S) (hids : ∀ a, a ∈ ids ↔ ∃ p, sp p = a) (h2 : 1 < ids.length)
    (x : ℕ → Frame n d ℝ) (hx : ∀ a ∈ ids, ∀ i j, i < j → j < N → ∃ p c, sp p = a ∧ x i p c ≠ x j p c) :
    ∃ js : List ℕ, js.Pairwise (· < ·) ∧ js.head? = some 0 ∧ (∀ j ∈ js, j < N) ∧
      timeCommand .alpha2 o tr ((List.range N).map x) = some (.ok (js.map fun j : ℕ => ((m * j : ℤ) : ℝ) * tr.timestep,
        js.map fun j => some (Spec.originMean N s (Spec.pairValue .alpha2 x) j))) ∧
      timePartials .alpha2 o false tr ids sp ((List.range N).map x) = (ids.map fun a => (a,
        some (.ok (js.map fun j : ℕ => ((m * j : ℤ) : ℝ) * tr.timestep,
          js.map fun j => some (Spec.originMean N s (Spec.speciesAlpha sp a x) j))))) ∧
      ∀ j ∈ js,
        (∀ b ∈ ids, (∀ i, s ∣ i → i + j < N → ∀ a ∈ ids, Spec.speciesAlpha sp b x i (i + j) ≤ Spec.speciesAlpha sp a x i (i + j)) →
          Spec.originMean N s (Spec.speciesAlpha sp b x) j ≤ Spec.originMean N s (Spec.pairValue .alpha2 x) j) ∧
        (s = N → ∃ b ∈ ids, Spec.originMean N s (Spec.speciesAlpha sp b x) j ≤ Spec.originMean N s (Spec.pairValue .alpha2 x) j) := by
  have hlen : tr.steps.length = N := by rw [hst]; simp
  have hskip : adjustSkip tr.steps.length tr.blockSize tr.npart o.norigins = .ok (s : ℤ) := by
    rw [hlen, hbs]
    exact adjustSkip_stride o.norigins N hN tr.npart hnp s hs
  have hsk : 0 < s := by
    have := adjustSkip_pos (by omega) hskip
    simpa using this
  have himg : ∀ a, a ∈ Finset.univ.image sp ↔ a ∈ ids := by
    intro a
    rw [hids]
    simp
  obtain ⟨js, j1, j2, j3, j4⟩ := alpha2_regular (d := d) o hfunc hts h N hN s0 m hm tr hst hbs hdt hT s hsk hskip
  have h0 : 0 < ids.length := by omega
  have key : ∀ j ∈ js, ∀ b ∈ ids,
      (∀ i, s ∣ i → i + j < N → ∀ a ∈ ids, Spec.speciesAlpha sp b x i (i + j) ≤ Spec.speciesAlpha sp a x i (i + j)) →
      Spec.originMean N s (Spec.speciesAlpha sp b x) j ≤ Spec.originMean N s (Spec.pairValue .alpha2 x) j := by
    intro j hj b hb hle
    unfold Spec.originMean
    refine div_le_div_of_nonneg_right (Finset.sum_le_sum fun i hi => ?_) (Nat.cast_nonneg _)
    obtain ⟨h1, h3⟩ := Finset.mem_filter.1 hi
    rw [Finset.mem_range] at h1
    refine alpha_mixture sp x i (i + j) (fun hij a ha => ?_) hn b fun a ha => hle i h3 (by omega) a ((himg a).1 ha)
    obtain ⟨p, c, hp, hc⟩ := hx a ((himg a).1 ha) i (i + j) (by omega) (by omega)
    refine Finset.sum_pos' (fun p _ => Finset.sum_nonneg fun c _ => sq_nonneg _) ⟨p, by simp [hp], ?_⟩
    refine Finset.sum_pos' (fun c _ => sq_nonneg _) ⟨c, Finset.mem_univ c, ?_⟩
    have : x (i + j) p c - x i p c ≠ 0 := sub_ne_zero.2 hc.symm
    positivity
  refine ⟨js, j1, j2, j3, ?_, ?_, fun j hj => ⟨key j hj, fun hsN => ?_⟩⟩
  · refine j4 n hn x fun i j hij hj e => ?_
    obtain ⟨p, c, -, hc⟩ := hx (ids[0]) (List.getElem_mem h0) i j hij hj
    exact hc (by rw [e])
  · unfold timePartials
    rw [if_pos ⟨h2, rfl⟩]
    refine List.map_congr_left fun a ha => ?_
    rw [List.map_map]
    have hp : 0 < (speciesPlaces sp a).length := by
      obtain ⟨p, hp⟩ := (hids a).1 ha
      rw [speciesPlaces_length]
      exact Finset.card_pos.2 ⟨p, by simp [hp]⟩
    have e := j4 _ hp (fun i => speciesFrame sp a (x i)) fun i j hij hj e => by
      obtain ⟨p, c, hpa, hc⟩ := hx a ha i j hij hj
      have hm : p ∈ speciesPlaces sp a := by simp [speciesPlaces, hpa]
      obtain ⟨q, hq, rfl⟩ := List.getElem_of_mem hm
      exact hc (congrFun (congrFun e ⟨q, hq⟩) c)
    rw [pairValue_species] at e
    exact congrArg (Prod.mk a) e
  · obtain ⟨b, hb, hmin⟩ := Finset.exists_min_image (Finset.univ.image sp) (fun a => Spec.speciesAlpha sp a x 0 (0 + j))
      ⟨sp ⟨0, hn⟩, Finset.mem_image_of_mem sp (Finset.mem_univ _)⟩
    refine ⟨b, (himg b).1 hb, key j hj b ((himg b).1 hb) fun i hi hij a ha => ?_⟩
    have : i = 0 := Nat.eq_zero_of_dvd_of_lt hi (by omega)
    subst this
    exact hmin a ((himg a).2 ha)

/-- Four particles on a line in three frames. -/
noncomputable def exTurns (i : ℕ) : Frame 4 1 ℝ := fun p _ =>
  match i with
  | 0 => 0
  | 1 => ![1, 1, 1, 0] p
  | _ => ![2, 1, 2, 1] p

/-- Frames saved every ten steps. -/
noncomputable def exTurnsTraj : Traj ℝ :=
  { steps := [0, 10, 20], timestep := 1 / 10, blockSize := 1, totalTime := 2, npart := [4, 4, 4] }

/-- Options of the command: times up to 1, the number of time origins. -/
noncomputable def exTurnsOptions (k : ℚ) : TimeOptions :=
  { tmax := 1, fraction := -1, tsamples := 2, func := "linear".toList, norigins := .num k, rmsdMax := -1, noOffset := false }

/-- Two particles of each species. -/
def exTurnsSpecies : Fin 4 → Char := !['A', 'A', 'B', 'B']

theorem exTurns_values : (![1, 1, 1, 0] : Fin 4 → ℝ) 2 = 1 ∧ (![1, 1, 1, 0] : Fin 4 → ℝ) 3 = 0 ∧
    (![2, 1, 2, 1] : Fin 4 → ℝ) 2 = 2 ∧ (![2, 1, 2, 1] : Fin 4 → ℝ) 3 = 1 := ⟨rfl, rfl, rfl, rfl⟩

theorem exTurns_moves : ∀ a ∈ ['A', 'B'], ∀ i j, i < j → j < 3 → ∃ p c, exTurnsSpecies p = a ∧ exTurns i p c ≠ exTurns j p c := by
  intro a ha i j hij hj
  simp only [List.mem_cons, List.not_mem_nil, or_false] at ha
  have : (i = 0 ∧ j = 1) ∨ (i = 0 ∧ j = 2) ∨ (i = 1 ∧ j = 2) := by omega
  rcases ha with rfl | rfl <;> rcases this with ⟨rfl, rfl⟩ | ⟨rfl, rfl⟩ | ⟨rfl, rfl⟩
  · exact ⟨0, 0, rfl, by norm_num [exTurns, exTurns_values]⟩
  · exact ⟨0, 0, rfl, by norm_num [exTurns, exTurns_values]⟩
  · exact ⟨0, 0, rfl, by norm_num [exTurns, exTurns_values]⟩
  · exact ⟨2, 0, rfl, by norm_num [exTurns, exTurns_values]⟩
  · exact ⟨2, 0, rfl, by norm_num [exTurns, exTurns_values]⟩
  · exact ⟨3, 0, rfl, by norm_num [exTurns, exTurns_values]⟩

theorem exTurns_case (k : ℚ) (s : ℕ) (hs : Spec.OriginStride (.num k) 3 4 s) :
    ∃ js : List ℕ, timeCommand .alpha2 (exTurnsOptions k) exTurnsTraj ((List.range 3).map exTurns) =
        some (.ok (js.map fun j : ℕ => (((10 : ℤ) * j : ℤ) : ℝ) * exTurnsTraj.timestep,
          js.map fun j => some (Spec.originMean 3 s (Spec.pairValue .alpha2 exTurns) j))) ∧
      timePartials .alpha2 (exTurnsOptions k) false exTurnsTraj ['A', 'B'] exTurnsSpecies ((List.range 3).map exTurns) =
        (['A', 'B'].map fun a => (a, some (.ok (js.map fun j : ℕ => (((10 : ℤ) * j : ℤ) : ℝ) * exTurnsTraj.timestep,
          js.map fun j => some (Spec.originMean 3 s (Spec.speciesAlpha exTurnsSpecies a exTurns) j))))) ∧
      (s = 3 → ∀ j ∈ js, ∃ b ∈ ['A', 'B'], Spec.originMean 3 s (Spec.speciesAlpha exTurnsSpecies b exTurns) j ≤
        Spec.originMean 3 s (Spec.pairValue .alpha2 exTurns) j) ∧ 1 ∈ js := by
  have hf : (exTurnsOptions k).func ∈ ["linear".toList, "linear_grid".toList, "logx".toList, "logx_grid".toList] := by
    show "linear".toList ∈ _
    exact List.mem_cons_self
  have ht : 2 ≤ (exTurnsOptions k).tsamples := le_rfl
  have hm : 0 < (exTurnsOptions k).tmax := by norm_num [exTurnsOptions]
  have hst : exTurnsTraj.steps = (List.range 3).map fun i : ℕ => (0 : ℤ) + 10 * i := by
    simp [exTurnsTraj, List.range_succ]
  have hdt : 0 < exTurnsTraj.timestep := by norm_num [exTurnsTraj]
  have hT : 0 ≤ exTurnsTraj.totalTime := by norm_num [exTurnsTraj]
  obtain ⟨js, j1, -, -, e1, e2, e3⟩ := C230_smallest_partial (exTurnsOptions k) hf ht (Or.inl hm) 3 (by norm_num) 0 10 (by norm_num)
    exTurnsTraj hst rfl hdt hT (by norm_num) rfl s hs exTurnsSpecies ['A', 'B'] (by
      intro a
      simp [exTurnsSpecies, Fin.exists_fin_succ, eq_comm]) (by decide) exTurns exTurns_moves
  have hskip : adjustSkip exTurnsTraj.steps.length exTurnsTraj.blockSize exTurnsTraj.npart (exTurnsOptions k).norigins = .ok (s : ℤ) :=
    adjustSkip_stride _ 3 (by norm_num) _ rfl s hs
  obtain ⟨r, hr, -, -, -, -, t, ht1, ht2⟩ := C217_times_partial .alpha2 (by decide) (exTurnsOptions k) hf ht (Or.inl hm) exTurnsTraj
    (by simp [exTurnsTraj]) (by simp [exTurnsTraj]) one_pos hdt hT s hskip ((List.range 3).map exTurns) rfl
  refine ⟨js, e1, e2, fun h j hj => (e3 j hj).2 h, ?_⟩
  rw [e1] at hr
  rw [← Except.ok.inj (Option.some.inj hr)] at ht1
  obtain ⟨j, hj, rfl⟩ := List.mem_map.1 ht1
  have hlast : lastTime .alpha2 exTurnsTraj.totalTime (exTurnsOptions k).tmax (exTurnsOptions k).fraction = 1 := by
    simp [lastTime, exTurnsOptions, exTurnsTraj]
  have hd : exTurnsTraj.timestep = 1 / 10 := rfl
  have h1 := ht2 0 10 rfl (by simp [exTurnsTraj])
  rw [hlast, hd] at h1
  norm_num [abs_le] at h1
  have h2 : (j : ℝ) < 2 := by linarith [h1.2]
  have h3 : (0 : ℝ) < j := by linarith [h1.1]
  have h2' : j < 2 := by exact_mod_cast h2
  have h3' : 0 < j := by exact_mod_cast h3
  have : j = 1 := by omega
  rwa [this] at hj

/-- A case: the first frame is the only time origin. -/
example : ∃ js : List ℕ, timeCommand .alpha2 (exTurnsOptions 1) exTurnsTraj ((List.range 3).map exTurns) =
        some (.ok (js.map fun j : ℕ => (((10 : ℤ) * j : ℤ) : ℝ) * exTurnsTraj.timestep,
          js.map fun j => some (Spec.originMean 3 3 (Spec.pairValue .alpha2 exTurns) j))) ∧ 1 ∈ js ∧
      ∀ j ∈ js, ∃ b ∈ ['A', 'B'], Spec.originMean 3 3 (Spec.speciesAlpha exTurnsSpecies b exTurns) j ≤
        Spec.originMean 3 3 (Spec.pairValue .alpha2 exTurns) j := by
  obtain ⟨js, h1, -, h2, h3⟩ := exTurns_case 1 3 (Or.inr (Or.inl ⟨rfl, rfl⟩))
  exact ⟨js, h1, h3, h2 rfl⟩

/-- **C230** is false with several time origins: in the first interval three particles move by one, both of species `A` and one of
species `B`, in the second one the species exchange their roles. At time 1 the value of the whole system is -1/5, that of each species
-1/10. -/
theorem C230_counterexample :
    ∃ (ts total A B : List ℝ), timeCommand .alpha2 (exTurnsOptions (-1)) exTurnsTraj ((List.range 3).map exTurns) =
        some (.ok (ts, total.map some)) ∧
      timePartials .alpha2 (exTurnsOptions (-1)) false exTurnsTraj ['A', 'B'] exTurnsSpecies ((List.range 3).map exTurns) =
        [('A', some (.ok (ts, A.map some))), ('B', some (.ok (ts, B.map some)))] ∧
      ∃ i : ℕ, ts[i]? = some 1 ∧ total[i]? = some (-1 / 5) ∧ A[i]? = some (-1 / 10) ∧ B[i]? = some (-1 / 10) := by
  obtain ⟨js, h1, h2, -, h3⟩ := exTurns_case (-1) 1 (Or.inl ⟨by norm_num, rfl⟩)
  obtain ⟨i, hi, e⟩ := List.getElem_of_mem h3
  have hi' : js[i]? = some 1 := by rw [List.getElem?_eq_getElem hi, e]
  have hF : (Finset.range (3 - 1)).filter ((1 : ℕ) ∣ ·) = {0, 1} := by decide
  have hA : (Finset.univ.filter (exTurnsSpecies · = 'A')) = {0, 1} := by decide
  have hB : (Finset.univ.filter (exTurnsSpecies · = 'B')) = {2, 3} := by decide
  refine ⟨js.map fun j : ℕ => (((10 : ℤ) * j : ℤ) : ℝ) * exTurnsTraj.timestep,
    js.map fun j => Spec.originMean 3 1 (Spec.pairValue .alpha2 exTurns) j,
    js.map fun j => Spec.originMean 3 1 (Spec.speciesAlpha exTurnsSpecies 'A' exTurns) j,
    js.map fun j => Spec.originMean 3 1 (Spec.speciesAlpha exTurnsSpecies 'B' exTurns) j, ?_, ?_, i, ?_, ?_, ?_, ?_⟩
  · rw [h1, List.map_map]
    rfl
  · rw [h2]
    simp only [List.map_cons, List.map_nil, List.map_map]
    rfl
  · rw [List.getElem?_map, hi']
    norm_num [exTurnsTraj]
  · rw [List.getElem?_map, hi']
    simp only [Option.map_some, Spec.originMean, hF]
    norm_num [Spec.pairValue, exTurns, Fin.sum_univ_four, exTurns_values]
  · rw [List.getElem?_map, hi']
    simp only [Option.map_some, Spec.originMean, hF]
    norm_num [Spec.speciesAlpha, hA, exTurns]
  · rw [List.getElem?_map, hi']
    simp only [Option.map_some, Spec.originMean, hF]
    have hc : ((({2, 3} : Finset (Fin 4)).card : ℕ) : ℝ) = 2 := by
      have : ({2, 3} : Finset (Fin 4)).card = 2 := by decide
      rw [this]
      norm_num
    have hs : ∀ f : Fin 4 → ℝ, ∑ p ∈ ({2, 3} : Finset (Fin 4)), f p = f 2 + f 3 := fun f => Finset.sum_pair (by decide)
    norm_num [Spec.speciesAlpha, hB, hc, hs, exTurns, exTurns_values]

end PP.Props
