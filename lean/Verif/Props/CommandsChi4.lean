import Verif.Model.CommandsChi4
import Verif.Props.CommandsPartial
import Verif.Props.Chi4Run
import Mathlib.Analysis.InnerProductSpace.PiL2

/-!
# C231: the dynamic susceptibilities that the command chi4qs gives for the species and for the whole system
-/

namespace PP.Spec

/-- Number of particles of species `b` displaced by less than `a` between frames `i0` and `i0 + i`, for every `i0` in a list of
origins. -/
noncomputable def speciesOverlaps {n d : ℕ} {S : Type} [DecidableEq S] (a : ℝ) (sp : Fin n → S) (b : S) (x : List (Frame n d ℝ)) (i : ℕ)
    (origins : List ℕ) : List ℝ :=
  origins.filterMap fun i0 => do
    let u ← x[i0]?
    let v ← x[i0 + i]?
    some ((Finset.univ.filter fun p => sp p = b ∧ disp2 u v p < a ^ 2).card : ℝ)

end PP.Spec

namespace PP.Props
open PP

variable {n d : ℕ} {S : Type} [DecidableEq S]

/-- The standard deviation of a sum is at most the sum of the standard deviations. -/
theorem sqrt_variance_sum {α : Type} (F : Finset S) (l : List α) (f : S → α → ℝ) :
    √(Spec.variance (l.map fun e => ∑ b ∈ F, f b e)) ≤ ∑ b ∈ F, √(Spec.variance (l.map (f b))) := by
  set v : (α → ℝ) → EuclideanSpace ℝ (Fin l.length) := fun h => WithLp.toLp 2 fun i => (h l[i] - Spec.mean (l.map h)) / √(l.length : ℝ) with hv
  have hnorm : ∀ h : α → ℝ, √(Spec.variance (l.map h)) = ‖v h‖ := by
    intro h
    rw [EuclideanSpace.norm_eq]
    congr 1
    unfold Spec.variance
    rw [List.map_map]
    have e : ∀ i, ‖v h i‖ ^ 2 = (h l[i] - Spec.mean (l.map h)) ^ 2 / (l.length : ℝ) := by
      intro i
      rw [Real.norm_eq_abs, sq_abs, hv]
      simp only
      rw [div_pow, Real.sq_sqrt (Nat.cast_nonneg _)]
    simp only [e]
    rw [← Finset.sum_div]
    rw [show Spec.mean (l.map ((fun a => (a - Spec.mean (l.map h)) ^ 2) ∘ h)) =
      (l.map ((fun a => (a - Spec.mean (l.map h)) ^ 2) ∘ h)).sum / ((l.map ((fun a => (a - Spec.mean (l.map h)) ^ 2) ∘ h)).length : ℝ) from rfl]
    rw [List.length_map]
    congr 1
    rw [← List.sum_ofFn]
    congr 1
    apply List.ext_getElem <;> simp
  have hlin : v (fun e => ∑ b ∈ F, f b e) = ∑ b ∈ F, v (f b) := by
    ext i
    rw [WithLp.ofLp_sum, Finset.sum_apply]
    simp only [hv]
    rw [mean_sum_map, ← Finset.sum_sub_distrib, Finset.sum_div]
  rw [hnorm, hlin]
  refine (norm_sum_le _ _).trans (le_of_eq ?_)
  exact Finset.sum_congr rfl fun b _ => (hnorm (f b)).symm

/-- The pairs of frames used for the susceptibility. -/
def chi4PairsOf (x : List (Frame n d ℝ)) (i : ℕ) (origins : List ℕ) : List (Frame n d ℝ × Frame n d ℝ) :=
  origins.filterMap fun i0 => do
    let u ← x[i0]?
    let v ← x[i0 + i]?
    some (u, v)

theorem overlaps_frames (a : ℝ) (x : List (Frame n d ℝ)) (i : ℕ) (origins : List ℕ) :
    Spec.overlaps a x i origins = (chi4PairsOf x i origins).map fun q =>
      ∑ p, if Spec.disp2 q.1 q.2 p < a ^ 2 then (1 : ℝ) else 0 := by
  unfold Spec.overlaps chi4PairsOf
  rw [List.map_filterMap]
  refine List.filterMap_congr fun i0 _ => ?_
  cases x[i0]? <;> cases x[i0 + i]? <;> simp

theorem overlaps_species (a : ℝ) (sp : Fin n → S) (b : S) (x : List (Frame n d ℝ)) (i : ℕ) (origins : List ℕ) :
    Spec.overlaps a (x.map (speciesFrame sp b)) i origins = (chi4PairsOf x i origins).map fun q =>
      ∑ p ∈ Finset.univ.filter (sp · = b), if Spec.disp2 q.1 q.2 p < a ^ 2 then (1 : ℝ) else 0 := by
  rw [overlaps_frames]
  have : chi4PairsOf (x.map (speciesFrame sp b)) i origins =
      (chi4PairsOf x i origins).map fun q => (speciesFrame sp b q.1, speciesFrame sp b q.2) := by
    unfold chi4PairsOf
    rw [List.map_filterMap]
    refine List.filterMap_congr fun i0 _ => ?_
    rw [List.getElem?_map, List.getElem?_map]
    cases x[i0]? <;> cases x[i0 + i]? <;> rfl
  rw [this, List.map_map]
  refine List.map_congr_left fun q _ => ?_
  rw [← sum_speciesPlaces sp b]
  rfl

theorem overlaps_filter (a : ℝ) (sp : Fin n → S) (b : S) (x : List (Frame n d ℝ)) (i : ℕ) (origins : List ℕ) :
    Spec.overlaps a (x.map (speciesFrame sp b)) i origins = Spec.speciesOverlaps a sp b x i origins := by
  rw [overlaps_species]
  unfold Spec.speciesOverlaps chi4PairsOf
  rw [List.map_filterMap]
  refine List.filterMap_congr fun i0 _ => ?_
  cases x[i0]? <;> cases x[i0 + i]? <;> simp [← Finset.filter_filter]

theorem forall2_map {α β : Type} {f : α → β} : ∀ {l : List α} {m : List β}, List.Forall₂ (fun p v => v = f p) l m → m = l.map f
  | _, _, .nil => rfl
  | _, _, .cons h t => by rw [h, forall2_map t]; rfl

/-- **C231.** With several species, the command chi4qs gives the function of the whole system with the option `total` and one function
for each species without it, at the same times: the variances over the time origins of the number of particles displaced by less than
`a`, divided by the number of particles. At each time the average overlap of the whole system is the sum of those of the
species, and the square root of the number of particles times the susceptibility is at most the sum of those of the species. With
`total` there are no partial functions, without it there is no total one. -/
theorem C231_species (o : TimeOptions)
    (hfunc : o.func ∈ ["linear".toList, "linear_grid".toList, "logx".toList, "logx_grid".toList]) (hm : 2 ≤ o.tsamples)
    (h : 0 < o.tmax ∨ 0 < o.fraction) (a : ℝ) (tr : Traj ℝ) (hne : tr.steps ≠ [])
    (hbs : 0 < tr.blockSize) (hdt : 0 < tr.timestep) (hT : 0 ≤ tr.totalTime) (skip : ℤ)
    (hskip : adjustSkip tr.steps.length tr.blockSize tr.npart o.norigins = .ok skip)
    (x : List (Frame n d ℝ)) (hx : x.length = tr.steps.length) (hn : 0 < n) (sp : Fin n → S) (ids : List S)
    (hids : ∀ b, b ∈ ids ↔ ∃ p, sp p = b) (h2 : 1 < ids.length) :
    ∃ (ts total avg : List ℝ) (part pavg : S → List ℝ), chi4Total o true a tr x = some (.ok (ts, total, avg)) ∧
      chi4Partials o false a tr ids sp x = (ids.map fun b => (b, .ok (ts, part b, pavg b))) ∧
      chi4Total o false a tr x = none ∧ chi4Partials o true a tr ids sp x = [] ∧
      total.length = ts.length ∧ avg.length = ts.length ∧ (∀ b, (part b).length = ts.length ∧ (pavg b).length = ts.length) ∧
      ∀ i < ts.length, (∃ q : ℕ × ℕ, q.1 + q.2 < x.length ∧ ts.getD i 0 = ((Spec.lag tr.steps q : ℤ) : ℝ) * tr.timestep ∧
          total.getD i 0 = Spec.variance (Spec.overlaps a x q.2 (Spec.chi4Origins x.length skip.toNat q)) / n ∧
          avg.getD i 0 = Spec.mean (Spec.overlaps a x q.2 (Spec.chi4Origins x.length skip.toNat q)) ∧
          ∀ b ∈ ids, (part b).getD i 0 = Spec.variance (Spec.speciesOverlaps a sp b x q.2 (Spec.chi4Origins x.length skip.toNat q)) /
            (Finset.univ.filter (sp · = b)).card) ∧
        avg.getD i 0 = ∑ b ∈ Finset.univ.image sp, (pavg b).getD i 0 ∧
        √(n * total.getD i 0) ≤ ∑ b ∈ Finset.univ.image sp, √((Finset.univ.filter (sp · = b)).card * (part b).getD i 0) := by
  obtain ⟨f, hf⟩ : ∃ f, funcOf o.func = .ok f := by
    simp only [List.mem_cons, List.not_mem_nil, or_false] at hfunc
    rcases hfunc with e | e | e | e <;> rw [e] <;> exact ⟨_, rfl⟩
  have hL : 0 ≤ lastTime .chi4qs tr.totalTime o.tmax o.fraction := by
    unfold lastTime
    split_ifs with h1 h2
    · exact le_min hT h1.le
    · exact h1.le
    · exact mul_nonneg ((h.resolve_left h1).le) hT
  obtain ⟨g, hg, -⟩ := grid_ends f o.tsamples hm tr.timestep _ hdt hL
  have hgrid : apiTimeGrid .chi4qs (f.grid o.tsamples) tr.timestep tr.totalTime o.tmax o.fraction = .ok (some (0 :: g)) :=
    apiTimeGrid_eq .chi4qs _ _ _ _ _ h g hg
  have hrun : ∀ {N : ℕ} (y : List (Frame N d ℝ)), chi4Results o a tr y =
      (chi4Run (.object tr) (some (0 :: g)) 60 o.norigins a y >>= fun s => .ok (s.grid, s.value, s.average)) := by
    intro N y
    unfold chi4Results chi4Command
    rw [hf]
    show ((apiTimeGrid .chi4qs (f.grid o.tsamples) tr.timestep tr.totalTime o.tmax o.fraction >>= _) >>= _) = _
    rw [hgrid]
    rfl
  obtain ⟨dg, hdg, hin, -⟩ := setupTGrid_spec tr.steps tr.blockSize tr.timestep (0 :: g) o.norigins.offset _ rfl
    (by cases o.norigins.offset <;> simp [hbs]) hne hdt.ne'
  set O : ℕ × ℕ → List ℕ := fun p => Spec.chi4Origins x.length skip.toNat p with hO
  have hres : ∀ {N : ℕ} (y : List (Frame N d ℝ)), y.length = x.length → chi4Results o a tr y =
      .ok (dg.map fun p => ((Spec.lag tr.steps p : ℤ) : ℝ) * tr.timestep,
        dg.map fun p => Spec.variance (Spec.overlaps a y p.2 (O p)) / (N : ℝ), dg.map fun p => Spec.mean (Spec.overlaps a y p.2 (O p))) := by
    intro N y hy
    obtain ⟨s, dg', k1, k2, k3, k4, k5⟩ := C31_run (.object tr) (0 :: g) 60 o.norigins a y (hy.trans hx) hne hdt.ne' hbs hskip
    have k2' : setupTGrid tr.steps tr.blockSize tr.timestep (0 :: g) o.norigins.offset = .ok dg' := k2
    obtain rfl : dg = dg' := by rw [hdg] at k2'; exact Except.ok.inj k2'
    rw [hrun, k1]
    show Except.ok (s.grid, s.value, s.average) = _
    rw [hy] at k4 k5
    rw [forall2_map k3, forall2_map k4, forall2_map k5]
    rfl
  have hcard : ∀ b, (speciesPlaces sp b).length = (Finset.univ.filter (sp · = b)).card := speciesPlaces_length sp
  refine ⟨dg.map fun p => ((Spec.lag tr.steps p : ℤ) : ℝ) * tr.timestep,
    dg.map fun p => Spec.variance (Spec.overlaps a x p.2 (O p)) / (n : ℝ), dg.map fun p => Spec.mean (Spec.overlaps a x p.2 (O p)),
    fun b => dg.map fun p => Spec.variance (Spec.overlaps a (x.map (speciesFrame sp b)) p.2 (O p)) / ((speciesPlaces sp b).length : ℝ),
    fun b => dg.map fun p => Spec.mean (Spec.overlaps a (x.map (speciesFrame sp b)) p.2 (O p)), ?_, ?_, rfl, ?_, by simp, by simp, by simp, ?_⟩
  · unfold chi4Total
    rw [if_pos rfl, hres x rfl]
  · unfold chi4Partials
    rw [if_pos ⟨rfl, h2⟩]
    refine List.map_congr_left fun b _ => ?_
    rw [hres _ (by simp)]
  · unfold chi4Partials
    simp
  · intro i hi
    rw [List.length_map] at hi
    have hgetD : ∀ f : ℕ × ℕ → ℝ, (dg.map f).getD i 0 = f dg[i] := by
      intro f
      rw [List.getD_eq_getElem _ _ (by simpa using hi)]
      simp
    refine ⟨⟨dg[i], ?_, hgetD _, hgetD _, hgetD _, fun b _ => ?_⟩, ?_⟩
    · have := hin dg[i] (List.getElem_mem hi)
      unfold Scanned at this
      omega
    · rw [hgetD, overlaps_filter, hcard]
    simp only [hgetD, overlaps_species]
    rw [overlaps_frames]
    set q := dg[i]
    set P := chi4PairsOf x q.2 (O q) with hP
    set w : Frame n d ℝ × Frame n d ℝ → Fin n → ℝ := fun e p => if Spec.disp2 e.1 e.2 p < a ^ 2 then (1 : ℝ) else 0 with hw
    have hsplit : (fun e => ∑ p, w e p) = fun e => ∑ b ∈ Finset.univ.image sp, ∑ p ∈ Finset.univ.filter (sp · = b), w e p := by
      funext e
      exact (Finset.sum_fiberwise_of_maps_to (fun p _ => Finset.mem_image_of_mem sp (Finset.mem_univ p)) (w e)).symm
    have hcan : ∀ (N : ℝ) (v : ℝ), N ≠ 0 → N * (v / N) = v := fun N v hN => by field_simp
    constructor
    · rw [hsplit, mean_sum_map]
    · rw [hcan _ _ (by exact_mod_cast hn.ne'), hsplit]
      refine (sqrt_variance_sum _ P fun b e => ∑ p ∈ Finset.univ.filter (sp · = b), w e p).trans (le_of_eq ?_)
      refine Finset.sum_congr rfl fun b hb => ?_
      rw [hcard, hcan]
      have hp : 0 < (Finset.univ.filter (sp · = b)).card := by
        obtain ⟨p, -, hp⟩ := Finset.mem_image.1 hb
        exact Finset.card_pos.2 ⟨p, by simp [hp]⟩
      exact_mod_cast hp.ne'

/-- The two particles of `exMoving` are of different species; two time origins. -/
example : ∃ (ts total avg : List ℝ) (part pavg : Char → List ℝ),
      chi4Total exEvenOptions true (3 / 2) exEven ((List.range 4).map exMoving) = some (.ok (ts, total, avg)) ∧
      chi4Partials exEvenOptions false (3 / 2) exEven ['A', 'B'] ![('B' : Char), 'A'] ((List.range 4).map exMoving) =
        [('A', .ok (ts, part 'A', pavg 'A')), ('B', .ok (ts, part 'B', pavg 'B'))] ∧
      ∀ i < ts.length, avg.getD i 0 = (pavg 'A').getD i 0 + (pavg 'B').getD i 0 := by
  have hfm : exEvenOptions.func ∈ ["linear".toList, "linear_grid".toList, "logx".toList, "logx_grid".toList] := by
    show "linear".toList ∈ _
    exact List.mem_cons_self
  have hskip : adjustSkip exEven.steps.length exEven.blockSize exEven.npart exEvenOptions.norigins = .ok 2 := by
    show adjustSkip 4 1 [2, 2, 2, 2] (.str ['2']) = .ok 2
    decide +kernel
  obtain ⟨ts, total, avg, part, pavg, h1, h2, -, -, -, -, -, h3⟩ := C231_species exEvenOptions hfm (by norm_num [exEvenOptions])
    (Or.inr (by norm_num [exEvenOptions])) (3 / 2) exEven (by simp [exEven]) one_pos (by norm_num [exEven]) (by norm_num [exEven]) 2 hskip
    ((List.range 4).map exMoving) rfl two_pos ![('B' : Char), 'A'] ['A', 'B'] (by
      intro a
      simp [Fin.exists_fin_two, eq_comm, or_comm]) (by decide)
  refine ⟨ts, total, avg, part, pavg, h1, h2, fun i hi => ?_⟩
  rw [(h3 i hi).2.1]
  have him : Finset.univ.image (![('B' : Char), 'A'] : Fin 2 → Char) = {'A', 'B'} := by decide
  rw [him, Finset.sum_insert (by decide), Finset.sum_singleton]

/-- Numbers of particles that have moved by less than 3/2 in a step of the example, for the species with velocity 1 and 2. -/
example : Spec.speciesOverlaps (3 / 2) ![('B' : Char), 'A'] 'B' ((List.range 4).map exMoving) 1 [0] = [1] := by
  have h0 : ((List.range 4).map exMoving)[0]? = some (exMoving 0) := rfl
  have h1 : ((List.range 4).map exMoving)[0 + 1]? = some (exMoving 1) := rfl
  simp only [Spec.speciesOverlaps, List.filterMap_cons, List.filterMap_nil, h0, h1, bind, Option.bind]
  have : (Finset.univ.filter fun p => (![('B' : Char), 'A'] : Fin 2 → Char) p = 'B' ∧
      Spec.disp2 (exMoving 0) (exMoving 1) p < (3 / 2 : ℝ) ^ 2) = {0} := by
    ext p
    fin_cases p <;> simp [Spec.disp2, exMoving]
    norm_num
  rw [this]
  simp

end PP.Props
