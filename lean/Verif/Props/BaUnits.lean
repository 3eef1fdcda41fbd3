import Verif.Props.BondAngle
import Verif.Props.GrAxes

/-!
# Units of length, origin and axes in the bond-angle distribution (C154)
-/

set_option linter.unusedSectionVars false

namespace PP.Props
open PP

variable {d : ℕ}

/-- A frame whose positions are changed one by one, with another cell. -/
def moveBa (φ : Vec d ℝ → Vec d ℝ) (side : Vec d ℝ) (f : BaFrame d) : BaFrame d :=
  ⟨side, f.pos0.map φ, f.ids0, f.pos1.map φ, f.ids1⟩

theorem fGet_mapL {α β : Type} (g : α → β) (l : List α) (i : ℤ) : fGet (l.map g) i = (fGet l i).map g := by
  unfold fGet
  split_ifs with h
  · rw [List.getElem?_map]
    cases l[(i - 1).toNat]? <;> rfl
  · rfl

theorem bondAngle_move (φ : Vec d ℝ → Vec d ℝ) (side side' : Vec d ℝ)
    (hang : ∀ x y z : Vec d ℝ, baAngle (fun i => fpbc (side' i) (φ x i - φ y i)) (fun i => fpbc (side' i) (φ x i - φ z i)) =
      baAngle (fun i => fpbc (side i) (x i - y i)) (fun i => fpbc (side i) (x i - z i)))
    (x : Vec d ℝ) (pos : List (Vec d ℝ)) (nb : List ℤ) (w : ℝ) (n : ℕ) :
    bondAngle (φ x) (pos.map φ) nb side' w n = bondAngle x pos nb side w n := by
  unfold bondAngle
  refine foldlM_congr_mem (fun hist nj _ => ?_) _
  rw [fGet_mapL]
  cases fGet pos (nj + 1) with
  | error e => rfl
  | ok y =>
  simp only [Except.map, bind, Except.bind]
  refine foldlM_congr_mem (fun hist nk _ => ?_) _
  unfold baInner
  by_cases hk : nk + 1 = nj + 1
  · rw [if_pos hk, if_pos hk]
  rw [if_neg hk, if_neg hk, fGet_mapL]
  cases fGet pos (nk + 1) with
  | error e => rfl
  | ok z =>
  simp only [Except.map, bind, Except.bind]
  rw [hang]

theorem neighborsOf_move (φ : Vec d ℝ → Vec d ℝ) (c : ℝ) (side side' : Vec d ℝ)
    (hdist : ∀ (x y : Vec d ℝ) (r : ℝ), fDistSq side' (φ x) (φ y) < (c * r) ^ 2 ↔ fDistSq side x y < r ^ 2)
    (x : Vec d ℝ) (pos : List (Vec d ℝ)) (ids : List ℤ) (row : List ℝ) (n : ℕ) :
    neighborsOf true side' (φ x) (pos.map φ) ids (row.map (c * ·)) n = neighborsOf true side x pos ids row n := by
  unfold neighborsOf
  rw [List.length_map]
  refine foldlM_congr_mem (fun nb j _ => ?_) _
  rw [fGet_mapL]
  cases fGet ids ((j : ℤ) + 1) with
  | error e => rfl
  | ok id =>
  cases fGet pos ((j : ℤ) + 1) with
  | error e => rfl
  | ok y =>
  simp only [Except.map, bind, Except.bind]
  rw [fGet_mapL]
  cases fGet row (id - fDelta true) with
  | error e => rfl
  | ok r =>
  simp only [Except.map]
  by_cases h : fDistSq side x y < r ^ 2
  · rw [if_pos h, if_pos ((hdist x y r).2 h)]
  · rw [if_neg h, if_neg (fun h' => h ((hdist x y r).1 h'))]

/-- If the distances change by the factor of the cut-offs and the angles do not change, the distribution does not
change. -/
theorem baCompute_move (φ : Vec d ℝ → Vec d ℝ) (σ : Vec d ℝ → Vec d ℝ) (c : ℝ) (rcut : List (List ℝ)) (nsp skip : ℕ)
    (grid : List ℝ) (frames : List (BaFrame d))
    (hdist : ∀ f ∈ frames, ∀ (x y : Vec d ℝ) (r : ℝ),
      fDistSq (σ f.side) (φ x) (φ y) < (c * r) ^ 2 ↔ fDistSq f.side x y < r ^ 2)
    (hang : ∀ f ∈ frames, ∀ x y z : Vec d ℝ,
      baAngle (fun i => fpbc (σ f.side i) (φ x i - φ y i)) (fun i => fpbc (σ f.side i) (φ x i - φ z i)) =
      baAngle (fun i => fpbc (f.side i) (x i - y i)) (fun i => fpbc (f.side i) (x i - z i))) :
    baCompute (rcut.map (List.map (c * ·))) nsp skip grid (frames.map fun f => moveBa φ (σ f.side) f) =
      baCompute rcut nsp skip grid frames := by
  have hcheck : baCheckRcut (rcut.map (List.map (c * ·))) nsp = baCheckRcut rcut nsp := by
    unfold baCheckRcut
    congr 1
    funext i
    rw [pyGet_mapL]
    cases pyGet rcut i with
    | error e => rfl
    | ok row =>
      simp only [Except.map, bind, Except.bind]
      congr 1
      funext j
      rw [pyGet_mapL]
      cases pyGet row j <;> rfl
  have hp : ∀ f ∈ frames, ∀ w n i, baParticle (rcut.map (List.map (c * ·))) w n (moveBa φ (σ f.side) f) i =
      baParticle rcut w n f i := by
    intro f hf w n i
    unfold baParticle
    rw [show (moveBa φ (σ f.side) f).pos0 = f.pos0.map φ from rfl, show (moveBa φ (σ f.side) f).ids0 = f.ids0 from rfl,
      show (moveBa φ (σ f.side) f).pos1 = f.pos1.map φ from rfl, show (moveBa φ (σ f.side) f).ids1 = f.ids1 from rfl,
      show (moveBa φ (σ f.side) f).side = σ f.side from rfl, pyGet_mapL]
    cases pyGet f.pos0 i with
    | error e => rfl
    | ok x =>
    simp only [Except.map, bind, Except.bind]
    cases pyGet f.ids0 i with
    | error e => rfl
    | ok isp =>
    simp only
    rw [pyGet_mapL]
    cases pyGet rcut isp with
    | error e => rfl
    | ok row =>
    simp only [Except.map]
    rw [neighborsOf_move φ c f.side (σ f.side) (hdist f hf)]
    cases neighborsOf true f.side x f.pos1 (f.ids1.map fun i : ℕ => (i : ℤ)) row 50 with
    | error e => rfl
    | ok nb => exact bondAngle_move φ f.side (σ f.side) (hang f hf) _ _ _ _ _
  unfold baCompute
  rw [hcheck, List.length_map]
  have hfr : ∀ w n, (fun i => (do
      let f ← pyGet (frames.map fun f => moveBa φ (σ f.side) f) i
      (List.range f.pos0.length).mapM (baParticle (rcut.map (List.map (c * ·))) w n f) : Py (List (List ℕ)))) =
      fun i => (do
      let f ← pyGet frames i
      (List.range f.pos0.length).mapM (baParticle rcut w n f)) := by
    intro w n
    funext i
    rw [pyGet_mapL]
    cases hf : pyGet frames i with
    | error e => rfl
    | ok f =>
      simp only [Except.map, bind, Except.bind]
      rw [show (moveBa φ (σ f.side) f).pos0.length = f.pos0.length from List.length_map _]
      congr 1
      funext j
      exact hp f (pyGet_mem hf) w n j
  simp only [hfr]

/-! ### Translations, axes, units -/

theorem fpbc_odd {L : ℝ} (hL : 0 ≤ L) (r : ℝ) : fpbc L (-r) = -fpbc L r := by
  unfold fpbc fsign
  rw [abs_neg]
  split_ifs with h1 h2 h3 h3
  · have : r = 0 := le_antisymm (by linarith) h3
    rw [this, abs_zero] at h1
    linarith
  · ring
  · ring
  · exfalso; linarith
  · rfl

theorem baAngle_axes (σ : Equiv.Perm (Fin d)) (inv : Fin d → Bool) (a b : Vec d ℝ) :
    baAngle (axesVec σ inv a) (axesVec σ inv b) = baAngle a b := by
  have hdot : ∀ a b : Vec d ℝ, ∑ i, axesVec σ inv a i * axesVec σ inv b i = ∑ i, a i * b i := by
    intro a b
    rw [← Equiv.sum_comp σ fun i => a i * b i]
    refine Finset.sum_congr rfl fun i _ => ?_
    unfold axesVec
    cases inv i with
    | false => rfl
    | true => exact neg_mul_neg _ _
  unfold baAngle
  simp only [pow_two, hdot]

theorem fold_axes (σ : Equiv.Perm (Fin d)) (inv : Fin d → Bool) {L : Vec d ℝ} (hL : ∀ i, 0 ≤ L i) (x y : Vec d ℝ) :
    (fun i => fpbc (axesOf σ L i) (axesVec σ inv x i - axesVec σ inv y i)) =
      axesVec σ inv fun i => fpbc (L i) (x i - y i) := by
  funext i
  rw [axesVec_sub]
  unfold axesVec axesOf
  cases inv i with
  | false => rfl
  | true => exact fpbc_odd (hL _) _

theorem fold_unit {c : ℝ} (hc : 0 < c) (L x y : Vec d ℝ) :
    (fun i => fpbc (scaleVec c L i) (scaleVec c x i - scaleVec c y i)) = scaleVec c fun i => fpbc (L i) (x i - y i) := by
  funext i
  show fpbc (c * L i) (c * x i - c * y i) = c * fpbc (L i) (x i - y i)
  rw [← mul_sub, fpbc_scale hc]

theorem baAngle_unit {c : ℝ} (hc : 0 < c) (a b : Vec d ℝ) : baAngle (scaleVec c a) (scaleVec c b) = baAngle a b := by
  have hn : ∀ a : Vec d ℝ, √(∑ i, scaleVec c a i ^ 2) = c * √(∑ i, a i ^ 2) := by
    intro a
    have : ∑ i, scaleVec c a i ^ 2 = c ^ 2 * ∑ i, a i ^ 2 := by
      rw [Finset.mul_sum]
      exact Finset.sum_congr rfl fun i _ => mul_pow _ _ _
    rw [this, Real.sqrt_mul (by positivity), Real.sqrt_sq hc.le]
  have hd : ∑ i, scaleVec c a i * scaleVec c b i = c * c * ∑ i, a i * b i := by
    rw [Finset.mul_sum]
    exact Finset.sum_congr rfl fun i _ => mul_mul_mul_comm _ _ _ _
  unfold baAngle
  simp only [hn, hd]
  have e : c * √(∑ i, a i ^ 2) * (c * √(∑ i, b i ^ 2)) = c * c * (√(∑ i, a i ^ 2) * √(∑ i, b i ^ 2)) := by ring
  have hcc : c * c ≠ 0 := mul_ne_zero hc.ne' hc.ne'
  rw [e]
  by_cases h : √(∑ i, a i ^ 2) * √(∑ i, b i ^ 2) = 0
  · rw [h, mul_zero, if_pos rfl, if_pos rfl]
  · rw [if_neg (mul_ne_zero hcc h), if_neg h, mul_div_mul_left _ _ hcc]

/-- **C154**, translations. -/
theorem C154_translation (v : Vec d ℝ) (rcut : List (List ℝ)) (nsp skip : ℕ) (grid : List ℝ) (frames : List (BaFrame d)) :
    baCompute rcut nsp skip grid (frames.map fun f => moveBa (fun x i => x i + v i) f.side f) =
      baCompute rcut nsp skip grid frames := by
  have hr : rcut.map (List.map ((1 : ℝ) * ·)) = rcut := by
    simp
  have := baCompute_move (fun x i => x i + v i) id 1 rcut nsp skip grid frames
    (by intro f _ x y r
        unfold fDistSq
        simp only [id, add_sub_add_right_eq_sub, one_mul])
    (by intro f _ x y z
        simp only [id, add_sub_add_right_eq_sub])
  rwa [hr] at this

/-- **C154**, axes: they may be permuted and inverted, if the sides of the cell are not negative. -/
theorem C154_axes (σ : Equiv.Perm (Fin d)) (inv : Fin d → Bool) (rcut : List (List ℝ)) (nsp skip : ℕ) (grid : List ℝ)
    (frames : List (BaFrame d)) (hside : ∀ f ∈ frames, ∀ i, 0 ≤ f.side i) :
    baCompute rcut nsp skip grid (frames.map fun f => moveBa (axesVec σ inv) (axesOf σ f.side) f) =
      baCompute rcut nsp skip grid frames := by
  have hr : rcut.map (List.map ((1 : ℝ) * ·)) = rcut := by
    simp
  have := baCompute_move (axesVec σ inv) (axesOf σ) 1 rcut nsp skip grid frames
    (by intro f _ x y r
        rw [one_mul]
        have : fDistSq (axesOf σ f.side) (axesVec σ inv x) (axesVec σ inv y) = fDistSq f.side x y := fDist_axes σ inv id _ _ _
        rw [this])
    (by intro f hf x y z
        rw [fold_axes σ inv (hside f hf), fold_axes σ inv (hside f hf), baAngle_axes])
  rwa [hr] at this

/-- **C154**, unit of length of positions, cell and cut-offs. -/
theorem C154_unit {c : ℝ} (hc : 0 < c) (rcut : List (List ℝ)) (nsp skip : ℕ) (grid : List ℝ) (frames : List (BaFrame d)) :
    baCompute (rcut.map (List.map (c * ·))) nsp skip grid (frames.map fun f => moveBa (scaleVec c) (scaleVec c f.side) f) =
      baCompute rcut nsp skip grid frames := by
  refine baCompute_move (scaleVec c) (scaleVec c) c rcut nsp skip grid frames ?_ ?_
  · intro f _ x y r
    have : fDistSq (scaleVec c f.side) (scaleVec c x) (scaleVec c y) = c ^ 2 * fDistSq f.side x y := by
      unfold fDistSq
      rw [Finset.mul_sum]
      refine Finset.sum_congr rfl fun i _ => ?_
      rw [congrFun (fold_unit hc f.side x y) i]
      exact mul_pow _ _ _
    rw [this, mul_pow]
    exact mul_lt_mul_iff_right₀ (by positivity)
  · intro f _ x y z
    rw [fold_unit hc, fold_unit hc, baAngle_unit hc]

end PP.Props
