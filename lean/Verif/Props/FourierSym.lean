import Verif.Props.Fkt
import Mathlib.Data.Fin.VecNotation

/-!
# C117-C119: images, labels, translations and partial sums of the intermediate scattering functions
-/

set_option linter.unusedSectionVars false

namespace PP.Props
open PP

variable {d : ℕ}

/-! ### Trajectories with the same terms -/

/-- The results only depend on the sums of the cosines. -/
theorem fs_congr (o : FsObj d) {N : ℕ} (h : FsRegular o N) (pos' : List (List (Vec d ℝ)))
    (hl : pos'.length = o.pos.length) (hN : ∀ f ∈ pos', f.length = N)
    (hs : ∀ kl ∈ o.ks.kvectors, ∀ v ∈ kl, ∀ i < o.pos.length, ∀ j < o.pos.length,
      (Spec.selfTerms (kvecOf o.ks v) (pos'.getD i []) (pos'.getD j [])).sum
        = (Spec.selfTerms (kvecOf o.ks v) (o.pos.getD i []) (o.pos.getD j [])).sum) :
    fsLegacy { o with pos := pos' } = fsLegacy o ∧
    (o.lookupMb ≠ 0 → fsFast { o with pos := pos' } = fsFast o) := by
  have h' : FsRegular { o with pos := pos' } N :=
    ⟨by intro e; apply h.frames_ne; rw [← List.length_eq_zero_iff] at e ⊢; rw [← hl]; exact e, h.skip_pos,
      by show pos'.length ≤ _; rw [hl]; exact h.steps, hN, h.npart_pos, h.allowed, h.kgrid, h.shells_ne, h.shells⟩
  have hlag : fsLags { o with pos := pos' } = fsLags o := by
    show lagList o.steps (Spec.sampled pos'.length o.skip o.tgrid) = _
    rw [hl]; rfl
  have hraw : fsRaw { o with pos := pos' } = fsRaw o := by
    unfold fsRaw
    rw [hlag]
    refine List.map_congr_left fun kl hkl => List.map_congr_left fun δ _ => ?_
    unfold Spec.mean
    rw [selfList_sum o h, selfList_length o h, selfList_sum _ h', selfList_length _ h']
    show List.sum (kl.flatMap fun v => (pairsAt o.steps (Spec.sampled pos'.length o.skip o.tgrid) δ).map fun p =>
        (Spec.selfTerms (kvecOf o.ks v) (pos'.getD (p.1 + p.2) []) (pos'.getD p.1 [])).sum) /
      ((kl.length * (pairsAt o.steps (Spec.sampled pos'.length o.skip o.tgrid) δ).length * N : ℕ) : ℝ) = _
    rw [hl]
    congr 2
    refine List.flatMap_congr fun v hv => List.map_congr_left fun p hp => ?_
    have hlt := sampled_lt (List.mem_filter.1 hp).1
    exact hs kl hkl v hv _ hlt _ (by omega)
  refine ⟨?_, fun hm => ?_⟩
  · rw [fsLegacy_eq o h, fsLegacy_eq _ h', hlag, hraw]
  · rw [fsFast_eq o h hm, fsFast_eq _ h' hm, hlag, hraw]

/-- The results only depend on the products of the densities. -/
theorem fk_congr (o : FkObj d) (h : FkRegular o) (pos0' pos1' : List (List (Vec d ℝ)))
    (hl0 : pos0'.length = o.pos0.length) (hl1 : pos1'.length = o.pos1.length)
    (hn0 : ∀ f ∈ pos0', f ≠ []) (hn1 : ∀ f ∈ pos1', f ≠ []) (hsame : o.same = true → pos1' = pos0')
    (hs : ∀ kl ∈ o.ks.kvectors, ∀ v ∈ kl, ∀ i < o.pos0.length, ∀ j < o.pos0.length,
      (Spec.density (kvecOf o.ks v) (pos0'.getD i []) * star (Spec.density (kvecOf o.ks v) (pos1'.getD j []))).re
        = (Spec.density (kvecOf o.ks v) (o.pos0.getD i []) *
            star (Spec.density (kvecOf o.ks v) (o.pos1.getD j []))).re) :
    fkCompute { o with pos0 := pos0', pos1 := pos1' } = fkCompute o := by
  have h' : FkRegular { o with pos0 := pos0', pos1 := pos1' } :=
    ⟨h.dims, h.skip_pos, by show pos0'.length ≤ _; rw [hl0]; exact h.steps,
      by show pos1'.length = pos0'.length; rw [hl0, hl1, h.frames], hsame, hn0, hn1, h.allowed, h.kgrid, h.shells_ne,
      h.shells⟩
  have hlag : fkLags { o with pos0 := pos0', pos1 := pos1' } = fkLags o := by
    show lagList o.steps (Spec.sampled pos0'.length o.skip o.tgrid) = _
    rw [hl0]; rfl
  have hraw : fkRaw { o with pos0 := pos0', pos1 := pos1' } = fkRaw o := by
    unfold fkRaw
    rw [hlag]
    refine List.map_congr_left fun kl hkl => List.map_congr_left fun δ _ => ?_
    congr 1
    rw [cohList_eq o h, cohList_eq _ h']
    show (kl.flatMap fun v => (pairsAt o.steps (Spec.sampled pos0'.length o.skip o.tgrid) δ).map fun p =>
        (Spec.density (kvecOf o.ks v) (pos0'.getD (p.1 + p.2) []) *
          star (Spec.density (kvecOf o.ks v) (pos1'.getD p.1 []))).re) = _
    rw [hl0]
    refine List.flatMap_congr fun v hv => List.map_congr_left fun p hp => ?_
    have hlt := sampled_lt (List.mem_filter.1 hp).1
    exact hs kl hkl v hv _ hlt _ (by omega)
  rw [fkCompute_eq o h, fkCompute_eq _ h', hlag, hraw]

/-! ### C117 -/

/-- The same trajectory with each particle in another periodic image, `m` cells away, in each frame. -/
def imaged (side : Vec d ℝ) (m : ℕ → ℕ → Fin d → ℤ) (pos : List (List (Vec d ℝ))) : List (List (Vec d ℝ)) :=
  pos.mapIdx fun i f => f.mapIdx fun p x c => x c + m i p c * side c

theorem imaged_getD (side : Vec d ℝ) (m : ℕ → ℕ → Fin d → ℤ) (pos : List (List (Vec d ℝ))) {i : ℕ} (hi : i < pos.length) :
    (imaged side m pos).getD i [] = (pos.getD i []).mapIdx fun p x c => x c + m i p c * side c := by
  unfold imaged
  rw [List.getD_eq_getElem _ _ (by simpa using hi), List.getD_eq_getElem _ _ hi, List.getElem_mapIdx]

theorem phase_image {side : Vec d ℝ} (hside : ∀ c, 0 < side c) (ks : KState d ℝ)
    (hk : ∀ c, ks.k0 c = 2 * Real.pi / side c) (v : KVec d) (x y : Vec d ℝ) (a b : Fin d → ℤ) :
    Real.cos (Spec.dot (kvecOf ks v) fun c => x c + a c * side c - (y c + b c * side c))
      = Real.cos (Spec.dot (kvecOf ks v) fun c => x c - y c) := by
  have : (Spec.dot (kvecOf ks v) fun c => x c + a c * side c - (y c + b c * side c)) =
      (Spec.dot (kvecOf ks v) fun c => x c - y c) + ((∑ c, (v c - ks.koffset) * (a c - b c) : ℤ) : ℝ) * (2 * Real.pi) := by
    unfold Spec.dot
    push_cast
    rw [Finset.sum_mul, ← Finset.sum_add_distrib]
    refine Finset.sum_congr rfl fun c _ => ?_
    unfold kvecOf
    rw [hk]
    have := (hside c).ne'
    push_cast
    field_simp
    ring
  rw [this, Real.cos_add_int_mul_two_pi]

/-- **C117.** The self intermediate scattering function, in both versions, does not depend on the periodic images of the
particles: positions may be folded or unfolded, in a different way in each frame. -/
theorem C117_self_images (o : FsObj d) {N : ℕ} (h : FsRegular o N) (side : Vec d ℝ) (hside : ∀ c, 0 < side c)
    (hk : ∀ c, o.ks.k0 c = 2 * Real.pi / side c) (m : ℕ → ℕ → Fin d → ℤ) :
    fsLegacy { o with pos := imaged side m o.pos } = fsLegacy o ∧
    (o.lookupMb ≠ 0 → fsFast { o with pos := imaged side m o.pos } = fsFast o) := by
  refine fs_congr o h _ (by simp [imaged]) ?_ ?_
  · intro f hf
    unfold imaged at hf
    obtain ⟨i, hi, rfl⟩ := List.mem_mapIdx.1 hf
    rw [List.length_mapIdx]
    exact h.npart _ (List.getElem_mem _)
  · intro kl _ v _ i hi j hj
    rw [imaged_getD _ _ _ hi, imaged_getD _ _ _ hj]
    congr 1
    unfold Spec.selfTerms
    apply List.ext_getElem (by simp)
    intro p h1 h2
    simp only [List.getElem_zipWith, List.getElem_mapIdx]
    exact phase_image hside o.ks hk v _ _ _ _

/-- **C117.** The coherent intermediate scattering function does not depend on the periodic images either, in two and
three dimensions. -/
theorem C117_coherent_images (o : FkObj d) (h : FkRegular o) (side : Vec d ℝ) (hside : ∀ c, 0 < side c)
    (hk : ∀ c, o.ks.k0 c = 2 * Real.pi / side c) (m0 m1 : ℕ → ℕ → Fin d → ℤ) (hm : o.same = true → m1 = m0) :
    fkCompute { o with pos0 := imaged side m0 o.pos0, pos1 := imaged side m1 o.pos1 } = fkCompute o := by
  have hne : ∀ m (pos : List (List (Vec d ℝ))), (∀ f ∈ pos, f ≠ []) → ∀ f ∈ imaged side m pos, f ≠ [] := by
    intro m pos hp f hf
    unfold imaged at hf
    obtain ⟨i, hi, rfl⟩ := List.mem_mapIdx.1 hf
    intro e
    exact hp _ (List.getElem_mem hi) (by simpa using e)
  refine fk_congr o h _ _ (by simp [imaged]) (by simp [imaged]) (hne _ _ h.pos0) (hne _ _ h.pos1) ?_ ?_
  · intro hs
    rw [h.same hs, hm hs]
  · intro kl _ v _ i hi j hj
    rw [imaged_getD _ _ _ hi, imaged_getD _ _ _ (by rw [h.frames]; exact hj), density_fold hside o.ks hk,
      density_fold hside o.ks hk]

/-- The images count for wave-vectors that do not fit in the cell: one particle, one frame later in the next cell. -/
theorem C117_needs_cell : ∃ (k : Vec 1 ℝ) (side : Vec 1 ℝ), (∀ c, 0 < side c) ∧
    (Spec.selfTerms k [fun c => 0 + side c] [fun _ => 0]).sum ≠ (Spec.selfTerms k [fun _ => 0] [fun _ => 0]).sum := by
  refine ⟨fun _ => Real.pi, fun _ => 1, fun _ => one_pos, ?_⟩
  simp [Spec.selfTerms, Spec.dot]
  norm_num

/-! ### C118 -/

/-- Frame with the particles in another order. -/
def reordered {N : ℕ} (σ : Equiv.Perm (Fin N)) (f : List (Vec d ℝ)) : List (Vec d ℝ) :=
  List.ofFn fun p : Fin N => f.getD (σ p) 0

theorem selfTerms_sum_fin {N : ℕ} (k : Vec d ℝ) (a b : List (Vec d ℝ)) (ha : a.length = N) (hb : b.length = N) :
    (Spec.selfTerms k a b).sum = ∑ p : Fin N, Real.cos (Spec.dot k fun c => a.getD p 0 c - b.getD p 0 c) := by
  have : Spec.selfTerms k a b = List.ofFn fun p : Fin N => Real.cos (Spec.dot k fun c => a.getD p 0 c - b.getD p 0 c) := by
    unfold Spec.selfTerms
    apply List.ext_getElem
    · simp [ha, hb]
    · intro p h1 h2
      simp only [List.getElem_zipWith, List.getElem_ofFn]
      rw [List.length_ofFn] at h2
      rw [List.getD_eq_getElem _ _ (by omega), List.getD_eq_getElem _ _ (by omega)]
  rw [this, List.sum_ofFn]

/-- **C118.** The self intermediate scattering function does not depend on the order of the particles, if it is the same in
all frames. -/
theorem C118_self_relabel (o : FsObj d) {N : ℕ} (h : FsRegular o N) (σ : Equiv.Perm (Fin N)) :
    fsLegacy { o with pos := o.pos.map (reordered σ) } = fsLegacy o ∧
    (o.lookupMb ≠ 0 → fsFast { o with pos := o.pos.map (reordered σ) } = fsFast o) := by
  refine fs_congr o h _ (by simp) ?_ ?_
  · intro f hf
    obtain ⟨g, -, rfl⟩ := List.mem_map.1 hf
    simp [reordered]
  · intro kl _ v _ i hi j hj
    have key : ∀ i < o.pos.length, (o.pos.map (reordered σ)).getD i [] = reordered σ (o.pos.getD i []) := by
      intro i hi
      rw [List.getD_eq_getElem _ _ (by simpa using hi), List.getD_eq_getElem _ _ hi, List.getElem_map]
    rw [key i hi, key j hj]
    have hN : ∀ i < o.pos.length, (o.pos.getD i []).length = N := fun i hi => h.npart _ (getD_mem hi)
    rw [selfTerms_sum_fin (N := N) _ _ _ (by simp [reordered]) (by simp [reordered]),
      selfTerms_sum_fin (N := N) _ _ _ (hN i hi) (hN j hj)]
    rw [← Equiv.sum_comp σ fun q : Fin N => Real.cos (Spec.dot (kvecOf o.ks v) fun c =>
      (o.pos.getD i []).getD q 0 c - (o.pos.getD j []).getD q 0 c)]
    refine Finset.sum_congr rfl fun p _ => ?_
    have e : ∀ f : List (Vec d ℝ), (reordered σ f).getD (p : ℕ) 0 = f.getD (σ p) 0 := by
      intro f
      unfold reordered
      rw [List.getD_eq_getElem _ _ (by simp), List.getElem_ofFn]
    rw [e, e]

theorem density_perm (k : Vec d ℝ) {a b : List (Vec d ℝ)} (h : a.Perm b) : Spec.density k a = Spec.density k b := by
  unfold Spec.density
  exact (h.map _).sum_eq

/-- **C118.** The coherent function does not depend on the order of the particles, which may be different in each frame. -/
theorem C118_coherent_relabel (o : FkObj d) (h : FkRegular o) (pos0' pos1' : List (List (Vec d ℝ)))
    (h0 : List.Forall₂ List.Perm pos0' o.pos0) (h1 : List.Forall₂ List.Perm pos1' o.pos1)
    (hs : o.same = true → pos1' = pos0') :
    fkCompute { o with pos0 := pos0', pos1 := pos1' } = fkCompute o := by
  have hget : ∀ {a b : List (List (Vec d ℝ))}, List.Forall₂ List.Perm a b → ∀ i, (a.getD i []).Perm (b.getD i []) := by
    intro a b hab
    induction hab with
    | nil => intro i; simp
    | cons hp _ ih =>
      intro i
      cases i with
      | zero => simpa using hp
      | succ i => simpa using ih i
  have hne : ∀ {a b : List (List (Vec d ℝ))}, List.Forall₂ List.Perm a b → (∀ f ∈ b, f ≠ []) → ∀ f ∈ a, f ≠ [] := by
    intro a b hab
    induction hab with
    | nil => intro _ f hf; cases hf
    | cons hp _ ih =>
      intro hb f hf
      rcases List.mem_cons.1 hf with rfl | hf
      · intro e
        subst e
        exact hb _ (by simp) hp.nil_eq.symm
      · exact ih (fun g hg => hb g (by simp [hg])) f hf
  refine fk_congr o h _ _ h0.length_eq h1.length_eq (hne h0 h.pos0) (hne h1 h.pos1) hs ?_
  intro kl _ v _ i _ j _
  rw [density_perm _ (hget h0 i), density_perm _ (hget h1 j)]

theorem dot_add (k x y : Vec d ℝ) : Spec.dot k (fun c => x c + y c) = Spec.dot k x + Spec.dot k y := by
  unfold Spec.dot
  rw [← Finset.sum_add_distrib]
  exact Finset.sum_congr rfl fun c _ => by ring

theorem dot_neg (k x : Vec d ℝ) : Spec.dot k (fun c => -x c) = -Spec.dot k x := by
  unfold Spec.dot
  rw [← Finset.sum_neg_distrib]
  exact Finset.sum_congr rfl fun c _ => by ring

theorem getD_map_frames (g : List (Vec d ℝ) → List (Vec d ℝ)) (pos : List (List (Vec d ℝ))) {i : ℕ} (hi : i < pos.length) :
    (pos.map g).getD i [] = g (pos.getD i []) := by
  rw [List.getD_eq_getElem _ _ (by simpa using hi), List.getD_eq_getElem _ _ hi, List.getElem_map]

/-- **C118.** Moving the origin of the coordinates or inverting all the axes changes neither the self nor the coherent
function. -/
theorem C118_origin (o : FsObj d) {N : ℕ} (h : FsRegular o N) (t : Vec d ℝ) :
    (fsLegacy { o with pos := o.pos.map fun f => f.map fun x c => x c + t c } = fsLegacy o ∧
      (o.lookupMb ≠ 0 → fsFast { o with pos := o.pos.map fun f => f.map fun x c => x c + t c } = fsFast o)) ∧
    (fsLegacy { o with pos := o.pos.map fun f => f.map fun x c => -x c } = fsLegacy o ∧
      (o.lookupMb ≠ 0 → fsFast { o with pos := o.pos.map fun f => f.map fun x c => -x c } = fsFast o)) := by
  constructor
  · refine fs_congr o h _ (by simp) ?_ ?_
    · intro f hf
      obtain ⟨g, hg, rfl⟩ := List.mem_map.1 hf
      rw [List.length_map, h.npart g hg]
    · intro kl _ v _ i hi j hj
      rw [getD_map_frames _ _ hi, getD_map_frames _ _ hj]
      congr 1
      unfold Spec.selfTerms
      rw [List.zipWith_map]
      congr 1
      funext x y
      congr 2
      funext c
      ring
  · refine fs_congr o h _ (by simp) ?_ ?_
    · intro f hf
      obtain ⟨g, hg, rfl⟩ := List.mem_map.1 hf
      rw [List.length_map, h.npart g hg]
    · intro kl _ v _ i hi j hj
      rw [getD_map_frames _ _ hi, getD_map_frames _ _ hj]
      congr 1
      unfold Spec.selfTerms
      rw [List.zipWith_map]
      congr 1
      funext x y
      rw [← Real.cos_neg, ← dot_neg]
      congr 2
      funext c
      ring

theorem density_neg (k : Vec d ℝ) (pos : List (Vec d ℝ)) :
    Spec.density k (pos.map fun x c => -x c) = star (Spec.density k pos) := by
  unfold Spec.density
  induction pos with
  | nil => simp
  | cons x pos ih =>
    simp only [List.map_cons, List.sum_cons, star_add]
    rw [ih]
    congr 1
    show ccis (Spec.dot k fun c => -x c) = star (ccis (Spec.dot k x))
    rw [star_ccis, dot_neg]

/-- **C118**, coherent function. -/
theorem C118_coherent_origin (o : FkObj d) (h : FkRegular o) (t : Vec d ℝ) :
    fkCompute { o with pos0 := o.pos0.map fun f => f.map fun x => x + t
                       pos1 := o.pos1.map fun f => f.map fun x => x + t } = fkCompute o ∧
    fkCompute { o with pos0 := o.pos0.map fun f => f.map fun x c => -x c
                       pos1 := o.pos1.map fun f => f.map fun x c => -x c } = fkCompute o := by
  have hne : ∀ (g : Vec d ℝ → Vec d ℝ) (pos : List (List (Vec d ℝ))), (∀ f ∈ pos, f ≠ []) →
      ∀ f ∈ pos.map (fun f => f.map g), f ≠ [] := by
    intro g pos hp f hf
    obtain ⟨f', hf', rfl⟩ := List.mem_map.1 hf
    intro e
    exact hp f' hf' (by simpa using e)
  constructor
  · refine fk_congr o h _ _ (by simp) (by simp) (hne _ _ h.pos0) (hne _ _ h.pos1) ?_ ?_
    · intro hs
      rw [h.same hs]
    · intro kl _ v _ i hi j hj
      rw [getD_map_frames _ _ hi, getD_map_frames _ _ (by rw [h.frames]; exact hj), density_translate, density_translate]
      congr 1
      have : ccis (Spec.dot (kvecOf o.ks v) t) * star (ccis (Spec.dot (kvecOf o.ks v) t)) = 1 := by
        rw [star_ccis, ← ccis_add, add_neg_cancel, ccis_zero]
      rw [star_mul']
      linear_combination (Spec.density (kvecOf o.ks v) (o.pos0.getD i []) *
        star (Spec.density (kvecOf o.ks v) (o.pos1.getD j []))) * this
  · refine fk_congr o h _ _ (by simp) (by simp) (hne _ _ h.pos0) (hne _ _ h.pos1) ?_ ?_
    · intro hs
      rw [h.same hs]
    · intro kl _ v _ i hi j hj
      rw [getD_map_frames _ _ hi, getD_map_frames _ _ (by rw [h.frames]; exact hj), density_neg, density_neg]
      simp only [star_star, Complex.star_def, Complex.mul_re, Complex.conj_re, Complex.conj_im]
      ring

/-! ### C119 -/

/-- **C119.** For two groups of particles, each value of the self function of all particles is the average of the values of
the two groups, weighted with the numbers of particles. -/
theorem C119_sum (o : FsObj d) (posA posB : List (List (Vec d ℝ))) {A B : ℕ}
    (hA : FsRegular { o with pos := posA } A) (hB : FsRegular { o with pos := posB } B)
    (hl : posB.length = posA.length) (hn : o.normalize = false) :
    ∃ ts vA vB v, fsLegacy { o with pos := posA } = .ok (ts, vA) ∧ fsLegacy { o with pos := posB } = .ok (ts, vB) ∧
      fsLegacy { o with pos := List.zipWith (· ++ ·) posA posB } = .ok (ts, v) ∧
      v.length = o.ks.kvectors.length ∧ (∀ row ∈ v, row.length = ts.length) ∧
      v = List.zipWith (List.zipWith fun a b => (A * a + B * b) / ((A : ℝ) + B)) vA vB := by
  have hz : (List.zipWith (· ++ ·) posA posB).length = posA.length := by simp [hl]
  have hAB : FsRegular { o with pos := List.zipWith (· ++ ·) posA posB } (A + B) := by
    refine ⟨?_, hA.skip_pos, ?_, ?_, ?_, hA.allowed, hA.kgrid, hA.shells_ne, hA.shells⟩
    · intro e
      have := hA.frames_ne
      apply this
      show posA = []
      rw [← List.length_eq_zero_iff, ← hz]
      have e' : List.zipWith (· ++ ·) posA posB = [] := e
      rw [e']; rfl
    · show (List.zipWith (· ++ ·) posA posB).length ≤ _
      rw [hz]
      exact hA.steps
    · intro f hf
      obtain ⟨i, hi, rfl⟩ := List.mem_iff_getElem.1 hf
      have hi' : i < posA.length := by simpa [hl] using hi
      show (List.zipWith (· ++ ·) posA posB)[i].length = _
      rw [List.getElem_zipWith, List.length_append]
      have e1 := hA.npart posA[i] (List.getElem_mem _)
      have e2 := hB.npart (posB[i]'(by omega)) (List.getElem_mem _)
      rw [e1, e2]
    · have := hA.npart_pos
      omega
  have lagB : fsLags { o with pos := posB } = fsLags { o with pos := posA } := by
    show lagList o.steps (Spec.sampled posB.length o.skip o.tgrid) = lagList o.steps (Spec.sampled posA.length o.skip o.tgrid)
    rw [hl]
  have lagAB : fsLags { o with pos := List.zipWith (· ++ ·) posA posB } = fsLags { o with pos := posA } := by
    show lagList o.steps (Spec.sampled (List.zipWith (· ++ ·) posA posB).length o.skip o.tgrid)
      = lagList o.steps (Spec.sampled posA.length o.skip o.tgrid)
    rw [hz]
  refine ⟨(fsLags { o with pos := posA }).map fun t : ℤ => (t : ℝ) * o.timestep, fsRaw { o with pos := posA },
    fsRaw { o with pos := posB }, fsRaw { o with pos := List.zipWith (· ++ ·) posA posB }, ?_, ?_, ?_, ?_, ?_, ?_⟩
  · rw [fsLegacy_eq _ hA, if_neg (by simp [hn])]
  · rw [fsLegacy_eq _ hB, if_neg (by simp [hn]), lagB]
  · rw [fsLegacy_eq _ hAB, if_neg (by simp [hn]), lagAB]
  · simp [fsRaw]
  · intro row hrow
    unfold fsRaw at hrow
    obtain ⟨kl, -, rfl⟩ := List.mem_map.1 hrow
    rw [lagAB]
    simp
  · unfold fsRaw
    rw [lagAB, lagB]
    show (o.ks.kvectors.map _) = List.zipWith _ (o.ks.kvectors.map _) (o.ks.kvectors.map _)
    rw [List.zipWith_map, List.zipWith_self]
    refine List.map_congr_left fun kl hkl => ?_
    rw [List.zipWith_map, List.zipWith_self]
    refine List.map_congr_left fun δ hδ => ?_
    unfold Spec.mean
    rw [selfList_sum _ hA, selfList_sum _ hB, selfList_sum _ hAB, selfList_length _ hA, selfList_length _ hB,
      selfList_length _ hAB]
    simp only
    rw [hz, hl]
    have hm := pairsAt_length_pos (show δ ∈ lagList o.steps (Spec.sampled posA.length o.skip o.tgrid) from hδ)
    have hk := List.length_pos_iff.2 (hA.shells kl hkl)
    have hA0 := hA.npart_pos
    have hB0 := hB.npart_pos
    generalize hP : pairsAt o.steps (Spec.sampled posA.length o.skip o.tgrid) δ = P at hm
    have hsum : (kl.flatMap fun v => P.map fun p => (Spec.selfTerms (kvecOf o.ks v)
          ((List.zipWith (· ++ ·) posA posB).getD (p.1 + p.2) []) ((List.zipWith (· ++ ·) posA posB).getD p.1 [])).sum).sum
        = (kl.flatMap fun v => P.map fun p => (Spec.selfTerms (kvecOf o.ks v) (posA.getD (p.1 + p.2) [])
            (posA.getD p.1 [])).sum).sum
          + (kl.flatMap fun v => P.map fun p => (Spec.selfTerms (kvecOf o.ks v) (posB.getD (p.1 + p.2) [])
            (posB.getD p.1 [])).sum).sum := by
      rw [sum_flatMap_map, sum_flatMap_map, sum_flatMap_map, ← List.sum_map_add]
      congr 1
      refine List.map_congr_left fun v _ => ?_
      rw [← List.sum_map_add]
      congr 1
      refine List.map_congr_left fun p hp => ?_
      rw [← hP] at hp
      have hlt := sampled_lt (List.mem_filter.1 hp).1
      have hg : ∀ i < posA.length, (List.zipWith (· ++ ·) posA posB).getD i [] = posA.getD i [] ++ posB.getD i [] := by
        intro i hi
        rw [List.getD_eq_getElem _ _ (by omega), List.getD_eq_getElem _ _ hi, List.getD_eq_getElem _ _ (by omega),
          List.getElem_zipWith]
      rw [hg _ hlt, hg _ (by omega)]
      unfold Spec.selfTerms
      rw [List.zipWith_append, List.sum_append]
      have e1 := hA.npart (posA.getD (p.1 + p.2) []) (getD_mem hlt)
      have e2 := hA.npart (posA.getD p.1 []) (getD_mem (by omega : p.1 < posA.length))
      rw [e1, e2]
    rw [hsum]
    have hk' : (kl.length : ℝ) ≠ 0 := by exact_mod_cast hk.ne'
    have hm' : (P.length : ℝ) ≠ 0 := by exact_mod_cast hm.ne'
    have hA' : (A : ℝ) ≠ 0 := by exact_mod_cast hA0.ne'
    have hB' : (B : ℝ) ≠ 0 := by exact_mod_cast hB0.ne'
    have hAB' : (A : ℝ) + B ≠ 0 := by positivity
    push_cast
    field_simp

/-! ### A concrete case -/

/-- The two particles of `exFs`. -/
noncomputable def exFsA : List (List (Vec 3 ℝ)) := [[![0, 0, 0]], [![0, 1, 0]], [![1, 1, 1]]]

/-- The second one. -/
noncomputable def exFsB : List (List (Vec 3 ℝ)) := [[![1, 2, 3]], [![1, 2, 2]], [![1, 4, 2]]]

/-- The frames of `exFs` in cells of side `2π/k0`: the second particle, moved by one cell in the last frame; the two
particles exchanged; the function as the sum over the two particles. -/
example : (∃ side : Vec 3 ℝ, (∀ c, 0 < side c) ∧ fsLegacy { exFs with
      pos := imaged side (fun i p _ => if i = 2 ∧ p = 1 then 1 else 0) exFs.pos } = fsLegacy exFs) ∧
    fsLegacy { exFs with pos := exFs.pos.map (reordered (Equiv.swap (0 : Fin 2) 1)) } = fsLegacy exFs ∧
    ∃ ts v, fsLegacy { exFs with normalize := false, pos := List.zipWith (· ++ ·) exFsA exFsB } = .ok (ts, v) ∧
      v.length = 2 := by
  have hk0 : ∀ c, 0 < exFs.ks.k0 c := by
    intro c
    fin_cases c <;> simp [exFs, exKs]
  refine ⟨⟨fun c => 2 * Real.pi / exFs.ks.k0 c, fun c => by have := hk0 c; have := Real.pi_pos; positivity, ?_⟩, ?_, ?_⟩
  · refine (C117_self_images exFs exFs_regular _ (fun c => by have := hk0 c; have := Real.pi_pos; positivity) ?_ _).1
    intro c
    have := (hk0 c).ne'
    have := Real.pi_pos.ne'
    field_simp
  · exact (C118_self_relabel exFs exFs_regular _).1
  · have hA : FsRegular { exFs with normalize := false, pos := exFsA } 1 :=
      ⟨by simp [exFsA, exFsB], by simp [exFs], by simp [exFs, exFsA, exFsB], by simp [exFsA, exFsB], one_pos, exKs_allowed, by simp [exFs, exKs],
        by simp [exFs, exKs], by simp [exFs, exKs]⟩
    have hB : FsRegular { exFs with normalize := false, pos := exFsB } 1 :=
      ⟨by simp [exFsA, exFsB], by simp [exFs], by simp [exFs, exFsA, exFsB], by simp [exFsA, exFsB], one_pos, exKs_allowed, by simp [exFs, exKs],
        by simp [exFs, exKs], by simp [exFs, exKs]⟩
    obtain ⟨ts, vA, vB, v, -, -, h3, h4, -, -⟩ := C119_sum { exFs with normalize := false } _ _ hA hB rfl rfl
    exact ⟨ts, v, h3, by rw [h4]; rfl⟩

/-- The partial function `exSwap`: inversion, and the particle B in another cell of side `2π`. -/
example : fkCompute { exSwap false with pos0 := (exSwap false).pos0.map fun f => f.map fun x c => -x c
                                        pos1 := (exSwap false).pos1.map fun f => f.map fun x c => -x c }
      = fkCompute (exSwap false) ∧
    fkCompute { exSwap false with pos0 := imaged (fun _ => 2 * Real.pi) (fun _ _ _ => 0) (exSwap false).pos0
                                  pos1 := imaged (fun _ => 2 * Real.pi) (fun _ _ _ => -3) (exSwap false).pos1 }
      = fkCompute (exSwap false) := by
  refine ⟨(C118_coherent_origin _ (exSwap_regular false) 0).2, C117_coherent_images _ (exSwap_regular false) _
    (fun _ => by have := Real.pi_pos; positivity) ?_ _ _ (by simp [exSwap])⟩
  intro c
  have := Real.pi_pos.ne'
  fin_cases c <;> simp [exSwap, exKs2]

end PP.Props
