import Verif.Props.FourierSym
import Verif.Props.Reversal

/-!
# C129: time reversal of the intermediate scattering functions
-/

set_option linter.unusedSectionVars false

namespace PP.Props
open PP

variable {d : ℕ}

theorem framePairs_reverse {X : Type} (x : List X) (s δ : ℤ) (dg : List (ℕ × ℕ)) (h0 : ∀ g ∈ dg, g.1 = 0) (t : ℤ) :
    (Spec.framePairs (uniformSteps x.length s δ) 1 dg x.reverse t).Perm
      ((Spec.framePairs (uniformSteps x.length s δ) 1 dg x t).map Prod.swap) := by
  unfold Spec.framePairs Spec.termsAt
  rw [List.length_reverse]
  refine (((terms_reverse x s δ dg h0).filter _).map _).trans ?_
  rw [List.filter_map, List.map_map, List.map_map]
  rfl

theorem framePairs_map {X Y : Type} [Inhabited X] (steps : List ℤ) (skip : ℕ) (grid : List (ℕ × ℕ)) (x : List X)
    (hs : x.length ≤ steps.length) (f : X → Y) (t : ℤ) :
    Spec.framePairs steps skip grid (x.map f) t = (Spec.framePairs steps skip grid x t).map (Prod.map f f) := by
  rw [framePairs_eq steps skip grid x hs default, framePairs_eq steps skip grid (x.map f) (by simpa using hs) (f default),
    List.map_map, List.length_map]
  refine List.map_congr_left fun p _ => ?_
  simp only [Function.comp, Prod.map, List.getD_map]

theorem mean_perm {l l' : List ℝ} (h : l.Perm l') : Spec.mean l = Spec.mean l' := by
  unfold Spec.mean
  rw [h.sum_eq, h.length_eq]

theorem selfTerms_comm (k : Vec d ℝ) (a b : List (Vec d ℝ)) : Spec.selfTerms k a b = Spec.selfTerms k b a := by
  unfold Spec.selfTerms
  rw [List.zipWith_comm]
  congr 1
  funext x y
  rw [← Real.cos_neg]
  congr 1
  unfold Spec.dot
  rw [← Finset.sum_neg_distrib]
  exact Finset.sum_congr rfl fun c _ => by ring

/-- **C129.** The self intermediate scattering function of a trajectory read backwards is the same, with both
implementations, if the frames are equally spaced, all of them are time origins and there are no blocks. -/
theorem C129_self_partial (o : FsObj d) {N : ℕ} (h : FsRegular o N) (s δ : ℤ)
    (hs : o.steps = uniformSteps o.pos.length s δ) (hskip : o.skip = 1) (h0 : ∀ g ∈ o.tgrid, g.1 = 0) :
    fsLegacy { o with pos := o.pos.reverse } = fsLegacy o ∧
    (o.lookupMb ≠ 0 → fsFast { o with pos := o.pos.reverse } = fsFast o) := by
  have h' : FsRegular { o with pos := o.pos.reverse } N :=
    ⟨by simpa using h.frames_ne, h.skip_pos, by simpa using h.steps, by simpa using h.npart, h.npart_pos, h.allowed,
      h.kgrid, h.shells_ne, h.shells⟩
  have hlag : fsLags { o with pos := o.pos.reverse } = fsLags o := by
    unfold fsLags
    simp only [List.length_reverse]
  have hraw : fsRaw { o with pos := o.pos.reverse } = fsRaw o := by
    unfold fsRaw
    rw [hlag]
    refine List.map_congr_left fun kl _ => List.map_congr_left fun t _ => mean_perm ?_
    unfold selfList
    refine List.Perm.flatMap_left _ fun v _ => ?_
    simp only
    rw [hs, hskip]
    refine ((framePairs_reverse o.pos s δ o.tgrid h0 t).flatMap_right _).trans ?_
    rw [List.flatMap_map]
    refine List.Perm.of_eq ?_
    apply List.flatMap_congr
    intro ab _
    exact selfTerms_comm _ _ _
  refine ⟨?_, fun hm => ?_⟩
  · rw [fsLegacy_eq o h, fsLegacy_eq _ h', hlag, hraw]
  · rw [fsFast_eq o h hm, fsFast_eq _ h' hm, hlag, hraw]

theorem re_mul_star_comm (a b : ℂ) : (a * star b).re = (b * star a).re := by
  simp only [Complex.mul_re, Complex.star_def, Complex.conj_re, Complex.conj_im]
  ring

/-- **C129**: the coherent function of a trajectory read backwards is that with the two groups exchanged; in particular
it is the same for the whole system. -/
theorem C129_coherent_partial (o : FkObj d) (h : FkRegular o) (s δ : ℤ)
    (hs : o.steps = uniformSteps o.pos0.length s δ) (hskip : o.skip = 1) (h0 : ∀ g ∈ o.tgrid, g.1 = 0) :
    fkCompute { o with pos0 := o.pos0.reverse, pos1 := o.pos1.reverse } =
      fkCompute { o with pos0 := o.pos1, pos1 := o.pos0 } ∧
    (o.pos0 = o.pos1 → fkCompute { o with pos0 := o.pos0.reverse, pos1 := o.pos1.reverse } = fkCompute o) := by
  have h' : FkRegular { o with pos0 := o.pos0.reverse, pos1 := o.pos1.reverse } :=
    ⟨h.dims, h.skip_pos, by simpa using h.steps, by simpa using h.frames, fun e => by simp [h.same e],
      by simpa using h.pos0, by simpa using h.pos1, h.allowed, h.kgrid, h.shells_ne, h.shells⟩
  have h'' : FkRegular { o with pos0 := o.pos1, pos1 := o.pos0 } :=
    ⟨h.dims, h.skip_pos, by simpa [h.frames] using h.steps, h.frames.symm, fun e => (h.same e).symm,
      h.pos1, h.pos0, h.allowed, h.kgrid, h.shells_ne, h.shells⟩
  have hlag : fkLags { o with pos0 := o.pos0.reverse, pos1 := o.pos1.reverse } =
      fkLags { o with pos0 := o.pos1, pos1 := o.pos0 } := by
    unfold fkLags
    simp only [List.length_reverse, h.frames]
  have hraw : fkRaw { o with pos0 := o.pos0.reverse, pos1 := o.pos1.reverse } =
      fkRaw { o with pos0 := o.pos1, pos1 := o.pos0 } := by
    unfold fkRaw
    rw [hlag]
    refine List.map_congr_left fun kl _ => List.map_congr_left fun t _ => mean_perm ?_
    unfold cohList
    refine List.Perm.flatMap_left _ fun v _ => ?_
    simp only
    have hz : o.pos0.reverse.zip o.pos1.reverse = (o.pos0.zip o.pos1).reverse := by
      exact (List.reverse_zipWith h.frames.symm).symm
    have hzl := zip_length o h
    have hsw : o.pos1.zip o.pos0 = (o.pos0.zip o.pos1).map Prod.swap := (List.zip_swap _ _).symm
    have hst := h.steps
    rw [hsw, framePairs_map _ _ _ _ (by rw [hzl]; exact hst), hs, hskip, hz, ← hzl]
    refine ((framePairs_reverse (o.pos0.zip o.pos1) s δ o.tgrid h0 t).map _).trans ?_
    rw [List.map_map, List.map_map]
    refine List.Perm.of_eq (List.map_congr_left fun ab _ => ?_)
    simp only [Function.comp, Prod.swap, Prod.map]
    exact re_mul_star_comm _ _
  have key : fkCompute { o with pos0 := o.pos0.reverse, pos1 := o.pos1.reverse } =
      fkCompute { o with pos0 := o.pos1, pos1 := o.pos0 } := by
    rw [fkCompute_eq _ h', fkCompute_eq _ h'', hlag, hraw]
  refine ⟨key, fun e => ?_⟩
  rw [key]
  obtain ⟨_, _, _, _, _, p0, p1, _, _⟩ := o
  simp only at e
  subst e
  rfl

theorem fs_stride (o : FsObj d) (a b c : Vec d ℝ) (h : FsRegular { o with pos := [[a], [b], [c]] } 1) (v : KVec d)
    (hs : o.steps = uniformSteps 3 0 1) (hskip : o.skip = 2) (hg : o.tgrid = [(0, 1)]) (hv : o.ks.kvectors = [[v]])
    (hn : o.normalize = false) : fsLegacy { o with pos := [[a], [b], [c]] } =
      .ok ([o.timestep], [[Real.cos (Spec.dot (kvecOf o.ks v) fun e => b e - a e)]]) := by
  rw [fsLegacy_eq _ h]
  have hp : Spec.framePairs (uniformSteps 3 0 1) 2 [(0, 1)] [[a], [b], [c]] 1 = [([b], [a])] := by
    rw [framePairs_eq _ _ _ _ (by simp [uniformSteps]) []]
    rw [show pairsAt (uniformSteps 3 0 1) (Spec.sampled [[a], [b], [c]].length 2 [(0, 1)]) 1 = [(0, 1)] by
      show pairsAt (uniformSteps 3 0 1) (Spec.sampled 3 2 [(0, 1)]) 1 = [(0, 1)]
      decide +kernel]
    rfl
  have hl : fsLags { o with pos := [[a], [b], [c]] } = [1] := by
    unfold fsLags
    simp only [hs, hskip, hg]
    show lagList (uniformSteps 3 0 1) (Spec.sampled 3 2 [(0, 1)]) = [1]
    decide +kernel
  unfold fsRaw
  rw [hl]
  simp only [hv, hn, List.map_cons, List.map_nil, selfList, hs, hskip, hg, hp, List.flatMap_cons, List.flatMap_nil,
    List.append_nil, Spec.selfTerms, List.zipWith_cons_cons, List.zipWith_nil_left, Spec.mean, List.sum_cons, List.sum_nil,
    List.length_cons, List.length_nil]
  simp

/-- **C129, where it stops.** With a stride larger than one the time origins of the reversed trajectory are others:
three frames and every second frame as origin, one particle and one wavevector. -/
theorem C129_counterexample_stride (o : FsObj d) (a b c : Vec d ℝ) (h : FsRegular { o with pos := [[a], [b], [c]] } 1)
    (v : KVec d) (hs : o.steps = uniformSteps 3 0 1) (hskip : o.skip = 2) (hg : o.tgrid = [(0, 1)])
    (hv : o.ks.kvectors = [[v]]) (hn : o.normalize = false)
    (hne : Real.cos (Spec.dot (kvecOf o.ks v) fun e => b e - a e) ≠
      Real.cos (Spec.dot (kvecOf o.ks v) fun e => c e - b e)) :
    fsLegacy { o with pos := [[a], [b], [c]].reverse } ≠ fsLegacy { o with pos := [[a], [b], [c]] } := by
  have h' : FsRegular { o with pos := [[c], [b], [a]] } 1 :=
    ⟨by simp, h.skip_pos, by simpa using h.steps, by simp, one_pos, h.allowed, h.kgrid, h.shells_ne, h.shells⟩
  rw [show [[a], [b], [c]].reverse = [[c], [b], [a]] from rfl, fs_stride o a b c h v hs hskip hg hv hn,
    fs_stride o c b a h' v hs hskip hg hv hn]
  intro e
  simp only [Except.ok.injEq, Prod.mk.injEq, List.cons.injEq, and_true, true_and] at e
  refine hne (e.symm.trans ?_)
  rw [← Real.cos_neg]
  congr 1
  unfold Spec.dot
  rw [← Finset.sum_neg_distrib]
  exact Finset.sum_congr rfl fun c _ => by ring

theorem fk_two (o : FkObj d) (a b a' b' : Vec d ℝ) (h : FkRegular { o with pos0 := [[a], [b]], pos1 := [[a'], [b']] })
    (v : KVec d) (hs : o.steps = uniformSteps 2 0 1) (hskip : o.skip = 1) (hg : o.tgrid = [(0, 1)])
    (hv : o.ks.kvectors = [[v]]) (hn : o.normalize = false) :
    fkCompute { o with pos0 := [[a], [b]], pos1 := [[a'], [b']] } =
      .ok ([o.timestep], [[Real.cos (Spec.dot (kvecOf o.ks v) fun e => b e - a' e)]],
        [[Real.cos (Spec.dot (kvecOf o.ks v) fun e => b e - a' e)]]) := by
  rw [fkCompute_eq _ h]
  have hp : Spec.framePairs (uniformSteps 2 0 1) 1 [(0, 1)] ([[a], [b]].zip [[a'], [b']]) 1 =
      [(([b], [b']), ([a], [a']))] := by
    rw [framePairs_eq _ _ _ _ (by simp [uniformSteps]) ([], [])]
    rw [show pairsAt (uniformSteps 2 0 1) (Spec.sampled ([[a], [b]].zip [[a'], [b']]).length 1 [(0, 1)]) 1 = [(0, 1)] by
      show pairsAt (uniformSteps 2 0 1) (Spec.sampled 2 1 [(0, 1)]) 1 = [(0, 1)]
      decide +kernel]
    rfl
  have hl : fkLags { o with pos0 := [[a], [b]], pos1 := [[a'], [b']] } = [1] := by
    unfold fkLags
    simp only [hs, hskip, hg]
    show lagList (uniformSteps 2 0 1) (Spec.sampled 2 1 [(0, 1)]) = [1]
    decide +kernel
  have hre : ∀ x y : ℝ, (Complex.exp (Complex.I * (x : ℝ)) * star (Complex.exp (Complex.I * (y : ℝ)))).re =
      Real.cos (x - y) := by
    intro x y
    rw [mul_comm Complex.I, mul_comm Complex.I, Complex.star_def, Complex.mul_re, Complex.conj_re, Complex.conj_im,
      Complex.exp_ofReal_mul_I_re, Complex.exp_ofReal_mul_I_re, Complex.exp_ofReal_mul_I_im,
      Complex.exp_ofReal_mul_I_im, Real.cos_sub]
    ring
  have hd : ∀ x y : Vec d ℝ, Spec.dot (kvecOf o.ks v) x - Spec.dot (kvecOf o.ks v) y =
      Spec.dot (kvecOf o.ks v) fun e => x e - y e := by
    intro x y
    unfold Spec.dot
    rw [← Finset.sum_sub_distrib]
    exact Finset.sum_congr rfl fun c _ => by ring
  unfold fkRaw
  rw [hl]
  simp only [hv, hn, List.map_cons, List.map_nil, cohList, hs, hskip, hg, hp, List.flatMap_cons, List.flatMap_nil,
    List.append_nil, Spec.density, Spec.mean, List.sum_cons, List.sum_nil, List.length_cons, List.length_nil, add_zero,
    hre, hd]
  simp

/-- **C129, where it stops**: the function of two groups correlates the first one at the later time with the second one
at the earlier time, also with all time origins: two frames with one particle in each group. -/
theorem C129_counterexample_groups (o : FkObj d) (a b a' b' : Vec d ℝ)
    (h : FkRegular { o with pos0 := [[a], [b]], pos1 := [[a'], [b']] })
    (v : KVec d) (hs : o.steps = uniformSteps 2 0 1) (hskip : o.skip = 1) (hg : o.tgrid = [(0, 1)])
    (hv : o.ks.kvectors = [[v]]) (hn : o.normalize = false)
    (hne : Real.cos (Spec.dot (kvecOf o.ks v) fun e => b e - a' e) ≠
      Real.cos (Spec.dot (kvecOf o.ks v) fun e => a e - b' e)) :
    fkCompute { o with pos0 := [[a], [b]].reverse, pos1 := [[a'], [b']].reverse } ≠
      fkCompute { o with pos0 := [[a], [b]], pos1 := [[a'], [b']] } := by
  have h' : FkRegular { o with pos0 := [[b], [a]], pos1 := [[b'], [a']] } :=
    ⟨h.dims, h.skip_pos, by simpa using h.steps, rfl, fun e => by have := h.same e; simp_all, by simp, by simp, h.allowed,
      h.kgrid, h.shells_ne, h.shells⟩
  rw [show [[a], [b]].reverse = [[b], [a]] from rfl, show [[a'], [b']].reverse = [[b'], [a']] from rfl,
    fk_two o a b a' b' h v hs hskip hg hv hn, fk_two o b a b' a' h' v hs hskip hg hv hn]
  intro e
  simp only [Except.ok.injEq, Prod.mk.injEq, List.cons.injEq, and_true, true_and, and_self] at e
  exact hne e.symm

/-! ### Examples -/

example : fsLegacy { exFs with steps := uniformSteps 3 0 1, pos := exFs.pos.reverse } =
      fsLegacy { exFs with steps := uniformSteps 3 0 1 } ∧
    fsFast { exFs with steps := uniformSteps 3 0 1, pos := exFs.pos.reverse } =
      fsFast { exFs with steps := uniformSteps 3 0 1 } := by
  have h : FsRegular { exFs with steps := uniformSteps 3 0 1 } 2 :=
    ⟨by simp [exFs], by simp [exFs], by simp [exFs, uniformSteps], by simp [exFs], two_pos, exKs_allowed,
      by simp [exFs, exKs], by simp [exFs, exKs], by simp [exFs, exKs]⟩
  obtain ⟨h1, h2⟩ := C129_self_partial _ h 0 1 rfl rfl (by simp [exFs])
  exact ⟨h1, h2 (by norm_num [exFs])⟩

example : fkCompute { exFk with steps := uniformSteps 3 0 1, pos0 := exFk.pos0.reverse, pos1 := exFk.pos1.reverse } =
    fkCompute { exFk with steps := uniformSteps 3 0 1, pos0 := exFk.pos1, pos1 := exFk.pos0 } := by
  have h : FkRegular { exFk with steps := uniformSteps 3 0 1 } :=
    ⟨Or.inr rfl, by simp [exFk], by simp [exFk, uniformSteps], by simp [exFk], by simp [exFk], by simp [exFk],
      by simp [exFk], exKs_allowed, by simp [exFk, exKs], by simp [exFk, exKs], by simp [exFk, exKs]⟩
  exact (C129_coherent_partial _ h 0 1 rfl rfl (by simp [exFk])).1

/-- A particle which moves by half a wavelength, and then not. -/
example (o : FsObj 2) (ho : o = ⟨uniformSteps 3 0 1, 1, 2, [(0, 1)], [], exKs2, 1, false⟩) :
    fsLegacy { o with pos := [[![0, 0]], [![Real.pi, 0]], [![Real.pi, 0]]].reverse } ≠
      fsLegacy { o with pos := [[![0, 0]], [![Real.pi, 0]], [![Real.pi, 0]]] } := by
  subst ho
  refine C129_counterexample_stride _ _ _ _ ⟨by simp, by simp, by simp [uniformSteps], by simp, one_pos, exKs2_allowed,
    by simp [exKs2], by simp [exKs2], by simp [exKs2]⟩ ![2, 1] rfl rfl rfl rfl rfl ?_
  simp [Spec.dot, kvecOf, exKs2, Fin.sum_univ_two, show (2 : ℝ) - 1 = 1 by norm_num]
  norm_num

/-- Two groups of one particle: the first one moves by half a wavelength. -/
example (o : FkObj 2) (ho : o = { exSwap false with skip := 1, tgrid := [(0, 1)] }) :
    fkCompute { o with pos0 := [[![0, 0]], [![Real.pi, 0]]].reverse, pos1 := [[![0, 0]], [![0, 0]]].reverse } ≠
    fkCompute { o with pos0 := [[![0, 0]], [![Real.pi, 0]]], pos1 := [[![0, 0]], [![0, 0]]] } := by
  subst ho
  refine C129_counterexample_groups _ _ _ _ _
    ⟨Or.inl rfl, by simp, by simp [exSwap], by simp, by simp [exSwap], by simp, by simp, exKs2_allowed,
      by simp [exSwap, exKs2], by simp [exSwap, exKs2], by simp [exSwap, exKs2]⟩ ![2, 1] rfl rfl rfl rfl rfl ?_
  simp [Spec.dot, kvecOf, exSwap, exKs2, Fin.sum_univ_two, show (2 : ℝ) - 1 = 1 by norm_num]
  norm_num

end PP.Props
