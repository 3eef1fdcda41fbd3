import Verif.Props.SkReplica
import Verif.Props.Inequalities
import Verif.Props.Fskt
import Verif.Props.Fkt

/-!
# C211: intermediate scattering functions of a cell repeated along the axes
-/

namespace PP.Spec

/-- Copies of the particles of a frame, in the order given by `e`: copy `q` of particle `i` is displaced by `T (q, i)`. -/
def copiesList {d k n N : ℕ} (e : Fin k × Fin n ≃ Fin N) (T : Fin k × Fin n → Fin d → ℝ) (x : List (Fin d → ℝ)) : List (Fin d → ℝ) :=
  List.ofFn fun j => x.getD (e.symm j).2 0 + T (e.symm j)

end PP.Spec

namespace PP.Props
open PP

variable {d : ℕ}

theorem mem_framePairs {X : Type} {steps : List ℤ} {skip : ℕ} {dg : List (ℕ × ℕ)} {x : List X} {δ : ℤ} {e : X × X}
    (he : e ∈ Spec.framePairs steps skip dg x δ) : e.1 ∈ x ∧ e.2 ∈ x := by
  unfold Spec.framePairs Spec.termsAt Spec.terms at he
  simp only [List.mem_map, List.mem_filter, List.mem_filterMap, decide_eq_true_eq] at he
  obtain ⟨w, ⟨⟨q, -, hq⟩, hd⟩, rfl⟩ := he
  unfold Spec.term at hq
  cases h1 : x[q.1 + q.2]? <;> cases h2 : x[q.1]? <;> cases h3 : steps[q.1 + q.2]? <;> cases h4 : steps[q.1]? <;>
    simp only [h1, h2, h3, h4] at hq <;> try cases hq
  exact ⟨List.mem_of_getElem? h1, List.mem_of_getElem? h2⟩

/-- **C211**: in a cell repeated `m c` times along each axis, the intermediate scattering function before normalisation is multiplied by
the square of the number of copies, for the wave-vectors of the small cell, and the normalised one is the same; for the grid points none
of whose wave-vectors is a wave-vector of the small cell it is zero. -/
theorem C211_repeated (o : FkObj d) (h : FkRegular o) (m : Fin d → ℕ) (hm : ∀ c, 0 < m c) (L : Vec d ℝ) (hL : ∀ c, 0 < L c)
    (ks : KState d ℝ) (hk : ∀ c, o.ks.k0 c = 2 * Real.pi / L c) (hk' : ∀ c, ks.k0 c = 2 * Real.pi / (m c * L c))
    (pos0 pos1 : List (List (Vec d ℝ))) (h' : FkRegular { o with pos0 := pos0, pos1 := pos1, ks := ks })
    (h0 : List.Forall₂ (Spec.Repeated m L) o.pos0 pos0) (h1 : List.Forall₂ (Spec.Repeated m L) o.pos1 pos1) :
    ∃ (ts : List ℝ) (value nonorm value' nonorm' : List (List ℝ)), fkCompute o = .ok (ts, value, nonorm) ∧
      fkCompute { o with pos0 := pos0, pos1 := pos1, ks := ks } = .ok (ts, value', nonorm') ∧
      nonorm.length = (kvectorsGet o.ks).length ∧ nonorm'.length = (kvectorsGet ks).length ∧
      (∀ (n n' : ℕ) (kl : List (Vec d ℝ)), (kvectorsGet o.ks)[n]? = some kl → (kvectorsGet ks)[n']? = some kl →
        nonorm'[n']? = nonorm[n]?.map (fun row : List ℝ => row.map fun x => ((∏ c, m c : ℕ) : ℝ) ^ 2 * x) ∧
        (o.normalize = true → value'[n']? = value[n]?)) ∧
      ∀ (n' : ℕ) (kl : List (Vec d ℝ)), (kvectorsGet ks)[n']? = some kl → (∀ k ∈ kl, ∃ c, ∀ j : ℤ, k c * L c ≠ j * (2 * Real.pi)) →
        ∀ row, nonorm'[n']? = some row → ∀ x ∈ row, x = 0 := by
  have hl0 := h0.length_eq
  have hl1 := h1.length_eq
  have hlags : fkLags { o with pos0 := pos0, pos1 := pos1, ks := ks } = fkLags o := by
    unfold fkLags
    rw [← hl0]
  have e1 := fkCompute_eq o h
  have e2 := fkCompute_eq _ h'
  rw [hlags] at e2
  have hM0 : ((∏ c, m c : ℕ) : ℝ) ≠ 0 := by
    have : 0 < ∏ c, m c := Finset.prod_pos fun c _ => hm c
    exact_mod_cast this.ne'
  set M : ℝ := ((∏ c, m c : ℕ) : ℝ) with hM
  -- the two sets of frames together
  set Z := (o.pos0.zip o.pos1).zip (pos0.zip pos1) with hZ
  have hz1 : (o.pos0.zip o.pos1) = Z.map Prod.fst := by
    rw [hZ, List.map_fst_zip]
    simp [← hl0, ← hl1]
  have hz2 : (pos0.zip pos1) = Z.map Prod.snd := by
    rw [hZ, List.map_snd_zip]
    simp [← hl0, ← hl1]
  have hlen : Z.length ≤ o.steps.length := by
    have := zip_length o h
    rw [hz1, List.length_map] at this
    rw [this]
    exact h.steps
  have hrep : ∀ z ∈ Z, Spec.Repeated m L z.1.1 z.2.1 ∧ Spec.Repeated m L z.1.2 z.2.2 := by
    intro z hz
    obtain ⟨i, hi, rfl⟩ := List.getElem_of_mem hz
    simp only [hZ, List.getElem_zip]
    rw [hZ] at hi
    simp only [List.length_zip, lt_min_iff] at hi
    exact ⟨(List.forall₂_iff_get.1 h0).2 i hi.1.1 hi.2.1, (List.forall₂_iff_get.1 h1).2 i hi.1.2 hi.2.2⟩
  have hraw : ∀ o' : FkObj d, fkRaw o' = (kvectorsGet o'.ks).map fun kl => (fkLags o').map fun δ => Spec.mean (kl.flatMap fun k =>
      (Spec.framePairs o'.steps o'.skip o'.tgrid (o'.pos0.zip o'.pos1) δ).map fun ab =>
        (Spec.density k ab.1.1 * star (Spec.density k ab.2.2)).re) := by
    intro o'
    rw [kvectorsGet_map, List.map_map]
    unfold fkRaw
    refine List.map_congr_left fun kl _ => List.map_congr_left fun δ _ => ?_
    simp only [cohList, List.flatMap_map]
  have hr1 := hraw o
  have hr2 := hraw { o with pos0 := pos0, pos1 := pos1, ks := ks }
  rw [hlags] at hr2
  simp only [hz1, framePairs_mapped _ _ _ _ _ hlen, List.map_map] at hr1
  simp only [hz2, framePairs_mapped _ _ _ _ _ hlen, List.map_map] at hr2
  have hkk : ∀ kl ∈ kvectorsGet ks, ∀ k ∈ kl, ∀ c, ∃ j : ℤ, k c * (m c * L c) = j * (2 * Real.pi) := by
    intro kl hkl k hk c
    obtain ⟨n, hn, rfl⟩ := List.getElem_of_mem hkl
    exact kvecOf_side (fun c => mul_pos (by exact_mod_cast hm c) (hL c)) ks hk' n k (by rwa [List.getD_eq_getElem _ _ hn]) c
  have hks : ∀ kl ∈ kvectorsGet o.ks, ∀ k ∈ kl, ∀ c, ∃ j : ℤ, k c * L c = j * (2 * Real.pi) := by
    intro kl hkl k hk2 c
    obtain ⟨n, hn, rfl⟩ := List.getElem_of_mem hkl
    exact kvecOf_side hL o.ks hk n k (by rwa [List.getD_eq_getElem _ _ hn]) c
  refine ⟨_, _, _, _, _, e1, e2, by rw [hr1]; simp, by rw [hr2]; simp, ?_, ?_⟩
  · intro n n' kl hn hn'
    have hrow : (fkRaw { o with pos0 := pos0, pos1 := pos1, ks := ks })[n']? =
        (fkRaw o)[n]?.map (fun row : List ℝ => row.map fun x => M ^ 2 * x) := by
      rw [hr1, hr2, List.getElem?_map, List.getElem?_map, hn, hn']
      simp only [Option.map_some, List.map_map]
      congr 1
      refine List.map_congr_left fun δ _ => ?_
      simp only [Function.comp]
      have hm2 : ∀ l : List ℝ, M ^ 2 * Spec.mean l = Spec.mean (l.map fun x => M ^ 2 * x) := fun l => by
        simpa using (mean_mul_map (M ^ 2) l id).symm
      rw [hm2]
      congr 1
      rw [List.map_flatMap]
      refine List.flatMap_congr fun k hkl => ?_
      rw [List.map_map]
      refine List.map_congr_left fun e he => ?_
      obtain ⟨he1, he2⟩ := mem_framePairs he
      have hj := hks kl (List.mem_of_getElem? hn) k hkl
      have hj' := hkk kl (List.mem_of_getElem? hn') k hkl
      have hpr : (∏ c, ∑ q : Fin (m c), ccis (k c * L c) ^ (q : ℕ)) = (M : ℂ) := by
        rw [Finset.prod_congr rfl fun c _ => phases_one _ (m c) (hj c), hM]
        push_cast
        rfl
      simp only [Function.comp]
      rw [density_repeated m L k _ _ (hrep _ he1).1 hj', density_repeated m L k _ _ (hrep _ he2).2 hj', hpr, star_mul',
        show star (M : ℂ) = M from Complex.conj_ofReal M, ← Complex.re_ofReal_mul]
      congr 1
      push_cast
      ring
    refine ⟨hrow, fun hno => ?_⟩
    have hno' : ({ o with pos0 := pos0, pos1 := pos1, ks := ks } : FkObj d).normalize = true := hno
    rw [if_pos hno, if_pos hno', List.getElem?_map, List.getElem?_map, hrow, Option.map_map]
    congr 1
    funext row
    simp only [Function.comp, List.map_map]
    refine List.map_congr_left fun x _ => ?_
    have e3 : (row.map fun x => M ^ 2 * x).getD 0 0 = M ^ 2 * row.getD 0 0 := by cases row <;> simp
    rw [e3]
    exact mul_div_mul_left _ _ (pow_ne_zero 2 hM0)
  · intro n' kl hn' hkl row hrow x hx
    rw [hr2, List.getElem?_map, hn', Option.map_some, Option.some.injEq] at hrow
    subst hrow
    obtain ⟨δ, -, rfl⟩ := List.mem_map.1 hx
    unfold Spec.mean
    rw [List.sum_eq_zero, zero_div]
    intro y hy
    obtain ⟨k, hkl2, hy⟩ := List.mem_flatMap.1 hy
    obtain ⟨e, he, rfl⟩ := List.mem_map.1 hy
    obtain ⟨he1, he2⟩ := mem_framePairs he
    have hj' := hkk kl (List.mem_of_getElem? hn') k hkl2
    obtain ⟨c, hc⟩ := hkl k hkl2
    have hpr : (∏ c, ∑ q : Fin (m c), ccis (k c * L c) ^ (q : ℕ)) = 0 := by
      refine Finset.prod_eq_zero (Finset.mem_univ c) (phases_zero _ _ hc ?_)
      obtain ⟨j, hj⟩ := hj' c
      exact ⟨j, by rw [← hj]; ring⟩
    simp only [Function.comp]
    rw [density_repeated m L k _ _ (hrep _ he1).1 hj', hpr, zero_mul, zero_mul, Complex.zero_re]

theorem mean_scaled {α : Type} (l : List α) (M : ℕ) (hM : M ≠ 0) (f g : α → List ℝ)
    (h : ∀ a ∈ l, (f a).sum = M * (g a).sum ∧ (f a).length = M * (g a).length) :
    (l.flatMap f).sum = M * (l.flatMap g).sum ∧ (l.flatMap f).length = M * (l.flatMap g).length := by
  induction l with
  | nil => simp
  | cons a l ih =>
    obtain ⟨i1, i2⟩ := ih fun b hb => h b (List.mem_cons_of_mem _ hb)
    obtain ⟨j1, j2⟩ := h a (by simp)
    rw [List.flatMap_cons, List.flatMap_cons, List.sum_append, List.sum_append, List.length_append, List.length_append, i1, i2, j1, j2,
      mul_add, mul_add]
    exact ⟨rfl, rfl⟩

theorem copiesList_length {k n N : ℕ} (e : Fin k × Fin n ≃ Fin N) (T : Fin k × Fin n → Vec d ℝ) (x : List (Vec d ℝ)) :
    (Spec.copiesList e T x).length = N := by
  unfold Spec.copiesList
  rw [List.length_ofFn]

theorem selfTerms_copies {k n N : ℕ} (e : Fin k × Fin n ≃ Fin N) (T : Fin k × Fin n → Vec d ℝ) (q : Vec d ℝ) (x y : List (Vec d ℝ))
    (hx : x.length = n) (hy : y.length = n) :
    (Spec.selfTerms q (Spec.copiesList e T x) (Spec.copiesList e T y)).sum = k * (Spec.selfTerms q x y).sum ∧
      (Spec.selfTerms q (Spec.copiesList e T x) (Spec.copiesList e T y)).length = k * (Spec.selfTerms q x y).length := by
  have hN : N = k * n := by simpa using (Fintype.card_congr e).symm
  constructor
  · have e1 : Spec.selfTerms q (Spec.copiesList e T x) (Spec.copiesList e T y) =
        List.ofFn fun j => Real.cos (Spec.dot q fun c => x.getD (e.symm j).2 0 c - y.getD (e.symm j).2 0 c) := by
      refine List.ext_getElem (by simp [Spec.selfTerms, Spec.copiesList]) fun i h1 h2 => ?_
      simp [Spec.selfTerms, Spec.copiesList]
    have e2 : Spec.selfTerms q x y = List.ofFn fun i : Fin n => Real.cos (Spec.dot q fun c => x.getD i 0 c - y.getD i 0 c) := by
      refine List.ext_getElem (by simp [Spec.selfTerms, hx, hy]) fun i h1 h2 => ?_
      have hi : i < n := by simpa using h2
      simp [Spec.selfTerms, hx, hy, hi]
    rw [e1, e2, List.sum_ofFn, List.sum_ofFn,
      e.symm.sum_comp fun p => Real.cos (Spec.dot q fun c => x.getD p.2 0 c - y.getD p.2 0 c), Fintype.sum_prod_type]
    simp
  · simp [Spec.selfTerms, copiesList_length, hx, hy, hN]

/-- **C211**: the self intermediate scattering function of copies of the particles, each displaced by a vector that does not depend on
time, is that of the particles, whatever the wave-vectors. -/
theorem C211_self (o : FsObj d) {k n N : ℕ} (h : FsRegular o n) (hk : 0 < k) (e : Fin k × Fin n ≃ Fin N)
    (T : Fin k × Fin n → Vec d ℝ) :
    fsLegacy { o with pos := o.pos.map (Spec.copiesList e T) } = fsLegacy o ∧
      (o.lookupMb ≠ 0 → fsFast { o with pos := o.pos.map (Spec.copiesList e T) } = fsFast o) := by
  have hN : N = k * n := by simpa using (Fintype.card_congr e).symm
  have h' : FsRegular { o with pos := o.pos.map (Spec.copiesList e T) } N := by
    refine ⟨by simpa using h.frames_ne, h.skip_pos, by simpa using h.steps, ?_, by rw [hN]; exact Nat.mul_pos hk h.npart_pos, h.allowed,
      h.kgrid, h.shells_ne, h.shells⟩
    intro f hf
    obtain ⟨x, -, rfl⟩ := List.mem_map.1 hf
    exact copiesList_length e T x
  have key : fsLegacy { o with pos := o.pos.map (Spec.copiesList e T) } = fsLegacy o := by
    rw [fsLegacy_eq o h, fsLegacy_eq _ h']
    have hlags : fsLags { o with pos := o.pos.map (Spec.copiesList e T) } = fsLags o := by
      unfold fsLags
      simp only [List.length_map]
    have hraw : fsRaw { o with pos := o.pos.map (Spec.copiesList e T) } = fsRaw o := by
      unfold fsRaw
      rw [hlags]
      refine List.map_congr_left fun kl _ => List.map_congr_left fun δ _ => ?_
      unfold selfList
      simp only [framePairs_mapped _ _ _ _ _ h.steps, List.flatMap_map]
      obtain ⟨e1, e2⟩ := mean_scaled kl k hk.ne' (fun v => (Spec.framePairs o.steps o.skip o.tgrid o.pos δ).flatMap fun ab =>
          Spec.selfTerms (kvecOf o.ks v) (Spec.copiesList e T ab.1) (Spec.copiesList e T ab.2))
        (fun v => (Spec.framePairs o.steps o.skip o.tgrid o.pos δ).flatMap fun ab => Spec.selfTerms (kvecOf o.ks v) ab.1 ab.2)
        fun v _ => mean_scaled _ k hk.ne' _ _ fun ab hab =>
          selfTerms_copies e T _ _ _ (h.npart _ (mem_framePairs hab).1) (h.npart _ (mem_framePairs hab).2)
      unfold Spec.mean
      rw [e1, e2, Nat.cast_mul, mul_div_mul_left _ _ (by exact_mod_cast hk.ne')]
    rw [hlags, hraw]
  refine ⟨key, fun hmb => ?_⟩
  rw [C54_fast_eq_legacy o h hmb, C54_fast_eq_legacy _ h' hmb, key]

/-! ## Examples -/

/-- One particle that moves in a cell of side `2π`. -/
noncomputable def exOneFk : FkObj 3 :=
  { steps := [0, 1, 3], timestep := 1 / 2, skip := 1, tgrid := [(0, 0), (0, 1)], same := true,
    pos0 := [[![0, 0, 0]], [![0, 1, 0]], [![1, 1, 0]]], pos1 := [[![0, 0, 0]], [![0, 1, 0]], [![1, 1, 0]]], ks := exOneKs, normalize := true }

/-- The cell repeated twice along each axis. -/
noncomputable def exEightFk : FkObj 3 :=
  { exOneFk with
    pos0 := exOneFk.pos0.map (repeatTwice fun _ => 2 * Real.pi), pos1 := exOneFk.pos1.map (repeatTwice fun _ => 2 * Real.pi), ks := exEightKs }

theorem repeatTwice_ne {L : Vec 3 ℝ} {x : Vec 3 ℝ} : repeatTwice L [x] ≠ [] := by
  intro h
  simpa [repeatTwice] using congrArg List.length h

theorem exOneFk_regular : FkRegular exOneFk :=
  ⟨Or.inr rfl, by simp [exOneFk], by simp [exOneFk], by simp [exOneFk], by simp [exOneFk], by simp [exOneFk], by simp [exOneFk],
    exOneKs_allowed, by simp [exOneFk, exOneKs], by simp [exOneFk, exOneKs], by simp [exOneFk, exOneKs]⟩

theorem exEightFk_regular : FkRegular exEightFk :=
  ⟨Or.inr rfl, by simp [exEightFk, exOneFk], by simp [exEightFk, exOneFk], by simp [exEightFk, exOneFk], by simp [exEightFk, exOneFk],
    by simp [exEightFk, exOneFk, repeatTwice_ne], by simp [exEightFk, exOneFk, repeatTwice_ne],
    exEightKs_allowed, by simp [exEightFk, exEightKs], by simp [exEightFk, exEightKs], by simp [exEightFk, exEightKs]⟩

theorem forall₂_repeatTwice (L : Vec 3 ℝ) (l : List (List (Vec 3 ℝ))) :
    List.Forall₂ (Spec.Repeated (fun _ => 2) L) l (l.map (repeatTwice L)) := by
  induction l with
  | nil => exact .nil
  | cons x l ih => exact .cons (repeatTwice_repeated _ _) ih

/-- The function at (1, 0, 0) is the same, before normalisation 64 times larger, and zero at (1/2, 0, 0). -/
example : ∃ ts value nonorm value' nonorm', fkCompute exOneFk = .ok (ts, value, nonorm) ∧
    fkCompute exEightFk = .ok (ts, value', nonorm') ∧
    nonorm'[0]? = nonorm[0]?.map (fun row : List ℝ => row.map fun x => 64 * x) ∧ value'[0]? = value[0]? ∧
    ∀ row, nonorm'[1]? = some row → ∀ x ∈ row, x = 0 := by
  have hpi := Real.pi_pos.ne'
  obtain ⟨ts, value, nonorm, value', nonorm', h1, h2, -, -, h3, h4⟩ := C211_repeated exOneFk exOneFk_regular (fun _ => 2)
    (fun _ => by norm_num) (fun _ => 2 * Real.pi) (fun _ => by positivity) exEightKs
    (by intro c; fin_cases c <;> simp [exOneFk, exOneKs, hpi])
    (by intro c; fin_cases c <;> simp [exEightKs, hpi] <;> field_simp)
    exEightFk.pos0 exEightFk.pos1 exEightFk_regular (forall₂_repeatTwice _ _) (forall₂_repeatTwice _ _)
  refine ⟨ts, value, nonorm, value', nonorm', h1, h2, ?_⟩
  obtain ⟨h5, h6⟩ := h3 0 0 [kvecOf exOneKs ![3, 2, 2]] rfl (by
    simp only [kvectorsGet, exEightKs, exOneKs, List.map_cons, List.map_nil, List.getElem?_cons_zero]
    congr 2
    funext c
    fin_cases c <;> simp [kvecOf])
  refine ⟨?_, h6 rfl, ?_⟩
  · rw [h5]
    norm_num
  · refine h4 1 [kvecOf exEightKs ![3, 2, 2]] rfl ?_
    intro k hk
    rw [List.mem_singleton] at hk
    subst hk
    refine ⟨0, fun j hj => ?_⟩
    simp only [kvecOf, exEightKs] at hj
    have h6 : (1 : ℝ) = 2 * j := by
      have : Real.pi = j * (2 * Real.pi) := by
        rw [← hj]; simp
      field_simp at this
      linarith
    have h7 : (1 : ℤ) = 2 * j := by exact_mod_cast h6
    omega

/-- Three copies of the two particles of `exFs`. -/
example := C211_self exFs exFs_regular (k := 3) (by norm_num) finProdFinEquiv fun p c => (p.1 : ℝ) * 5 + (p.2 : ℝ) * (c : ℕ)

end PP.Props
