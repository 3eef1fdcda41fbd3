import Verif.Lemmas.Fskt

/-!
# Closed form of the coherent intermediate scattering function
-/

set_option linter.unusedSectionVars false

namespace PP

variable {d : ℕ}

theorem ddGet_dictSet {κ V : Type*} [DecidableEq κ] (z : V) (D : List (κ × V)) (k k' : κ) (v : V) :
    ddGet z (dictSet D k v) k' = if k' = k then v else ddGet z D k' := by
  induction D with
  | nil => simp only [dictSet, ddGet]; split_ifs <;> simp_all
  | cons e D ih =>
    obtain ⟨a, b⟩ := e
    simp only [dictSet]
    by_cases h : a = k
    · subst h
      rw [if_pos rfl]
      simp only [ddGet]
      by_cases h' : k' = a
      · subst h'; simp
      · rw [if_neg (Ne.symm h'), if_neg (Ne.symm h'), if_neg h']
    · rw [if_neg h]
      simp only [ddGet]
      by_cases h' : a = k'
      · subst h'; rw [if_pos rfl, if_pos rfl, if_neg h]
      · rw [if_neg h', if_neg h', ih]

theorem ddGet_setAll {κ V : Type} [DecidableEq κ] (z : V) (R : κ → V) (L : List κ) (D : List (κ × V)) (v : κ)
    (h : v ∈ L ∨ ddGet z D v = R v) : ddGet z (L.foldl (fun D v => dictSet D v (R v)) D) v = R v := by
  induction L generalizing D with
  | nil => simpa using h
  | cons a L ih =>
    rw [List.foldl_cons]
    apply ih
    by_cases hva : v = a
    · right; rw [ddGet_dictSet, if_pos hva, hva]
    · rcases h with h | h
      · left; simpa [hva] using h
      · right; rw [ddGet_dictSet, if_neg hva, h]

theorem foldlM_flatten' {α S : Type} (f : S → α → Py S) (L : List (List α)) (s : S) :
    L.foldlM (fun s l => l.foldlM f s) s = L.flatten.foldlM f s := by
  induction L generalizing s with
  | nil => rfl
  | cons l L ih => rw [List.foldlM_cons, List.flatten_cons, List.foldlM_append]; congr 1; funext s; exact ih s

/-- The dictionary of densities of one frame. -/
theorem fkFrame_eq (ks : KState d ℝ) (ha : Allowed ks) (hd : d = 2 ∨ d = 3) (pos : List (Vec d ℝ)) (hp : pos ≠ []) :
    ∃ D, fkFrame ks pos = .ok D ∧ ∀ l ∈ ks.kvectors, ∀ v ∈ l, ddGet 0 D v = Spec.density (kvecOf ks v) pos := by
  have hoff : 1 ≤ ks.koffset.toNat := by have := ha.1; omega
  have key := foldlM_inv_ok (P := fun st : List (List (List ℂ)) × List (KVec d × ℂ) => st.1 = skTable ks pos)
    (f := fkDensity) (g := fun st v => (st.1, dictSet st.2 v (Spec.density (kvecOf ks v) pos)))
    ks.kvectors.flatten (skTable ks pos, []) rfl (by
      intro st hst v hv
      obtain ⟨l, hl, hv⟩ := List.mem_flatten.1 hv
      refine ⟨?_, hst⟩
      unfold fkDensity
      rw [if_pos hd, hst]
      have := rhoSum_mode ks ha.1 v (ha.2 l hl v hv) pos false []
      have e1 : (skWeight false [] : ℕ → ℂ) = fun _ => 1 := by funext n; simp [skWeight]
      have e2 : (realWeight false [] : ℕ → ℝ) = fun _ => 1 := by funext n; simp [realWeight]
      rw [e1, e2, fieldMode_one] at this
      rw [this]
      rfl)
  have hsnd : ∀ (L : List (KVec d)) (st : List (List (List ℂ)) × List (KVec d × ℂ)),
      (L.foldl (fun st v => (st.1, dictSet st.2 v (Spec.density (kvecOf ks v) pos))) st).2 =
        L.foldl (fun D v => dictSet D v (Spec.density (kvecOf ks v) pos)) st.2 := by
    intro L
    induction L with
    | nil => intro st; rfl
    | cons a L ih => intro st; rw [List.foldl_cons, ih]; rfl
  refine ⟨ks.kvectors.flatten.foldl (fun D v => dictSet D v (Spec.density (kvecOf ks v) pos)) [], ?_, ?_⟩
  · unfold fkFrame
    rw [expoSphere_eq _ _ _ hoff _ hp]
    show Except.bind (List.foldlM _ (skTable ks pos, []) _) _ = _
    rw [foldlM_flatten', key.1]
    show Except.ok _ = _
    rw [hsnd]
  · intro l hl v hv
    exact ddGet_setAll 0 (fun v => Spec.density (kvecOf ks v) pos) _ _ v
      (Or.inl (List.mem_flatten.2 ⟨l, hl, hv⟩))

/-- Data for which the coherent function is defined: two or three dimensions, as many frames in both groups, no empty
frame, and for every grid point at least one wave-vector in the table. -/
structure FkRegular (o : FkObj d) : Prop where
  dims : d = 2 ∨ d = 3
  skip_pos : 0 < o.skip
  steps : o.pos0.length ≤ o.steps.length
  frames : o.pos1.length = o.pos0.length
  same : o.same = true → o.pos1 = o.pos0
  pos0 : ∀ f ∈ o.pos0, f ≠ []
  pos1 : ∀ f ∈ o.pos1, f ≠ []
  allowed : Allowed o.ks
  kgrid : o.ks.kgrid.length = o.ks.kvectors.length
  shells_ne : o.ks.kvectors ≠ []
  shells : ∀ l ∈ o.ks.kvectors, l ≠ []

theorem mapM_exists {α β : Type} (Q : α → β → Prop) (f : α → Py β) (l : List α)
    (h : ∀ a ∈ l, ∃ b, f a = .ok b ∧ Q a b) : ∃ L, l.mapM f = .ok L ∧ List.Forall₂ Q l L := by
  induction l with
  | nil => exact ⟨[], rfl, .nil⟩
  | cons a l ih =>
    obtain ⟨b, hb, hq⟩ := h a (by simp)
    obtain ⟨L, hL, hF⟩ := ih fun x hx => h x (by simp [hx])
    refine ⟨b :: L, ?_, .cons hq hF⟩
    rw [List.mapM_cons, hb]
    show Except.bind (l.mapM f) _ = _
    rw [hL]
    rfl

theorem Forall₂_getD {α β : Type} {Q : α → β → Prop} {l : List α} {L : List β} (h : List.Forall₂ Q l L) {i : ℕ}
    (hi : i < l.length) (a : α) (b : β) : Q (l.getD i a) (L.getD i b) := by
  rw [List.getD_eq_getElem _ _ hi, List.getD_eq_getElem _ _ (by rw [← h.length_eq]; exact hi)]
  exact List.forall₂_iff_get.1 h |>.2 i hi _

/-- The sampled lags. -/
def fkLags (o : FkObj d) : List ℤ := lagList o.steps (Spec.sampled o.pos0.length o.skip o.tgrid)

/-- Products of densities averaged at lag `δ` for a list of wave-vectors. -/
noncomputable def cohList (o : FkObj d) (kl : List (KVec d)) (δ : ℤ) : List ℝ :=
  kl.flatMap fun v => (Spec.framePairs o.steps o.skip o.tgrid (o.pos0.zip o.pos1) δ).map fun ab =>
    (Spec.density (kvecOf o.ks v) ab.1.1 * star (Spec.density (kvecOf o.ks v) ab.2.2)).re

/-- The values before the normalisation. -/
noncomputable def fkRaw (o : FkObj d) : List (List ℝ) :=
  o.ks.kvectors.map fun kl => (fkLags o).map fun δ => Spec.mean (cohList o kl δ)

theorem zip_length (o : FkObj d) (h : FkRegular o) : (o.pos0.zip o.pos1).length = o.pos0.length := by
  rw [List.length_zip, h.frames, min_self]

theorem cohList_eq (o : FkObj d) (h : FkRegular o) (kl : List (KVec d)) (δ : ℤ) :
    cohList o kl δ = kl.flatMap fun v =>
      (pairsAt o.steps (Spec.sampled o.pos0.length o.skip o.tgrid) δ).map fun p =>
        (Spec.density (kvecOf o.ks v) (o.pos0.getD (p.1 + p.2) []) *
          star (Spec.density (kvecOf o.ks v) (o.pos1.getD p.1 []))).re := by
  unfold cohList
  apply List.flatMap_congr
  intro v _
  have hz := zip_length o h
  rw [framePairs_eq _ _ _ _ (by rw [hz]; exact h.steps) ([], []), List.map_map, hz]
  apply List.map_congr_left
  intro p hp
  have hlt := sampled_lt (List.mem_filter.1 hp).1
  have hf := h.frames
  simp only [Function.comp]
  rw [List.getD_eq_getElem _ _ (by rw [hz]; exact hlt), List.getD_eq_getElem _ _ (by rw [hz]; omega : p.1 < _),
    List.getElem_zip, List.getElem_zip, List.getD_eq_getElem _ _ hlt,
    List.getD_eq_getElem _ _ (by omega : p.1 < o.pos1.length)]

theorem cohList_length (o : FkObj d) (h : FkRegular o) (kl : List (KVec d)) (δ : ℤ) :
    (cohList o kl δ).length =
      kl.length * (pairsAt o.steps (Spec.sampled o.pos0.length o.skip o.tgrid) δ).length := by
  rw [cohList_eq o h, length_flatMap_const _ _ (pairsAt o.steps (Spec.sampled o.pos0.length o.skip o.tgrid) δ).length]
  intro v _
  simp

theorem fkCompute_eq (o : FkObj d) (h : FkRegular o) :
    fkCompute o = .ok ((fkLags o).map fun t : ℤ => (t : ℝ) * o.timestep,
      if o.normalize then (fkRaw o).map fun v => v.map fun x => x / v.getD 0 0 else fkRaw o, fkRaw o) := by
  let Q : List (Vec d ℝ) → List (KVec d × ℂ) → Prop := fun f D =>
    ∀ l ∈ o.ks.kvectors, ∀ v ∈ l, ddGet 0 D v = Spec.density (kvecOf o.ks v) f
  obtain ⟨rho0, h0, hF0⟩ := mapM_exists Q (fkFrame o.ks) o.pos0
    fun f hf => fkFrame_eq o.ks h.allowed h.dims f (h.pos0 f hf)
  obtain ⟨rho1, h1, hF1⟩ : ∃ rho1, fkSecond o rho0 = .ok rho1 ∧ List.Forall₂ Q o.pos1 rho1 := by
    unfold fkSecond
    by_cases hs : o.same = true
    · rw [if_pos hs, h.same hs]; exact ⟨rho0, rfl, hF0⟩
    · rw [if_neg hs]
      obtain ⟨L, hL, hF⟩ := mapM_exists Q (fkFrame o.ks) o.pos1
        fun f hf => fkFrame_eq o.ks h.allowed h.dims f (h.pos1 f hf)
      refine ⟨L, ?_, hF⟩
      have hpg : ∀ l : List (List (Vec d ℝ)), (List.range l.length).mapM (fun it => do
          let f ← pyGet l it
          fkFrame o.ks f) = l.mapM (fkFrame o.ks) := by
        intro l
        have e : l = (List.range l.length).map fun i => l.getD i [] := by
          apply List.ext_getElem
          · simp
          · intro i h1 h2
            simp [List.getElem?_eq_getElem h1]
        conv_rhs => rw [e, List.mapM_map]
        have hc : ∀ (L : List ℕ) (F G : ℕ → Py (List (KVec d × ℂ))), (∀ i ∈ L, F i = G i) → L.mapM F = L.mapM G := by
          intro L F G hFG
          induction L with
          | nil => rfl
          | cons a L ih => rw [List.mapM_cons, List.mapM_cons, hFG a (by simp), ih fun i hi => hFG i (by simp [hi])]
        apply hc
        intro i hi
        rw [List.mem_range] at hi
        rw [pyGet_ok hi]
        show fkFrame o.ks l[i] = _
        simp [List.getElem?_eq_getElem hi]
      rw [← hL, ← hpg, h.frames]
  have hlen0 : rho0.length = o.pos0.length := hF0.length_eq.symm
  have hlen1 : rho1.length = o.pos1.length := hF1.length_eq.symm
  let c : ℕ → ℕ → KVec d → ℝ := fun i0 i v =>
    (Spec.density (kvecOf o.ks v) (o.pos0.getD (i0 + i) []) *
      star (Spec.density (kvecOf o.ks v) (o.pos1.getD i0 []))).re
  have hloop := fkLoops_eq o.steps rho0.length o.skip 1 h.skip_pos o.tgrid (fkPair rho0 rho1) c o.ks.kvectors
    (List.replicate o.ks.kgrid.length (([], []) : Acc ℤ ℝ)) (by rw [hlen0]; exact h.steps) (by
      intro i0 i hi l hl v hv
      rw [hlen0] at hi
      have hfr := h.frames
      have hi0 : i0 < o.pos1.length := by omega
      unfold fkPair
      rw [pyGet_ok (by omega), pyGet_ok (by omega)]
      show Except.ok _ = _
      have q0 := Forall₂_getD hF0 hi [] [] l hl v hv
      have q1 := Forall₂_getD hF1 hi0 [] [] l hl v hv
      rw [List.getD_eq_getElem _ _ (by omega : i0 + i < rho0.length)] at q0
      rw [List.getD_eq_getElem _ _ (by omega : i0 < rho1.length)] at q1
      rw [q0, q1]) (by rw [List.length_replicate, h.kgrid])
  have hacc : (List.replicate o.ks.kgrid.length (([], []) : Acc ℤ ℝ)).mapIdx (fun m a =>
      (fkEvents o.steps (Spec.sampled rho0.length o.skip o.tgrid) c (o.ks.kvectors.getD m [])).foldl (addEvent 1) a) =
      o.ks.kvectors.map fun kl => accBlocks [()] (fun _ => fkEvents o.steps (Spec.sampled o.pos0.length o.skip o.tgrid)
        c kl) (fun _ => 1) := by
    apply List.ext_getElem?
    intro m
    rw [List.getElem?_mapIdx, List.getElem?_map, List.getElem?_replicate, h.kgrid, hlen0]
    by_cases hm : m < o.ks.kvectors.length
    · rw [if_pos hm, List.getElem?_eq_getElem hm, List.getD_eq_getElem _ _ hm]
      rfl
    · rw [if_neg hm, List.getElem?_eq_none (by omega)]
      rfl
  have hval := fkValues_eq [()] (by simp) o.steps (Spec.sampled o.pos0.length o.skip o.tgrid) (fun _ => c)
    (fun _ => 1) (by simp) o.ks.kvectors h.shells h.shells_ne
  have hraw : (o.ks.kvectors.map fun kl => (fkLags o).map fun δ =>
      (kl.flatMap fun v => (pairsAt o.steps (Spec.sampled o.pos0.length o.skip o.tgrid) δ).map fun p =>
        (([()] : List Unit).map fun _ => c p.1 p.2 v).sum).sum /
          ((kl.length * (pairsAt o.steps (Spec.sampled o.pos0.length o.skip o.tgrid) δ).length *
            (([()] : List Unit).map fun _ => 1).sum : ℕ) : ℝ)) = fkRaw o := by
    unfold fkRaw
    apply List.map_congr_left
    intro kl _
    apply List.map_congr_left
    intro δ _
    unfold Spec.mean
    rw [cohList_length o h, cohList_eq o h]
    simp [c]
  rw [show lagList o.steps (Spec.sampled o.pos0.length o.skip o.tgrid) = fkLags o from rfl, hraw] at hval
  unfold fkCompute
  rw [h0]
  show Except.bind (fkSecond o rho0) _ = _
  rw [h1]
  show Except.bind (fkLoops _ _ _ _ _ _ _ _) _ = _
  rw [hloop, hacc]
  show Except.bind (fkValues _) _ = _
  rw [hval]
  rfl

end PP
