import Verif.Model.Sk
import Verif.Spec.Sk
import Verif.Lemmas.Expo
import Verif.Lemmas.GrFull

/-!
# Closed form of the structure factor
-/

set_option linter.unusedSectionVars false

namespace PP

variable {d : ℕ}

/-- Loop that modifies element `n` of a list with the `n`-th element of another. -/
theorem foldl_zipIdx_modify {α β : Type} (F : α → β → β) (l : List α) (s : ℕ) (acc : List β) :
    (l.zipIdx s).foldl (fun acc kl => acc.modify kl.2 (F kl.1)) acc =
      acc.mapIdx fun n a => if s ≤ n then (match l[n - s]? with | some x => F x a | none => a) else a := by
  induction l generalizing s acc with
  | nil =>
    apply List.ext_getElem?
    intro n
    simp
  | cons x l ih =>
    rw [List.zipIdx_cons, List.foldl_cons, ih]
    apply List.ext_getElem?
    intro n
    simp only [List.getElem?_mapIdx, List.getElem?_modify]
    rcases acc[n]? with _ | a
    · simp
    · simp only [Option.map_some, Option.map_eq_map]
      rcases Nat.lt_trichotomy n s with h | h | h
      · rw [if_neg (by omega), if_neg (by omega), if_neg (by omega)]
      · subst h; simp
      · rw [if_pos (by omega), if_neg (by omega), if_pos (by omega)]
        obtain ⟨m, rfl⟩ : ∃ m, n = s + 1 + m := ⟨n - (s + 1), by omega⟩
        have h1 : s + 1 + m - (s + 1) = m := by omega
        have h2 : s + 1 + m - s = m + 1 := by omega
        rw [h1, h2, List.getElem?_cons_succ]

theorem foldlM_inv_ok {α σ : Type} {f : σ → α → Py σ} {g : σ → α → σ} {P : σ → Prop} (l : List α) (s : σ) (hs : P s)
    (h : ∀ s, P s → ∀ a ∈ l, f s a = .ok (g s a) ∧ P (g s a)) :
    l.foldlM f s = .ok (l.foldl g s) ∧ P (l.foldl g s) := by
  induction l generalizing s with
  | nil => exact ⟨rfl, hs⟩
  | cons a l ih =>
    obtain ⟨h1, h2⟩ := h s hs a (by simp)
    rw [List.foldlM_cons, h1]
    exact ih _ h2 fun s hs b hb => h s hs b (by simp [hb])

/-- Shells of one frame accumulated in the lists. -/
noncomputable def accShells (R : KVec d → ℂ × ℂ) (kv : List (List (KVec d))) (acc : List SkAcc) : List SkAcc :=
  acc.mapIdx fun n a => ((kv.getD n []).map R).foldl SkAcc.add a

theorem shells_loop (R : KVec d → ℂ × ℂ) (M : KVec d → Py (ℂ × ℂ)) (kv : List (List (KVec d)))
    (hM : ∀ l ∈ kv, ∀ v ∈ l, M v = .ok (R v)) (acc : List SkAcc) (hl : kv.length ≤ acc.length) :
    kv.zipIdx.foldlM (fun acc kl => kl.1.foldlM (fun acc kvec => do
      let r ← M kvec
      if kl.2 < acc.length then return acc.modify kl.2 (·.add r) else .error .indexError) acc) acc =
    (.ok (accShells R kv acc) : Py (List SkAcc)) := by
  have key := foldlM_inv_ok (P := fun a : List SkAcc => a.length = acc.length)
    (f := fun acc kl => kl.1.foldlM (fun acc kvec => do
      let r ← M kvec
      if kl.2 < acc.length then return acc.modify kl.2 (·.add r) else .error .indexError) acc)
    (g := fun acc kl => acc.modify kl.2 (fun a => (kl.1.map R).foldl SkAcc.add a)) kv.zipIdx acc rfl ?_
  · rw [key.1, foldl_zipIdx_modify (fun (l : List (KVec d)) a => (l.map R).foldl SkAcc.add a)]
    congr 1
    unfold accShells
    apply List.ext_getElem?
    intro n
    simp only [List.getElem?_mapIdx, Nat.zero_le, if_true, Nat.sub_zero, List.getD_eq_getElem?_getD]
    rcases acc[n]? with _ | a
    · rfl
    · rcases kv[n]? with _ | l <;> simp
  · intro a ha kl hkl
    refine ⟨?_, by rw [List.length_modify]; exact ha⟩
    have hmem : kl.1 ∈ kv := by
      have := List.mem_zipIdx hkl
      rw [this.2.2]; exact List.getElem_mem _
    have hlt : kl.2 < acc.length := by
      have := List.mem_zipIdx hkl
      omega
    have := foldlM_inv_ok (P := fun b : List SkAcc => b.length = acc.length)
      (f := fun acc kvec => do
        let r ← M kvec
        if kl.2 < acc.length then return acc.modify kl.2 (·.add r) else .error .indexError)
      (g := fun acc kvec => acc.modify kl.2 (·.add (R kvec))) kl.1 a ha (fun b hb v hv => by
        refine ⟨?_, by rw [List.length_modify]; exact hb⟩
        rw [hM _ hmem v hv]
        show (if kl.2 < b.length then _ else _) = _
        rw [if_pos (by omega)]; rfl)
    rw [this.1]
    congr 1
    clear this hmem
    generalize kl.1 = l
    clear ha
    induction l generalizing a with
    | nil => 
      apply List.ext_getElem?
      intro n
      rw [List.getElem?_modify]
      simp
    | cons v l ih =>
      rw [List.foldl_cons, ih]
      apply List.ext_getElem?
      intro n
      simp only [List.getElem?_modify, List.map_cons, List.foldl_cons]
      rcases a[n]? with _ | x
      · simp
      · by_cases h : kl.2 = n <;> simp [h]

theorem accShells_length (R : KVec d → ℂ × ℂ) (kv : List (List (KVec d))) (acc : List SkAcc) :
    (accShells R kv acc).length = acc.length := by simp [accShells]

/-- Accumulators after all frames. -/
theorem foldl_accShells {α : Type} (R : α → KVec d → ℂ × ℂ) (kv : α → List (List (KVec d))) (fs : List α)
    (acc : List SkAcc) :
    fs.foldl (fun acc f => accShells (R f) (kv f) acc) acc =
      acc.mapIdx fun n a => (fs.flatMap fun f => ((kv f).getD n []).map (R f)).foldl SkAcc.add a := by
  induction fs generalizing acc with
  | nil =>
    apply List.ext_getElem?
    intro n
    simp
  | cons f fs ih =>
    rw [List.foldl_cons, ih]
    apply List.ext_getElem?
    intro n
    simp only [accShells, List.getElem?_mapIdx, Option.map_map, List.flatMap_cons, List.foldl_append]
    rfl

theorem foldl_skAcc (l : List (ℂ × ℂ)) (a : SkAcc) :
    l.foldl SkAcc.add a = ⟨a.r0 + (l.map Prod.fst).sum, a.r1 + (l.map Prod.snd).sum,
      a.r2 + (l.map fun r => r.1 * star r.2).sum, a.cnt + l.length⟩ := by
  induction l generalizing a with
  | nil => simp
  | cons r l ih =>
    rw [List.foldl_cons, ih]
    simp only [SkAcc.add, List.map_cons, List.sum_cons, List.length_cons, add_assoc, Nat.add_comm 1]

/-- Value of one grid point from the list of the density modes. -/
noncomputable def modesValue (weighted : Bool) (l : List (ℂ × ℂ)) : ℝ :=
  ((l.map fun r => r.1 * star r.2).sum / (l.length : ℂ) -
    (if weighted then (l.map Prod.fst).sum * star (l.map Prod.snd).sum else 0) / (l.length : ℂ) ^ 2).re

theorem skNonorm_modes (weighted : Bool) (l : List (ℂ × ℂ)) (hl : l ≠ []) :
    skNonorm weighted (l.foldl SkAcc.add ⟨0, 0, 0, 0⟩) = .ok (modesValue weighted l) := by
  rw [foldl_skAcc]
  unfold skNonorm modesValue
  have : l.length ≠ 0 := by simpa using hl
  simp only [zero_add]
  rw [if_neg this]

/-- Both versions of the calculation from the density modes of each frame. -/
theorem sk_from_modes (frames : List (SkFrame d)) (skip nk : ℕ) (weighted : Bool) (hskip : 0 < skip)
    (hne : frames ≠ []) (R : SkFrame d → KVec d → ℂ × ℂ) (body : List SkAcc → SkFrame d → Py (List SkAcc))
    (hbody : ∀ f ∈ frames, ∀ acc : List SkAcc, acc.length = nk → body acc f = .ok (accShells (R f) f.ks.kvectors acc))
    (hkv : ∀ f ∈ frames, f.ks.kvectors.length = nk ∧ ∀ l ∈ f.ks.kvectors, l ≠ [])
    (l0 l1 : List ℕ) (h0 : l0 ≠ []) (h1 : l1 ≠ []) :
    ((do
      let is ← pyRange 0 frames.length skip
      let acc ← is.foldlM (fun acc i => do
        let f ← pyGet frames i
        body acc f) (List.replicate nk ⟨0, 0, 0, 0⟩)
      let n0 ← meanNumber l0
      let n1 ← meanNumber l1
      let v ← acc.mapM (skNonorm weighted)
      return (v.map fun x => x / √(n0 * n1), v)) : Py (List ℝ × List ℝ)) =
    .ok ((List.range nk).map (fun n => modesValue weighted
        ((originFrames frames skip).flatMap fun f => (f.ks.kvectors.getD n []).map (R f)) /
          √(((l0.sum : ℕ) : ℝ) / l0.length * (((l1.sum : ℕ) : ℝ) / l1.length))),
      (List.range nk).map fun n =>
        modesValue weighted ((originFrames frames skip).flatMap fun f => (f.ks.kvectors.getD n []).map (R f))) := by
  have h6 : pyRange 0 frames.length skip = .ok (rangeList 0 frames.length skip) := by
    unfold pyRange; rw [if_neg (by omega)]
  have hn0 : meanNumber l0 = .ok (((l0.sum : ℕ) : ℝ) / l0.length) := by unfold meanNumber; rw [if_neg h0]
  have hn1 : meanNumber l1 = .ok (((l1.sum : ℕ) : ℝ) / l1.length) := by unfold meanNumber; rw [if_neg h1]
  have h9 := foldlM_pyGet frames (rangeList 0 frames.length skip) (fun i hi => by rw [mem_rangeList hskip] at hi; omega) body
    (List.replicate nk ⟨0, 0, 0, 0⟩)
  change _ = (originFrames frames skip).foldlM body _ at h9
  have h7 := foldlM_inv_ok (f := body) (g := fun acc f => accShells (R f) f.ks.kvectors acc)
    (P := fun a : List SkAcc => a.length = nk) (originFrames frames skip)
    (List.replicate nk ⟨0, 0, 0, 0⟩) (by simp) (fun a ha f hf =>
      ⟨hbody f (originFrames_mem hf) a ha, by rw [accShells_length]; exact ha⟩)
  rw [h7.1, foldl_accShells] at h9
  have h8 : ((List.replicate nk (⟨0, 0, 0, 0⟩ : SkAcc)).mapIdx fun n a =>
      ((originFrames frames skip).flatMap fun f => (f.ks.kvectors.getD n []).map (R f)).foldl SkAcc.add a) =
      (List.range nk).map fun n =>
        ((originFrames frames skip).flatMap fun f => (f.ks.kvectors.getD n []).map (R f)).foldl SkAcc.add
          ⟨0, 0, 0, 0⟩ := by
    apply List.ext_getElem?
    intro n
    rw [List.getElem?_mapIdx, List.getElem?_map]
    rcases Nat.lt_or_ge n nk with h | h
    · rw [List.getElem?_replicate, if_pos h, List.getElem?_range h]; rfl
    · rw [List.getElem?_replicate, if_neg (by omega), List.getElem?_eq_none (by simpa using h)]; rfl
  rw [h8] at h9
  have h10 : ((List.range nk).map fun n =>
        ((originFrames frames skip).flatMap fun f => (f.ks.kvectors.getD n []).map (R f)).foldl SkAcc.add
          ⟨0, 0, 0, 0⟩).mapM (skNonorm weighted) = .ok ((List.range nk).map fun n =>
        modesValue weighted ((originFrames frames skip).flatMap fun f => (f.ks.kvectors.getD n []).map (R f))) := by
    rw [List.mapM_map]
    apply mapM_ok_map
    intro n hn
    rw [List.mem_range] at hn
    apply skNonorm_modes
    obtain ⟨f, hf⟩ := List.exists_mem_of_ne_nil _ (originFrames_ne_nil hne hskip)
    have hkf := hkv f (originFrames_mem hf)
    have hlt : n < f.ks.kvectors.length := by omega
    have hne' := hkf.2 _ (List.getElem_mem hlt)
    obtain ⟨v, hv⟩ := List.exists_mem_of_ne_nil _ hne'
    intro hc
    have : R f v ∈ (originFrames frames skip).flatMap fun f => (f.ks.kvectors.getD n []).map (R f) := by
      rw [List.mem_flatMap]
      refine ⟨f, hf, List.mem_map.2 ⟨v, ?_, rfl⟩⟩
      rw [List.getD_eq_getElem _ _ hlt]; exact hv
    rw [hc] at this
    cases this
  simp only [h6, hn0, hn1, bind, Except.bind] at h9 ⊢
  rw [h9]
  simp only
  rw [h10]
  show Except.ok _ = _
  rw [List.map_map]
  rfl

/-! ### Density modes -/

/-- Wave-vectors whose components are in the range of the table. -/
def Allowed (ks : KState d ℝ) : Prop :=
  1 ≤ ks.koffset ∧ ∀ l ∈ ks.kvectors, ∀ v ∈ l, ∀ c, 0 ≤ v c ∧ v c ≤ 2 * ks.koffset

/-- The wave-vector with indices `v`. -/
noncomputable def kvecOf (ks : KState d ℝ) (v : KVec d) : Fin d → ℝ :=
  fun c => ks.k0 c * ((v c - ks.koffset : ℤ) : ℝ)

theorem expoProd_eq (k0 : Vec d ℝ) (off : ℤ) (hoff : 1 ≤ off) (v : KVec d)
    (hv : ∀ c, 0 ≤ v c ∧ v c ≤ 2 * off) (x : Vec d ℝ) (dims : List (Fin d)) :
    expoProd ((List.finRange d).map fun j => expoList off.toNat (k0 j * x j)) v dims =
      .ok (dims.map fun c => ccis (((v c - off : ℤ) : ℝ) * (k0 c * x c))).prod := by
  unfold expoProd
  have h : dims.mapM (fun j : Fin d => (do
      let r ← pyGet ((List.finRange d).map fun j => expoList off.toNat (k0 j * x j)) (j : ℕ)
      npGet r (v j) : Py ℂ)) = .ok (dims.map fun c => ccis (((v c - off : ℤ) : ℝ) * (k0 c * x c))) := by
    apply mapM_ok_map
    intro j _
    have h1 : pyGet ((List.finRange d).map fun j => expoList off.toNat (k0 j * x j)) (j : ℕ) =
        .ok (expoList off.toNat (k0 j * x j)) := by
      rw [pyGet_ok (by simp)]
      simp
    rw [h1]
    show npGet _ _ = _
    have := expoList_get off.toNat (k0 j * x j) (v j - off) (by have := hv j; omega) (by have := hv j; omega)
    rw [show ((off.toNat : ℕ) : ℤ) + (v j - off) = v j by omega] at this
    exact this
  rw [h]
  rfl

theorem ccis_kvec (ks : KState d ℝ) (v : KVec d) (x : Vec d ℝ) :
    ((List.finRange d).map fun c => ccis (((v c - ks.koffset : ℤ) : ℝ) * (ks.k0 c * x c))).prod =
      ccis (Spec.dot (kvecOf ks v) x) := by
  rw [Spec.dot, ccis_sum, ← List.ofFn_eq_map, List.prod_ofFn]
  refine Finset.prod_congr rfl fun c _ => ?_
  congr 1
  unfold kvecOf
  ring

/-- Table of one group. -/
noncomputable def skTable (ks : KState d ℝ) (pos : List (Vec d ℝ)) : List (List (List ℂ)) :=
  pos.map fun x => (List.finRange d).map fun j => expoList ks.koffset.toNat (ks.k0 j * x j)

theorem rhoSum_eq (ks : KState d ℝ) (hoff : 1 ≤ ks.koffset) (v : KVec d)
    (hv : ∀ c, 0 ≤ v c ∧ v c ≤ 2 * ks.koffset) (pos : List (Vec d ℝ)) (w : ℕ → ℂ) (dims : List (Fin d)) :
    rhoSum (skTable ks pos) w v dims = .ok (pos.zipIdx.map fun e =>
      w e.2 * (dims.map fun c => ccis (((v c - ks.koffset : ℤ) : ℝ) * (ks.k0 c * e.1 c))).prod).sum := by
  unfold rhoSum skTable
  rw [List.zipIdx_map]
  have h := mapM_ok_map (f := fun e : Vec d ℝ × ℕ => (do
      let x ← expoProd ((List.finRange d).map fun j => expoList ks.koffset.toNat (ks.k0 j * e.1 j)) v dims
      return w e.2 * x : Py ℂ))
    (g := fun e => w e.2 * (dims.map fun c => ccis (((v c - ks.koffset : ℤ) : ℝ) * (ks.k0 c * e.1 c))).prod)
    (l := pos.zipIdx) (fun e _ => by rw [expoProd_eq _ _ hoff v hv]; rfl)
  rw [List.mapM_map]
  exact congrArg (fun z : Py (List ℂ) => z.bind fun t => .ok t.sum) h

/-- Weight as a real. -/
noncomputable def realWeight (weighted : Bool) (w : List ℝ) (p : ℕ) : ℝ := if weighted then w.getD p 0 else 1

theorem rhoSum_mode (ks : KState d ℝ) (hoff : 1 ≤ ks.koffset) (v : KVec d)
    (hv : ∀ c, 0 ≤ v c ∧ v c ≤ 2 * ks.koffset) (pos : List (Vec d ℝ)) (weighted : Bool) (w : List ℝ) :
    rhoSum (skTable ks pos) (skWeight weighted w) v (List.finRange d) =
      .ok (Spec.fieldMode (kvecOf ks v) (realWeight weighted w) pos) := by
  rw [rhoSum_eq ks hoff v hv]
  unfold Spec.fieldMode
  congr 2
  apply List.map_congr_left
  intro e _
  rw [ccis_kvec]
  congr 1
  unfold skWeight realWeight
  split_ifs <;> simp

theorem fieldMode_one (k : Fin d → ℝ) (pos : List (Vec d ℝ)) : Spec.fieldMode k (fun _ => 1) pos = Spec.density k pos := by
  unfold Spec.fieldMode Spec.density
  congr 1
  have : (pos.zipIdx.map fun e => ((1 : ℝ) : ℂ) * Complex.exp (Complex.I * (Spec.dot k e.1 : ℝ))) =
      (pos.zipIdx.map Prod.fst).map fun x => Complex.exp (Complex.I * (Spec.dot k x : ℝ)) := by
    rw [List.map_map]; apply List.map_congr_left; intro e _; simp
  rw [this, List.zipIdx_map_fst]

/-- Arguments for which the structure factor is defined. -/
structure SkRegular (o : SkObj d) : Prop where
  frames_ne : o.frames ≠ []
  skip_pos : 0 < o.skip
  dims : o.same = true ∨ d = 2 ∨ d = 3
  same : o.same = true → ∀ f ∈ o.frames, f.pos1 = f.pos0 ∧ f.w1 = f.w0
  pos0 : ∀ f ∈ o.frames, f.pos0 ≠ []
  pos1 : ∀ f ∈ o.frames, f.pos1 ≠ []
  allowed : ∀ f ∈ o.frames, Allowed f.ks
  shells : ∀ f ∈ o.frames, f.ks.kvectors.length = o.nk ∧ ∀ l ∈ f.ks.kvectors, l ≠ []

/-- The pair of density modes of a frame. -/
noncomputable def skModes (weighted : Bool) (f : SkFrame d) (v : KVec d) : ℂ × ℂ :=
  (Spec.fieldMode (kvecOf f.ks v) (realWeight weighted f.w0) f.pos0,
   Spec.fieldMode (kvecOf f.ks v) (realWeight weighted f.w1) f.pos1)

theorem skFrame_eq (o : SkObj d) (h : SkRegular o) (f : SkFrame d) (hf : f ∈ o.frames) (acc : List SkAcc)
    (hacc : acc.length = o.nk) : skFrame o acc f = .ok (accShells (skModes o.weighted f) f.ks.kvectors acc) := by
  have ha := h.allowed f hf
  have hoff : 1 ≤ f.ks.koffset.toNat := by have := ha.1; omega
  have ht0 : expoSphere ccis (fun _ => 0) f.ks.k0 f.ks.koffset.toNat f.pos0 = .ok (skTable f.ks f.pos0) :=
    expoSphere_eq _ _ _ hoff _ (h.pos0 f hf)
  have ht1 : expoSphere ccis (fun _ => 0) f.ks.k0 f.ks.koffset.toNat f.pos1 = .ok (skTable f.ks f.pos1) :=
    expoSphere_eq _ _ _ hoff _ (h.pos1 f hf)
  have ht1' : secondTable o.same (skTable f.ks f.pos0) f = .ok (skTable f.ks f.pos1) := by
    unfold secondTable
    by_cases hs : o.same = true
    · rw [if_pos hs, (h.same hs f hf).1]
    · rw [if_neg hs, ht1]
  unfold skFrame
  rw [ht0]
  show Except.bind (secondTable o.same (skTable f.ks f.pos0) f) _ = _
  rw [ht1']
  apply shells_loop
  · intro l hl v hv
    have hb := ha.2 l hl v hv
    unfold skRho skModes
    by_cases hs : o.same = true
    · rw [if_pos hs, rhoSum_mode _ ha.1 v hb, (h.same hs f hf).1, (h.same hs f hf).2]; rfl
    · have hd : d = 2 ∨ d = 3 := h.dims.resolve_left hs
      have hcd : crossDims d = List.finRange d := by unfold crossDims; rw [if_pos hd]
      rw [if_neg hs, hcd, rhoSum_mode _ ha.1 v hb]
      show Except.bind _ _ = _
      rw [if_pos hd, rhoSum_mode _ ha.1 v hb]; rfl
  · rw [(h.shells f hf).1, hacc]

/-- Density modes that enter grid point `n`. -/
noncomputable def gridModes (o : SkObj d) (n : ℕ) : List (ℂ × ℂ) :=
  (originFrames o.frames o.skip).flatMap fun f => (f.ks.kvectors.getD n []).map (skModes o.weighted f)

/-- Mean number of particles. -/
noncomputable def skN0 (o : SkObj d) : ℝ :=
  (((o.frames.map fun f => f.pos0.length).sum : ℕ) : ℝ) / o.frames.length

noncomputable def skN1 (o : SkObj d) : ℝ :=
  (((o.frames.map fun f => f.pos1.length).sum : ℕ) : ℝ) / o.frames.length

/-- Closed form of `StructureFactorLegacy`. -/
theorem skLegacy_eq (o : SkObj d) (h : SkRegular o) :
    skLegacy o = .ok ((List.range o.nk).map (fun n => modesValue o.weighted (gridModes o n) / √(skN0 o * skN1 o)),
      (List.range o.nk).map fun n => modesValue o.weighted (gridModes o n)) := by
  have : (o.frames.map fun f => if o.same then f.pos0.length else f.pos1.length) =
      o.frames.map fun f => f.pos1.length := by
    apply List.map_congr_left
    intro f hf
    by_cases hs : o.same = true
    · rw [if_pos hs, (h.same hs f hf).1]
    · rw [if_neg hs]
  have key := sk_from_modes o.frames o.skip o.nk o.weighted h.skip_pos h.frames_ne (skModes o.weighted) (skFrame o)
    (fun f hf acc ha => skFrame_eq o h f hf acc ha) h.shells (o.frames.map fun f => f.pos0.length)
    (o.frames.map fun f => f.pos1.length) (by simpa using h.frames_ne) (by simpa using h.frames_ne)
  unfold skLegacy
  rw [this]
  refine key.trans ?_
  simp only [List.length_map]
  rfl

end PP
