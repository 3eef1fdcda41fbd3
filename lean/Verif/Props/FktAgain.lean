import Verif.Model.FktAgain
import Verif.Lemmas.Fskt
import Verif.Lemmas.Fcoh
import Verif.Lemmas.BondAngle
import Verif.Props.Ik
import Verif.Props.Fkt
import Verif.Props.Fskt

/-!
# C187: intermediate scattering functions and spectral density can be computed again
-/

namespace PP.Props
open PP

variable {d : ℕ}

/-- A loop in which one turn always fails with `e`, and the others either succeed or fail with `e`, fails with `e`. -/
theorem foldlM_outside {α β : Type} {f : β → α → Py β} {e : PyErr} (P : β → Prop) :
    ∀ (l : List α), (∀ b, P b → ∀ a ∈ l, (∃ r, f b a = .ok r ∧ P r) ∨ f b a = .error e) →
      (∃ a ∈ l, ∀ b, P b → f b a = .error e) → ∀ b, P b → l.foldlM f b = .error e := by
  intro l
  induction l with
  | nil => rintro - ⟨a, ha, -⟩; simp at ha
  | cons x l ih =>
    intro hall ⟨a, ha, hbad⟩ b hb
    rw [List.foldlM_cons]
    rcases hall b hb x (by simp) with ⟨r, hr, hP⟩ | hr
    · rw [hr]
      rcases List.mem_cons.1 ha with rfl | ha
      · rw [hbad b hb] at hr
        cases hr
      · exact ih (fun b hb a ha => hall b hb a (by simp [ha])) ⟨a, ha, hbad⟩ r hP
    · rw [hr]
      rfl

/-- The same without a turn that always fails. -/
theorem foldlM_okOr {α β : Type} {f : β → α → Py β} {e : PyErr} (P : β → Prop) :
    ∀ (l : List α), (∀ b, P b → ∀ a ∈ l, (∃ r, f b a = .ok r ∧ P r) ∨ f b a = .error e) →
      ∀ b, P b → (∃ r, l.foldlM f b = .ok r ∧ P r) ∨ l.foldlM f b = .error e := by
  intro l
  induction l with
  | nil => intro _ b hb; exact Or.inl ⟨b, rfl, hb⟩
  | cons x l ih =>
    intro hall b hb
    rw [List.foldlM_cons]
    rcases hall b hb x (by simp) with ⟨r, hr, hP⟩ | hr
    · rw [hr]
      exact ih (fun b hb a ha => hall b hb a (by simp [ha])) r hP
    · rw [hr]
      exact Or.inr rfl

/-- The loops fail with `IndexError` if one of the pairs of frames is outside of the list of steps. -/
theorem fkLoops_outside (steps : List ℤ) (nframes skip n : ℕ) (hskip : 0 < skip) (tgrid : List (ℕ × ℕ))
    (kernel : ℕ → ℕ → KVec d → Py ℝ) (kv : List (List (KVec d))) (acc : List (Acc ℤ ℝ))
    (hk : ∀ i0 i, i0 + i < nframes → ∀ l ∈ kv, ∀ v ∈ l, ∃ x, kernel i0 i v = .ok x)
    (hl : kv.length ≤ acc.length) (hne : kv ≠ []) (hne' : ∀ l ∈ kv, l ≠ [])
    (hout : ∃ g ∈ tgrid, ∃ i0 ∈ rangeList g.1 (nframes - g.2) skip, steps.length ≤ i0 + g.2) :
    fkLoops steps nframes skip n tgrid kernel kv acc = .error .indexError := by
  have hstep : ∀ kl ∈ kv.zipIdx, ∀ v ∈ kl.1, ∀ g ∈ tgrid, ∀ b : List (Acc ℤ ℝ), b.length = acc.length →
      ∀ i0 ∈ rangeList g.1 (nframes - g.2) skip,
      ((∃ r, (do
          let ta ← pyGet steps (i0 + g.2)
          let tb ← pyGet steps i0
          let x ← kernel i0 g.2 v
          fkAdd b kl.2 (ta - tb) x n : Py (List (Acc ℤ ℝ))) = .ok r ∧ r.length = acc.length) ∧ i0 + g.2 < steps.length) ∨
      ((do
          let ta ← pyGet steps (i0 + g.2)
          let tb ← pyGet steps i0
          let x ← kernel i0 g.2 v
          fkAdd b kl.2 (ta - tb) x n : Py (List (Acc ℤ ℝ))) = .error .indexError ∧ steps.length ≤ i0 + g.2) := by
    intro kl hkl v hv g _ b hb i0 hi0
    rw [mem_rangeList hskip] at hi0
    rcases Nat.lt_or_ge (i0 + g.2) steps.length with h | h
    · left
      obtain ⟨x, hx⟩ := hk i0 g.2 (by omega) kl.1 (by
        rw [List.mem_zipIdx_iff_getElem?] at hkl
        exact List.mem_of_getElem? hkl) v hv
      have hidx : kl.2 < b.length := by
        rw [List.mem_zipIdx_iff_getElem?] at hkl
        have := (List.getElem?_eq_some_iff.1 hkl).1
        omega
      rw [pyGet_ok h, pyGet_ok (by omega : i0 < steps.length), hx]
      simp only [bind, Except.bind, fkAdd, if_pos hidx]
      exact ⟨⟨_, rfl, by simp [hb]⟩, h⟩
    · right
      refine ⟨?_, h⟩
      have : pyGet steps (i0 + g.2) = .error .indexError := by
        unfold pyGet
        rw [List.getElem?_eq_none h]
      rw [this]
      rfl
  have hg : ∀ kl ∈ kv.zipIdx, ∀ v ∈ kl.1, ∀ b : List (Acc ℤ ℝ), b.length = acc.length → ∀ g ∈ tgrid,
      (∃ r, (do
        let r ← pyRange g.1 (nframes - g.2) skip
        r.foldlM (fun acc i0 => do
          let ta ← pyGet steps (i0 + g.2)
          let tb ← pyGet steps i0
          let x ← kernel i0 g.2 v
          fkAdd acc kl.2 (ta - tb) x n) b : Py (List (Acc ℤ ℝ))) = .ok r ∧ r.length = acc.length) ∨
      (do
        let r ← pyRange g.1 (nframes - g.2) skip
        r.foldlM (fun acc i0 => do
          let ta ← pyGet steps (i0 + g.2)
          let tb ← pyGet steps i0
          let x ← kernel i0 g.2 v
          fkAdd acc kl.2 (ta - tb) x n) b : Py (List (Acc ℤ ℝ))) = .error .indexError := by
    intro kl hkl v hv b hb g hgm
    have hr : pyRange g.1 (nframes - g.2) skip = .ok (rangeList g.1 (nframes - g.2) skip) := by
      unfold pyRange; rw [if_neg hskip.ne']
    rw [hr]
    exact foldlM_okOr (fun a : List (Acc ℤ ℝ) => a.length = acc.length) _ (fun b hb i0 hi0 => by
      rcases hstep kl hkl v hv g hgm b hb i0 hi0 with h | h
      · exact Or.inl h.1
      · exact Or.inr h.1) b hb
  have hv : ∀ kl ∈ kv.zipIdx, ∀ v ∈ kl.1, ∀ b : List (Acc ℤ ℝ), b.length = acc.length → tgrid.foldlM (fun acc g => do
        let r ← pyRange g.1 (nframes - g.2) skip
        r.foldlM (fun acc i0 => do
          let ta ← pyGet steps (i0 + g.2)
          let tb ← pyGet steps i0
          let x ← kernel i0 g.2 v
          fkAdd acc kl.2 (ta - tb) x n) acc) b = .error .indexError := by
    intro kl hkl v hv b hb
    refine foldlM_outside (fun a : List (Acc ℤ ℝ) => a.length = acc.length) _ (hg kl hkl v hv) ?_ b hb
    obtain ⟨g, hgm, i0, hi0, hbad⟩ := hout
    refine ⟨g, hgm, fun b hb => ?_⟩
    have hr : pyRange g.1 (nframes - g.2) skip = .ok (rangeList g.1 (nframes - g.2) skip) := by
      unfold pyRange; rw [if_neg hskip.ne']
    rw [hr]
    refine foldlM_outside (fun a : List (Acc ℤ ℝ) => a.length = acc.length) _ (fun b hb i0 hi0 => by
      rcases hstep kl hkl v hv g hgm b hb i0 hi0 with h | h
      · exact Or.inl h.1
      · exact Or.inr h.1) ⟨i0, hi0, fun b hb => ?_⟩ b hb
    rcases hstep kl hkl v hv g hgm b hb i0 hi0 with h | h
    · exact absurd h.2 (by omega)
    · exact h.1
  unfold fkLoops
  obtain ⟨l0, kv', rfl⟩ := List.exists_cons_of_ne_nil hne
  obtain ⟨v0, l', rfl⟩ := List.exists_cons_of_ne_nil (hne' l0 (by simp))
  rw [List.zipIdx_cons, List.foldlM_cons]
  have h0 := hv (v0 :: l', 0) (by simp [List.zipIdx_cons]) v0 (by simp) acc rfl
  simp only [List.foldlM_cons]
  rw [h0]
  rfl

/-- There is a time origin beyond the end of the trajectory. -/
theorem origin_outside {n skip m : ℕ} (hs : 0 < skip) (hle : skip ≤ n) (hm : 2 * n ≤ m) {g : ℕ × ℕ} (hg : g.1 + g.2 < n) :
    ∃ i0 ∈ rangeList g.1 (m - g.2) skip, n ≤ i0 + g.2 := by
  refine ⟨g.1 + skip * ((n - g.1 - g.2 + skip - 1) / skip), ?_, ?_⟩
  · rw [mem_rangeList hs]
    have h1 := Nat.mul_div_le (n - g.1 - g.2 + skip - 1) skip
    refine ⟨by omega, by omega, ?_⟩
    rw [Nat.add_sub_cancel_left]
    exact Nat.mul_mod_right skip _
  · have h1 := Nat.lt_mul_div_succ (n - g.1 - g.2 + skip - 1) hs
    rw [Nat.mul_add, Nat.mul_one] at h1
    omega

theorem replicate_length {α : Type} (k : ℕ) (l : List α) : (List.replicate k l).flatten.length = k * l.length := by
  simp

theorem mem_replicate_flatten {α : Type} {k : ℕ} {l : List α} {a : α} (h : a ∈ (List.replicate k l).flatten) : a ∈ l := by
  obtain ⟨l', h1, h2⟩ := List.mem_flatten.1 h
  rw [(List.mem_replicate.1 h1).2] at h2
  exact h2

theorem fsCompute_outside (o : FsObj d) {N : ℕ} (h : FsRegular o N) (hlen : o.pos.length = o.steps.length)
    (hle : o.skip ≤ o.pos.length) (hdg : ∃ g ∈ o.tgrid, g.1 + g.2 < o.pos.length)
    (kernel : List (List (List (List ℂ))) → ℕ → ℕ → KVec d → Py ℝ) (hk : GoodKernel o kernel) {block : ℕ}
    (hb : 0 < block) (k : ℕ) (hk1 : 1 ≤ k) : fsCompute (o.again k) kernel N block = .error .indexError := by
  have hoff : 1 ≤ o.ks.koffset.toNat := by have := h.allowed.1; omega
  have hr : pyRange 0 N block = .ok (rangeList 0 N block) := by unfold pyRange; rw [if_neg (by omega)]
  obtain ⟨rest, hrest⟩ : ∃ rest, rangeList 0 N block = 0 :: rest := by
    have h0 : 0 ∈ rangeList 0 N block := by
      rw [mem_rangeList hb]
      exact ⟨le_refl _, h.npart_pos, by simp⟩
    unfold rangeList at h0 ⊢
    cases hn : (N - 0 + (block - 1)) / block with
    | zero => rw [hn] at h0; simp at h0
    | succ m =>
      refine ⟨((List.range m).map Nat.succ).map fun k => 0 + k * block, ?_⟩
      rw [List.range_succ_eq_map, List.map_cons]
      simp
  unfold fsCompute
  rw [hr, hrest]
  simp only [bind, Except.bind, List.foldlM_cons]
  have hpl : (o.again k).pos.length = (k + 1) * o.pos.length := replicate_length _ _
  have hpne : (o.again k).pos ≠ [] := by
    intro hc
    rw [hc] at hpl
    have := List.length_pos_iff.2 h.frames_ne
    have : 0 < (k + 1) * o.pos.length := Nat.mul_pos (Nat.succ_pos k) this
    simp only [List.length_nil] at hpl
    omega
  have hx : expoFrames ccis (fun _ => 0) o.ks.k0 o.ks.koffset.toNat
      ((o.again k).pos.map fun f => (f.drop 0).take block) =
      .ok (((o.again k).pos.map fun f => (f.drop 0).take block).map fun f => f.map (expoTab o.ks)) :=
    expoFrames_eq (fun _ => 0) o.ks.k0 o.ks.koffset.toNat hoff _ (by simpa using hpne)
  rw [show (o.again k).ks = o.ks from rfl, hx]
  simp only
  have hloop := fkLoops_outside o.steps (o.again k).pos.length o.skip (min block (N - 0)) h.skip_pos o.tgrid
    (kernel (((o.again k).pos.map fun f => (f.drop 0).take block).map fun f => f.map (expoTab o.ks))) o.ks.kvectors
    (List.replicate o.ks.kgrid.length (([], []) : Acc ℤ ℝ)) (by
      intro i0 i hi l hl v hv
      exact ⟨_, hk _ i0 i (by simpa using hi) l hl v hv⟩) (by simp [h.kgrid]) h.shells_ne h.shells (by
      obtain ⟨g, hg, hg2⟩ := hdg
      obtain ⟨i0, h1, h2⟩ := origin_outside h.skip_pos hle (m := (o.again k).pos.length) (by rw [hpl]; nlinarith) hg2
      exact ⟨g, hg, i0, h1, by omega⟩)
  have e : fkLoops (o.again k).steps (o.again k).pos.length (o.again k).skip (min block (N - 0)) (o.again k).tgrid
    (kernel (((o.again k).pos.map fun f => (f.drop 0).take block).map fun f => f.map (expoTab o.ks))) o.ks.kvectors
    (List.replicate o.ks.kgrid.length (([], []) : Acc ℤ ℝ)) = .error .indexError := hloop
  rw [e]

/-- **C187** is false for the self function: the first call succeeds, all the following ones raise `IndexError`. -/
theorem C187_counterexample_self (o : FsObj d) {N : ℕ} (h : FsRegular o N) (hm : o.lookupMb ≠ 0)
    (hlen : o.pos.length = o.steps.length) (hle : o.skip ≤ o.pos.length)
    (hdg : ∃ g ∈ o.tgrid, g.1 + g.2 < o.pos.length) :
    (∃ r, fsLegacy (o.again 0) = .ok r) ∧ (∃ r, fsFast (o.again 0) = .ok r) ∧
      ∀ k ≥ 1, fsLegacy (o.again k) = .error .indexError ∧ fsFast (o.again k) = .error .indexError := by
  have e0 : o.again 0 = o := by
    unfold FsObj.again
    simp
  refine ⟨⟨_, by rw [e0]; exact fsLegacy_eq o h⟩, ⟨_, by rw [e0]; exact fsFast_eq o h hm⟩, fun k hk => ?_⟩
  have hN : fsNumber (o.again k).pos = .ok N := by
    have hp : ∀ f ∈ (o.again k).pos, f.length = N := fun f hf => h.npart f (mem_replicate_flatten hf)
    have hne : (o.again k).pos ≠ [] := by
      intro hc
      have hl : (o.again k).pos.length = (k + 1) * o.pos.length := replicate_length _ _
      rw [hc] at hl
      have : 0 < (k + 1) * o.pos.length := Nat.mul_pos (Nat.succ_pos k) (List.length_pos_iff.2 h.frames_ne)
      simp only [List.length_nil] at hl
      omega
    obtain ⟨f, r, hf⟩ := List.exists_cons_of_ne_nil hne
    rw [hf] at hp ⊢
    unfold fsNumber
    dsimp only
    rw [if_pos, hp f (by simp)]
    rw [List.all_eq_true]
    intro g hg
    rw [decide_eq_true_eq, hp f (by simp), hp g (by simp [hg])]
  constructor
  · unfold fsLegacy
    rw [hN]
    show fsCompute _ _ _ _ = _
    refine fsCompute_outside o h hlen hle hdg _ ?_ ?_ k hk
    · intro X i0 i hi l hl v hv
      exact fsPairSum_eq o.ks h.allowed.1 v (h.allowed.2 l hl v hv) X i0 i hi
    · unfold fsBlockLegacy; omega
  · obtain ⟨b, hb, hb0⟩ := fsBlockFast_pos (o.again k) h.npart_pos hm
    unfold fsFast
    rw [hN]
    show Except.bind (fsBlockFast (o.again k) N) _ = _
    rw [hb]
    show fsCompute _ _ _ _ = _
    refine fsCompute_outside o h hlen hle hdg _ ?_ hb0 k hk
    intro X i0 i hi l hl v hv
    exact fsPairFast_eq o.ks h.allowed.1 v (h.allowed.2 l hl v hv) X i0 i hi

/-- **C187** is false for the coherent function: the first call succeeds, all the following ones raise `IndexError`. -/
theorem C187_counterexample_coherent (o : FkObj d) (h : FkRegular o) (hlen : o.pos0.length = o.steps.length)
    (hle : o.skip ≤ o.pos0.length) (hdg : ∃ g ∈ o.tgrid, g.1 + g.2 < o.pos0.length) :
    (∃ r, fkCompute (o.again 0) = .ok r) ∧ ∀ k ≥ 1, fkCompute (o.again k) = .error .indexError := by
  have e0 : o.again 0 = o := by
    unfold FkObj.again
    simp
  refine ⟨⟨_, by rw [e0]; exact fkCompute_eq o h⟩, fun k hk => ?_⟩
  obtain ⟨rho0, h0, hF0⟩ := mapM_exists (fun _ _ => True) (fkFrame o.ks) (o.again k).pos0 fun f hf => by
    obtain ⟨r, hr, -⟩ := fkFrame_eq o.ks h.allowed h.dims f (h.pos0 f (mem_replicate_flatten hf))
    exact ⟨r, hr, trivial⟩
  have hl0 : (o.again k).pos0.length = (k + 1) * o.pos0.length := replicate_length _ _
  have hl1 : (o.again k).pos1.length = (k + 1) * o.pos1.length := replicate_length _ _
  obtain ⟨rho1, h1, hF1⟩ : ∃ rho1, fkSecond (o.again k) rho0 = .ok rho1 ∧ rho1.length = (o.again k).pos0.length := by
    unfold fkSecond
    by_cases hs : (o.again k).same = true
    · rw [if_pos hs]; exact ⟨rho0, rfl, hF0.length_eq.symm⟩
    · rw [if_neg hs]
      obtain ⟨L, hL, hF⟩ := mapM_exists (fun _ _ => True) (fun it => do
          let f ← pyGet (o.again k).pos1 it
          fkFrame (o.again k).ks f) (List.range (o.again k).pos0.length) fun i hi => by
        have hi' : i < (o.again k).pos1.length := by
          rw [hl1, h.frames, ← hl0]
          exact List.mem_range.1 hi
        obtain ⟨r, hr, -⟩ := fkFrame_eq o.ks h.allowed h.dims (o.again k).pos1[i]
          (h.pos1 _ (mem_replicate_flatten (List.getElem_mem hi')))
        exact ⟨r, by rw [pyGet_ok hi']; exact hr, trivial⟩
      exact ⟨L, hL, by rw [← hF.length_eq]; simp⟩
  have hlen0 : rho0.length = (o.again k).pos0.length := hF0.length_eq.symm
  have hloop := fkLoops_outside o.steps rho0.length o.skip 1 h.skip_pos o.tgrid (fkPair rho0 rho1) o.ks.kvectors
    (List.replicate o.ks.kgrid.length (([], []) : Acc ℤ ℝ)) (by
      intro i0 i hi l hl v hv
      unfold fkPair
      rw [pyGet_ok hi, pyGet_ok (by omega : i0 < rho1.length)]
      exact ⟨_, rfl⟩) (by simp [h.kgrid]) h.shells_ne h.shells (by
      obtain ⟨g, hg, hg2⟩ := hdg
      obtain ⟨i0, h1, h2⟩ := origin_outside h.skip_pos hle (m := rho0.length) (by rw [hlen0, hl0]; nlinarith) hg2
      exact ⟨g, hg, i0, h1, by omega⟩)
  unfold fkCompute
  simp only [bind, Except.bind]
  rw [show (o.again k).ks = o.ks from rfl, h0]
  simp only
  rw [h1]
  simp only
  have e : fkLoops (o.again k).steps rho0.length (o.again k).skip 1 (o.again k).tgrid (fkPair rho0 rho1) o.ks.kvectors
    (List.replicate o.ks.kgrid.length (([], []) : Acc ℤ ℝ)) = .error .indexError := hloop
  rw [e]

/-- **C187**: the first call for the spectral density is the calculation on the frames of the trajectory, each with its own
positions, radii, volume and wave-vectors, also if the cell changes. -/
theorem C187_ik_first_partial (o : IkStore 3) (h0 : o.pos = []) (P : List (List (Vec 3 ℝ))) (vc : Bool) (ks0 : KState 3 ℝ)
    (cells : List (KState 3 ℝ)) (hv : o.volumes.length = P.length) (K : ℕ → KState 3 ℝ)
    (hK : ∀ i < P.length, skKState vc ks0 cells i = .ok (K i)) :
    (o.setup P).run vc ks0 cells = ikCompute ((List.range P.length).map fun i =>
      (⟨P.getD i [], o.radii[i]?, o.volumes.getD i 0, K i⟩ : IkFrame 3)) o.skip o.nk := by
  have e1 : (o.setup P).pos = P := by simp [IkStore.setup, h0]
  set F : List (IkFrame 3) := (List.range P.length).map fun i =>
    (⟨P.getD i [], o.radii[i]?, o.volumes.getD i 0, K i⟩ : IkFrame 3) with hF
  have hFl : F.length = P.length := by rw [hF]; simp
  have hvol : (F.map fun f => f.volume) = o.volumes := by
    rw [hF, List.map_map]
    apply List.ext_getElem
    · simp [hv]
    · intro i h1 h2
      simp [List.getElem?_eq_getElem h2]
  unfold IkStore.run ikCompute
  rw [e1, hFl, hvol, show (o.setup P).skip = o.skip from rfl, show (o.setup P).radii = o.radii from rfl,
    show (o.setup P).nk = o.nk from rfl, show (o.setup P).volumes = o.volumes from rfl, hv]
  by_cases hs : o.skip = 0
  · unfold pyRange
    rw [if_pos hs]
    rfl
  have hr' : pyRange 0 P.length o.skip = .ok (rangeList 0 P.length o.skip) := by
    unfold pyRange
    rw [if_neg hs]
  rw [hr']
  have hfold : (rangeList 0 P.length o.skip).foldlM (fun acc i => do
        let f ← pyGet F i
        ikFrame acc f) (List.replicate o.nk ⟨0, 0, 0, 0⟩) =
      (rangeList 0 P.length o.skip).foldlM (fun acc i => do
        let ks ← skKState vc ks0 cells i
        let p ← pyGet P i
        ikFrame acc ⟨p, o.radii[i]?, 0, ks⟩) (List.replicate o.nk ⟨0, 0, 0, 0⟩) := by
    refine foldlM_congr_mem (fun b i hi => ?_) _
    rw [mem_rangeList (Nat.pos_of_ne_zero hs)] at hi
    have hiF : i < F.length := by omega
    rw [hK i hi.2.1, pyGet_ok hiF, pyGet_ok hi.2.1]
    simp only [bind, Except.bind, hF, List.getElem_map, List.getElem_range]
    rw [List.getD_eq_getElem _ _ hi.2.1]
    rfl
  simp only [bind, Except.bind] at hfold ⊢
  rw [hfold]

/-- **C187** is false for the spectral density, if there are as many radii as frames: the first call succeeds, the second one
raises `IndexError`. -/
theorem C187_counterexample_ik (o : IkStore 3) (h0 : o.pos = []) (P : List (List (Vec 3 ℝ))) (ks0 : KState 3 ℝ)
    (cells : List (KState 3 ℝ)) (hP : P ≠ []) (hpos : ∀ f ∈ P, f ≠ []) (hs : 0 < o.skip) (hle : o.skip ≤ P.length)
    (hr : o.radii.length = P.length) (hrl : ∀ i, (o.radii.getD i []).length = (P.getD i []).length)
    (ha : Allowed ks0) (hidx : ∀ l ∈ ks0.kvectors, ∀ v ∈ l, v ≠ 0) (hnk : ks0.kvectors.length = o.nk)
    (hsh : ks0.kvectors ≠ []) (hsh' : ∀ l ∈ ks0.kvectors, l ≠ []) :
    (∃ r, (o.setup P).run false ks0 cells = .ok r) ∧
      ((o.setup P).setup P).run false ks0 cells = .error .indexError := by
  have e1 : (o.setup P).pos = P := by simp [IkStore.setup, h0]
  have e2 : ((o.setup P).setup P).pos = P ++ P := by simp [IkStore.setup, h0]
  have hks : ∀ i, skKState false ks0 cells i = .ok ks0 := by intro i; simp [skKState]
  have hgood : ∀ i < P.length, ∀ Q : List (List (Vec 3 ℝ)), pyGet Q i = pyGet P i → ∀ b : List SkAcc, b.length = o.nk →
      ∃ r, (do
        let ks ← skKState false ks0 cells i
        let p ← pyGet Q i
        ikFrame b ⟨p, o.radii[i]?, 0, ks⟩ : Py (List SkAcc)) = .ok r ∧ r.length = o.nk := by
    intro i hi Q hQ b hb
    rw [hks, hQ, pyGet_ok hi]
    have hri : i < o.radii.length := by omega
    have hlen := hrl i
    rw [List.getD_eq_getElem _ _ hri, List.getD_eq_getElem _ _ hi] at hlen
    refine ⟨_, ikFrame_eq (f := ⟨P[i], o.radii[i]?, 0, ks0⟩) (hpos _ (List.getElem_mem hi)) (List.getElem?_eq_getElem hri) hlen
      ha hidx hnk b hb, ?_⟩
    rw [accShells_length, hb]
  have hbad : ∀ i < 2 * P.length, P.length ≤ i → ∀ b : List SkAcc,
      (do
        let ks ← skKState false ks0 cells i
        let p ← pyGet (P ++ P) i
        ikFrame b ⟨p, o.radii[i]?, 0, ks⟩ : Py (List SkAcc)) = .error .indexError := by
    intro i hi hi2 b
    have hi' : i < (P ++ P).length := by simp; omega
    rw [hks, pyGet_ok hi', List.getElem?_eq_none (by omega)]
    show ikFrame b ⟨(P ++ P)[i], none, 0, ks0⟩ = _
    have hne : (P ++ P)[i] ≠ [] := by
      have := List.getElem_mem hi'
      rw [List.mem_append, or_self] at this
      exact hpos _ this
    have hoff : 1 ≤ ks0.koffset.toNat := by have := ha.1; omega
    have ht : expoSphere ccis (fun _ => 0) ks0.k0 ks0.koffset.toNat (P ++ P)[i] = .ok (skTable ks0 (P ++ P)[i]) :=
      expoSphere_eq _ _ _ hoff _ hne
    unfold ikFrame
    simp only
    rw [ht]
    obtain ⟨l0, kv, hkv⟩ := List.exists_cons_of_ne_nil hsh
    obtain ⟨v0, l', rfl⟩ := List.exists_cons_of_ne_nil (hsh' l0 (by rw [hkv]; simp))
    rw [hkv]
    rfl
  constructor
  · have hr : pyRange 0 (o.setup P).pos.length (o.setup P).skip = .ok (rangeList 0 P.length o.skip) := by
      rw [e1]
      unfold pyRange
      rw [if_neg (show ¬ (o.setup P).skip = 0 from hs.ne')]
      rfl
    set F : List (IkFrame 3) := (List.range P.length).map fun i => ⟨P.getD i [], some (o.radii.getD i []), 1, ks0⟩ with hF
    have hreg : IkRegular F o.skip o.nk := by
      refine ⟨?_, hs, ?_, ?_, ?_, ?_, ?_⟩
      · rw [hF]
        simpa using hP
      all_goals
        intro f hf
        rw [hF, List.mem_map] at hf
        obtain ⟨i, hi, rfl⟩ := hf
        have hi := List.mem_range.1 hi
      · simp only
        rw [List.getD_eq_getElem _ _ hi]
        exact hpos _ (List.getElem_mem hi)
      · exact ⟨_, rfl, hrl i⟩
      · exact ha
      · exact hidx
      · exact ⟨hnk, hsh'⟩
    have hclosed := ikCompute_closed F o.skip o.nk hreg
    have hfold : (rangeList 0 P.length o.skip).foldlM (fun acc i => do
          let f ← pyGet F i
          ikFrame acc f) (List.replicate o.nk ⟨0, 0, 0, 0⟩) =
        (rangeList 0 P.length o.skip).foldlM (fun acc i => do
          let ks ← skKState false ks0 cells i
          let p ← pyGet P i
          ikFrame acc ⟨p, o.radii[i]?, 0, ks⟩) (List.replicate o.nk ⟨0, 0, 0, 0⟩) := by
      refine foldlM_congr_mem (fun b i hi => ?_) _
      rw [mem_rangeList hs] at hi
      have hiF : i < F.length := by rw [hF]; simpa using hi.2.1
      rw [hks, pyGet_ok hiF, pyGet_ok hi.2.1, List.getElem?_eq_getElem (by omega : i < o.radii.length)]
      simp only [bind, Except.bind, hF, List.getElem_map, List.getElem_range]
      rw [List.getD_eq_getElem _ _ hi.2.1, List.getD_eq_getElem _ _ (by omega : i < o.radii.length)]
      rfl
    have hFl : F.length = P.length := by rw [hF]; simp
    unfold ikCompute at hclosed
    unfold IkStore.run
    rw [hr, e1]
    rw [hFl] at hclosed
    have hr' : pyRange 0 P.length o.skip = .ok (rangeList 0 P.length o.skip) := by
      unfold pyRange
      rw [if_neg hs.ne']
    rw [hr'] at hclosed
    simp only [bind, Except.bind] at hclosed hfold ⊢
    rw [hfold] at hclosed
    rw [show (o.setup P).radii = o.radii from rfl, show (o.setup P).nk = o.nk from rfl]
    generalize List.foldlM (m := Except PyErr) _ _ (rangeList 0 P.length o.skip) = A at hclosed ⊢
    cases A with
    | error e => cases hclosed
    | ok acc =>
      simp only at hclosed ⊢
      cases hm : acc.mapM (skNonorm false) with
      | error e => rw [hm] at hclosed; cases hclosed
      | ok v => exact ⟨_, rfl⟩
  · have hr : pyRange 0 ((o.setup P).setup P).pos.length ((o.setup P).setup P).skip =
        .ok (rangeList 0 (P ++ P).length o.skip) := by
      rw [e2]
      unfold pyRange
      rw [if_neg (show ¬ ((o.setup P).setup P).skip = 0 from hs.ne')]
      rfl
    unfold IkStore.run
    rw [hr, e2]
    have hfold := foldlM_outside (e := .indexError) (fun a : List SkAcc => a.length = o.nk) (rangeList 0 (P ++ P).length o.skip)
      (f := fun b i => (do
        let ks ← skKState false ks0 cells i
        let p ← pyGet (P ++ P) i
        ikFrame b ⟨p, o.radii[i]?, 0, ks⟩ : Py (List SkAcc))) (by
        intro b hb i hi
        rw [mem_rangeList hs, List.length_append] at hi
        rcases Nat.lt_or_ge i P.length with h | h
        · exact Or.inl (hgood i h (P ++ P) (by unfold pyGet; rw [List.getElem?_append_left h]) b hb)
        · exact Or.inr (hbad i (by omega) h b)) (by
        have hn := List.length_pos_iff.2 hP
        obtain ⟨i0, h1, h2⟩ := origin_outside hs hle (m := (P ++ P).length) (by simp; omega) (g := (0, 0)) (by omega)
        refine ⟨i0, h1, fun b _ => hbad i0 ?_ (by omega) b⟩
        have := (mem_rangeList hs).1 h1
        simp only [List.length_append] at this
        omega) (List.replicate o.nk ⟨0, 0, 0, 0⟩) (by simp)
    simp only [bind, Except.bind] at hfold ⊢
    rw [show ((o.setup P).setup P).radii = o.radii from rfl, show ((o.setup P).setup P).nk = o.nk from rfl]
    rw [hfold]

/-! ### Concrete cases -/

example : (∃ r, fsLegacy (exFs.again 0) = .ok r) ∧ (∃ r, fsFast (exFs.again 0) = .ok r) ∧
    ∀ k ≥ 1, fsLegacy (exFs.again k) = .error .indexError ∧ fsFast (exFs.again k) = .error .indexError :=
  C187_counterexample_self exFs exFs_regular (by simp [exFs]) (by simp [exFs]) (by simp [exFs]) ⟨(0, 1), by simp [exFs], by simp [exFs]⟩

example : (∃ r, fkCompute (exFk.again 0) = .ok r) ∧ ∀ k ≥ 1, fkCompute (exFk.again k) = .error .indexError :=
  C187_counterexample_coherent exFk exFk_regular (by simp [exFk]) (by simp [exFk]) ⟨(0, 1), by simp [exFk], by simp [exFk]⟩

/-- The frame of the example of the spectral density. -/
example (cells : List (KState 3 ℝ)) : ∃ r,
    ((⟨[], [[1, 2]], [5], 1, 2⟩ : IkStore 3).setup [[![0, 0, 0], ![1, 2, 3]]]).run false exKs cells = .ok r ∧
    (((⟨[], [[1, 2]], [5], 1, 2⟩ : IkStore 3).setup [[![0, 0, 0], ![1, 2, 3]]]).setup [[![0, 0, 0], ![1, 2, 3]]]).run false exKs
      cells = .error .indexError := by
  have h := ikExample_regular
  have hm : (⟨[![0, 0, 0], ![1, 2, 3]], some [1, 2], 5, exKs⟩ : IkFrame 3) ∈ ikExample := by simp [ikExample]
  obtain ⟨⟨r, hr⟩, h2⟩ := C187_counterexample_ik ⟨[], [[1, 2]], [5], 1, 2⟩ rfl [[![0, 0, 0], ![1, 2, 3]]] exKs cells (by simp)
    (by simp) (by simp) (by simp) (by simp) (by intro i; rcases i with _ | i <;> simp) exKs_allowed (h.index_ne _ hm)
    (h.shells _ hm).1 (by simp [exKs]) (h.shells _ hm).2
  exact ⟨r, hr, h2⟩

/-- The example of the spectral density, with another volume for each frame. -/
example (cells : List (KState 3 ℝ)) :
    ((⟨[], [[1, 2], [2, 3]], [5, 7], 1, 2⟩ : IkStore 3).setup [[![0, 0, 0], ![1, 2, 3]], [![1, 0, 0], ![1, 2, 1]]]).run false exKs
      cells = ikCompute [⟨[![0, 0, 0], ![1, 2, 3]], some [1, 2], 5, exKs⟩, ⟨[![1, 0, 0], ![1, 2, 1]], some [2, 3], 7, exKs⟩] 1 2 :=
  C187_ik_first_partial ⟨[], [[1, 2], [2, 3]], [5, 7], 1, 2⟩ rfl [[![0, 0, 0], ![1, 2, 3]], [![1, 0, 0], ![1, 2, 1]]] false exKs
    cells (by simp) (fun _ => exKs) (by intro i _; simp [skKState])

end PP.Props
