import Verif.Model.Fkt
import Verif.Spec.Sk
import Verif.Lemmas.Sk
import Verif.Lemmas.TimeCorr
import Verif.Props.TGrid

/-!
# Closed form of the intermediate scattering functions
-/

set_option linter.unusedSectionVars false

namespace PP

variable {d : ℕ}

/-- An event adds a value to `acf` and a count to `cnt` at one time difference. -/
noncomputable def addEvent (n : ℕ) (a : Acc ℤ ℝ) (e : ℤ × ℝ) : Acc ℤ ℝ :=
  (ddAdd 0 (· + ·) a.1 e.1 e.2, ddAdd 0 (· + ·) a.2 e.1 n)

theorem modify_foldl {β E : Type} (step : β → E → β) (idx : ℕ) (l : List E) (acc : List β) :
    l.foldl (fun acc e => acc.modify idx fun b => step b e) acc = acc.modify idx fun b => l.foldl step b := by
  induction l generalizing acc with
  | nil =>
    apply List.ext_getElem?
    intro n
    rw [List.getElem?_modify]
    simp
  | cons v l ih =>
    rw [List.foldl_cons, ih]
    apply List.ext_getElem?
    intro n
    simp only [List.getElem?_modify, List.foldl_cons]
    rcases acc[n]? with _ | x
    · simp
    · by_cases h : idx = n <;> simp [h]

/-- Steps difference of a pair of frames. -/
def stepDiff (steps : List ℤ) (p : ℕ × ℕ) : ℤ := steps.getD (p.1 + p.2) 0 - steps.getD p.1 0

/-- The events of one grid point. -/
noncomputable def fkEvents (steps : List ℤ) (ps : List (ℕ × ℕ)) (c : ℕ → ℕ → KVec d → ℝ) (kl : List (KVec d)) :
    List (ℤ × ℝ) := kl.flatMap fun v => ps.map fun p => (stepDiff steps p, c p.1 p.2 v)

theorem fkLoops_eq (steps : List ℤ) (nframes skip n : ℕ) (hskip : 0 < skip) (tgrid : List (ℕ × ℕ))
    (kernel : ℕ → ℕ → KVec d → Py ℝ) (c : ℕ → ℕ → KVec d → ℝ) (kv : List (List (KVec d))) (acc : List (Acc ℤ ℝ))
    (hsteps : nframes ≤ steps.length)
    (hk : ∀ i0 i, i0 + i < nframes → ∀ l ∈ kv, ∀ v ∈ l, kernel i0 i v = .ok (c i0 i v))
    (hl : kv.length ≤ acc.length) :
    fkLoops steps nframes skip n tgrid kernel kv acc = .ok (acc.mapIdx fun m a =>
      (fkEvents steps (Spec.sampled nframes skip tgrid) c (kv.getD m [])).foldl (addEvent n) a) := by
  unfold fkLoops
  have key := foldlM_inv_ok (P := fun a : List (Acc ℤ ℝ) => a.length = acc.length)
    (f := fun acc (kl : List (KVec d) × ℕ) => kl.1.foldlM (fun acc kvec => tgrid.foldlM (fun acc g => do
      let r ← pyRange g.1 (nframes - g.2) skip
      r.foldlM (fun acc i0 => do
        let ta ← pyGet steps (i0 + g.2)
        let tb ← pyGet steps i0
        let v ← kernel i0 g.2 kvec
        fkAdd acc kl.2 (ta - tb) v n) acc) acc) acc)
    (g := fun acc kl => acc.modify kl.2 fun a =>
      (fkEvents steps (Spec.sampled nframes skip tgrid) c kl.1).foldl (addEvent n) a) kv.zipIdx acc rfl ?_
  · rw [key.1, foldl_zipIdx_modify (fun (l : List (KVec d)) a =>
      (fkEvents steps (Spec.sampled nframes skip tgrid) c l).foldl (addEvent n) a)]
    congr 1
    apply List.ext_getElem?
    intro m
    simp only [List.getElem?_mapIdx, Nat.zero_le, if_true, Nat.sub_zero, List.getD_eq_getElem?_getD]
    rcases acc[m]? with _ | a
    · rfl
    · rcases kv[m]? with _ | l <;> simp [fkEvents]
  · intro a ha kl hkl
    refine ⟨?_, by rw [List.length_modify]; exact ha⟩
    have hmem : kl.1 ∈ kv := by
      have := List.mem_zipIdx hkl
      rw [this.2.2]; exact List.getElem_mem _
    have hlt : kl.2 < acc.length := by
      have := List.mem_zipIdx hkl
      omega
    -- one wave-vector
    have h1 : ∀ v ∈ kl.1, ∀ b : List (Acc ℤ ℝ), b.length = acc.length →
        tgrid.foldlM (fun acc g => do
          let r ← pyRange g.1 (nframes - g.2) skip
          r.foldlM (fun acc i0 => do
            let ta ← pyGet steps (i0 + g.2)
            let tb ← pyGet steps i0
            let v ← kernel i0 g.2 v
            fkAdd acc kl.2 (ta - tb) v n) acc) b =
        .ok (b.modify kl.2 fun a => ((Spec.sampled nframes skip tgrid).map fun p =>
          (stepDiff steps p, c p.1 p.2 v)).foldl (addEvent n) a) := by
      intro v hv b hb
      have e : (fun (acc : List (Acc ℤ ℝ)) (g : ℕ × ℕ) => (do
          let r ← pyRange g.1 (nframes - g.2) skip
          r.foldlM (fun acc i0 => do
            let ta ← pyGet steps (i0 + g.2)
            let tb ← pyGet steps i0
            let v ← kernel i0 g.2 v
            fkAdd acc kl.2 (ta - tb) v n) acc : Py (List (Acc ℤ ℝ)))) =
          fun acc g => ((rangeList g.1 (nframes - g.2) skip).map fun i0 => (i0, g.2)).foldlM (fun acc p => do
            let ta ← pyGet steps (p.1 + p.2)
            let tb ← pyGet steps p.1
            let v ← kernel p.1 p.2 v
            fkAdd acc kl.2 (ta - tb) v n) acc := by
        funext acc g
        have : pyRange g.1 (nframes - g.2) skip = .ok (rangeList g.1 (nframes - g.2) skip) := by
          unfold pyRange; rw [if_neg (by omega)]
        rw [this, List.foldlM_map]
        rfl
      rw [e, foldlM_flatMap]
      have e2 : (tgrid.flatMap fun g => (rangeList g.1 (nframes - g.2) skip).map fun i0 => (i0, g.2)) =
          Spec.sampled nframes skip tgrid := by
        rw [← loopPairs_gcfOffset hskip]
        unfold loopPairs
        rw [List.flatMap_map]
      rw [e2]
      have h2 := foldlM_inv_ok (P := fun b : List (Acc ℤ ℝ) => b.length = acc.length)
        (f := fun acc (p : ℕ × ℕ) => do
            let ta ← pyGet steps (p.1 + p.2)
            let tb ← pyGet steps p.1
            let v ← kernel p.1 p.2 v
            fkAdd acc kl.2 (ta - tb) v n)
        (g := fun acc p => acc.modify kl.2 fun a => addEvent n a (stepDiff steps p, c p.1 p.2 v))
        (Spec.sampled nframes skip tgrid) b hb (fun b hb p hp => by
          refine ⟨?_, by rw [List.length_modify]; exact hb⟩
          have hlt' := sampled_lt hp
          rw [Props.pyGet_getD_ok (by omega : p.1 + p.2 < steps.length) 0, Props.pyGet_getD_ok (by omega : p.1 < steps.length) 0,
            hk p.1 p.2 hlt' _ hmem v hv]
          show fkAdd b kl.2 _ _ _ = _
          unfold fkAdd
          rw [if_pos (by omega)]
          rfl)
      rw [h2.1, modify_foldl (fun a p => addEvent n a (stepDiff steps p, c p.1 p.2 v))]
      simp only [List.foldl_map]
    have h3 := foldlM_inv_ok (P := fun b : List (Acc ℤ ℝ) => b.length = acc.length)
      (f := fun acc kvec => tgrid.foldlM (fun acc g => do
          let r ← pyRange g.1 (nframes - g.2) skip
          r.foldlM (fun acc i0 => do
            let ta ← pyGet steps (i0 + g.2)
            let tb ← pyGet steps i0
            let v ← kernel i0 g.2 kvec
            fkAdd acc kl.2 (ta - tb) v n) acc) acc)
      (g := fun acc v => acc.modify kl.2 fun a => ((Spec.sampled nframes skip tgrid).map fun p =>
          (stepDiff steps p, c p.1 p.2 v)).foldl (addEvent n) a) kl.1 a ha (fun b hb v hv =>
        ⟨h1 v hv b hb, by rw [List.length_modify]; exact hb⟩)
    rw [h3.1, modify_foldl (fun a v => ((Spec.sampled nframes skip tgrid).map fun p =>
          (stepDiff steps p, c p.1 p.2 v)).foldl (addEvent n) a)]
    congr 2
    funext a
    unfold fkEvents
    rw [List.foldl_flatMap]

/-! ### From the events to the values -/

/-- Events of several blocks; block `b` adds `n b` to the counts. -/
noncomputable def accBlocks {B : Type} (blocks : List B) (E : B → List (ℤ × ℝ)) (n : B → ℕ) : Acc ℤ ℝ :=
  blocks.foldl (fun a b => (E b).foldl (addEvent (n b)) a) ([], [])

theorem foldl_addEvent (n : ℕ) (l : List (ℤ × ℝ)) (a : Acc ℤ ℝ) :
    l.foldl (addEvent n) a = (l.foldl (fun d e => ddAdd 0 (· + ·) d e.1 e.2) a.1,
      (l.map fun e => (e.1, n)).foldl (fun d e => ddAdd 0 (· + ·) d e.1 e.2) a.2) := by
  induction l generalizing a with
  | nil => rfl
  | cons e l ih => rw [List.foldl_cons, ih]; rfl

theorem accBlocks_eq {B : Type} (blocks : List B) (E : B → List (ℤ × ℝ)) (n : B → ℕ) :
    accBlocks blocks E n = ((blocks.flatMap E).foldl (fun d e => ddAdd 0 (· + ·) d e.1 e.2) [],
      (blocks.flatMap fun b => (E b).map fun e => (e.1, n b)).foldl (fun d e => ddAdd 0 (· + ·) d e.1 e.2) []) := by
  unfold accBlocks
  generalize ([] : List (ℤ × ℝ)) = a1
  generalize ([] : List (ℤ × ℕ)) = a2
  induction blocks generalizing a1 a2 with
  | nil => rfl
  | cons b bs ih =>
    rw [List.foldl_cons, foldl_addEvent, ih, List.flatMap_cons, List.flatMap_cons, List.foldl_append,
      List.foldl_append]

theorem foldl_add_eq_sum {M : Type} [AddCommMonoid M] (l : List M) : l.foldl (· + ·) 0 = l.sum :=
  List.sum_eq_foldl.symm

/-- Pairs of frames with time difference `δ`. -/
def pairsAt (steps : List ℤ) (ps : List (ℕ × ℕ)) (δ : ℤ) : List (ℕ × ℕ) :=
  ps.filter fun p => decide (stepDiff steps p = δ)

theorem filter_events (steps : List ℤ) (ps : List (ℕ × ℕ)) (c : ℕ → ℕ → KVec d → ℝ) (kl : List (KVec d)) (δ : ℤ) :
    ((fkEvents steps ps c kl).filter fun e => decide (e.1 = δ)) =
      kl.flatMap fun v => (pairsAt steps ps δ).map fun p => (stepDiff steps p, c p.1 p.2 v) := by
  unfold fkEvents pairsAt
  rw [List.filter_flatMap]
  apply List.flatMap_congr
  intro v _
  rw [List.filter_map]
  rfl

theorem sum_flatMap_map {α M : Type} [AddCommMonoid M] (l : List α) (f : α → List M) :
    (l.flatMap f).sum = (l.map fun a => (f a).sum).sum := by
  induction l with
  | nil => rfl
  | cons a l ih => rw [List.flatMap_cons, List.sum_append, ih, List.map_cons, List.sum_cons]

/-- Value of `acf` at one time difference. -/
theorem accBlocks_acf {B : Type} (blocks : List B) (steps : List ℤ) (ps : List (ℕ × ℕ))
    (c : B → ℕ → ℕ → KVec d → ℝ) (n : B → ℕ) (kl : List (KVec d)) (δ : ℤ) :
    ddGet 0 (accBlocks blocks (fun b => fkEvents steps ps (c b) kl) n).1 δ =
      (kl.flatMap fun v => (pairsAt steps ps δ).map fun p => (blocks.map fun b => c b p.1 p.2 v).sum).sum := by
  rw [accBlocks_eq]
  simp only
  rw [ddGet_foldl]
  show List.foldl _ 0 _ = _
  rw [foldl_add_eq_sum]
  induction blocks with
  | nil =>
    have : ∀ l : List (ℕ × ℕ), (l.map fun _ => (0 : ℝ)).sum = 0 := by simp
    simp [sum_flatMap_map]
  | cons b bs ih =>
    rw [List.flatMap_cons, List.filter_append, List.map_append, List.sum_append, ih, filter_events, List.map_flatMap]
    simp only [List.map_map, sum_flatMap_map, List.map_cons, List.sum_cons]
    rw [← List.sum_map_add]
    congr 1
    apply List.map_congr_left
    intro v _
    rw [← List.sum_map_add]
    rfl

/-- Value of `cnt` at one time difference. -/
theorem accBlocks_cnt {B : Type} (blocks : List B) (steps : List ℤ) (ps : List (ℕ × ℕ))
    (c : B → ℕ → ℕ → KVec d → ℝ) (n : B → ℕ) (kl : List (KVec d)) (δ : ℤ) :
    ddGet 0 (accBlocks blocks (fun b => fkEvents steps ps (c b) kl) n).2 δ =
      kl.length * (pairsAt steps ps δ).length * (blocks.map n).sum := by
  rw [accBlocks_eq]
  simp only
  rw [ddGet_foldl]
  show List.foldl _ 0 _ = _
  rw [foldl_add_eq_sum]
  induction blocks with
  | nil => simp
  | cons b bs ih =>
    rw [List.flatMap_cons, List.filter_append, List.map_append, List.sum_append, ih, List.filter_map]
    have : ((fkEvents steps ps (c b) kl).filter ((fun e : ℤ × ℕ => decide (e.1 = δ)) ∘ fun e => (e.1, n b))) =
        kl.flatMap fun v => (pairsAt steps ps δ).map fun p => (stepDiff steps p, c b p.1 p.2 v) :=
      filter_events steps ps (c b) kl δ
    rw [this, List.map_map, List.map_flatMap, sum_flatMap_map]
    simp only [List.map_map, List.map_cons, List.sum_cons]
    have e : (fun v : KVec d => (List.map ((Prod.snd ∘ fun e : ℤ × ℝ => (e.1, n b)) ∘ fun p : ℕ × ℕ =>
        (stepDiff steps p, c b p.1 p.2 v)) (pairsAt steps ps δ)).sum) = fun _ => (pairsAt steps ps δ).length * n b := by
      funext v
      have : ((Prod.snd ∘ fun e : ℤ × ℝ => (e.1, n b)) ∘ fun p : ℕ × ℕ => (stepDiff steps p, c b p.1 p.2 v)) =
          fun _ => n b := rfl
      rw [this, List.map_const', List.sum_replicate, smul_eq_mul]
    rw [e, List.map_const', List.sum_replicate, smul_eq_mul]
    ring

theorem accBlocks_keys {B : Type} (blocks : List B) (hb : blocks ≠ []) (steps : List ℤ) (ps : List (ℕ × ℕ))
    (c : B → ℕ → ℕ → KVec d → ℝ) (n : B → ℕ) (kl : List (KVec d)) (hkl : kl ≠ []) (δ : ℤ) :
    δ ∈ dictKeys (accBlocks blocks (fun b => fkEvents steps ps (c b) kl) n).1 ↔ ∃ p ∈ ps, stepDiff steps p = δ := by
  rw [accBlocks_eq]
  simp only
  rw [mem_keys_foldl]
  simp only [dictKeys, List.map_nil, List.not_mem_nil, false_or, fkEvents, List.mem_flatMap, List.mem_map]
  obtain ⟨b, hb⟩ := List.exists_mem_of_ne_nil _ hb
  obtain ⟨v, hv⟩ := List.exists_mem_of_ne_nil _ hkl
  constructor
  · rintro ⟨e, ⟨b, -, v, -, p, hp, rfl⟩, rfl⟩
    exact ⟨p, hp, rfl⟩
  · rintro ⟨p, hp, rfl⟩
    exact ⟨_, ⟨b, hb, v, hv, p, hp, rfl⟩, rfl⟩

/-- The time differences, in increasing order. -/
def lagList (steps : List ℤ) (ps : List (ℕ × ℕ)) : List ℤ := pySorted ((ps.map (stepDiff steps)).dedup)

theorem lagList_sorted (steps : List ℤ) (ps : List (ℕ × ℕ)) : (lagList steps ps).Pairwise (· < ·) :=
  pySorted_lt (List.nodup_dedup _)

theorem mem_lagList {steps : List ℤ} {ps : List (ℕ × ℕ)} {δ : ℤ} :
    δ ∈ lagList steps ps ↔ ∃ p ∈ ps, stepDiff steps p = δ := by
  unfold lagList
  rw [mem_pySorted, List.mem_dedup, List.mem_map]

theorem pairsAt_length_pos {steps : List ℤ} {ps : List (ℕ × ℕ)} {δ : ℤ} (h : δ ∈ lagList steps ps) :
    0 < (pairsAt steps ps δ).length := by
  obtain ⟨p, hp, hd⟩ := mem_lagList.1 h
  exact List.length_pos_of_mem (List.mem_filter.2 ⟨hp, by simpa using hd⟩)

/-- Values computed from the events of all grid points. -/
theorem fkValues_eq {B : Type} (blocks : List B) (hb : blocks ≠ []) (steps : List ℤ) (ps : List (ℕ × ℕ))
    (c : B → ℕ → ℕ → KVec d → ℝ) (n : B → ℕ) (hn : 0 < (blocks.map n).sum) (kv : List (List (KVec d)))
    (hkv : ∀ l ∈ kv, l ≠ []) (hne : kv ≠ []) :
    fkValues (kv.map fun kl => accBlocks blocks (fun b => fkEvents steps ps (c b) kl) n) =
      .ok (lagList steps ps, kv.map fun kl => (lagList steps ps).map fun δ =>
        (kl.flatMap fun v => (pairsAt steps ps δ).map fun p => (blocks.map fun b => c b p.1 p.2 v).sum).sum /
          ((kl.length * (pairsAt steps ps δ).length * (blocks.map n).sum : ℕ) : ℝ)) := by
  obtain ⟨k0, kr, rfl⟩ := List.exists_cons_of_ne_nil hne
  unfold fkValues
  have h0 : pyGet ((k0 :: kr).map fun kl => accBlocks blocks (fun b => fkEvents steps ps (c b) kl) n) 0 =
      .ok (accBlocks blocks (fun b => fkEvents steps ps (c b) k0) n) := rfl
  rw [h0]
  have hts : pySorted (dictKeys (accBlocks blocks (fun b => fkEvents steps ps (c b) k0) n).1) = lagList steps ps := by
    apply sorted_unique (pySorted_lt _) (lagList_sorted _ _)
    · intro δ
      rw [mem_pySorted, accBlocks_keys _ hb _ _ _ _ _ (hkv k0 (by simp)), mem_lagList]
    · rw [accBlocks_eq]; exact nodup_keys_foldl _ _ _ _ (by simp [dictKeys])
  simp only [bind, Except.bind, hts]
  rw [List.mapM_map]
  have h1 := mapM_ok_map (f := fun kl => (lagList steps ps).mapM fun t =>
      pyDiv (ddGet 0 (accBlocks blocks (fun b => fkEvents steps ps (c b) kl) n).1 t)
        ((ddGet 0 (accBlocks blocks (fun b => fkEvents steps ps (c b) kl) n).2 t : ℕ) : ℝ))
    (g := fun kl => (lagList steps ps).map fun δ =>
        (kl.flatMap fun v => (pairsAt steps ps δ).map fun p => (blocks.map fun b => c b p.1 p.2 v).sum).sum /
          ((kl.length * (pairsAt steps ps δ).length * (blocks.map n).sum : ℕ) : ℝ)) (l := k0 :: kr) (fun kl hkl => by
      apply mapM_ok_map
      intro δ hδ
      rw [accBlocks_acf, accBlocks_cnt]
      unfold pyDiv
      rw [if_neg]
      have h1 := pairsAt_length_pos hδ
      have h2 := List.length_pos_iff.2 (hkv kl hkl)
      have : 0 < kl.length * (pairsAt steps ps δ).length * (blocks.map n).sum := by positivity
      exact_mod_cast this.ne')
  show Except.bind (List.mapM (fun kl => (lagList steps ps).mapM fun t =>
      pyDiv (ddGet 0 (accBlocks blocks (fun b => fkEvents steps ps (c b) kl) n).1 t)
        ((ddGet 0 (accBlocks blocks (fun b => fkEvents steps ps (c b) kl) n).2 t : ℕ) : ℝ)) (k0 :: kr)) _ = _
  rw [h1]
  rfl

/-- The loop over blocks. -/
theorem blocks_loop {B : Type} (blocks : List B) (steps : List ℤ) (ps : List (ℕ × ℕ))
    (c : B → ℕ → ℕ → KVec d → ℝ) (n : B → ℕ) (kv : List (List (KVec d)))
    (body : List (Acc ℤ ℝ) → B → Py (List (Acc ℤ ℝ)))
    (h : ∀ b ∈ blocks, ∀ acc : List (Acc ℤ ℝ), acc.length = kv.length → body acc b = .ok (acc.mapIdx fun m a =>
      (fkEvents steps ps (c b) (kv.getD m [])).foldl (addEvent (n b)) a)) :
    blocks.foldlM body (List.replicate kv.length ([], [])) =
      .ok (kv.map fun kl => accBlocks blocks (fun b => fkEvents steps ps (c b) kl) n) := by
  have h1 := foldlM_inv_ok (P := fun a : List (Acc ℤ ℝ) => a.length = kv.length) (f := body)
    (g := fun acc b => acc.mapIdx fun m a => (fkEvents steps ps (c b) (kv.getD m [])).foldl (addEvent (n b)) a)
    blocks (List.replicate kv.length ([], [])) (by simp) (fun a ha b hb => ⟨h b hb a ha, by simpa using ha⟩)
  rw [h1.1]
  have h2 : ∀ acc : List (Acc ℤ ℝ), blocks.foldl (fun acc b => acc.mapIdx fun m a =>
      (fkEvents steps ps (c b) (kv.getD m [])).foldl (addEvent (n b)) a) acc = acc.mapIdx fun m a =>
        blocks.foldl (fun a b => (fkEvents steps ps (c b) (kv.getD m [])).foldl (addEvent (n b)) a) a := by
    clear h h1
    induction blocks with
    | nil =>
      intro acc
      apply List.ext_getElem?
      intro n
      simp
    | cons b bs ih =>
      intro acc
      rw [List.foldl_cons, ih]
      apply List.ext_getElem?
      intro n
      simp only [List.getElem?_mapIdx, Option.map_map, List.foldl_cons]
      rfl
  rw [h2]
  congr 1
  apply List.ext_getElem?
  intro m
  rw [List.getElem?_mapIdx, List.getElem?_map]
  rcases Nat.lt_or_ge m kv.length with hm | hm
  · rw [List.getElem?_replicate, if_pos hm, List.getElem?_eq_getElem hm]
    simp only [Option.map_some, List.getD_eq_getElem _ _ hm]
    rfl
  · rw [List.getElem?_replicate, if_neg (by omega), List.getElem?_eq_none hm]; rfl

end PP
