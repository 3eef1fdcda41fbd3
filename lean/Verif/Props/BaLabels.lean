import Verif.Props.BaUnits
import Mathlib.Data.List.Nodup
import Mathlib.Algebra.BigOperators.Group.List.Basic

/-!
# Labels of the particles, order of the frames and periodic images in the bond-angle distribution (C155, C156)
-/

set_option linter.unusedSectionVars false

namespace PP.Props
open PP

variable {d : ℕ}

/-- The distribution depends on the frames only through the number of angles in each interval, on whether a neighbour
list overflows and on whether there are particles. -/
theorem baCompute_congr {rcut : List (List ℝ)} {rc : ℕ → ℕ → ℝ} {nsp skip : ℕ} (hs : 0 < skip) (grid : List ℝ)
    (hg : ∀ a b, grid[0]? = some a → grid[1]? = some b → a < b) (fr fr' : List (BaFrame d))
    (hv : ∀ f ∈ Spec.everyNth skip fr, BaValid rcut rc f) (hv' : ∀ f ∈ Spec.everyNth skip fr', BaValid rcut rc f)
    (hbuf : (∀ f ∈ Spec.everyNth skip fr, ∀ i < f.pos0.length, Spec.inRange rc f i ≤ 50) ↔
      ∀ f ∈ Spec.everyNth skip fr', ∀ i < f.pos0.length, Spec.inRange rc f i ≤ 50)
    (hne : (∃ f ∈ Spec.everyNth skip fr, f.pos0 ≠ []) ↔ ∃ f ∈ Spec.everyNth skip fr', f.pos0 ≠ [])
    (hbet : ∀ a b, Spec.between a b ((Spec.everyNth skip fr).flatMap (Spec.frameAngles rc)) =
      Spec.between a b ((Spec.everyNth skip fr').flatMap (Spec.frameAngles rc))) :
    baCompute rcut nsp skip grid fr = baCompute rcut nsp skip grid fr' := by
  have hnil : ∀ l : List (BaFrame d), particleAngles rc l = [] ↔ ¬ ∃ f ∈ l, f.pos0 ≠ [] := by
    intro l
    unfold particleAngles
    rw [List.flatMap_eq_nil_iff]
    push Not
    refine forall₂_congr fun f _ => ?_
    rw [List.map_eq_nil_iff, List.range_eq_nil, List.length_eq_zero_iff]
  unfold baCompute pyRange
  rw [if_neg (by omega), if_neg (by omega)]
  simp only [bind, Except.bind]
  cases hg1 : pyGet grid 1 with
  | error e => rfl
  | ok b =>
  cases hg0 : pyGet grid 0 with
  | error e => rfl
  | ok a =>
  have hw : 0 < b - a := by
    have get : ∀ (i : ℕ) (x : ℝ), pyGet grid i = .ok x → grid[i]? = some x := by
      intro i x h
      unfold pyGet at h
      cases hx : grid[i]? with
      | none => rw [hx] at h; cases h
      | some y => rw [hx] at h; cases h; rfl
    have := hg a b (get 0 a hg0) (get 1 b hg1)
    linarith
  simp only
  cases baCheckRcut rcut nsp with
  | error e => rfl
  | ok _ =>
  simp only
  rcases baLoops (rcut := rcut) (rc := rc) hs hw grid.length fr hv with ⟨c1, h, e1, e2⟩ | ⟨c1, e1⟩
  · rcases baLoops (rcut := rcut) (rc := rc) hs hw grid.length fr' hv' with ⟨c1', h', e1', e2'⟩ | ⟨c1', e1'⟩
    · simp only [bind, Except.bind] at e1 e1'
      rw [e1, e1']
      simp only
      have htot : baTotal grid.length h.flatten = baTotal grid.length h'.flatten := by
        unfold baTotal
        rw [e2, e2']
        by_cases hn : particleAngles rc (Spec.everyNth skip fr) = []
        · have hn' : particleAngles rc (Spec.everyNth skip fr') = [] := by
            rw [hnil] at hn ⊢
            exact fun x => hn (hne.2 x)
          rw [hn, hn']
        · have hn' : particleAngles rc (Spec.everyNth skip fr') ≠ [] := by
            intro x
            rw [hnil] at hn x
            exact hn fun y => x (hne.1 y)
          rw [if_neg (by simpa using hn), if_neg (by simpa using hn')]
          congr 1
          refine List.map_congr_left fun b' hb => ?_
          rw [List.mem_range] at hb
          have hone : ∀ l : List (BaFrame d), (((particleAngles rc l).map fun l => (List.range grid.length).map
              fun k : ℕ => Spec.between ((k : ℝ) * (b - a)) (((k : ℝ) + 1) * (b - a)) l).map fun h => h.getD b' 0).sum =
              Spec.between ((b' : ℝ) * (b - a)) (((b' : ℝ) + 1) * (b - a)) (l.flatMap (Spec.frameAngles rc)) := by
            intro l
            rw [List.map_map, ← particleAngles_flatten, ← between_flatten]
            congr 1
            refine List.map_congr_left fun l _ => ?_
            simp only [Function.comp_apply]
            rw [List.getD_eq_getElem?_getD, List.getElem?_map, List.getElem?_range (by omega)]
            rfl
          rw [hone, hone, hbet]
      rw [htot]
    · obtain ⟨f, hf, i, hi, h50⟩ := c1'
      have := hbuf.1 c1 f hf i hi
      omega
  · rcases baLoops (rcut := rcut) (rc := rc) hs hw grid.length fr' hv' with ⟨c1', h', e1', e2'⟩ | ⟨c1', e1'⟩
    · obtain ⟨f, hf, i, hi, h50⟩ := c1
      have := hbuf.2 c1' f hf i hi
      omega
    · simp only [bind, Except.bind] at e1 e1'
      rw [e1, e1']

/-! ### Labels -/

/-- Two frames with the same particles in another order. -/
structure SameParticles (f f' : BaFrame d) : Prop where
  side : f'.side = f.side
  len0 : f'.ids0.length = f'.pos0.length
  len1 : f'.ids1.length = f'.pos1.length
  first : (f'.pos0.zip f'.ids0).Perm (f.pos0.zip f.ids0)
  second : (f'.pos1.zip f'.ids1).Perm (f.pos1.zip f.ids1)

theorem range_zip {α β γ : Type} (l1 : List α) (l2 : List β) (a : α) (b : β) (h : l2.length = l1.length) (F : α × β → γ) :
    ((List.range l1.length).map fun i => F (l1.getD i a, l2.getD i b)) = (l1.zip l2).map F := by
  apply List.ext_getElem
  · simp [h]
  · intro i h1 h2
    have h3 : i < l1.length := by simpa using h1
    have h4 : i < l2.length := by omega
    simp [h3, h4]

theorem countP_others {P : ℝ → Bool} (g : ℕ → ℕ → ℝ) {B : List ℕ} (hB : B.Nodup) :
    ∀ C : List ℕ, (∀ j ∈ C, j ∈ B) →
    (C.flatMap fun j => (B.filter fun k => k ≠ j).map (g j)).countP P + (C.map fun j => g j j).countP P =
      (C.flatMap fun j => B.map (g j)).countP P := by
  intro C
  induction C with
  | nil => intro _; rfl
  | cons j C ih =>
    intro hC
    have ih' := ih fun k hk => hC k (List.mem_cons_of_mem _ hk)
    have hj : j ∈ B := hC j (by simp)
    have h1 : (B.filter fun k => k ≠ j) = B.erase j := by
      rw [hB.erase_eq_filter]
      refine List.filter_congr fun k _ => ?_
      by_cases hk : k = j
      · subst hk; simp
      · simp [hk]
    have h2 : ((B.filter fun k => k ≠ j).map (g j)).countP P + (if P (g j j) then 1 else 0) = (B.map (g j)).countP P := by
      rw [h1, ((List.perm_cons_erase hj).map (g j)).countP_eq P, List.map_cons, List.countP_cons]
    simp only [List.flatMap_cons, List.countP_append, List.map_cons, List.countP_cons]
    omega

open Classical in
/-- The neighbours at non-zero distance, with their species. -/
noncomputable def bondedPairs (L x : Vec d ℝ) (rc : ℕ → ℝ) (l : List (Vec d ℝ × ℕ)) : List (Vec d ℝ × ℕ) :=
  l.filter fun q => decide (Spec.Closer L (rc q.2) x q.1 ∧ minImage L (fun c => x c - q.1 c) ≠ 0)

/-- The number of angles in an interval. -/
noncomputable def bondCount (a b : ℝ) (L x : Vec d ℝ) (rc : ℕ → ℝ) (l : List (Vec d ℝ × ℕ)) : ℕ :=
  ((bondedPairs L x rc l).flatMap fun p => (bondedPairs L x rc l).map fun q =>
    Spec.degrees (minImage L fun c => x c - p.1 c) (minImage L fun c => x c - q.1 c)).countP
      (fun t => decide (a ≤ t ∧ t < b)) -
  ((bondedPairs L x rc l).map fun p =>
    Spec.degrees (minImage L fun c => x c - p.1 c) (minImage L fun c => x c - p.1 c)).countP
      (fun t => decide (a ≤ t ∧ t < b))

theorem bondCount_perm (a b : ℝ) (L x : Vec d ℝ) (rc : ℕ → ℝ) {l l' : List (Vec d ℝ × ℕ)} (h : l.Perm l') :
    bondCount a b L x rc l = bondCount a b L x rc l' := by
  have hb : (bondedPairs L x rc l).Perm (bondedPairs L x rc l') := h.filter _
  unfold bondCount
  congr 1
  · apply List.Perm.countP_eq
    exact List.Perm.flatMap hb fun p _ => hb.map _
  · exact (hb.map _).countP_eq _

theorem between_bondAngles (a b : ℝ) (L x : Vec d ℝ) (rc : ℕ → ℝ) (pos : List (Vec d ℝ)) (ids : List ℕ)
    (h : ids.length = pos.length) :
    Spec.between a b (Spec.bondAngles L x pos (fun j => ids.getD j 0) rc) = bondCount a b L x rc (pos.zip ids) := by
  classical
  set B := Spec.bonded L x pos (fun j => ids.getD j 0) rc with hB
  have hnd : B.Nodup := List.Nodup.filter _ List.nodup_range
  have hmap : bondedPairs L x rc (pos.zip ids) = B.map fun j => (pos.getD j 0, ids.getD j 0) := by
    unfold bondedPairs
    rw [← List.map_id (pos.zip ids), ← range_zip pos ids 0 0 h id, List.filter_map, hB]
    unfold Spec.bonded
    congr 1
  have key := countP_others (P := fun t => decide (a ≤ t ∧ t < b))
    (fun j k => Spec.degrees (minImage L fun c => x c - pos.getD j 0 c) (minImage L fun c => x c - pos.getD k 0 c)) hnd B
    fun _ h => h
  unfold bondCount
  rw [hmap, List.flatMap_map]
  simp only [List.map_map, Function.comp_def]
  rw [← key]
  unfold Spec.between Spec.bondAngles
  rw [← hB]
  exact (Nat.add_sub_cancel _ _).symm

theorem between_frameAngles (a b : ℝ) (rc : ℕ → ℕ → ℝ) {f : BaFrame d} (h0 : f.ids0.length = f.pos0.length)
    (h1 : f.ids1.length = f.pos1.length) :
    Spec.between a b (Spec.frameAngles rc f) =
      ((f.pos0.zip f.ids0).map fun p => bondCount a b f.side p.1 (rc p.2) (f.pos1.zip f.ids1)).sum := by
  unfold Spec.frameAngles
  rw [← range_zip f.pos0 f.ids0 0 0 h0, List.flatMap_def, ← between_flatten, List.map_map]
  congr 1
  refine List.map_congr_left fun i _ => ?_
  exact between_bondAngles a b _ _ _ _ _ h1

theorem SameParticles.between (a b : ℝ) (rc : ℕ → ℕ → ℝ) {f f' : BaFrame d} (h : SameParticles f f')
    (h0 : f.ids0.length = f.pos0.length) (h1 : f.ids1.length = f.pos1.length) :
    Spec.between a b (Spec.frameAngles rc f') = Spec.between a b (Spec.frameAngles rc f) := by
  rw [between_frameAngles a b rc h0 h1, between_frameAngles a b rc h.len0 h.len1, h.side]
  rw [(h.first.map _).sum_eq]
  congr 1
  refine List.map_congr_left fun p _ => ?_
  exact bondCount_perm a b _ _ _ h.second

theorem SameParticles.mem {f f' : BaFrame d} (h : SameParticles f f')
    (h0 : f.ids0.length = f.pos0.length) (h1 : f.ids1.length = f.pos1.length) :
    f'.pos0.Perm f.pos0 ∧ f'.ids0.Perm f.ids0 ∧ f'.pos1.Perm f.pos1 ∧ f'.ids1.Perm f.ids1 := by
  have a := h.first.map Prod.fst
  have b := h.first.map Prod.snd
  have c := h.second.map Prod.fst
  have e := h.second.map Prod.snd
  rw [List.map_fst_zip (by have := h.len0; have := h.len1; omega), List.map_fst_zip (by omega)] at a c
  rw [List.map_snd_zip (by have := h.len0; have := h.len1; omega), List.map_snd_zip (by omega)] at b e
  exact ⟨a, b, c, e⟩

theorem SameParticles.valid {rcut : List (List ℝ)} {rc : ℕ → ℕ → ℝ} {f f' : BaFrame d} (h : SameParticles f f')
    (hv : BaValid rcut rc f) : BaValid rcut rc f' := by
  obtain ⟨p0, i0, p1, i1⟩ := h.mem hv.len0 hv.len1
  refine ⟨h.len0, h.len1, by rw [h.side]; exact hv.side, ?_, ?_⟩
  · intro x hx y hy c
    rw [h.side]
    exact hv.cell x (p0.mem_iff.1 hx) y (p1.mem_iff.1 hy) c
  · intro i hi
    obtain ⟨row, hr, hj⟩ := hv.rows i (i0.mem_iff.1 hi)
    exact ⟨row, hr, fun j hj' => hj j (i1.mem_iff.1 hj')⟩

open Classical in
theorem inRange_pairs (rc : ℕ → ℕ → ℝ) {f : BaFrame d} (h0 : f.ids0.length = f.pos0.length)
    (h1 : f.ids1.length = f.pos1.length) :
    (∀ i < f.pos0.length, Spec.inRange rc f i ≤ 50) ↔ ∀ p ∈ f.pos0.zip f.ids0,
      (f.pos1.zip f.ids1).countP (fun q => decide (Spec.Closer f.side (rc p.2 q.2) p.1 q.1)) ≤ 50 := by
  have hin : ∀ i, Spec.inRange rc f i = (f.pos1.zip f.ids1).countP (fun q =>
      decide (Spec.Closer f.side (rc (f.ids0.getD i 0) q.2) (f.pos0.getD i 0) q.1)) := by
    intro i
    rw [← List.map_id (f.pos1.zip f.ids1), ← range_zip f.pos1 f.ids1 0 0 h1 id, List.countP_map]
    rfl
  have hmem : ∀ p, p ∈ f.pos0.zip f.ids0 ↔ ∃ i < f.pos0.length, (f.pos0.getD i 0, f.ids0.getD i 0) = p := by
    intro p
    have e : f.pos0.zip f.ids0 = (List.range f.pos0.length).map fun i => (f.pos0.getD i 0, f.ids0.getD i 0) := by
      rw [range_zip f.pos0 f.ids0 0 0 h0 fun p => p]
      exact (List.map_id _).symm
    rw [e, List.mem_map]
    exact exists_congr fun i => and_congr_left fun _ => List.mem_range
  constructor
  · intro h p hp
    obtain ⟨i, hi, rfl⟩ := (hmem p).1 hp
    have := h i hi
    rwa [hin] at this
  · intro h i hi
    rw [hin]
    exact h (f.pos0.getD i 0, f.ids0.getD i 0) ((hmem (f.pos0.getD i 0, f.ids0.getD i 0)).2 ⟨i, hi, rfl⟩)

theorem SameParticles.range {rc : ℕ → ℕ → ℝ} {f f' : BaFrame d} (h : SameParticles f f')
    (h0 : f.ids0.length = f.pos0.length) (h1 : f.ids1.length = f.pos1.length) :
    (∀ i < f.pos0.length, Spec.inRange rc f i ≤ 50) ↔ ∀ i < f'.pos0.length, Spec.inRange rc f' i ≤ 50 := by
  rw [inRange_pairs rc h0 h1, inRange_pairs rc h.len0 h.len1, h.side]
  simp only [h.second.countP_eq, h.first.mem_iff]

theorem everyNth_mem {α : Type} {n : ℕ} {l : List α} {x : α} (h : x ∈ Spec.everyNth n l) : x ∈ l := by
  unfold Spec.everyNth at h
  rw [List.mem_map] at h
  obtain ⟨e, he, rfl⟩ := h
  exact List.fst_mem_of_mem_zipIdx (List.mem_filter.1 he).1

/-- **C155**, labels: the particles of each frame (positions and species of each of the two groups) can be listed in any
order. Also the overflow of a neighbour list and the absence of particles do not depend on it. -/
theorem C155_labels {rcut : List (List ℝ)} {rc : ℕ → ℕ → ℝ} {nsp skip : ℕ} (hs : 0 < skip) (grid : List ℝ)
    (hg : ∀ a b, grid[0]? = some a → grid[1]? = some b → a < b) (z : List (BaFrame d × BaFrame d))
    (hz : ∀ p ∈ z, BaValid rcut rc p.1 ∧ SameParticles p.1 p.2) :
    baCompute rcut nsp skip grid (z.map Prod.snd) = baCompute rcut nsp skip grid (z.map Prod.fst) := by
  symm
  have hz' : ∀ p ∈ Spec.everyNth skip z, BaValid rcut rc p.1 ∧ SameParticles p.1 p.2 := fun p hp =>
    hz p (everyNth_mem hp)
  apply baCompute_congr (rc := rc) hs grid hg <;> simp only [everyNth_map, List.forall_mem_map]
  · exact fun p hp => (hz' p hp).1
  · exact fun p hp => (hz' p hp).2.valid (hz' p hp).1
  · exact forall₂_congr fun p hp => (hz' p hp).2.range (hz' p hp).1.len0 (hz' p hp).1.len1
  · have hnil : ∀ p ∈ Spec.everyNth skip z, (p.1.pos0 ≠ [] ↔ p.2.pos0 ≠ []) := by
      intro p hp
      obtain ⟨p0, -⟩ := (hz' p hp).2.mem (hz' p hp).1.len0 (hz' p hp).1.len1
      rw [not_iff_not]
      constructor
      · intro h; rw [h] at p0; exact p0.eq_nil
      · intro h; rw [h] at p0; exact p0.symm.eq_nil
    constructor
    · rintro ⟨f, hf, h⟩
      obtain ⟨p, hp, rfl⟩ := List.mem_map.1 hf
      exact ⟨p.2, List.mem_map.2 ⟨p, hp, rfl⟩, (hnil p hp).1 h⟩
    · rintro ⟨f, hf, h⟩
      obtain ⟨p, hp, rfl⟩ := List.mem_map.1 hf
      exact ⟨p.1, List.mem_map.2 ⟨p, hp, rfl⟩, (hnil p hp).2 h⟩
  · intro a b
    rw [List.flatMap_map, List.flatMap_map, List.flatMap_def, List.flatMap_def, ← between_flatten, ← between_flatten,
      List.map_map, List.map_map]
    congr 1
    refine List.map_congr_left fun p hp => ?_
    exact ((hz' p hp).2.between a b rc (hz' p hp).1.len0 (hz' p hp).1.len1).symm

theorem everyNth_one {α : Type} (l : List α) : Spec.everyNth 1 l = l := by
  unfold Spec.everyNth
  rw [List.filter_eq_self.2 (by intro e _; simp [Nat.mod_one])]
  exact List.zipIdx_map_fst 0 l

/-- **C155**, order of the frames. -/
theorem C155_order {rcut : List (List ℝ)} {rc : ℕ → ℕ → ℝ} {nsp : ℕ} (grid : List ℝ)
    (hg : ∀ a b, grid[0]? = some a → grid[1]? = some b → a < b) {fr fr' : List (BaFrame d)} (h : fr.Perm fr')
    (hv : ∀ f ∈ fr, BaValid rcut rc f) :
    baCompute rcut nsp 1 grid fr' = baCompute rcut nsp 1 grid fr := by
  symm
  apply baCompute_congr (rc := rc) one_pos grid hg <;> simp only [everyNth_one]
  · exact hv
  · exact fun f hf => hv f (h.mem_iff.2 hf)
  · simp only [h.mem_iff]
  · simp only [h.mem_iff]
  · intro a b
    exact (h.flatMap_right _).countP_eq _

end PP.Props
