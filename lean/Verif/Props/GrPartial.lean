import Verif.Props.Gr
import Verif.Props.Species
import Verif.Model.GrPartial

/-!
# C39: partial radial distribution functions add up to the total one
-/

set_option linter.unusedSectionVars false

namespace PP.Props
open PP Classical

section
variable {V S X : Type} [DecidableEq S]

theorem selfPairs_groups {P : V → V → Prop} (grp : S → List V) (ids : List S) :
    Spec.selfPairs P (ids.flatMap grp) = (ids.map fun a => Spec.selfPairs P (grp a)).sum
      + Spec.unorderedSum (fun a b => Spec.crossPairs P (grp a) (grp b)) ids := by
  induction ids with
  | nil => rw [List.flatMap_nil, selfPairs_nil]; rfl
  | cons a ids ih =>
    have hc : ∀ l : List S, Spec.crossPairs P (grp a) (l.flatMap grp)
        = (l.map fun b => Spec.crossPairs P (grp a) (grp b)).sum := by
      intro l
      induction l with
      | nil => rw [← crossPairs_swap]; exact crossPairs_nil _ _
      | cons b l ihl => rw [List.flatMap_cons, crossPairs_append_right, ihl, List.map_cons, List.sum_cons]
    rw [List.flatMap_cons, selfPairs_append, ih, hc]
    simp only [Spec.unorderedSum, List.map_cons, List.sum_cons]
    omega

theorem selfPairs_species {P : V → V → Prop} (hP : ∀ a b, P a b ↔ P b a) (spc : X → S) (pos : X → V)
    (l : List X) (ids : List S) (hn : ids.Nodup) (hl : ∀ p ∈ l, spc p ∈ ids) :
    Spec.selfPairs P (l.map pos)
      = (ids.map fun a => Spec.selfPairs P ((l.filter fun p => decide (spc p = a)).map pos)).sum
      + Spec.unorderedSum (fun a b => Spec.crossPairs P ((l.filter fun p => decide (spc p = a)).map pos)
          ((l.filter fun p => decide (spc p = b)).map pos)) ids := by
  have h := C22_filter_partition (O := Unit) spc ⟨l, ()⟩ ids hn hl
  rw [← selfPairs_groups (P := P) (fun a => (l.filter fun p => decide (spc p = a)).map pos)]
  have h2 := (h.map pos).symm
  rw [List.map_flatMap] at h2
  exact selfPairs_perm hP h2

theorem unorderedSum_twice {M : Type} [AddCommMonoid M] (f : S → S → M) (hf : ∀ a b, f a b = f b a) (g : S → M)
    (ids : List S) (hn : ids.Nodup) :
    Spec.unorderedSum f ids + Spec.unorderedSum f ids + (ids.map g).sum
      = (ids.map fun a => (ids.map fun b => if a = b then g a else f a b).sum).sum := by
  induction ids with
  | nil => simp [Spec.unorderedSum]
  | cons a ids ih =>
    rw [List.nodup_cons] at hn
    have h1 : (ids.map fun b => if a = b then g a else f a b) = ids.map (f a) := by
      apply List.map_congr_left
      intro b hb
      rw [if_neg (by rintro rfl; exact hn.1 hb)]
    have h2 : (ids.map fun c => (((a :: ids).map fun b => if c = b then g c else f c b)).sum).sum
        = (ids.map (f a)).sum + (ids.map fun c => (ids.map fun b => if c = b then g c else f c b).sum).sum := by
      rw [← List.sum_map_add]
      congr 1
      apply List.map_congr_left
      intro c hc
      rw [List.map_cons, List.sum_cons, if_neg (by rintro rfl; exact hn.1 hc), hf c a]
    conv_rhs => rw [List.map_cons, List.sum_cons, h2, ← ih hn.2, List.map_cons, List.sum_cons, h1, if_pos rfl]
    simp only [Spec.unorderedSum, List.map_cons, List.sum_cons]
    abel

end

section
variable {K : Type} [Field K] [LinearOrder K] [IsStrictOrderedRing K] [FloorRing K] {d : ℕ} {P S : Type} [DecidableEq S]

/-- **C39**, histograms: bin by bin, the histogram of all the particles is the sum over the species of the
histograms of like particles plus the sum over the unordered pairs of species of the histograms of unlike
particles. The species `ids` are all the species present. -/
theorem C39_histograms (sq : K → K) (L : Vec d K) (hL : ∀ c, 0 < L c) (edges : List K)
    (he : edges.Pairwise (· ≤ ·)) (spc : P → S) (pos : P → Vec d K) (s : System P Unit) (ids : List S)
    (hn : ids.Nodup) (hs : ∀ p ∈ s.particle, spc p ∈ ids)
    (hne : ∀ a ∈ ids, (filterSpecies spc s (some a)).particle ≠ []) (hids : ids ≠ []) :
    ∃ (h : List ℕ) (like : S → List ℕ) (unlike : S → S → List ℕ),
      pairsNewtonHist (grKernel sq L) (s.particle.map pos) (s.particle.map pos) edges = .ok h ∧
      (∀ a ∈ ids, pairsNewtonHist (grKernel sq L) ((filterSpecies spc s (some a)).particle.map pos)
        ((filterSpecies spc s (some a)).particle.map pos) edges = .ok (like a)) ∧
      (∀ a ∈ ids, ∀ b ∈ ids, pairsHist (grKernel sq L) ((filterSpecies spc s (some a)).particle.map pos)
        ((filterSpecies spc s (some b)).particle.map pos) edges = .ok (unlike a b)) ∧
      h.length = edges.length - 1 ∧
      ∀ j < edges.length - 1, h[j]? = some ((ids.map fun a => (like a).getD j 0).sum
        + Spec.unorderedSum (fun a b => (unlike a b).getD j 0) ids) := by
  have ek : grKernel sq L = fun xs y => xs.map fun u => grDist sq L u y := rfl
  have hne' : s.particle.map pos ≠ [] := by
    obtain ⟨a, ha⟩ := List.exists_mem_of_ne_nil _ hids
    intro hc
    apply hne a ha
    rw [List.map_eq_nil_iff] at hc
    simp [filterSpecies, hc]
  refine ⟨(List.range (edges.length - 1)).map fun j =>
      Spec.selfPairs (fun u v => Spec.InBin edges j (grDist sq L v u)) (s.particle.map pos),
    fun a => (List.range (edges.length - 1)).map fun j =>
      Spec.selfPairs (fun u v => Spec.InBin edges j (grDist sq L v u))
        ((filterSpecies spc s (some a)).particle.map pos),
    fun a b => (List.range (edges.length - 1)).map fun j =>
      Spec.crossPairs (fun u v => Spec.InBin edges j (grDist sq L u v))
        ((filterSpecies spc s (some a)).particle.map pos)
        ((filterSpecies spc s (some b)).particle.map pos), ?_, ?_, ?_, ?_, ?_⟩
  · rw [ek, C34_newton _ _ _ hne' he]
  · intro a ha
    rw [ek, C34_newton _ _ _ (by simpa using hne a ha) he]
  · intro a _ b _
    rw [ek, C34_two_groups _ _ _ _ he]
  · simp
  · intro j hj
    rw [List.getElem?_map, List.getElem?_range hj, Option.map_some]
    congr 1
    rw [selfPairs_species (fun a b => by rw [grDist_comm sq L a b hL]) spc pos s.particle ids hn hs]
    have hget : ∀ f : ℕ → ℕ, ((List.range (edges.length - 1)).map f).getD j 0 = f j := by
      intro f
      rw [List.getD_eq_getElem?_getD, List.getElem?_map, List.getElem?_range hj]
      rfl
    simp only [hget]
    congr 2
    funext a b
    apply crossPairs_congr
    intro u _ v _
    rw [grDist_comm sq L u v hL]

/-! ### The radial distribution functions -/

theorem originFrames_map {α β : Type} (φ : α → β) (l : List α) (k : ℕ) :
    originFrames (l.map φ) k = (originFrames l k).map φ := by
  unfold originFrames
  rw [List.length_map, List.map_filterMap]
  congr 1
  funext i
  rw [List.getElem?_map]

theorem getLastD_map {α β : Type} (φ : α → β) (l : List α) (a : α) :
    (l.map φ).getLastD (φ a) = φ (l.getLastD a) := by
  rw [List.getLastD_eq_getLast?, List.getLastD_eq_getLast?, List.getLast?_map]
  cases l.getLast? <;> rfl

/-- Weight of the pair of species in the sum of the pairs. -/
theorem pairs_identity (spc : P → S) (pos : P → Vec d K) (traj : List (System P (CellInfo d K))) (o : GrObj d K)
    (ids : List S) (hn : ids.Nodup) (s : System P (CellInfo d K)) (hs : ∀ p ∈ s.particle, spc p ∈ ids)
    (dist : Vec d K → Vec d K → Vec d K → K)
    (hd : ∀ u v, dist s.other.side u v = dist s.other.side v u) (B : K → Prop) :
    (2 : K) * (pairCount (twobodyObj pos [] traj o) dist (twobodyFrame pos [] s) B : ℕ)
      = (ids.map fun a => (ids.map fun b => (if a = b then 2 else 1 : K)
        * (pairCount (twobodyObj pos (partialFilters spc a b) traj o) dist
            (twobodyFrame pos (partialFilters spc a b) s) B : ℕ)).sum).sum := by
  have hP : ∀ u v, B (dist s.other.side v u) ↔ B (dist s.other.side u v) := fun u v => by rw [hd]
  have h1 := selfPairs_species (P := fun u v => B (dist s.other.side v u)) (fun u v => hP u v) spc pos
    s.particle ids hn hs
  have h2 := unorderedSum_twice (fun a b => Spec.crossPairs (fun u v => B (dist s.other.side v u))
      ((s.particle.filter fun p => decide (spc p = a)).map pos)
      ((s.particle.filter fun p => decide (spc p = b)).map pos))
    (fun a b => by
      rw [← crossPairs_swap]
      apply crossPairs_congr
      intro u _ v _
      exact hP v u)
    (fun a => 2 * Spec.selfPairs (fun u v => B (dist s.other.side v u))
      ((s.particle.filter fun p => decide (spc p = a)).map pos)) ids hn
  have h3 : (ids.map fun a => 2 * Spec.selfPairs (fun u v => B (dist s.other.side v u))
      ((s.particle.filter fun p => decide (spc p = a)).map pos)).sum
      = 2 * (ids.map fun a => Spec.selfPairs (fun u v => B (dist s.other.side v u))
      ((s.particle.filter fun p => decide (spc p = a)).map pos)).sum := List.sum_map_mul_left _ _ _
  have h4 : 2 * Spec.selfPairs (fun u v => B (dist s.other.side v u)) (s.particle.map pos)
      = (ids.map fun a => (ids.map fun b => if a = b then
          2 * Spec.selfPairs (fun u v => B (dist s.other.side v u))
            ((s.particle.filter fun p => decide (spc p = a)).map pos)
          else Spec.crossPairs (fun u v => B (dist s.other.side v u))
            ((s.particle.filter fun p => decide (spc p = a)).map pos)
            ((s.particle.filter fun p => decide (spc p = b)).map pos)).sum).sum := by
    rw [← h2, h1, h3]; omega
  have e : (2 : K) * (pairCount (twobodyObj pos [] traj o) dist (twobodyFrame pos [] s) B : ℕ)
      = ((2 * Spec.selfPairs (fun u v => B (dist s.other.side v u)) (s.particle.map pos) : ℕ) : K) := by
    push_cast
    rfl
  rw [e, h4, Nat.cast_list_sum, List.map_map]
  congr 1
  apply List.map_congr_left
  intro a _
  simp only [Function.comp_apply]
  rw [Nat.cast_list_sum, List.map_map]
  congr 1
  apply List.map_congr_left
  intro b _
  simp only [Function.comp_apply]
  by_cases hab : a = b
  · subst hab
    simp only [if_true]
    push_cast
    congr 2
    unfold partialFilters
    rw [if_neg (by simp)]
    rfl
  · simp only [hab, if_false, one_mul]
    congr 1
    unfold partialFilters
    rw [if_pos hab]
    unfold pairCount
    rw [if_neg (by simp [twobodyObj])]
    apply crossPairs_congr
    intro u _ v _
    exact hP u v

theorem list_sum_linear (ids : List S) (c : S → S → K) {X : Type} (G : List X) (T : X → K)
    (H : S → S → X → K)
    (h : ∀ s ∈ G, 2 * T s = (ids.map fun a => (ids.map fun b => c a b * H a b s).sum).sum) :
    2 * (G.map T).sum = (ids.map fun a => (ids.map fun b => c a b * (G.map (H a b)).sum).sum).sum := by
  induction G with
  | nil => simp
  | cons s G ih =>
    have ih' := ih fun s hs => h s (by simp [hs])
    have h1 := h s (by simp)
    rw [List.map_cons, List.sum_cons, mul_add, ih', h1, ← List.sum_map_add]
    congr 1
    apply List.map_congr_left
    intro a _
    rw [← List.sum_map_add]
    congr 1
    apply List.map_congr_left
    intro b _
    rw [List.map_cons, List.sum_cons, mul_add]

theorem grVal_identity (spc : P → S) (pos : P → Vec d K) (traj : List (System P (CellInfo d K))) (o : GrObj d K)
    (ids : List S) (hn : ids.Nodup) (G : List (System P (CellInfo d K)))
    (hs : ∀ s ∈ G, ∀ p ∈ s.particle, spc p ∈ ids) (dist : Vec d K → Vec d K → Vec d K → K)
    (hd : ∀ s ∈ G, ∀ u v, dist s.other.side u v = dist s.other.side v u) (B : K → Prop)
    {pi w V : K} {n j : ℕ} (N : S → ℕ) (hn0 : 0 < n) (hN : ∀ a ∈ ids, 0 < N a) :
    grVal (twobodyObj pos [] traj o) pi w n n (G.map (twobodyFrame pos [])) V j
        (fun f => pairCount (twobodyObj pos [] traj o) dist f B)
      = (ids.map fun a => (ids.map fun b => (N a : K) / n * ((N b : K) / n)
        * grVal (twobodyObj pos (partialFilters spc a b) traj o) pi w (N a) (N b)
          (G.map (twobodyFrame pos (partialFilters spc a b))) V j
          (fun f => pairCount (twobodyObj pos (partialFilters spc a b) traj o) dist f B)).sum).sum := by
  have h1 := list_sum_linear ids (fun a b => if a = b then 2 else 1) G
    (fun s => (pairCount (twobodyObj pos [] traj o) dist (twobodyFrame pos [] s) B : K))
    (fun a b s => (pairCount (twobodyObj pos (partialFilters spc a b) traj o) dist
            (twobodyFrame pos (partialFilters spc a b) s) B : K))
    (fun s hs' => pairs_identity spc pos traj o ids hn s (hs s hs') dist (hd s hs') B)
  have hnK : (n : K) ≠ 0 := by exact_mod_cast hn0.ne'
  set X := shellVol pi d ((j : K) * w) (((j : K) + 1) * w) with hX
  have e1 : grVal (twobodyObj pos [] traj o) pi w n n (G.map (twobodyFrame pos [])) V j
        (fun f => pairCount (twobodyObj pos [] traj o) dist f B)
      = (2 * (G.map fun s => (pairCount (twobodyObj pos [] traj o) dist (twobodyFrame pos [] s) B : K)).sum)
        * (1 / (G.length * ((n : K) / V * X * n))) := by
    unfold grVal meanCount
    rw [List.map_map, List.length_map, ← hX]
    have : (twobodyObj pos [] traj o).same = true := rfl
    rw [this, if_pos rfl]
    have e : (List.map ((fun f => (pairCount (twobodyObj pos [] traj o) dist f B : K)) ∘ twobodyFrame pos []) G)
      = (G.map fun s => (pairCount (twobodyObj pos [] traj o) dist (twobodyFrame pos [] s) B : K)) := rfl
    rw [e, div_div, mul_comm ((n : K) / V * X * n) (1 / 2), ← mul_assoc, mul_comm (G.length : K) (1 / 2),
      mul_assoc (1 / 2 : K), ← div_div, div_eq_mul_one_div]
    ring
  rw [e1, h1, ← List.sum_map_mul_right]
  congr 1
  apply List.map_congr_left
  intro a ha
  rw [← List.sum_map_mul_right]
  congr 1
  apply List.map_congr_left
  intro b hb
  have ha' : (N a : K) ≠ 0 := by exact_mod_cast (hN a ha).ne'
  have hb' : (N b : K) ≠ 0 := by exact_mod_cast (hN b hb).ne'
  unfold grVal meanCount
  rw [List.map_map, List.length_map, ← hX]
  have e : (List.map ((fun f => (pairCount (twobodyObj pos (partialFilters spc a b) traj o) dist f B : K))
        ∘ twobodyFrame pos (partialFilters spc a b)) G)
      = (G.map fun s => (pairCount (twobodyObj pos (partialFilters spc a b) traj o) dist
            (twobodyFrame pos (partialFilters spc a b) s) B : K)) := rfl
  rw [e]
  have hsame : (twobodyObj pos (partialFilters spc a b) traj o).same = decide (a = b) := by
    unfold twobodyObj partialFilters
    by_cases hab : a = b <;> simp [hab]
  rw [hsame]
  generalize (G.map fun s => (pairCount (twobodyObj pos (partialFilters spc a b) traj o) dist
            (twobodyFrame pos (partialFilters spc a b) s) B : K)).sum = Y
  have key : ∀ q q' : K, q' = 1 / q → q ≠ 0 → q' * Y * (1 / (G.length * ((n : K) / V * X * n)))
      = (N a : K) / n * ((N b : K) / n) * (Y / G.length / ((N b : K) / V * X * (N a : K) * q)) := by
    intro q q' hq hq0
    rw [hq]
    simp only [div_eq_mul_inv, mul_inv, inv_inv, one_mul]
    field_simp
  by_cases hab : a = b
  · simp only [hab, decide_true, if_true]
    rw [hab] at key
    exact key (1 / 2) 2 (by norm_num) (by norm_num)
  · simp only [hab, decide_false, if_false, Bool.false_eq_true]
    exact key 1 1 (by norm_num) (by norm_num)

theorem part_regular {sq : K → K} (spc : P → S) (pos : P → Vec d K) (traj : List (System P (CellInfo d K)))
    (o : GrObj d K) {w : K} {n : ℕ} {s0 : System P (CellInfo d K)}
    (h : GrRegular sq (twobodyObj pos [] traj o) w n n (twobodyFrame pos [] s0)) (h0 : traj[0]? = some s0)
    (N : S → ℕ) (a b : S) (ha : 0 < N a) (hb : 0 < N b)
    (hN : ∀ s ∈ traj, (filterSpecies spc s (some a)).particle.length = N a ∧
      (filterSpecies spc s (some b)).particle.length = N b) :
    GrRegular sq (twobodyObj pos (partialFilters spc a b) traj o) w (N a) (N b)
      (twobodyFrame pos (partialFilters spc a b) s0) := by
  have hside : ∀ s : System P (CellInfo d K), (twobodyFrame pos (partialFilters spc a b) s).side
      = (twobodyFrame pos [] s).side := by
    intro s; unfold partialFilters; by_cases hab : a = b <;> simp [hab, twobodyFrame]
  have hfr : ∀ f ∈ (twobodyObj pos (partialFilters spc a b) traj o).frames, ∃ s ∈ traj,
      f = twobodyFrame pos (partialFilters spc a b) s := by
    intro f hf
    simp only [twobodyObj, List.mem_map] at hf
    obtain ⟨s, hs, rfl⟩ := hf
    exact ⟨s, hs, rfl⟩
  refine ⟨?_, h.skip_pos, h.w_pos, h.rgrid, h.dr, ?_, ?_, ha, hb, ?_, ?_, ?_⟩
  · simp only [twobodyObj, List.getElem?_map, h0, Option.map_some]
  · rw [hside]; exact h.fit
  · intro f hf
    obtain ⟨s, hs, rfl⟩ := hfr f hf
    rw [hside]
    exact h.side_pos _ (by simp only [twobodyObj, List.mem_map]; exact ⟨s, hs, rfl⟩)
  · intro f hf
    obtain ⟨s, hs, rfl⟩ := hfr f hf
    have := (hN s hs).1
    unfold partialFilters
    by_cases hab : a = b
    · subst hab; simpa [twobodyFrame] using this
    · simpa [hab, twobodyFrame] using this
  · intro f hf
    obtain ⟨s, hs, rfl⟩ := hfr f hf
    have := (hN s hs).2
    unfold partialFilters
    by_cases hab : a = b
    · subst hab; simpa [twobodyFrame] using this
    · simpa [hab, twobodyFrame] using this
  · intro hsame f hf
    obtain ⟨s, hs, rfl⟩ := hfr f hf
    by_cases hab : a = b
    · simp [partialFilters, hab, twobodyFrame]
    · simp [partialFilters, hab, twobodyObj] at hsame

/-- **C39**, radial distribution functions, default grid: the partial functions calculated by `Partial` have
the same points `r` as the total one, which is the sum of the partial ones weighted by the concentrations
`N_a/N`. Trajectory with a constant number of particles of each species, none of them zero. -/
theorem C39_sum (sq : K → K) (hsq : ∀ x, 0 ≤ sq x) {pi : K} (hpi : 0 < pi) (spc : P → S)
    (pos : P → Vec d K) (traj : List (System P (CellInfo d K))) (o : GrObj d K) {w : K} {n : ℕ}
    {s0 : System P (CellInfo d K)} (h0 : traj[0]? = some s0)
    (h : GrRegular sq (twobodyObj pos [] traj o) w n n (twobodyFrame pos [] s0))
    (ids : List S) (hn : ids.Nodup) (hs : ∀ s ∈ traj, ∀ p ∈ s.particle, spc p ∈ ids) (N : S → ℕ)
    (hpos : ∀ a ∈ ids, 0 < N a)
    (hN : ∀ s ∈ traj, ∀ a ∈ ids, (filterSpecies spc s (some a)).particle.length = N a) :
    ∃ (points : List ℕ) (r : ℕ → K) (g : S → S → ℕ → K),
      (∀ a ∈ ids, ∀ b ∈ ids, grLegacy sq pi (twobodyObj pos (partialFilters spc a b) traj o)
        = .ok (points.map fun j => (r j, some (g a b j)))) ∧
      grLegacy sq pi (twobodyObj pos [] traj o) = .ok (points.map fun j => (r j,
        some (ids.map fun a => (ids.map fun b => (N a : K) / n * ((N b : K) / n) * g a b j).sum).sum)) := by
  have hd : 0 < d := by obtain ⟨c, -⟩ := h.fit; exact lt_of_le_of_lt (Nat.zero_le _) c.isLt
  obtain ⟨m, hm, hg, -⟩ := grSetupGrid_default sq hsq _ _ h.w_pos h.rgrid h.dr h.fit
  set G := originFrames traj o.skip with hG
  set sl := G.getLastD s0 with hsl
  have hside : ∀ (a b : S) (s : System P (CellInfo d K)), (twobodyFrame pos (partialFilters spc a b) s).side
      = (twobodyFrame pos [] s).side := by
    intro a b s; unfold partialFilters; by_cases hab : a = b <;> simp [hab, twobodyFrame]
  have hGm : ∀ s ∈ G, s ∈ traj := fun s hs => originFrames_mem hs
  obtain ⟨cut, -, -, -, hcut⟩ := grCrop_ok (rmax := o.rmax) (side := (twobodyFrame pos [] sl).side) hd
  have key : ∀ (cbk : List (System P (CellInfo d K) → System P (CellInfo d K))) (n0 n1 : ℕ),
      GrRegular sq (twobodyObj pos cbk traj o) w n0 n1 (twobodyFrame pos cbk s0) →
      (∀ s, (twobodyFrame pos cbk s).side = (twobodyFrame pos [] s).side) →
      grLegacy sq pi (twobodyObj pos cbk traj o) = .ok
        (((List.range m).filter fun j : ℕ => decide (((j : K) + 1 / 2) * w ≤ cut)).map fun j : ℕ =>
          (((j : K) + 1 / 2) * w, some (grVal (twobodyObj pos cbk traj o) pi w n0 n1
            (G.map (twobodyFrame pos cbk)) (cellVolume (twobodyFrame pos [] sl).side) j
            fun f => pairCount (twobodyObj pos cbk traj o) (grDist sq) f
              (Spec.InBin (defaultEdges w m) j)))) := by
    intro cbk n0 n1 hr hsd
    have hg' : grSetupGrid sq (twobodyObj pos cbk traj o) (twobodyFrame pos cbk s0).side
        = .ok (defaultGrid w m) := by
      rw [hsd]; exact hg
    have hc := grLegacy_closed sq hpi _ hr.system hm hg'
    have ef : originFrames (twobodyObj pos cbk traj o).frames (twobodyObj pos cbk traj o).skip
        = G.map (twobodyFrame pos cbk) := originFrames_map _ _ _
    have er : (twobodyObj pos cbk traj o).rmax = o.rmax := rfl
    rw [ef, getLastD_map, ← hsl, hsd, er, hcut, List.filter_map] at hc
    exact hc
  refine ⟨(List.range m).filter fun j : ℕ => decide (((j : K) + 1 / 2) * w ≤ cut),
    fun j : ℕ => ((j : K) + 1 / 2) * w,
    fun a b j => grVal (twobodyObj pos (partialFilters spc a b) traj o) pi w (N a) (N b)
            (G.map (twobodyFrame pos (partialFilters spc a b))) (cellVolume (twobodyFrame pos [] sl).side) j
            fun f => pairCount (twobodyObj pos (partialFilters spc a b) traj o) (grDist sq) f
              (Spec.InBin (defaultEdges w m) j), ?_, ?_⟩
  · intro a ha b hb
    exact key _ _ _ (part_regular spc pos traj o h h0 N a b (hpos a ha) (hpos b hb)
      fun s hs => ⟨hN s hs a ha, hN s hs b hb⟩) (hside a b)
  · rw [key [] n n h fun _ => rfl]
    congr 1
    apply List.map_congr_left
    intro j _
    congr 2
    exact grVal_identity spc pos traj o ids hn G (fun s hs' => hs s (hGm s hs')) (grDist sq)
      (fun s hs' u v => grDist_comm sq _ u v fun c =>
        h.side_pos (twobodyFrame pos [] s)
          (by simp only [twobodyObj, List.mem_map]; exact ⟨s, hGm s hs', rfl⟩) c)
      _ N h.n0_pos hpos

/-- **C39** for the fast calculation in a periodic cell, without linked cells: the partial functions calculated by `Partial` have
the same points `r` as the total one, which is the sum of the partial ones weighted by the concentrations
`N_a/N`. Trajectory with a constant number of particles of each species, none of them zero. -/
theorem C39_sum_fast (sq : K → K) (hsq : ∀ x, 0 ≤ sq x) {pi : K} (hpi : 0 < pi) (huge : K) (spc : P → S)
    (pos : P → Vec d K) (traj : List (System P (CellInfo d K))) (o : GrObj d K) {w : K} {n : ℕ}
    {s0 : System P (CellInfo d K)} (h0 : traj[0]? = some s0)
    (h : GrRegular sq (twobodyObj pos [] traj o) w n n (twobodyFrame pos [] s0))
    (ids : List S) (hn : ids.Nodup) (hs : ∀ s ∈ traj, ∀ p ∈ s.particle, spc p ∈ ids) (N : S → ℕ)
    (hpos : ∀ a ∈ ids, 0 < N a)
    (hN : ∀ s ∈ traj, ∀ a ∈ ids, (filterSpecies spc s (some a)).particle.length = N a)
    (hper : ∀ s ∈ traj, ∀ c, s.other.periodic c = true)
    (hlc : ∀ cbk, useLinkedCells (twobodyObj pos cbk traj o) (twobodyFrame pos cbk s0) = .ok false) :
    ∃ (points : List ℕ) (r : ℕ → K) (g : S → S → ℕ → K),
      (∀ a ∈ ids, ∀ b ∈ ids, grFast sq pi huge (twobodyObj pos (partialFilters spc a b) traj o)
        = .ok (points.map fun j => (r j, some (g a b j)))) ∧
      grFast sq pi huge (twobodyObj pos [] traj o) = .ok (points.map fun j => (r j,
        some (ids.map fun a => (ids.map fun b => (N a : K) / n * ((N b : K) / n) * g a b j).sum).sum)) := by
  have hd : 0 < d := by obtain ⟨c, -⟩ := h.fit; exact lt_of_le_of_lt (Nat.zero_le _) c.isLt
  obtain ⟨m, hm, hg, -⟩ := grSetupGrid_default sq hsq _ _ h.w_pos h.rgrid h.dr h.fit
  set G := originFrames traj o.skip with hG
  set sl := G.getLastD s0 with hsl
  have hside : ∀ (a b : S) (s : System P (CellInfo d K)), (twobodyFrame pos (partialFilters spc a b) s).side
      = (twobodyFrame pos [] s).side := by
    intro a b s; unfold partialFilters; by_cases hab : a = b <;> simp [hab, twobodyFrame]
  have hGm : ∀ s ∈ G, s ∈ traj := fun s hs => originFrames_mem hs
  obtain ⟨cut, -, -, -, hcut⟩ := grCrop_ok (rmax := o.rmax) (side := (twobodyFrame pos [] sl).side) hd
  have key : ∀ (cbk : List (System P (CellInfo d K) → System P (CellInfo d K))) (n0 n1 : ℕ),
      GrRegular sq (twobodyObj pos cbk traj o) w n0 n1 (twobodyFrame pos cbk s0) →
      (∀ s, (twobodyFrame pos cbk s).side = (twobodyFrame pos [] s).side) →
      (∀ s, (twobodyFrame pos cbk s).periodic = s.other.periodic) →
      grFast sq pi huge (twobodyObj pos cbk traj o) = .ok
        (((List.range (m - 1)).filter fun j : ℕ => decide (((j : K) + 1 / 2) * w ≤ cut)).map fun j : ℕ =>
          (((j : K) + 1 / 2) * w, some (grVal (twobodyObj pos cbk traj o) pi w n0 n1
            (G.map (twobodyFrame pos cbk)) (cellVolume (twobodyFrame pos [] sl).side) j
            fun f => pairCount (twobodyObj pos cbk traj o) (fDist sq) f
              fun r => (j : K) * w ≤ r ∧ r < ((j : K) + 1) * w))) := by
    intro cbk n0 n1 hr hsd hpd
    have hg' : grSetupGrid sq (twobodyObj pos cbk traj o) (twobodyFrame pos cbk s0).side
        = .ok (defaultGrid w m) := by
      rw [hsd]; exact hg
    have hc := grFast_closed sq hpi huge _ hr.system hm hg' false (hlc cbk) (fun c => c = none) rfl
      (fun f => (List.range m).map fun b : ℕ => pairCount (twobodyObj pos cbk traj o) (fDist sq) f
          fun r => (b : K) * w ≤ r ∧ r < ((b : K) + 1) * w) (by simp)
      (fun st f hf hc h1 h2 => ⟨none, rfl, fastFrame_direct sq hsq huge _ hr.system st f hf (by
        simp only [twobodyObj, List.mem_map] at hf
        obtain ⟨s, hs', rfl⟩ := hf
        rw [hpd]
        exact hper s hs') hc h1 h2⟩)
    have ef : originFrames (twobodyObj pos cbk traj o).frames (twobodyObj pos cbk traj o).skip
        = G.map (twobodyFrame pos cbk) := originFrames_map _ _ _
    have er : (twobodyObj pos cbk traj o).rmax = o.rmax := rfl
    rw [ef, getLastD_map, ← hsl, hsd, er, hcut, List.filter_map] at hc
    refine hc.trans ?_
    congr 1
    apply List.map_congr_left
    intro j hj
    have hj' : j < m := by
      have := List.mem_range.1 (List.mem_filter.1 hj).1
      omega
    have hget : ∀ f : ℕ → ℕ, ((List.range m).map f).getD j 0 = f j := by
      intro f
      rw [List.getD_eq_getElem?_getD, List.getElem?_map, List.getElem?_range hj']
      rfl
    simp only [hget]
  refine ⟨(List.range (m - 1)).filter fun j : ℕ => decide (((j : K) + 1 / 2) * w ≤ cut),
    fun j : ℕ => ((j : K) + 1 / 2) * w,
    fun a b j => grVal (twobodyObj pos (partialFilters spc a b) traj o) pi w (N a) (N b)
            (G.map (twobodyFrame pos (partialFilters spc a b))) (cellVolume (twobodyFrame pos [] sl).side) j
            fun f => pairCount (twobodyObj pos (partialFilters spc a b) traj o) (fDist sq) f
              fun r => (j : K) * w ≤ r ∧ r < ((j : K) + 1) * w, ?_, ?_⟩
  · intro a ha b hb
    exact key _ _ _ (part_regular spc pos traj o h h0 N a b (hpos a ha) (hpos b hb)
      fun s hs => ⟨hN s hs a ha, hN s hs b hb⟩) (hside a b)
      (fun s => by unfold partialFilters; by_cases hab : a = b <;> simp [hab, twobodyFrame])
  · rw [key [] n n h (fun _ => rfl) fun _ => rfl]
    congr 1
    apply List.map_congr_left
    intro j _
    congr 2
    exact grVal_identity spc pos traj o ids hn G (fun s hs' => hs s (hGm s hs')) (fDist sq)
      (fun s hs' u v => fDist_comm sq _ u v) _ N h.n0_pos hpos

/-- Five particles of two species in two frames. -/
def partExample : List (System (ℕ × Vec 2 ℚ) (CellInfo 2 ℚ)) :=
  [⟨[(1, ![0, 0]), (2, ![3, 0]), (1, ![3, -2]), (1, ![-3, 0]), (2, ![1, 1])], ![8, 6], fun _ => true⟩,
   ⟨[(1, ![0, 0]), (2, ![3, 1]), (2, ![-3, -2]), (1, ![-3, 1]), (1, ![1, 1])], ![8, 6], fun _ => true⟩]

/-- Parameters; the trajectory is given separately. -/
def partParams : GrObj 2 ℚ :=
  { frames := [], same := true, skip := 1, rgrid := none, dr := .float 1, rmax := -1 }

theorem partExample_regular : GrRegular Rat.sqrt (twobodyObj Prod.snd [] partExample partParams) 1 5 5
    (twobodyFrame Prod.snd []
      ⟨[(1, ![0, 0]), (2, ![3, 0]), (1, ![3, -2]), (1, ![-3, 0]), (2, ![1, 1])], ![8, 6], fun _ => true⟩) where
  first := rfl
  skip_pos := by decide
  w_pos := by norm_num
  rgrid := rfl
  dr := rfl
  fit := ⟨0, by decide +kernel⟩
  side_pos := by decide +kernel
  n0_pos := by norm_num
  n1_pos := by norm_num
  len0 := by decide +kernel
  len1 := by decide +kernel
  same := by decide +kernel

/-- The other hypotheses hold, and the values are not trivial. -/
example : (∀ s ∈ partExample, ∀ p ∈ s.particle, p.1 ∈ [1, 2]) ∧
    (∀ s ∈ partExample, (filterSpecies Prod.fst s (some 1)).particle.length = 3 ∧
      (filterSpecies Prod.fst s (some 2)).particle.length = 2) ∧
    grLegacy Rat.sqrt 3 (twobodyObj Prod.snd (partialFilters Prod.fst 1 2) partExample partParams)
      = .ok [(1 / 2, some 0), (3 / 2, some (4 / 9)), (5 / 2, some (16 / 15))] ∧
    grLegacy Rat.sqrt 3 (twobodyObj Prod.snd [] partExample partParams) = .ok [(1 / 2, some 0), (3 / 2, some (32 / 75)),
      (5 / 2, some (96 / 125))] := by
  refine ⟨by decide +kernel, by decide +kernel, by decide +kernel, by decide +kernel⟩

end
end PP.Props
