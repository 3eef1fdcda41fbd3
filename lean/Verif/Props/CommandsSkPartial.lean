import Verif.Model.CommandsSkPartial
import Verif.Props.CommandsSk
import Verif.Props.CommandsGrPartial
import Verif.Props.SkPartial
import Verif.Props.KShared

/-!
# C227: the partial functions of the command sk
-/

namespace PP.Spec

/-- The positions of the particles of species `a`. -/
def posOf {d : ℕ} {S : Type} [DecidableEq S] (a : S) (f : List (S × (Fin d → ℝ))) : List (Fin d → ℝ) :=
  (f.filter fun p => decide (p.1 = a)).map Prod.snd

end PP.Spec

namespace PP.Props
open PP Classical

variable {d : ℕ}

section
variable {S : Type} [DecidableEq S]

theorem dictGet_entry {κ V : Type} [DecidableEq κ] (D : List (κ × V)) (k : κ) (h : ∃ v, (k, v) ∈ D) :
    ∃ v, dictGet D k = .ok v ∧ (k, v) ∈ D := by
  induction D with
  | nil => obtain ⟨v, h⟩ := h; simp at h
  | cons e D ih =>
    obtain ⟨k', v'⟩ := e
    by_cases hk : k' = k
    · subst hk
      exact ⟨v', by simp [dictGet], by simp⟩
    · obtain ⟨v, h⟩ := h
      obtain ⟨w, h1, h2⟩ := ih ⟨v, by
        rcases List.mem_cons.1 h with e | e
        · exact absurd (Prod.ext_iff.1 e).1.symm hk
        · exact e⟩
      exact ⟨w, by simp [dictGet, hk, h1], List.mem_cons_of_mem _ h2⟩

theorem pairsComputed_mem (ids : List S) {a b : S} (ha : a ∈ ids) (hb : b ∈ ids) :
    (a, b) ∈ pairsComputed ids ∨ (b, a) ∈ pairsComputed ids := by
  induction ids with
  | nil => simp at ha
  | cons c l ih =>
    simp only [pairsComputed, List.mem_append, List.mem_map]
    rcases List.mem_cons.1 ha with rfl | ha'
    · exact Or.inl (Or.inl ⟨b, hb, rfl⟩)
    · rcases List.mem_cons.1 hb with rfl | hb'
      · exact Or.inr (Or.inl ⟨a, ha, rfl⟩)
      · rcases ih ha' hb' with h | h
        · exact Or.inl (Or.inr h)
        · exact Or.inr (Or.inr h)

theorem pairsComputed_subset (ids : List S) : ∀ p ∈ pairsComputed ids, p.1 ∈ ids ∧ p.2 ∈ ids := by
  induction ids with
  | nil => simp [pairsComputed]
  | cons c l ih =>
    intro p hp
    simp only [pairsComputed, List.mem_append, List.mem_map] at hp
    rcases hp with ⟨b, hb, rfl⟩ | hp
    · exact ⟨by simp, hb⟩
    · obtain ⟨h1, h2⟩ := ih p hp
      exact ⟨by simp [h1], by simp [h2]⟩

/-- What the structure factor of two groups of particles should be, with the wave-vectors `Q`. -/
def IsSkOf (skip : ℤ) {Y : Type} (x : List Y) (A B : Y → List (Vec d ℝ)) (Q : List (List (Fin d → ℝ))) (m : ℕ) (v : List ℝ) : Prop :=
  v.length = m ∧ ∀ i < m, v.getD i 0 =
    Spec.mean ((Spec.everyNth skip.toNat x).flatMap fun f => (Q.getD i []).map fun w =>
      (Spec.density w (A f) * star (Spec.density w (B f))).re) /
      √(Spec.mean (x.map fun f => ((A f).length : ℝ)) * Spec.mean (x.map fun f => ((B f).length : ℝ)))

theorem isSkOf_swap {skip : ℤ} {Y : Type} {x : List Y} {A B : Y → List (Vec d ℝ)} {Q : List (List (Fin d → ℝ))} {m : ℕ} {v : List ℝ}
    (h : IsSkOf skip x A B Q m v) : IsSkOf skip x B A Q m v := by
  refine ⟨h.1, fun i hi => ?_⟩
  rw [h.2 i hi, mul_comm (Spec.mean _)]
  congr 2
  refine congrArg (fun F => List.flatMap F _) (funext fun f => ?_)
  refine List.map_congr_left fun w _ => ?_
  have e : Spec.density w (A f) * star (Spec.density w (B f)) = star (Spec.density w (B f) * star (Spec.density w (A f))) := by
    rw [star_mul, star_star]
  rw [e]
  exact Complex.conj_re _

/-- The wave-vectors found for a list of wave-numbers. -/
structure SkSetup (q : SkOptions) (depth : ℕ) (pick : ℕ → List (KVec d) → ℕ → List (KVec d)) (side : Vec d ℝ)
    (grid : Option (List ℝ)) (s : KState d ℝ) (m : ℕ) : Prop where
  setup : kSetup Real.sqrt Real.pi depth pick q.params side grid = .ok s
  allowed : Allowed s
  len : s.kgrid.length = m
  shells : s.kvectors.length = m ∧ ∀ l ∈ s.kvectors, l ≠ []

theorem skSetup_of {q : SkOptions} {depth : ℕ} {pick : ℕ → List (KVec d) → ℕ → List (KVec d)} (hpick : IsSample pick)
    (hnk : 1 ≤ q.nk) (hdk : 0 < q.dk) {side : Vec d ℝ} (hside : ∀ c, 0 < side c) {grid : Option (List ℝ)} {s : KState d ℝ}
    (hs : kSetup Real.sqrt Real.pi depth pick q.params side grid = .ok s) {k : List ℝ}
    (hreq : initialGrid q.params (smallestK Real.pi side) grid = .ok k) (hne : k ≠ []) (hnn : ∀ i < k.length, 0 ≤ k.getD i 0) :
    SkSetup q depth pick side grid s k.length := by
  obtain ⟨-, hl1, hl2, dk, -, hsel⟩ := setup_selection (p := q.params) hpick hnk (le_of_lt hdk) hside hs hreq hnn
  have hreg := constSk_regular (d := d) ⟨depth, pick, q.params, true, false, 1⟩ hpick hnk (le_of_lt hdk) rfl one_pos
    (fr := [⟨side, [fun _ => 0], [fun _ => 0], [], []⟩]) rfl hside (by simp) hs hreq hne hnn
  refine ⟨hs, hreg.allowed ⟨[fun _ => 0], [fun _ => 0], [], [], s⟩ (by simp [constSk, addKs]), hl1, ?_⟩
  have := hreg.shells ⟨[fun _ => 0], [fun _ => 0], [], [], s⟩ (by simp [constSk, addKs])
  exact ⟨this.1.trans hl1, this.2⟩

theorem skFiltered_value {q : SkOptions} {n : NOrigins} {bs : ℕ} {side : Vec d ℝ} {x : List (List (S × Vec d ℝ))} {skip : ℤ}
    (hd : d = 2 ∨ d = 3) (hx : x ≠ []) (hskip : adjustSkip x.length bs (x.map List.length) n = .ok skip) {depth : ℕ}
    {pick : ℕ → List (KVec d) → ℕ → List (KVec d)} {grid : Option (List ℝ)} {s : KState d ℝ} {m : ℕ}
    (hs : SkSetup q depth pick side grid s m) (filters : List S) (A B : List (S × Vec d ℝ) → List (Vec d ℝ))
    (hAB : ∀ f : List (S × Vec d ℝ), twobodyFrame Prod.snd (filters.map fun a s => filterSpecies Prod.fst s (some a))
      (⟨f, ⟨side, fun _ => true⟩⟩ : System (S × Vec d ℝ) (CellInfo d ℝ)) = ⟨side, fun _ => true, A f, B f⟩)
    (hsame : filters.length ≤ 1 → B = A) (hA : ∀ f ∈ x, A f ≠ []) (hB : ∀ f ∈ x, B f ≠ []) :
    ∃ v, skFiltered q n bs depth pick (grFrames side x) grid filters = .ok (s.kgrid, v) ∧ IsSkOf skip x A B (kvectorsGet s) m v := by
  have hsk : 0 < skip.toNat := adjustSkip_pos (List.length_pos_iff.2 hx) hskip
  set o : SkChoices d := ⟨depth, pick, q.params, decide (filters.length ≤ 1), false, skip.toNat⟩ with ho
  set fr : List (CellFrame d) := x.map fun f => ⟨side, A f, B f, [], []⟩ with hfr
  obtain ⟨f1, r1, hx1⟩ : ∃ f r, x = f :: r := List.exists_cons_of_ne_nil hx
  have h0 : fr[0]? = some ⟨side, A f1, B f1, [], []⟩ := by rw [hfr, hx1]; rfl
  have hside : ∀ f ∈ fr, f.side = (⟨side, A f1, B f1, [], []⟩ : CellFrame d).side := by
    intro f hf
    obtain ⟨f', -, rfl⟩ := List.mem_map.1 hf
    rfl
  have hset : (KAttrs.new d grid).setup Real.sqrt Real.pi depth pick q.params 0 side = .ok (attrsOf grid s) := by
    unfold KAttrs.setup
    rw [if_neg (by simp [KAttrs.new])]
    show (kSetup Real.sqrt Real.pi depth pick q.params side grid >>= _) = _
    rw [hs.setup]
    rfl
  have hread : (attrsOf grid s).read = .ok s := read_ok (a := attrsOf grid s) (k0 := s.k0) rfl
  have hmem : ∀ f ∈ (constSk o fr s).frames, ∃ f' ∈ x, f = ⟨A f', B f', [], [], s⟩ := by
    intro f hf
    obtain ⟨g, hg, rfl⟩ := List.mem_map.1 hf
    obtain ⟨f', hf', rfl⟩ := List.mem_map.1 hg
    exact ⟨f', hf', rfl⟩
  have hreg : SkRegular (constSk o fr s) := by
    refine ⟨?_, hsk, Or.inr hd, ?_, ?_, ?_, ?_, ?_⟩
    · show fr.map (addKs s) ≠ []
      rw [hfr]
      simpa using hx
    · intro hsm f hf
      obtain ⟨f', -, rfl⟩ := hmem f hf
      have : filters.length ≤ 1 := of_decide_eq_true hsm
      exact ⟨by rw [hsame this], rfl⟩
    · intro f hf
      obtain ⟨f', hf', rfl⟩ := hmem f hf
      exact hA f' hf'
    · intro f hf
      obtain ⟨f', hf', rfl⟩ := hmem f hf
      exact hB f' hf'
    · intro f hf
      obtain ⟨f', hf', rfl⟩ := hmem f hf
      exact hs.allowed
    · intro f hf
      obtain ⟨f', hf', rfl⟩ := hmem f hf
      exact ⟨hs.shells.1.trans hs.len.symm, hs.shells.2⟩
  obtain ⟨vs, nonorm, hv, hvl, -, hval⟩ := C80_definition (constSk o fr s) hreg rfl
  have hnk : (constSk o fr s).nk = m := hs.len
  refine ⟨vs, ?_, by rw [hvl, hnk], fun i hi => ?_⟩
  · unfold skFiltered
    have e1 : (grFrames side x).length = x.length := by simp [grFrames]
    have e2 : ((grFrames side x).map fun s => s.particle.length) = x.map List.length := by
      simp [grFrames, Function.comp_def]
    have e3 : ((grFrames side x).map fun s : System (S × Vec d ℝ) (CellInfo d ℝ) =>
        let g := twobodyFrame Prod.snd (filters.map fun a s => filterSpecies Prod.fst s (some a)) s
        (⟨g.side, g.pos0, g.pos1, [], []⟩ : CellFrame d)) = fr := by
      unfold grFrames
      rw [List.map_map, hfr]
      refine List.map_congr_left fun f _ => ?_
      simp only [Function.comp, hAB f]
    rw [e1, e2, hskip]
    simp only [bind, Except.bind]
    have := skComputeA_const o h0 (constant_cell h0 hside) hset hread rfl
    rw [hv] at this
    rw [e3, this]
    rfl
  · obtain ⟨v1, v2⟩ := hval i (by rw [hnk]; exact hi)
    have e : modeProducts (constSk o fr s) i = (Spec.everyNth skip.toNat x).flatMap fun f => ((kvectorsGet s).getD i []).map fun w =>
        (Spec.density w (A f) * star (Spec.density w (B f))).re := by
      unfold modeProducts
      show (Spec.everyNth skip.toNat (fr.map (addKs s))).flatMap _ = _
      rw [hfr, List.map_map, everyNth_map, List.flatMap_map]
      rfl
    have hm : ∀ (F : SkFrame d → ℕ) (G : List (S × Vec d ℝ) → List (Vec d ℝ)),
        (∀ f, F (addKs s ⟨side, A f, B f, [], []⟩) = (G f).length) →
        ((((constSk o fr s).frames.map F).sum : ℕ) : ℝ) / ((constSk o fr s).frames.length : ℝ) =
          Spec.mean (x.map fun f => ((G f).length : ℝ)) := by
      intro F G hF
      unfold Spec.mean
      have e1 : (constSk o fr s).frames.map F = x.map fun f => (G f).length := by
        show (fr.map (addKs s)).map F = _
        rw [hfr, List.map_map, List.map_map]
        exact List.map_congr_left fun f _ => hF f
      have e2 : (constSk o fr s).frames.length = x.length := by
        show (fr.map (addKs s)).length = _
        rw [hfr]; simp
      rw [e1, e2, List.length_map, Nat.cast_list_sum, List.map_map]
      rfl
    rw [v2, v1, e, hm _ A fun _ => rfl, hm _ B fun _ => rfl]
    rfl

theorem twobodyFrame_pair (side : Vec d ℝ) (a b : S) (f : List (S × Vec d ℝ)) :
    twobodyFrame Prod.snd ((pairFilters a b).map fun a s => filterSpecies Prod.fst s (some a))
      (⟨f, ⟨side, fun _ => true⟩⟩ : System (S × Vec d ℝ) (CellInfo d ℝ)) =
      ⟨side, fun _ => true, Spec.posOf a f, Spec.posOf b f⟩ := by
  unfold pairFilters
  by_cases hab : a = b
  · subst hab
    rw [if_neg (by simp)]
    rfl
  · rw [if_pos hab]
    rfl

/-- The densities of the species add up. -/
theorem density_posOf (w : Fin d → ℝ) (f : List (S × Vec d ℝ)) (ids : List S) (hf : ∀ p ∈ f, p.1 ∈ ids) :
    Spec.density w (f.map Prod.snd) = ∑ a ∈ ids.toFinset, Spec.density w (Spec.posOf a f) := by
  have h := density_species w (f.map Prod.swap) ids.toFinset (by
    intro e he
    obtain ⟨p, hp, rfl⟩ := List.mem_map.1 he
    simpa using hf p hp)
  rw [List.map_map] at h
  rw [show f.map Prod.snd = f.map (Prod.fst ∘ Prod.swap) from rfl, h]
  refine Finset.sum_congr rfl fun a _ => ?_
  congr 1
  unfold ofSpecies Spec.posOf
  rw [List.filter_map, List.map_map]
  congr 1
  apply List.filter_congr
  intro p _
  simp

theorem mean_flatMap_sum {Y W : Type} (F : List Y) (Q : List W) (I : Finset S) (g : S → S → Y → W → ℝ) :
    Spec.mean (F.flatMap fun f => Q.map fun w => ∑ a ∈ I, ∑ b ∈ I, g a b f w) =
      ∑ a ∈ I, ∑ b ∈ I, Spec.mean (F.flatMap fun f => Q.map fun w => g a b f w) := by
  have hp : ∀ G : Y → W → ℝ, (F.flatMap fun f => Q.map fun w => G f w) = (F.product Q).map fun e => G e.1 e.2 := by
    intro G
    unfold List.product
    rw [List.map_flatMap]
    simp only [List.map_map, Function.comp_def]
  simp only [hp]
  rw [mean_sum_map]
  exact Finset.sum_congr rfl fun a _ => mean_sum_map _ _ _

/-- **C227**, the part that holds: without the option `kgrid` the command sk gives the structure factors of the whole system and of all
ordered pairs of species at the same wave-numbers, with the same wave-vectors. The one of species `a` and `b` is the mean of the real
part of the product of the density modes of the two species, one of them conjugated, divided by the square root of the product of
their mean numbers of particles. At each wave-number the mean number of particles times the total is the sum over the ordered pairs of
species of the square root of the product of their mean numbers times their structure factor. -/
theorem C227_default_partial {q : SkOptions} {n : NOrigins} {bs : ℕ} {side : Vec d ℝ} {x : List (List (S × Vec d ℝ))} {k : List ℝ}
    {skip : ℤ} (h : SkInput q n bs side (x.map fun f => f.map Prod.snd) k skip) (hq : q.kgrid = none)
    (pick : ℕ → List (KVec d) → ℕ → List (KVec d)) (hpick : IsSample pick) (ids : List S) (hids : 1 < ids.length)
    (hpres : ∀ a ∈ ids, ∀ f ∈ x, Spec.posOf a f ≠ []) (hall : ∀ f ∈ x, ∀ p ∈ f, p.1 ∈ ids) :
    ∃ depth ks total D Q, skWithPartials q n bs depth pick false ids (grFrames side x) = .ok ((ks, total), D) ∧
      ks.length = k.length ∧ Spec.Waves side q.nk ks Q ∧
      IsSkOf skip x (fun f => f.map Prod.snd) (fun f => f.map Prod.snd) Q k.length total ∧
      ∃ part : S → S → List ℝ,
        (∀ a ∈ ids, ∀ b ∈ ids, dictGet D (a, b) = .ok (ks, part a b) ∧
          IsSkOf skip x (Spec.posOf a) (Spec.posOf b) Q k.length (part a b)) ∧
        ∀ i < k.length, Spec.mean (x.map fun f => (f.length : ℝ)) * total.getD i 0 =
          ∑ a ∈ ids.toFinset, ∑ b ∈ ids.toFinset, √(Spec.mean (x.map fun f => ((Spec.posOf a f).length : ℝ)) *
            Spec.mean (x.map fun f => ((Spec.posOf b f).length : ℝ))) * (part a b).getD i 0 := by
  have hd : 0 < d := by rcases h.dims with e | e <;> omega
  have hx : x ≠ [] := by
    have := h.frames
    rintro rfl
    exact this rfl
  have hskip : adjustSkip x.length bs (x.map List.length) n = .ok skip := by
    have := h.skip
    rw [List.length_map, List.map_map] at this
    rw [← this]
    congr 1
    exact List.map_congr_left fun f _ => by simp
  have hnn : ∀ i < k.length, 0 ≤ k.getD i 0 := by
    intro i hi
    rw [List.getD_eq_getElem _ _ hi]
    exact h.k_nonneg _ (List.getElem_mem _)
  obtain ⟨grid, hgrid, hreq⟩ := h.klist.initial hd h.k_ne h.k_nonneg
  have hg : grid = none := by
    unfold SkOptions.grid at hgrid
    rw [hq] at hgrid
    exact (Except.ok.inj hgrid).symm
  subst hg
  have hnk : 1 ≤ q.params.nk := h.nk
  have hdk : 0 < q.params.dk := h.dk
  obtain ⟨depth, s, hs⟩ := kSetup_exists (pick := pick) (p := q.params) h.dims (by omega) hdk h.side_pos hreq h.k_ne hnn
  obtain ⟨-, hl1, hl2, dk, -, hsel⟩ := setup_selection hpick hnk hdk.le h.side_pos hs hreq hnn
  have hS := skSetup_of hpick h.nk h.dk h.side_pos hs hreq h.k_ne hnn
  obtain ⟨total, ht1, ht2⟩ := skFiltered_value h.dims hx hskip hS ([] : List S) (fun f => f.map Prod.snd) (fun f => f.map Prod.snd)
    (fun f => rfl) (fun _ => rfl)
    (fun f hf => h.particles _ (List.mem_map_of_mem hf)) (fun f hf => h.particles _ (List.mem_map_of_mem hf))
  have hpair : ∀ a b, ∃ v, a ∈ ids → b ∈ ids → skFiltered q n bs depth pick (grFrames side x) none (pairFilters a b) = .ok (s.kgrid, v) ∧
      IsSkOf skip x (Spec.posOf a) (Spec.posOf b) (kvectorsGet s) k.length v := by
    intro a b
    by_cases hab : a ∈ ids ∧ b ∈ ids
    · obtain ⟨v, hv⟩ := skFiltered_value h.dims hx hskip hS (pairFilters a b) (Spec.posOf a) (Spec.posOf b)
        (twobodyFrame_pair side a b) (by
          intro hle
          by_cases e : a = b
          · rw [e]
          · simp [pairFilters, e] at hle) (hpres a hab.1) (hpres b hab.2)
      exact ⟨v, fun _ _ => hv⟩
    · exact ⟨[], fun h1 h2 => absurd ⟨h1, h2⟩ hab⟩
  choose val hval using hpair
  set P := pairsComputed ids with hP
  -- the results of the pairs computed
  have hseq : skSequence (skFiltered q n bs depth pick (grFrames side x)) none (P.map fun p => pairFilters p.1 p.2) =
      .ok (P.map fun p => (s.kgrid, val p.1 p.2), none) := by
    have key : ∀ l : List (S × S), (∀ p ∈ l, p.1 ∈ ids ∧ p.2 ∈ ids) →
        skSequence (skFiltered q n bs depth pick (grFrames side x)) none (l.map fun p => pairFilters p.1 p.2) =
          .ok (l.map fun p => (s.kgrid, val p.1 p.2), none) := by
      intro l hl
      induction l with
      | nil => rfl
      | cons p l ih =>
        have h1 := (hval p.1 p.2 (hl p (by simp)).1 (hl p (by simp)).2).1
        simp only [List.map_cons, skSequence, h1, bind, Except.bind, Option.map_none, ih fun p hp => hl p (by simp [hp])]
        rfl
    exact key P (pairsComputed_subset ids)
  have hD : ∀ a ∈ ids, ∀ b ∈ ids, ∃ v, dictGet (pairResults P (P.map fun p => (s.kgrid, val p.1 p.2)) none) (a, b) = .ok (s.kgrid, v) ∧
      IsSkOf skip x (Spec.posOf a) (Spec.posOf b) (kvectorsGet s) k.length v := by
    intro a ha b hb
    have hmem : ∀ e, e ∈ pairResults P (P.map fun p => (s.kgrid, val p.1 p.2)) none ↔
        ∃ p ∈ P, e = (p, (s.kgrid, val p.1 p.2)) ∨ e = ((p.2, p.1), (s.kgrid, val p.1 p.2)) := by
      intro e
      unfold pairResults
      rw [← List.map_prod_left_eq_zip, List.mem_flatMap]
      constructor
      · rintro ⟨y, hy, he⟩
        obtain ⟨p, hp, rfl⟩ := List.mem_map.1 hy
        exact ⟨p, hp, by simpa using he⟩
      · rintro ⟨p, hp, he⟩
        exact ⟨(p, (s.kgrid, val p.1 p.2)), List.mem_map.2 ⟨p, hp, rfl⟩, by simpa using he⟩
    obtain ⟨v, h1, h2⟩ := dictGet_entry (pairResults P (P.map fun p => (s.kgrid, val p.1 p.2)) none) (a, b) (by
      rcases pairsComputed_mem ids ha hb with hp | hp
      · exact ⟨_, (hmem _).2 ⟨(a, b), hp, Or.inl rfl⟩⟩
      · exact ⟨_, (hmem _).2 ⟨(b, a), hp, Or.inr rfl⟩⟩)
    obtain ⟨p, hp, e | e⟩ := (hmem _).1 h2
    · obtain ⟨e1, e2⟩ := Prod.ext_iff.1 e
      simp only at e1 e2
      subst e1
      rw [h1, e2]
      exact ⟨_, rfl, (hval a b ha hb).2⟩
    · obtain ⟨e1, e2⟩ := Prod.ext_iff.1 e
      simp only [Prod.mk.injEq] at e1 e2
      rw [h1, e2, ← e1.1, ← e1.2]
      exact ⟨_, rfl, isSkOf_swap (hval b a hb ha).2⟩
  have hD' : ∀ a b, ∃ v, a ∈ ids → b ∈ ids → dictGet (pairResults P (P.map fun p => (s.kgrid, val p.1 p.2)) none) (a, b) =
      .ok (s.kgrid, v) ∧ IsSkOf skip x (Spec.posOf a) (Spec.posOf b) (kvectorsGet s) k.length v := by
    intro a b
    by_cases hab : a ∈ ids ∧ b ∈ ids
    · obtain ⟨v, hv⟩ := hD a hab.1 b hab.2
      exact ⟨v, fun _ _ => hv⟩
    · exact ⟨[], fun h1 h2 => absurd ⟨h1, h2⟩ hab⟩
  choose part hpart using hD'
  refine ⟨depth, s.kgrid, total, pairResults P (P.map fun p => (s.kgrid, val p.1 p.2)) none, kvectorsGet s, ?_, hl1,
    setup_waves hpick hnk hdk.le h.side_pos hs hreq hnn, ht2, part, fun a ha b hb => hpart a b ha hb, fun i hi => ?_⟩
  · unfold skWithPartials
    rw [hgrid]
    simp only [bind, Except.bind, ht1, Option.map_none]
    rw [if_pos ⟨hids, trivial⟩]
    simp only [← hP, hseq]
    rfl
  · have hmpos : ∀ G : List (S × Vec d ℝ) → List (Vec d ℝ), (∀ f ∈ x, G f ≠ []) → 0 < Spec.mean (x.map fun f => ((G f).length : ℝ)) := by
      intro G hG
      unfold Spec.mean
      refine div_pos ?_ (by rw [List.length_map]; exact_mod_cast List.length_pos_iff.2 hx)
      refine List.sum_pos _ ?_ (by simpa using hx)
      intro y hy
      obtain ⟨f, hf, rfl⟩ := List.mem_map.1 hy
      exact_mod_cast List.length_pos_iff.2 (hG f hf)
    have hm := hmpos (fun f => f.map Prod.snd) fun f hf => h.particles _ (List.mem_map_of_mem hf)
    have hlen : (x.map fun f => ((f.map Prod.snd).length : ℝ)) = x.map fun f => (f.length : ℝ) :=
      List.map_congr_left fun f _ => by rw [List.length_map]
    rw [ht2.2 i hi]
    simp only [hlen] at hm ⊢
    rw [Real.sqrt_mul_self hm.le, mul_div_cancel₀ _ hm.ne']
    have e1 : ∀ a ∈ ids.toFinset, ∀ b ∈ ids.toFinset, √(Spec.mean (x.map fun f => ((Spec.posOf a f).length : ℝ)) *
        Spec.mean (x.map fun f => ((Spec.posOf b f).length : ℝ))) * (part a b).getD i 0 =
        Spec.mean ((Spec.everyNth skip.toNat x).flatMap fun f => ((kvectorsGet s).getD i []).map fun w =>
          (Spec.density w (Spec.posOf a f) * star (Spec.density w (Spec.posOf b f))).re) := by
      intro a ha b hb
      have ha' := List.mem_toFinset.1 ha
      have hb' := List.mem_toFinset.1 hb
      rw [(hpart a b ha' hb').2.2 i hi, mul_div_cancel₀]
      exact (Real.sqrt_pos.2 (mul_pos (hmpos _ (hpres a ha')) (hmpos _ (hpres b hb')))).ne'
    rw [Finset.sum_congr rfl fun a ha => Finset.sum_congr rfl fun b hb => e1 a ha b hb, ← mean_flatMap_sum]
    congr 1
    refine List.flatMap_congr fun f hf => ?_
    refine List.map_congr_left fun w _ => ?_
    rw [density_posOf w f ids (hall f (everyNth_mem hf)), star_sum, Finset.sum_mul_sum]
    simp only [Complex.re_sum]

end

/-- Options of the example below: three wave-numbers from the smallest wave-vector of the cell to 15. -/
noncomputable def opt57 : SkOptions := ⟨20, 1 / 10, -1, 15, 3, none⟩

theorem exSkSpecies (x : List (List (Char × Vec 2 ℝ))) (hx : x.length = 10) (hn : ∀ f ∈ x, f.map Prod.fst = ['A', 'B', 'B', 'A', 'B']) :
    SkInput opt57 (.num 5) 2 ![5, 7] (x.map fun f => f.map Prod.snd)
      [2 * Real.pi / 7, 2 * Real.pi / 7 + (15 - 2 * Real.pi / 7) / 2, 15] 2 := by
  have hp := Real.pi_pos
  have hp4 := Real.pi_le_four
  have hlen : ∀ f ∈ x, f.length = 5 := by
    intro f hf
    have := congrArg List.length (hn f hf)
    simpa using this
  refine ⟨Or.inl rfl, ?_, ?_, ?_, ?_, by norm_num [opt57], by norm_num [opt57], ?_, by simp, ?_⟩
  · intro c
    fin_cases c
    · show (0 : ℝ) < 5; norm_num
    · show (0 : ℝ) < 7; norm_num
  · intro h
    rw [List.map_eq_nil_iff] at h
    rw [h] at hx
    simp at hx
  · intro f hf h
    obtain ⟨f', hf', rfl⟩ := List.mem_map.1 hf
    rw [List.map_eq_nil_iff] at h
    have := hlen f' hf'
    rw [h] at this
    simp at this
  · have e : (x.map fun f => f.map Prod.snd).map List.length = List.replicate 10 5 := by
      rw [List.eq_replicate_iff]
      refine ⟨by simpa using hx, fun b hb => ?_⟩
      obtain ⟨g, hg, rfl⟩ := List.mem_map.1 hb
      obtain ⟨f, hf, rfl⟩ := List.mem_map.1 hg
      simpa using hlen f hf
    rw [e, List.length_map, hx]
    decide +kernel
  · refine ⟨2 * Real.pi / 7, fun h => absurd h (by norm_num [opt57]), fun _ => ⟨⟨1, by simp⟩, fun c => ?_⟩, rfl, fun i hi => ?_⟩
    · fin_cases c
      · simp only [Matrix.cons_val_zero, Fin.zero_eta]
        apply div_le_div_of_nonneg_left (by positivity) <;> norm_num
      · simp
    · simp only [List.length_cons, List.length_nil] at hi
      interval_cases i
      · simp [opt57]
      · simp [opt57]; ring
      · simp [opt57]; ring
  · intro y hy
    simp only [List.mem_cons, List.not_mem_nil, or_false] at hy
    rcases hy with rfl | rfl | rfl
    · positivity
    · have : 2 * Real.pi / 7 ≤ 15 := by linarith
      have : 0 ≤ 2 * Real.pi / 7 := by positivity
      linarith
    · norm_num

/-- A non-trivial case: ten frames of five particles of two species, with five origins. At the second wave-number,
`5 S = 2 S_AA + √6 S_AB + √6 S_BA + 3 S_BB`. -/
example (x : List (List (Char × Vec 2 ℝ))) (hx : x.length = 10) (hn : ∀ f ∈ x, f.map Prod.fst = ['A', 'B', 'B', 'A', 'B']) :
    ∃ depth ks total D, skWithPartials opt57 (.num 5) 2 depth (fun _ l n => l.take n) false ['A', 'B'] (grFrames ![5, 7] x) =
        .ok ((ks, total), D) ∧ ks.length = 3 ∧
      ∃ aa ab ba bb, dictGet D ('A', 'A') = .ok (ks, aa) ∧ dictGet D ('A', 'B') = .ok (ks, ab) ∧ dictGet D ('B', 'A') = .ok (ks, ba) ∧
        dictGet D ('B', 'B') = .ok (ks, bb) ∧
        5 * total.getD 1 0 = 2 * aa.getD 1 0 + √6 * ab.getD 1 0 + √6 * ba.getD 1 0 + 3 * bb.getD 1 0 := by
  have hlen : ∀ f ∈ x, f.length = 5 := by
    intro f hf
    have := congrArg List.length (hn f hf)
    simpa using this
  have hcount : ∀ a, ∀ f ∈ x, (Spec.posOf a f).length = ['A', 'B', 'B', 'A', 'B'].count a := by
    intro a f hf
    rw [← hn f hf]
    unfold Spec.posOf
    rw [List.length_map, ← List.countP_eq_length_filter, List.count, List.countP_map]
    refine List.countP_congr fun p _ => ?_
    simp
  have hmean : ∀ (G : List (Char × Vec 2 ℝ) → ℕ) (m : ℕ), (∀ f ∈ x, G f = m) → Spec.mean (x.map fun f => (G f : ℝ)) = m := by
    intro G m h
    have e : (x.map fun f => (G f : ℝ)) = List.replicate 10 (m : ℝ) := by
      rw [List.eq_replicate_iff]
      refine ⟨by simpa using hx, fun b hb => ?_⟩
      obtain ⟨f, hf, rfl⟩ := List.mem_map.1 hb
      rw [h f hf]
    rw [e]
    simp [Spec.mean]
    ring
  obtain ⟨depth, ks, total, D, Q, h1, h2, -, -, part, h3, h4⟩ := C227_default_partial (exSkSpecies x hx hn) rfl _ isSample_take
    ['A', 'B'] (by decide) (by
      intro a ha f hf h
      have e := hcount a f hf
      rw [h] at e
      simp only [List.mem_cons, List.not_mem_nil, or_false] at ha
      rcases ha with rfl | rfl <;> simp at e) (by
      intro f hf p hp
      have : p.1 ∈ f.map Prod.fst := List.mem_map_of_mem hp
      rw [hn f hf] at this
      simp at this ⊢
      tauto)
  refine ⟨depth, ks, total, D, h1, h2, _, _, _, _, (h3 'A' (by simp) 'A' (by simp)).1, (h3 'A' (by simp) 'B' (by simp)).1,
    (h3 'B' (by simp) 'A' (by simp)).1, (h3 'B' (by simp) 'B' (by simp)).1, ?_⟩
  have := h4 1 (by simp)
  have eI : ['A', 'B'].toFinset = {'A', 'B'} := by decide
  have s4 : √((2 : ℝ) * 2) = 2 := Real.sqrt_mul_self (by norm_num)
  have s9 : √((3 : ℝ) * 3) = 3 := Real.sqrt_mul_self (by norm_num)
  have s6 : √((2 : ℝ) * 3) = √6 := by norm_num
  have s6' : √((3 : ℝ) * 2) = √6 := by norm_num
  have cA : ['A', 'B', 'B', 'A', 'B'].count 'A' = 2 := by decide
  have cB : ['A', 'B', 'B', 'A', 'B'].count 'B' = 3 := by decide
  have hA : Spec.mean (x.map fun f => ((Spec.posOf 'A' f).length : ℝ)) = 2 := by
    have := hmean _ _ (hcount 'A'); rw [cA] at this; exact_mod_cast this
  have hB : Spec.mean (x.map fun f => ((Spec.posOf 'B' f).length : ℝ)) = 3 := by
    have := hmean _ _ (hcount 'B'); rw [cB] at this; exact_mod_cast this
  have hN : Spec.mean (x.map fun f => (f.length : ℝ)) = 5 := by
    have := hmean _ _ hlen; exact_mod_cast this
  rw [eI, Finset.sum_pair (by decide), Finset.sum_pair (by decide), Finset.sum_pair (by decide), hA, hB, hN, s4, s9, s6, s6'] at this
  rw [this]
  ring

/-! ### With the option kgrid -/

theorem mem_ring45 {x : ℝ} (hx : 17 / 4 ≤ x ∧ x ≤ 14 / 3) (v : Fin 2 → ℤ) :
    |Spec.knorm ![3, 4] v - x| < 6 / 5 ↔ v ∈ ring345.drop 2 := by
  obtain ⟨hx1, hx2⟩ := hx
  rw [knorm34]
  constructor
  · intro h
    have hn : (0 : ℝ) ≤ ((9 * v 0 ^ 2 + 16 * v 1 ^ 2 : ℤ) : ℝ) := by push_cast; positivity
    rw [abs_lt] at h
    have e1 : √((9 * v 0 ^ 2 + 16 * v 1 ^ 2 : ℤ) : ℝ) ^ 2 = ((9 * v 0 ^ 2 + 16 * v 1 ^ 2 : ℤ) : ℝ) := Real.sq_sqrt hn
    have u1 : √((9 * v 0 ^ 2 + 16 * v 1 ^ 2 : ℤ) : ℝ) < 59 / 10 := by linarith
    have u2 : (61 / 20 : ℝ) ≤ √((9 * v 0 ^ 2 + 16 * v 1 ^ 2 : ℤ) : ℝ) := by linarith
    have h2 : ((9 * v 0 ^ 2 + 16 * v 1 ^ 2 : ℤ) : ℝ) < 35 := by rw [← e1]; nlinarith
    have h3 : (9 : ℝ) < ((9 * v 0 ^ 2 + 16 * v 1 ^ 2 : ℤ) : ℝ) := by rw [← e1]; nlinarith
    have h2' : 9 * v 0 ^ 2 + 16 * v 1 ^ 2 < 35 := by exact_mod_cast h2
    have h3' : 9 < 9 * v 0 ^ 2 + 16 * v 1 ^ 2 := by exact_mod_cast h3
    have a1 : v 0 ≤ 1 := by nlinarith [sq_nonneg (v 1)]
    have a2 : -1 ≤ v 0 := by nlinarith [sq_nonneg (v 1)]
    have b1 : v 1 ≤ 1 := by nlinarith [sq_nonneg (v 0)]
    have b2 : -1 ≤ v 1 := by nlinarith [sq_nonneg (v 0)]
    have hv : v = ![v 0, v 1] := by funext c; fin_cases c <;> rfl
    rw [hv]
    clear e1 u1 u2 h hv hn h2 h3
    generalize v 0 = a at *
    generalize v 1 = b at *
    interval_cases a <;> interval_cases b <;> simp [ring345] at h3' ⊢
  · intro h
    have hs' : √(16 : ℝ) = 4 := by rw [show (16 : ℝ) = 4 ^ 2 by norm_num]; exact Real.sqrt_sq (by norm_num)
    have hs'' : √(25 : ℝ) = 5 := by rw [show (25 : ℝ) = 5 ^ 2 by norm_num]; exact Real.sqrt_sq (by norm_num)
    have k4 : |(4 : ℝ) - x| < 6 / 5 := by rw [abs_lt]; constructor <;> linarith
    have k5 : |(5 : ℝ) - x| < 6 / 5 := by rw [abs_lt]; constructor <;> linarith
    simp only [ring345, List.drop_succ_cons, List.drop_zero, List.mem_cons, List.not_mem_nil, or_false] at h
    rcases h with rfl | rfl | rfl | rfl | rfl | rfl
    · simpa [hs'] using k4
    · simpa [hs'] using k4
    all_goals
      simp
      norm_num [hs'']
      exact k5

/-- The cell of the case below. -/
noncomputable def cell34 : Vec 2 ℝ := ![2 * Real.pi / 3, 2 * Real.pi / 4]

theorem cell34_pos : ∀ c, 0 < cell34 c := by
  have hpi := Real.pi_pos
  intro c; fin_cases c
  · show 0 < 2 * Real.pi / 3; positivity
  · show 0 < 2 * Real.pi / 4; positivity

/-- Options of the case below: the wave-number 4, at most 8 wave-vectors. -/
noncomputable def opt34 : SkOptions := ⟨8, 6 / 5, 1, 10, 10, some ['4']⟩

/-- A particle `A` at the origin and a particle `B` at half a cell. -/
noncomputable def frame34 : List (Char × Vec 2 ℝ) := [('A', ![0, 0]), ('B', ![Real.pi / 3, 0])]

/-- Sum over the wave-vectors found. -/
theorem setup34 {pick : ℕ → List (KVec 2) → ℕ → List (KVec 2)} (hpick : IsSample pick) (depth : ℕ) {x : ℝ} (hx : 0 ≤ x)
    {L : List (Fin 2 → ℤ)} (hL : L.Nodup) (hne : L ≠ []) (hl : L.length ≤ 8)
    (hmem : ∀ v, |Spec.knorm ![3, 4] v - x| < 6 / 5 ↔ v ∈ L) {m : ℝ} (hm : (L.map (Spec.knorm ![3, 4])).sum / L.length = m) :
    ∃ s, SkSetup opt34 (depth + 1) pick cell34 (some [x]) s 1 ∧ s.kgrid = [m] ∧
      ∀ g : (Fin 2 → ℝ) → ℝ, Spec.mean (((kvectorsGet s).getD 0 []).map g) =
        (L.map fun v => g ![3 * v 0, 4 * v 1]).sum / L.length := by
  have hside : (fun c => 2 * Real.pi / cell34 c) = ![3, 4] := side34
  obtain ⟨s, kv, h1, hk, h0, hp, hg⟩ := kSetup_single hpick (Or.inl rfl) (p := opt34.params)
    (by norm_num [opt34, SkOptions.params]) cell34_pos hx hL hne (by simpa [opt34, SkOptions.params] using hl)
    (by intro v; rw [hside]; exact hmem v) depth
  rw [hside, hm] at hg
  have hreq : initialGrid opt34.params (smallestK Real.pi cell34) (some [x]) = .ok [x] := by
    have : pySorted [x] = [x] := rfl
    simp only [initialGrid, this, if_neg (not_lt.2 hx)]
  refine ⟨s, skSetup_of hpick (by norm_num [opt34]) (by norm_num [opt34]) cell34_pos h1 hreq (by simp) (by simpa using hx), hg,
    fun g => ?_⟩
  have hk0 : s.k0 = ![3, 4] := by rw [← hside]; exact funext h0
  have e : ((kvectorsGet s).getD 0 []).map g = (kv.map fun w c => w c - s.koffset).map fun v => g ![3 * v 0, 4 * v 1] := by
    unfold kvectorsGet
    rw [hk, hk0]
    simp only [List.map_cons, List.map_nil, List.getD_cons_zero, List.map_map]
    refine List.map_congr_left fun w _ => ?_
    simp only [Function.comp]
    congr 1
    funext c
    fin_cases c <;> simp
  unfold Spec.mean
  rw [e, (hp.map _).sum_eq, List.length_map, hp.length_eq]

/-- The phase of the particle `B`. -/
theorem phase34 (a b : ℤ) : Spec.density ![3 * (a : ℝ), 4 * (b : ℝ)] [![Real.pi / 3, 0]] = (-1) ^ a := by
  have e : Complex.I * (Spec.dot ![3 * (a : ℝ), 4 * (b : ℝ)] ![Real.pi / 3, 0] : ℝ) = a * (Real.pi * Complex.I) := by
    simp [Spec.dot, Fin.sum_univ_two]
    ring
  simp only [Spec.density, List.map_cons, List.map_nil, List.sum_cons, List.sum_nil, add_zero]
  rw [e, Complex.exp_int_mul, Complex.exp_pi_mul_I]

theorem phase34_zero (w : Fin 2 → ℝ) : Spec.density w [![0, 0]] = 1 := by
  have e : Spec.dot w ![0, 0] = 0 := by simp [Spec.dot, Fin.sum_univ_two]
  simp [Spec.density, e]

/-- **C227** is false with the option `kgrid`: the total and the partial functions do not use the same wave-vectors. In this case,
whatever the random draws, the total is 1/2 and is given at 17/4; the partial functions are 1, -1/3, -1/3 and 1 and are given at 14/3.
Two particles times 1/2 is not 1 - 1/3 - 1/3 + 1. -/
theorem C227_counterexample {pick : ℕ → List (KVec 2) → ℕ → List (KVec 2)} (hpick : IsSample pick) (depth : ℕ) :
    ∃ D, skWithPartials opt34 .none 1 (depth + 1) pick false ['A', 'B'] (grFrames cell34 [frame34]) = .ok (([17 / 4], [1 / 2]), D) ∧
      dictGet D ('A', 'A') = .ok ([14 / 3], [1]) ∧ dictGet D ('A', 'B') = .ok ([14 / 3], [-1 / 3]) ∧
      dictGet D ('B', 'A') = .ok ([14 / 3], [-1 / 3]) ∧ dictGet D ('B', 'B') = .ok ([14 / 3], [1]) ∧
      (2 : ℝ) * (1 / 2) ≠ √(1 * 1) * 1 + √(1 * 1) * (-1 / 3) + √(1 * 1) * (-1 / 3) + √(1 * 1) * 1 := by
  have hs : √(9 : ℝ) = 3 := by rw [show (9 : ℝ) = 3 ^ 2 by norm_num]; exact Real.sqrt_sq (by norm_num)
  have hs' : √(16 : ℝ) = 4 := by rw [show (16 : ℝ) = 4 ^ 2 by norm_num]; exact Real.sqrt_sq (by norm_num)
  have hs'' : √(25 : ℝ) = 5 := by rw [show (25 : ℝ) = 5 ^ 2 by norm_num]; exact Real.sqrt_sq (by norm_num)
  have hm6 : ((ring345.drop 2).map (Spec.knorm ![3, 4])).sum / ((ring345.drop 2).length : ℝ) = 14 / 3 := by
    simp only [ring345, List.drop_succ_cons, List.drop_zero, List.map_cons, List.map_nil, knorm34]
    norm_num [hs', hs'']
  obtain ⟨s0, S0, g0, M0⟩ := setup34 hpick depth (x := 4) (by norm_num) (L := ring345) (by decide) (by simp [ring345])
    (by decide) mem_ring345 (m := 17 / 4) (by
      simp only [ring345, List.map_cons, List.map_nil, knorm34]
      norm_num [hs, hs', hs''])
  obtain ⟨s1, S1, g1, M1⟩ := setup34 hpick depth (x := 17 / 4) (by norm_num) (L := ring345.drop 2) (by decide) (by simp [ring345])
    (by decide) (mem_ring45 (by norm_num)) hm6
  obtain ⟨s2, S2, g2, M2⟩ := setup34 hpick depth (x := 14 / 3) (by norm_num) (L := ring345.drop 2) (by decide) (by simp [ring345])
    (by decide) (mem_ring45 (by norm_num)) hm6
  have hskip : adjustSkip [frame34].length 1 ([frame34].map List.length) .none = .ok 1 := by
    show adjustSkip 1 1 [2] .none = .ok 1
    decide +kernel
  have hpA : Spec.posOf 'A' frame34 = [![0, 0]] := by simp [Spec.posOf, frame34]
  have hpB : Spec.posOf 'B' frame34 = [![Real.pi / 3, 0]] := by simp [Spec.posOf, frame34]
  have single : ∀ {v : List ℝ} {y : ℝ}, v.length = 1 → v.getD 0 0 = y → v = [y] := by
    intro v y h1 h2
    obtain ⟨a, rfl⟩ := List.length_eq_one_iff.1 h1
    simpa using h2
  have hone : ∀ {A B : List (Char × Vec 2 ℝ) → List (Vec 2 ℝ)} {s : KState 2 ℝ} {v : List ℝ}, IsSkOf 1 [frame34] A B (kvectorsGet s) 1 v →
      v = [Spec.mean (((kvectorsGet s).getD 0 []).map fun w =>
        (Spec.density w (A frame34) * star (Spec.density w (B frame34))).re) / √((A frame34).length * (B frame34).length)] := by
    intro A B s v h
    refine single h.1 ?_
    rw [h.2 0 one_pos]
    have e : Spec.everyNth (1 : ℤ).toNat [frame34] = [frame34] := rfl
    rw [e]
    simp [Spec.mean]
  have hpair : ∀ (a b : Char) {x : ℝ} {s : KState 2 ℝ}, SkSetup opt34 (depth + 1) pick cell34 (some [x]) s 1 → Spec.posOf a frame34 ≠ [] →
      Spec.posOf b frame34 ≠ [] → ∃ v, skFiltered opt34 .none 1 (depth + 1) pick (grFrames cell34 [frame34]) (some [x]) (pairFilters a b) =
        .ok (s.kgrid, v) ∧ IsSkOf 1 [frame34] (Spec.posOf a) (Spec.posOf b) (kvectorsGet s) 1 v := by
    intro a b x s hS ha hb
    exact skFiltered_value (Or.inl rfl) (by simp) hskip hS (pairFilters a b) (Spec.posOf a) (Spec.posOf b)
      (twobodyFrame_pair cell34 a b) (by
        intro hle
        by_cases e : a = b
        · rw [e]
        · simp [pairFilters, e] at hle) (by simpa using ha) (by simpa using hb)
  obtain ⟨vt, t1, t2⟩ := skFiltered_value (Or.inl rfl) (by simp) hskip S0 ([] : List Char) (fun f => f.map Prod.snd)
    (fun f => f.map Prod.snd) (fun f => rfl) (fun _ => rfl) (by simp [frame34]) (by simp [frame34])
  obtain ⟨vaa, a1, a2⟩ := hpair 'A' 'A' S1 (by simp [hpA]) (by simp [hpA])
  obtain ⟨vab, b1, b2⟩ := hpair 'A' 'B' S2 (by simp [hpA]) (by simp [hpB])
  obtain ⟨vbb, c1, c2⟩ := hpair 'B' 'B' S2 (by simp [hpB]) (by simp [hpB])
  have ht : vt = [1 / 2] := by
    rw [hone t2]
    have e : frame34.map Prod.snd = [![0, 0]] ++ [![Real.pi / 3, 0]] := rfl
    have ea : ∀ w : Fin 2 → ℝ, Spec.density w (frame34.map Prod.snd) = 1 + Spec.density w [![Real.pi / 3, 0]] := by
      intro w
      rw [e, ← phase34_zero w]
      simp [Spec.density]
    simp only [ea]
    rw [M0]
    simp only [phase34, ring345, List.map_cons, List.map_nil]
    have e2 : √(((frame34.map Prod.snd).length : ℝ) * ((frame34.map Prod.snd).length : ℝ)) = 2 := by
      rw [Real.sqrt_mul_self (by positivity)]
      simp [frame34]
    rw [e2]
    norm_num
  have haa : vaa = [1] := by
    rw [hone a2]
    simp only [hpA, phase34_zero]
    rw [M1]
    simp [ring345]
    norm_num
  have hbb : vbb = [1] := by
    rw [hone c2]
    simp only [hpB]
    rw [M2]
    simp only [phase34, ring345, List.drop_succ_cons, List.drop_zero, List.map_cons, List.map_nil]
    norm_num
  have hab : vab = [-1 / 3] := by
    rw [hone b2]
    simp only [hpA, hpB, phase34_zero]
    rw [M2]
    simp only [phase34, ring345, List.drop_succ_cons, List.drop_zero, List.map_cons, List.map_nil]
    norm_num
  rw [ht, g0] at t1
  rw [haa, g1] at a1
  rw [hab, g2] at b1
  rw [hbb, g2] at c1
  have hgrid : opt34.grid = .ok (some [4]) := by
    have e : kgridOfStr ['4'] = .ok [4] := by decide +kernel
    unfold SkOptions.grid
    show (kgridOfStr ['4'] >>= _) = _
    rw [e]
    simp only [bind, Except.bind, pure, Except.pure]
    simp
  have hP : (pairsComputed ['A', 'B']) = [('A', 'A'), ('A', 'B'), ('B', 'B')] := rfl
  refine ⟨pairResults [('A', 'A'), ('A', 'B'), ('B', 'B')] [([14 / 3], [1]), ([14 / 3], [-1 / 3]), ([14 / 3], [1])] (some [14 / 3]),
    ?_, ?_, ?_, ?_, ?_, ?_⟩
  · unfold skWithPartials
    simp only [hgrid, bind, Except.bind, t1, Option.map_some, hP, List.map_cons, List.map_nil, skSequence, a1, b1, c1]
    rfl
  · simp [pairResults, dictGet]
  · simp [pairResults, dictGet]
  · simp [pairResults, dictGet]
  · simp [pairResults, dictGet]
  · norm_num

/-! ### What is written with the option kgrid -/

/-- Options of the case below: the wave-number 2 and wide shells. -/
noncomputable def opt34w : SkOptions := ⟨8, 13 / 8, 1, 10, 10, some ['2']⟩

theorem mem_ring_wide {x : ℝ} (h1 : 13 / 8 < x) (h2 : x < 17 / 4 + 1 / 40) (v : Fin 2 → ℤ) (h : |Spec.knorm ![3, 4] v - x| < 13 / 8) :
    v ∈ ring345 := by
  rw [knorm34, abs_lt] at h
  have hn : (0 : ℝ) ≤ ((9 * v 0 ^ 2 + 16 * v 1 ^ 2 : ℤ) : ℝ) := by push_cast; positivity
  have e1 : √((9 * v 0 ^ 2 + 16 * v 1 ^ 2 : ℤ) : ℝ) ^ 2 = ((9 * v 0 ^ 2 + 16 * v 1 ^ 2 : ℤ) : ℝ) := Real.sq_sqrt hn
  have u1 : √((9 * v 0 ^ 2 + 16 * v 1 ^ 2 : ℤ) : ℝ) < 59 / 10 := by linarith
  have u2 : (0 : ℝ) < √((9 * v 0 ^ 2 + 16 * v 1 ^ 2 : ℤ) : ℝ) := by linarith
  have h2 : ((9 * v 0 ^ 2 + 16 * v 1 ^ 2 : ℤ) : ℝ) < 35 := by rw [← e1]; nlinarith
  have h3 : (0 : ℝ) < ((9 * v 0 ^ 2 + 16 * v 1 ^ 2 : ℤ) : ℝ) := by rw [← e1]; positivity
  have h2' : 9 * v 0 ^ 2 + 16 * v 1 ^ 2 < 35 := by exact_mod_cast h2
  have h3' : 0 < 9 * v 0 ^ 2 + 16 * v 1 ^ 2 := by exact_mod_cast h3
  have a1 : v 0 ≤ 1 := by nlinarith [sq_nonneg (v 1)]
  have a2 : -1 ≤ v 0 := by nlinarith [sq_nonneg (v 1)]
  have b1 : v 1 ≤ 1 := by nlinarith [sq_nonneg (v 0)]
  have b2 : -1 ≤ v 1 := by nlinarith [sq_nonneg (v 0)]
  have hv : v = ![v 0, v 1] := by funext c; fin_cases c <;> rfl
  rw [hv]
  clear e1 u1 u2 h hv hn h2 h3
  generalize v 0 = a at *
  generalize v 1 = b at *
  interval_cases a <;> interval_cases b <;> simp [ring345] at h3' ⊢

theorem knorm_ring {v : Fin 2 → ℤ} (h : v ∈ ring345) : (v ∈ ring345.take 2 ∧ Spec.knorm ![3, 4] v = 3) ∨
    (v ∉ ring345.take 2 ∧ v ∈ ring345.take 4 ∧ Spec.knorm ![3, 4] v = 4) ∨
    (v ∉ ring345.take 2 ∧ v ∉ ring345.take 4 ∧ Spec.knorm ![3, 4] v = 5) := by
  have hs : √(9 : ℝ) = 3 := by rw [show (9 : ℝ) = 3 ^ 2 by norm_num]; exact Real.sqrt_sq (by norm_num)
  have hs' : √(16 : ℝ) = 4 := by rw [show (16 : ℝ) = 4 ^ 2 by norm_num]; exact Real.sqrt_sq (by norm_num)
  have hs'' : √(25 : ℝ) = 5 := by rw [show (25 : ℝ) = 5 ^ 2 by norm_num]; exact Real.sqrt_sq (by norm_num)
  simp only [knorm34]
  simp only [ring345, List.mem_cons, List.not_mem_nil, or_false] at h
  rcases h with rfl | rfl | rfl | rfl | rfl | rfl | rfl | rfl
  · exact Or.inl ⟨by decide, by simpa using hs⟩
  · exact Or.inl ⟨by decide, by simpa using hs⟩
  · exact Or.inr (Or.inl ⟨by decide, by decide, by simpa using hs'⟩)
  · exact Or.inr (Or.inl ⟨by decide, by decide, by simpa using hs'⟩)
  all_goals exact Or.inr (Or.inr ⟨by decide, by decide, by simp; norm_num [hs'']⟩)

/-- The wave-number found from each of the wave-numbers of the list. -/
theorem setup34w {pick : ℕ → List (KVec 2) → ℕ → List (KVec 2)} (hpick : IsSample pick) (depth : ℕ) {x m : ℝ}
    (h : (x = 2 ∧ m = 3) ∨ (x = 3 ∧ m = 7 / 2) ∨ (x = 7 / 2 ∧ m = 17 / 4) ∨ (x = 17 / 4 ∧ m = 17 / 4)) :
    ∃ s, SkSetup opt34w (depth + 1) pick cell34 (some [x]) s 1 ∧ s.kgrid = [m] := by
  have hside : (fun c => 2 * Real.pi / cell34 c) = ![3, 4] := side34
  have key : ∀ L : List (Fin 2 → ℤ), L.Nodup → L ≠ [] → L.length ≤ 8 → 0 ≤ x → (∀ v, |Spec.knorm ![3, 4] v - x| < 13 / 8 ↔ v ∈ L) →
      (L.map (Spec.knorm ![3, 4])).sum / L.length = m → ∃ s, SkSetup opt34w (depth + 1) pick cell34 (some [x]) s 1 ∧ s.kgrid = [m] := by
    intro L hL hne hl hx hmem hm
    obtain ⟨s, kv, h1, hk, h0, hp, hg⟩ := kSetup_single hpick (Or.inl rfl) (p := opt34w.params)
      (by norm_num [opt34w, SkOptions.params]) cell34_pos hx hL hne (by simpa [opt34w, SkOptions.params] using hl)
      (by intro v; rw [hside]; exact hmem v) depth
    rw [hside, hm] at hg
    have hreq : initialGrid opt34w.params (smallestK Real.pi cell34) (some [x]) = .ok [x] := by
      have : pySorted [x] = [x] := rfl
      simp only [initialGrid, this, if_neg (not_lt.2 hx)]
    exact ⟨s, skSetup_of hpick (by norm_num [opt34w]) (by norm_num [opt34w]) cell34_pos h1 hreq (by simp) (by simpa using hx), hg⟩
  have hs : √(9 : ℝ) = 3 := by rw [show (9 : ℝ) = 3 ^ 2 by norm_num]; exact Real.sqrt_sq (by norm_num)
  have hs' : √(16 : ℝ) = 4 := by rw [show (16 : ℝ) = 4 ^ 2 by norm_num]; exact Real.sqrt_sq (by norm_num)
  have hs'' : √(25 : ℝ) = 5 := by rw [show (25 : ℝ) = 5 ^ 2 by norm_num]; exact Real.sqrt_sq (by norm_num)
  have hsub2 : ∀ v ∈ ring345.take 2, v ∈ ring345 := fun v hv => List.mem_of_mem_take hv
  have hsub4 : ∀ v ∈ ring345.take 4, v ∈ ring345 := fun v hv => List.mem_of_mem_take hv
  have h24 : ∀ v ∈ ring345.take 2, v ∈ ring345.take 4 := by
    intro v hv
    simp only [ring345, List.take_succ_cons, List.take_zero, List.mem_cons, List.not_mem_nil, or_false] at hv ⊢
    tauto
  rcases h with ⟨rfl, rfl⟩ | ⟨rfl, rfl⟩ | ⟨rfl, rfl⟩ | ⟨rfl, rfl⟩
  · refine key (ring345.take 2) (by decide) (by decide) (by decide) (by norm_num) (fun v => ⟨fun h => ?_, fun h => ?_⟩) ?_
    · rcases knorm_ring (mem_ring_wide (by norm_num) (by norm_num) v h) with h' | h' | h'
      · exact h'.1
      · rw [h'.2.2] at h; norm_num at h
      · rw [h'.2.2] at h; norm_num at h
    · rcases knorm_ring (hsub2 v h) with h' | h' | h'
      · rw [h'.2]; norm_num
      · exact absurd h h'.1
      · exact absurd h h'.1
    · simp only [ring345, List.take_succ_cons, List.take_zero, List.map_cons, List.map_nil, knorm34]
      norm_num [hs]
  · refine key (ring345.take 4) (by decide) (by decide) (by decide) (by norm_num) (fun v => ⟨fun h => ?_, fun h => ?_⟩) ?_
    · rcases knorm_ring (mem_ring_wide (by norm_num) (by norm_num) v h) with h' | h' | h'
      · exact h24 v h'.1
      · exact h'.2.1
      · rw [h'.2.2] at h; norm_num at h
    · rcases knorm_ring (hsub4 v h) with h' | h' | h'
      · rw [h'.2]; norm_num
      · rw [h'.2.2]; norm_num
      · exact absurd h h'.2.1
    · simp only [ring345, List.take_succ_cons, List.take_zero, List.map_cons, List.map_nil, knorm34]
      norm_num [hs, hs']
  · refine key ring345 (by decide) (by decide) (by decide) (by norm_num)
      (fun v => ⟨mem_ring_wide (by norm_num) (by norm_num) v, fun h => ?_⟩) ?_
    · rcases knorm_ring h with h' | h' | h'
      · rw [h'.2]; norm_num
      · rw [h'.2.2]; norm_num [abs_lt]
      · rw [h'.2.2]; norm_num [abs_lt]
    · simp only [ring345, List.map_cons, List.map_nil, knorm34]
      norm_num [hs, hs', hs'']
  · refine key ring345 (by decide) (by decide) (by decide) (by norm_num)
      (fun v => ⟨mem_ring_wide (by norm_num) (by norm_num) v, fun h => ?_⟩) ?_
    · rcases knorm_ring h with h' | h' | h'
      · rw [h'.2]; norm_num [abs_lt]
      · rw [h'.2.2]; norm_num [abs_lt]
      · rw [h'.2.2]; norm_num [abs_lt]
    · simp only [ring345, List.map_cons, List.map_nil, knorm34]
      norm_num [hs, hs', hs'']

/-- **C227** is false with the option `kgrid` also for what is written: whatever the random draws, the function of the species `A` is
calculated with wave-vectors whose mean norm is 7/2 and is given at 17/4, and the total is given at 3. -/
theorem C227_counterexample_written {pick : ℕ → List (KVec 2) → ℕ → List (KVec 2)} (hpick : IsSample pick) (depth : ℕ) :
    ∃ total D v, skWithPartials opt34w .none 1 (depth + 1) pick false ['A', 'B'] (grFrames cell34 [frame34]) = .ok (([3], total), D) ∧
      skFiltered opt34w .none 1 (depth + 1) pick (grFrames cell34 [frame34]) (some [3]) ['A'] = .ok ([7 / 2], v) ∧
      dictGet D ('A', 'A') = .ok ([17 / 4], v) := by
  obtain ⟨s0, S0, g0⟩ := setup34w hpick depth (x := 2) (m := 3) (by norm_num)
  obtain ⟨s1, S1, g1⟩ := setup34w hpick depth (x := 3) (m := 7 / 2) (by norm_num)
  obtain ⟨s2, S2, g2⟩ := setup34w hpick depth (x := 7 / 2) (m := 17 / 4) (by norm_num)
  obtain ⟨s3, S3, g3⟩ := setup34w hpick depth (x := 17 / 4) (m := 17 / 4) (by norm_num)
  have hskip : adjustSkip [frame34].length 1 ([frame34].map List.length) .none = .ok 1 := by
    show adjustSkip 1 1 [2] .none = .ok 1
    decide +kernel
  have hpA : Spec.posOf 'A' frame34 = [![0, 0]] := by simp [Spec.posOf, frame34]
  have hpB : Spec.posOf 'B' frame34 = [![Real.pi / 3, 0]] := by simp [Spec.posOf, frame34]
  have hpair : ∀ (a b : Char) {x : ℝ} {s : KState 2 ℝ}, SkSetup opt34w (depth + 1) pick cell34 (some [x]) s 1 → Spec.posOf a frame34 ≠ [] →
      Spec.posOf b frame34 ≠ [] → ∃ v, skFiltered opt34w .none 1 (depth + 1) pick (grFrames cell34 [frame34]) (some [x]) (pairFilters a b) =
        .ok (s.kgrid, v) ∧ IsSkOf 1 [frame34] (Spec.posOf a) (Spec.posOf b) (kvectorsGet s) 1 v := by
    intro a b x s hS ha hb
    exact skFiltered_value (Or.inl rfl) (by simp) hskip hS (pairFilters a b) (Spec.posOf a) (Spec.posOf b)
      (twobodyFrame_pair cell34 a b) (by
        intro hle
        by_cases e : a = b
        · rw [e]
        · simp [pairFilters, e] at hle) (by simpa using ha) (by simpa using hb)
  obtain ⟨vt, t1, -⟩ := skFiltered_value (Or.inl rfl) (by simp) hskip S0 ([] : List Char) (fun f => f.map Prod.snd)
    (fun f => f.map Prod.snd) (fun f => rfl) (fun _ => rfl) (by simp [frame34]) (by simp [frame34])
  obtain ⟨vaa, a1, -⟩ := hpair 'A' 'A' S1 (by simp [hpA]) (by simp [hpA])
  obtain ⟨vab, b1, -⟩ := hpair 'A' 'B' S2 (by simp [hpA]) (by simp [hpB])
  obtain ⟨vbb, c1, -⟩ := hpair 'B' 'B' S3 (by simp [hpB]) (by simp [hpB])
  rw [g0] at t1
  rw [g1] at a1
  rw [g2] at b1
  rw [g3] at c1
  have hgrid : opt34w.grid = .ok (some [2]) := by
    have e : kgridOfStr ['2'] = .ok [2] := by decide +kernel
    unfold SkOptions.grid
    show (kgridOfStr ['2'] >>= _) = _
    rw [e]
    simp only [bind, Except.bind, pure, Except.pure]
    simp
  have hP : (pairsComputed ['A', 'B']) = [('A', 'A'), ('A', 'B'), ('B', 'B')] := rfl
  refine ⟨vt, pairResults [('A', 'A'), ('A', 'B'), ('B', 'B')] [([7 / 2], vaa), ([17 / 4], vab), ([17 / 4], vbb)] (some [17 / 4]), vaa,
    ?_, a1, by simp [pairResults, dictGet]⟩
  unfold skWithPartials
  simp only [hgrid, bind, Except.bind, t1, Option.map_some, hP, List.map_cons, List.map_nil, skSequence, a1, b1, c1]
  rfl

end PP.Props
