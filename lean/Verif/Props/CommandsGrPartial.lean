import Verif.Model.CommandsGrPartial
import Verif.Props.CommandsGr
import Verif.Props.Partials
import Verif.Props.BaLabels
import Verif.Props.CommandsPartial
import Verif.Props.GrPartial

/-!
# C226: the partial functions of the command gr
-/

namespace PP.Spec

/-- The number of pairs of particles, one of species `a` and the other of species `b`, whose distance is at least `r1` and less than
`r2`. -/
noncomputable def speciesPairsBetween {d : ℕ} {S : Type} (L : Fin d → ℝ) (r1 r2 : ℝ) (a b : S) (f : List (S × (Fin d → ℝ))) : ℕ :=
  selfPairs (fun p q => (p.1 = a ∧ q.1 = b ∨ p.1 = b ∧ q.1 = a) ∧ ∃ r, ImageDist L p.2 q.2 r ∧ r1 ≤ r ∧ r < r2) f

end PP.Spec

namespace PP.Props
open PP Classical

variable {d : ℕ}

theorem selfPairs_like {X S : Type} [DecidableEq S] (Q : X → X → Prop) (spc : X → S) (a : S) (l : List X) :
    Spec.selfPairs Q (l.filter fun p => decide (spc p = a)) =
      Spec.selfPairs (fun p q => (spc p = a ∧ spc q = a ∨ spc p = a ∧ spc q = a) ∧ Q p q) l := by
  induction l with
  | nil => rw [List.filter_nil, selfPairs_nil, selfPairs_nil]
  | cons p l ih =>
    rw [selfPairs_cons, ← ih]
    by_cases hp : spc p = a
    · rw [List.filter_cons_of_pos (by simpa using hp), selfPairs_cons, List.countP_filter]
      congr 1
      apply List.countP_congr
      intro q _
      simp [hp, and_comm]
    · rw [List.filter_cons_of_neg (by simpa using hp)]
      refine Nat.right_eq_add.2 ?_
      rw [List.countP_eq_zero]
      simp [hp]

theorem crossPairs_unlike {X S : Type} [DecidableEq S] (Q : X → X → Prop) (hQ : ∀ p q, Q p q ↔ Q q p) (spc : X → S) {a b : S}
    (hab : a ≠ b) (l : List X) :
    Spec.crossPairs Q (l.filter fun p => decide (spc p = a)) (l.filter fun p => decide (spc p = b)) =
      Spec.selfPairs (fun p q => (spc p = a ∧ spc q = b ∨ spc p = b ∧ spc q = a) ∧ Q p q) l := by
  induction l with
  | nil => rw [List.filter_nil, crossPairs_nil, selfPairs_nil]
  | cons p l ih =>
    rw [selfPairs_cons, ← ih]
    by_cases hp : spc p = a
    · have hp' : spc p ≠ b := fun h => hab (hp.symm.trans h)
      rw [List.filter_cons_of_pos (by simpa using hp), List.filter_cons_of_neg (by simpa using hp'), crossPairs_cons,
        List.countP_filter]
      congr 1
      apply List.countP_congr
      intro q _
      simp [hp, hab, and_comm]
    · rw [List.filter_cons_of_neg (by simpa using hp)]
      by_cases hp' : spc p = b
      · rw [List.filter_cons_of_pos (by simpa using hp'), ← crossPairs_swap, crossPairs_cons, crossPairs_swap, List.countP_filter]
        congr 1
        apply List.countP_congr
        intro q _
        simp [hp', hab.symm, hQ p q, and_comm]
      · rw [List.filter_cons_of_neg (by simpa using hp')]
        refine Nat.right_eq_add.2 ?_
        rw [List.countP_eq_zero]
        simp [hp, hp']

/-- The table of an object with two groups of particles, or twice the same one. -/
theorem grObject_table {Y : Type} {dr rmax : ℝ} {n : NOrigins} {bs : ℕ} {side : Vec d ℝ} {y : List (List (Vec d ℝ))} {N : ℕ}
    {skip : ℤ} {M : ℝ} (h : GrInput dr rmax n bs side y N skip M) (legacy : Bool) (huge : ℝ) (x : List Y) (hx0 : x ≠ [])
    (A B : Y → List (Vec d ℝ)) (same : Bool) (n0 n1 : ℕ) (h0 : 0 < n0) (h1 : 0 < n1) (hA : ∀ f ∈ x, (A f).length = n0)
    (hB : ∀ f ∈ x, (B f).length = n1) (hsame : same = true → A = B)
    (hinA : ∀ f ∈ x, ∀ u ∈ A f, ∀ c, -(side c / 2) ≤ u c ∧ u c < side c / 2)
    (hinB : ∀ f ∈ x, ∀ u ∈ B f, ∀ c, -(side c / 2) ≤ u c ∧ u c < side c / 2) (cnt : ℕ → Y → ℕ)
    (hcnt : ∀ j, ∀ f ∈ x, cnt j f =
      if same then Spec.selfPairs (fun u v => ∃ r, Spec.ImageDist side u v r ∧ j * dr ≤ r ∧ r < (j + 1) * dr) (A f)
      else Spec.crossPairs (fun u v => ∃ r, Spec.ImageDist side u v r ∧ j * dr ≤ r ∧ r < (j + 1) * dr) (A f) (B f)) :
    ∃ t, (if legacy then grLegacy Real.sqrt Real.pi
        ⟨x.map fun f => ⟨side, fun _ => true, A f, B f⟩, same, skip.toNat, none, .float dr, rmax⟩
      else grFast Real.sqrt Real.pi huge
        ⟨x.map fun f => ⟨side, fun _ => true, A f, B f⟩, same, skip.toNat, none, .float dr, rmax⟩) = .ok t ∧
      (t.map Prod.fst).Pairwise (· < ·) ∧ (∀ p ∈ t, ∃ j : ℕ, p.1 = (j + 1 / 2) * dr ∧ p.1 ≤ M) ∧
      ∀ j : ℕ, (j + 1 / 2) * dr ≤ M → legacy = true ∨ ¬ 0 < rmax ∨ (j + 1) * dr ≤ M →
        (((j : ℝ) + 1 / 2) * dr,
          some (Spec.mean ((Spec.everyNth skip.toNat x).map fun f => (cnt j f : ℝ)) /
            ((if same then 1 / 2 else 1) * (n0 : ℝ) * (n1 / ∏ c, side c) *
              (Spec.ballVolume Real.pi d ((j + 1) * dr) - Spec.ballVolume Real.pi d (j * dr))))) ∈ t := by
  have hd : 0 < d := by rcases h.dims with e | e <;> omega
  have hsk : 0 < skip.toNat := adjustSkip_pos (List.length_pos_iff.2 h.frames) h.skip
  set o : GrObj d ℝ := ⟨x.map fun f => ⟨side, fun _ => true, A f, B f⟩, same, skip.toNat, none, .float dr, rmax⟩ with ho
  obtain ⟨f1, r1, hx⟩ : ∃ f r, x = f :: r := List.exists_cons_of_ne_nil hx0
  have hfr : ∀ f ∈ o.frames, ∃ f' ∈ x, f = ⟨side, fun _ => true, A f', B f'⟩ := by
    intro f hf
    obtain ⟨f', hf', rfl⟩ := List.mem_map.1 hf
    exact ⟨f', hf', rfl⟩
  have hM0 : 0 ≤ M := by
    by_cases hr : 0 < rmax
    · rw [h.given hr]; exact hr.le
    · obtain ⟨⟨c, hc⟩, -⟩ := h.default hr
      rw [hc]
      have := h.side_pos c
      linarith
  have hw := h.dr_pos
  obtain ⟨c1, hfit⟩ := h.fits
  have hreg : GrRegular Real.sqrt o dr n0 n1 ⟨side, fun _ => true, A f1, B f1⟩ := by
    refine ⟨by rw [ho, hx]; rfl, hsk, h.dr_pos, rfl, rfl, ⟨c1, ?_⟩, ?_, h0, h1, ?_, ?_, ?_⟩
    · show 3 / 2 * dr ≤ side c1 * √(d : ℝ)
      linarith
    · intro f hf
      obtain ⟨f', -, rfl⟩ := hfr f hf
      exact h.side_pos
    · intro f hf
      obtain ⟨f', hf', rfl⟩ := hfr f hf
      exact hA f' hf'
    · intro f hf
      obtain ⟨f', hf', rfl⟩ := hfr f hf
      exact hB f' hf'
    · intro hs f hf
      obtain ⟨f', -, rfl⟩ := hfr f hf
      show A f' = B f'
      rw [hsame hs]
  have hper : ∀ f ∈ o.frames, ∀ c, f.periodic c = true := by
    intro f hf c
    obtain ⟨f', -, rfl⟩ := hfr f hf
    rfl
  obtain ⟨m, hm, hg, hm2⟩ := grSetupGrid_default Real.sqrt Real.sqrt_nonneg o side hw rfl rfl hreg.fit
  have hL := grLegacy_closed Real.sqrt Real.pi_pos o hreg.system hm hg
  have hlastside : ((originFrames o.frames o.skip).getLastD ⟨side, fun _ => true, A f1, B f1⟩).side = side := by
    obtain ⟨f', -, e⟩ := hfr _ (lastFrame_mem hreg.first hsk)
    rw [e]
  rw [hlastside] at hL
  obtain ⟨M', e1, e2, e3, e4⟩ := grCrop_ok (rmax := rmax) (side := side) hd
  have hMM : M' = M := by
    by_cases hr : 0 < rmax
    · rw [e1 hr, h.given hr]
    · obtain ⟨⟨c, hc⟩, hle⟩ := h.default hr
      obtain ⟨c', hc'⟩ := e3 hr
      apply le_antisymm
      · rw [hc]; exact e2 hr c
      · rw [← hc']; exact hle c'
  rw [show o.rmax = rmax from rfl, e4, hMM] at hL
  set T := ((List.range m).map fun j : ℕ => (((j : ℝ) + 1 / 2) * dr,
        some (grVal o Real.pi dr n0 n1 (originFrames o.frames o.skip)
          (cellVolume side) j
          fun f => pairCount o (grDist Real.sqrt) f (Spec.InBin (defaultEdges dr m) j)))).filter fun p => p.1 ≤ M with hT
  -- the table of the plain calculation
  have hsorted : (T.map Prod.fst).Pairwise (· < ·) := by
    rw [List.pairwise_map]
    refine List.Pairwise.filter _ ?_
    rw [List.pairwise_map]
    refine List.pairwise_lt_range.imp ?_
    intro a b hab
    have : (a : ℝ) < b := by exact_mod_cast hab
    simp only
    nlinarith
  have hpts : ∀ p ∈ T, ∃ j : ℕ, p.1 = (j + 1 / 2) * dr ∧ p.1 ≤ M := by
    intro p hp
    rw [hT, List.mem_filter, List.mem_map] at hp
    obtain ⟨⟨j, -, rfl⟩, hp⟩ := hp
    exact ⟨j, rfl, by simpa using hp⟩
  have hval : ∀ j : ℕ, (j + 1 / 2) * dr ≤ M → (((j : ℝ) + 1 / 2) * dr,
          some (Spec.mean ((Spec.everyNth skip.toNat x).map fun f => (cnt j f : ℝ)) /
            ((if same then 1 / 2 else 1) * (n0 : ℝ) * (n1 / ∏ c, side c) *
              (Spec.ballVolume Real.pi d ((j + 1) * dr) - Spec.ballVolume Real.pi d (j * dr))))) ∈ T := by
    intro j hj
    have hjm : j + 1 < m := by
      have h2 := hm2 c1
      have : ((j : ℝ) + 1) * dr < m * dr := by linarith
      have := lt_of_mul_lt_mul_right this hw.le
      exact_mod_cast this
    rw [hT, List.mem_filter]
    refine ⟨List.mem_map.2 ⟨j, List.mem_range.2 (by omega), ?_⟩, by simpa using hj⟩
    refine Prod.ext rfl (congrArg some ?_)
    have hsv : shellVol Real.pi d (j * dr) ((j + 1) * dr) =
        Spec.ballVolume Real.pi d ((j + 1) * dr) - Spec.ballVolume Real.pi d (j * dr) := by
      refine (C74_shell_volume Real.pi_pos hd (by positivity) (by nlinarith)).2 ?_
      rcases h.dims with e | e
      · left; rw [e]; exact even_two
      · right; exact e
    unfold grVal meanCount Spec.mean
    rw [hsv, show o.same = same from rfl]
    have hcount : ∀ f ∈ Spec.everyNth skip.toNat x,
        pairCount o (grDist Real.sqrt) ⟨side, fun _ => true, A f, B f⟩ (Spec.InBin (defaultEdges dr m) j) = cnt j f := by
      intro f hf
      have hbin : ∀ u v, Spec.InBin (defaultEdges dr m) j (grDist Real.sqrt side u v) ↔
          ∃ r, Spec.ImageDist side u v r ∧ j * dr ≤ r ∧ r < (j + 1) * dr := by
        intro u v
        rw [inBin_default (by omega)]
        constructor
        · rintro ⟨a, b | ⟨b, -⟩⟩
          · exact ⟨_, (imageDist_iff h.side_pos _ _ _).2 rfl, a, b⟩
          · omega
        · rintro ⟨r, hr, a, b⟩
          rw [imageDist_iff h.side_pos] at hr
          subst hr
          exact ⟨a, Or.inl b⟩
      rw [hcnt j f (everyNth_mem hf)]
      unfold pairCount
      rw [show o.same = same from rfl]
      split_ifs
      · apply selfPairs_congr
        intro u _ v _
        rw [← hbin, grDist_comm Real.sqrt side _ _ h.side_pos]
      · apply crossPairs_congr
        intro u _ v _
        exact hbin u v
    have hfm : originFrames o.frames o.skip = (Spec.everyNth skip.toNat x).map fun f => ⟨side, fun _ => true, A f, B f⟩ := by
      rw [originFrames_eq _ hsk, ← everyNth_map]
    rw [hfm, List.map_map, List.length_map, List.length_map]
    rw [show (Spec.everyNth skip.toNat x).map ((fun f : GrFrame d ℝ => (pairCount o (grDist Real.sqrt) f
      (Spec.InBin (defaultEdges dr m) j) : ℝ)) ∘ fun f => ⟨side, fun _ => true, A f, B f⟩) =
      (Spec.everyNth skip.toNat x).map fun f => (cnt j f : ℝ) from
        List.map_congr_left fun f hf => congrArg Nat.cast (hcount f hf)]
    congr 1
    unfold cellVolume
    ring
  cases legacy with
  | true =>
    rw [if_pos rfl]
    exact ⟨T, hL, hsorted, hpts, fun j hj _ => hval j hj⟩
  | false =>
    rw [if_neg (by simp)]
    have hin : ∀ f ∈ o.frames, ∀ u, u ∈ f.pos0 ∨ u ∈ f.pos1 → ∀ c, |u c| ≤ f.side c / 2 := by
      intro f hf u hu c
      obtain ⟨f', hf', rfl⟩ := hfr f hf
      have := hu.elim (fun hu => hinA f' hf' u hu c) (fun hu => hinB f' hf' u hu c)
      rw [abs_le]
      exact ⟨this.1, this.2.le⟩
    have huse : ∃ b, useLinkedCells o ⟨side, fun _ => true, A f1, B f1⟩ = .ok b := by
      unfold useLinkedCells
      split_ifs
      · obtain ⟨y, hy, -⟩ := pyMin_ofFn hd fun c => side c / o.rmax
        simp only [hy]
        exact ⟨_, rfl⟩
      · exact ⟨_, rfl⟩
    obtain ⟨b, hb⟩ := huse
    cases b with
    | false =>
      obtain ⟨fast, legacy, g1, g2, -, g4⟩ := C37_backends Real.sqrt Real.sqrt_nonneg Real.pi_pos huge o hreg hper hin hb
      rw [hL] at g2
      have hcut : (if 0 < o.rmax then ∃ c, o.rmax + dr ≤ side c * √(d : ℝ)
          else ∀ f ∈ o.frames, ∃ c c0, f.side c / 2 + dr ≤ side c0 * √(d : ℝ)) := by
        split_ifs with hr
        · refine ⟨c1, ?_⟩
          have := h.given hr
          show rmax + dr ≤ _
          linarith
        · intro f hf
          obtain ⟨f', -, rfl⟩ := hfr f hf
          obtain ⟨⟨c, hc⟩, -⟩ := h.default hr
          refine ⟨c, c1, ?_⟩
          show side c / 2 + dr ≤ _
          linarith
      have := g4 hcut
      obtain rfl := Except.ok.inj g2
      exact ⟨fast, g1, by rw [← this]; exact hsorted, by rw [← this]; exact hpts, fun j hj _ => by rw [← this]; exact hval j hj⟩
    | true =>
      have hcell : ∀ f ∈ o.frames, f.side = (⟨side, fun _ => true, A f1, B f1⟩ : GrFrame d ℝ).side := by
        intro f hf
        obtain ⟨f', -, rfl⟩ := hfr f hf
        rfl
      obtain ⟨fast, legacy, g1, g2, g3, g4⟩ := C44_linked_cells Real.sqrt Real.sqrt_nonneg (fun x hx => Real.mul_self_sqrt hx)
        Real.pi_pos huge o hreg h.dims hper hcell (by
          intro f hf u hu
          obtain ⟨f', hf', rfl⟩ := hfr f hf
          exact hu.elim (hinA f' hf' u) (hinB f' hf' u)) hb
      rw [hL] at g2
      obtain rfl := Except.ok.inj g2
      have hrm : 0 < rmax := by
        by_contra hc
        unfold useLinkedCells at hb
        rw [if_neg (show ¬ o.rmax > 0 from hc)] at hb
        cases hb
      refine ⟨fast, g1, hsorted.sublist g3.sublist, ?_, ?_⟩
      · intro p hp
        have : p.1 ∈ T.map Prod.fst := g3.sublist.subset (List.mem_map_of_mem hp)
        obtain ⟨q, hq, e⟩ := List.mem_map.1 this
        rw [← e]
        exact hpts q hq
      · intro j hj hor
        have hj1 : ((j : ℝ) + 1) * dr ≤ M := by
          rcases hor with e | e | e
          · cases e
          · exact absurd hrm e
          · exact e
        have hmem := hval j hj
        have : (((j : ℝ) + 1 / 2) * dr, some (Spec.mean ((Spec.everyNth skip.toNat x).map fun f => (cnt j f : ℝ)) /
            ((if same then 1 / 2 else 1) * (n0 : ℝ) * (n1 / ∏ c, side c) *
              (Spec.ballVolume Real.pi d ((j + 1) * dr) - Spec.ballVolume Real.pi d (j * dr))))) ∈
            T.filter fun p => p.1 + dr / 2 ≤ o.rmax := by
          rw [List.mem_filter]
          refine ⟨hmem, ?_⟩
          rw [decide_eq_true_iff]
          show ((j : ℝ) + 1 / 2) * dr + dr / 2 ≤ rmax
          rw [← h.given hrm]
          linarith
        rw [← g4] at this
        exact (List.mem_filter.1 this).1

section
variable {S : Type} [DecidableEq S]

/-- The frames read by the command, with a cell that does not change. -/
def grFrames (side : Vec d ℝ) (x : List (List (S × Vec d ℝ))) : List (System (S × Vec d ℝ) (CellInfo d ℝ)) :=
  x.map fun f => ⟨f, ⟨side, fun _ => true⟩⟩

/-- What a table of the partial function of species `a` and `b` should be. -/
def IsPartialGr (legacy : Bool) (dr rmax : ℝ) (side : Vec d ℝ) (x : List (List (S × Vec d ℝ))) (skip : ℤ) (M : ℝ) (num : S → ℕ)
    (a b : S) (t : List (ℝ × Option ℝ)) : Prop :=
  (t.map Prod.fst).Pairwise (· < ·) ∧ (∀ p ∈ t, ∃ j : ℕ, p.1 = (j + 1 / 2) * dr ∧ p.1 ≤ M) ∧
    ∀ j : ℕ, (j + 1 / 2) * dr ≤ M → legacy = true ∨ ¬ 0 < rmax ∨ (j + 1) * dr ≤ M →
      (((j : ℝ) + 1 / 2) * dr,
        some (Spec.mean ((Spec.everyNth skip.toNat x).map fun f =>
            (Spec.speciesPairsBetween side (j * dr) ((j + 1) * dr) a b f : ℝ)) /
          ((if a = b then 1 / 2 else 1) * (num a : ℝ) * (num b / ∏ c, side c) *
            (Spec.ballVolume Real.pi d ((j + 1) * dr) - Spec.ballVolume Real.pi d (j * dr))))) ∈ t

theorem isPartialGr_swap {legacy : Bool} {dr rmax : ℝ} {side : Vec d ℝ} {x : List (List (S × Vec d ℝ))} {skip : ℤ} {M : ℝ}
    {num : S → ℕ} {a b : S} {t : List (ℝ × Option ℝ)} (h : IsPartialGr legacy dr rmax side x skip M num a b t) :
    IsPartialGr legacy dr rmax side x skip M num b a t := by
  refine ⟨h.1, h.2.1, fun j hj hor => ?_⟩
  have := h.2.2 j hj hor
  convert this using 4
  · congr 1
    apply List.map_congr_left
    intro f _
    unfold Spec.speciesPairsBetween
    congr 2
    funext p q
    rw [or_comm]
  · by_cases hab : a = b
    · subst hab
      rfl
    · rw [if_neg hab, if_neg (Ne.symm hab)]
      ring

theorem imageDist_swap {L : Vec d ℝ} (hL : ∀ c, 0 < L c) (u v : Vec d ℝ) (r : ℝ) :
    Spec.ImageDist L u v r ↔ Spec.ImageDist L v u r := by
  rw [imageDist_iff hL, imageDist_iff hL, grDist_comm Real.sqrt L u v hL]

/-- **C226**: the command gr computes the partial function of every ordered pair of species. Its points are those of the total one. The
value at each of them is the mean over the frames used of the number of pairs of particles, one of species `a` and the other of
species `b`, at distances from `j*dr` to `(j+1)*dr`, divided by that of an ideal gas: `N_a` times the number density of `b` times the
volume of the shell, halved if the two species are the same. With `rmax` the fast implementation is bound to do so only for the points
whose shell is within `rmax`. -/
theorem C226_definition {dr rmax : ℝ} {n : NOrigins} {bs : ℕ} {side : Vec d ℝ} {x : List (List (S × Vec d ℝ))} {N : ℕ} {skip : ℤ} {M : ℝ}
    (h : GrInput dr rmax n bs side (x.map fun f => f.map Prod.snd) N skip M) (legacy : Bool) (huge : ℝ) (ids : List S)
    (hids : 1 < ids.length) (hnd : ids.Nodup) (num : S → ℕ)
    (hnum : ∀ a ∈ ids, 0 < num a ∧ ∀ f ∈ x, (f.filter fun p => decide (p.1 = a)).length = num a) :
    ∃ D, grPartials legacy dr rmax n bs huge false ids (grFrames side x) = .ok D ∧
      ∀ a ∈ ids, ∀ b ∈ ids, ∃ o t, dictGet D (a, b) = .ok o ∧ o.res = some t ∧ IsPartialGr legacy dr rmax side x skip M num a b t := by
  have hx0 : x ≠ [] := by
    have := h.frames
    rintro rfl
    exact this rfl
  have hin : ∀ f ∈ x, ∀ a, ∀ u ∈ (f.filter fun p => decide (p.1 = a)).map Prod.snd, ∀ c, -(side c / 2) ≤ u c ∧ u c < side c / 2 := by
    intro f hf a u hu
    refine h.inside (f.map Prod.snd) (List.mem_map_of_mem hf) u ?_
    exact (List.filter_sublist.map Prod.snd).subset hu
  have hrun : ∀ filters, grFiltered legacy dr rmax n bs huge (grFrames side x) filters =
      if legacy then grLegacy Real.sqrt Real.pi (twobodyObj Prod.snd (filters.map fun a s => filterSpecies Prod.fst s (some a))
        (grFrames side x) ⟨[], true, skip.toNat, none, .float dr, rmax⟩)
      else grFast Real.sqrt Real.pi huge (twobodyObj Prod.snd (filters.map fun a s => filterSpecies Prod.fst s (some a))
        (grFrames side x) ⟨[], true, skip.toNat, none, .float dr, rmax⟩) := by
    intro filters
    have hs := h.skip
    unfold grFiltered
    have e1 : (grFrames side x).length = (x.map fun f => f.map Prod.snd).length := by simp [grFrames]
    have e2 : ((grFrames side x).map fun s => s.particle.length) = (x.map fun f => f.map Prod.snd).map List.length := by
      simp [grFrames, Function.comp_def]
    rw [e1, e2, hs]
    rfl
  have h1 : ∀ a ∈ ids, ∃ t, grFiltered legacy dr rmax n bs huge (grFrames side x) [a] = .ok t ∧
      IsPartialGr legacy dr rmax side x skip M num a a t := by
    intro a ha
    rw [hrun]
    have e : twobodyObj Prod.snd ([a].map fun a s => filterSpecies Prod.fst s (some a)) (grFrames side x)
        (⟨[], true, skip.toNat, none, .float dr, rmax⟩ : GrObj d ℝ) =
        ⟨x.map fun f => ⟨side, fun _ => true, (f.filter fun p => decide (p.1 = a)).map Prod.snd,
          (f.filter fun p => decide (p.1 = a)).map Prod.snd⟩, true, skip.toNat, none, .float dr, rmax⟩ := by
      unfold twobodyObj grFrames
      rw [List.map_map]
      rfl
    rw [e]
    obtain ⟨t, t1, t2, t3, t4⟩ := grObject_table h legacy huge x hx0 (fun f => (f.filter fun p => decide (p.1 = a)).map Prod.snd)
      (fun f => (f.filter fun p => decide (p.1 = a)).map Prod.snd) true (num a) (num a) (hnum a ha).1 (hnum a ha).1
      (fun f hf => by rw [List.length_map]; exact (hnum a ha).2 f hf) (fun f hf => by rw [List.length_map]; exact (hnum a ha).2 f hf)
      (fun _ => rfl) (fun f hf => hin f hf a) (fun f hf => hin f hf a)
      (fun j f => Spec.speciesPairsBetween side (j * dr) ((j + 1) * dr) a a f) (by
        intro j f _
        rw [if_pos rfl, selfPairs_map, selfPairs_like]
        rfl)
    refine ⟨t, t1, t2, t3, fun j hj hor => ?_⟩
    have := t4 j hj hor
    rw [if_pos rfl] at this
    rw [if_pos rfl]
    exact this
  have h2 : ∀ a ∈ ids, ∀ b ∈ ids, a ≠ b → ∃ t, grFiltered legacy dr rmax n bs huge (grFrames side x) [a, b] = .ok t ∧
      IsPartialGr legacy dr rmax side x skip M num a b t := by
    intro a ha b hb hab
    rw [hrun]
    have e : twobodyObj Prod.snd ([a, b].map fun a s => filterSpecies Prod.fst s (some a)) (grFrames side x)
        (⟨[], true, skip.toNat, none, .float dr, rmax⟩ : GrObj d ℝ) =
        ⟨x.map fun f => ⟨side, fun _ => true, (f.filter fun p => decide (p.1 = a)).map Prod.snd,
          (f.filter fun p => decide (p.1 = b)).map Prod.snd⟩, false, skip.toNat, none, .float dr, rmax⟩ := by
      unfold twobodyObj grFrames
      rw [List.map_map]
      rfl
    rw [e]
    obtain ⟨t, t1, t2, t3, t4⟩ := grObject_table h legacy huge x hx0 (fun f => (f.filter fun p => decide (p.1 = a)).map Prod.snd)
      (fun f => (f.filter fun p => decide (p.1 = b)).map Prod.snd) false (num a) (num b) (hnum a ha).1 (hnum b hb).1
      (fun f hf => by rw [List.length_map]; exact (hnum a ha).2 f hf) (fun f hf => by rw [List.length_map]; exact (hnum b hb).2 f hf)
      (fun hc => by cases hc) (fun f hf => hin f hf a) (fun f hf => hin f hf b)
      (fun j f => Spec.speciesPairsBetween side (j * dr) ((j + 1) * dr) a b f) (by
        intro j f _
        rw [if_neg (by simp), crossPairs_map, crossPairs_unlike _ (fun p q => by simp only [imageDist_swap h.side_pos p.2 q.2]) _ hab]
        rfl)
    refine ⟨t, t1, t2, t3, fun j hj hor => ?_⟩
    have := t4 j hj hor
    rw [if_neg (by simp)] at this
    rw [if_neg hab]
    exact this
  choose! one ho1 ho2 using h1
  have h2' : ∀ a b, ∃ t, a ∈ ids → b ∈ ids → a ≠ b → grFiltered legacy dr rmax n bs huge (grFrames side x) [a, b] = .ok t ∧
      IsPartialGr legacy dr rmax side x skip M num a b t := by
    intro a b
    by_cases hh : a ∈ ids ∧ b ∈ ids ∧ a ≠ b
    · obtain ⟨t, ht⟩ := h2 a hh.1 b hh.2.1 hh.2.2
      exact ⟨t, fun _ _ _ => ht⟩
    · exact ⟨[], fun a1 a2 a3 => absurd ⟨a1, a2, a3⟩ hh⟩
  choose two htwo using h2'
  obtain ⟨D, hD, hDo⟩ := C61_two_body true ids hnd (fun filters _ => grFiltered legacy dr rmax n bs huge (grFrames side x) filters)
    one two (fun a ha => ho1 a ha) (fun a ha b hb hab => (htwo a b ha hb hab).1)
  refine ⟨D, ?_, ?_⟩
  · unfold grPartials
    rw [if_pos ⟨hids, rfl⟩]
    exact hD
  · intro a ha b hb
    obtain ⟨i, hi, rfl⟩ := List.getElem_of_mem ha
    obtain ⟨j, hj, rfl⟩ := List.getElem_of_mem hb
    obtain ⟨o, g1, -, g2, g3, -, g4⟩ := hDo i j hi hj
    rcases lt_trichotomy i j with hij | hij | hij
    · have hne : ids[i] ≠ ids[j] := fun e => hij.ne ((List.Nodup.getElem_inj_iff hnd).1 e)
      rw [g3 hij] at g1
      exact ⟨_, _, g1, rfl, (htwo _ _ ha hb hne).2⟩
    · subst hij
      rw [g2 rfl] at g1
      exact ⟨_, _, g1, rfl, ho2 _ ha⟩
    · have hne : ids[j] ≠ ids[i] := fun e => hij.ne ((List.Nodup.getElem_inj_iff hnd).1 e)
      rw [g4 hij rfl] at g1
      exact ⟨_, _, g1, rfl, isPartialGr_swap (htwo _ _ hb ha hne).2⟩

/-- With the option `no_partial` no partial function is computed. -/
example (ids : List S) (fr : List (System (S × Vec d ℝ) (CellInfo d ℝ))) :
    grPartials true (1 / 10) (-1) (.num 5) 2 1000000 true ids fr = .ok [] := if_neg (by simp)

/-- If there is one species only, neither. -/
example (a : S) (fr : List (System (S × Vec d ℝ) (CellInfo d ℝ))) :
    grPartials true (1 / 10) (-1) (.num 5) 2 1000000 false [a] fr = .ok [] := if_neg (by simp)

theorem speciesPairs_sum {side : Vec d ℝ} (hL : ∀ c, 0 < side c) (r1 r2 : ℝ) (f : List (S × Vec d ℝ)) (ids : List S) (hn : ids.Nodup)
    (hf : ∀ p ∈ f, p.1 ∈ ids) :
    2 * Spec.pairsBetween side r1 r2 (f.map Prod.snd) =
      (ids.map fun a => (ids.map fun b => (if a = b then 2 else 1) * Spec.speciesPairsBetween side r1 r2 a b f).sum).sum := by
  have hsym : ∀ u v, (∃ r, Spec.ImageDist side u v r ∧ r1 ≤ r ∧ r < r2) ↔ ∃ r, Spec.ImageDist side v u r ∧ r1 ≤ r ∧ r < r2 := by
    intro u v
    simp only [imageDist_swap hL u v]
  have h1 := selfPairs_species (P := fun u v => ∃ r, Spec.ImageDist side u v r ∧ r1 ≤ r ∧ r < r2) hsym Prod.fst Prod.snd f ids hn hf
  have h2 := unorderedSum_twice (fun a b => if a = b then 0 else Spec.speciesPairsBetween side r1 r2 a b f)
    (by
      intro a b
      by_cases hab : a = b
      · rw [if_pos hab, if_pos hab.symm]
      · rw [if_neg hab, if_neg (Ne.symm hab)]
        unfold Spec.speciesPairsBetween
        congr 1
        funext p q
        rw [or_comm]) (fun a => 2 * Spec.speciesPairsBetween side r1 r2 a a f) ids hn
  have e1 : ∀ a, Spec.selfPairs (fun u v => ∃ r, Spec.ImageDist side u v r ∧ r1 ≤ r ∧ r < r2)
      ((f.filter fun p => decide (p.1 = a)).map Prod.snd) = Spec.speciesPairsBetween side r1 r2 a a f := by
    intro a
    rw [selfPairs_map, selfPairs_like]
    rfl
  have e2 : Spec.unorderedSum (fun a b => Spec.crossPairs (fun u v => ∃ r, Spec.ImageDist side u v r ∧ r1 ≤ r ∧ r < r2)
      ((f.filter fun p => decide (p.1 = a)).map Prod.snd) ((f.filter fun p => decide (p.1 = b)).map Prod.snd)) ids =
      Spec.unorderedSum (fun a b => if a = b then 0 else Spec.speciesPairsBetween side r1 r2 a b f) ids := by
    clear h1 h2 hf
    induction ids with
    | nil => rfl
    | cons a l ih =>
      rw [List.nodup_cons] at hn
      simp only [Spec.unorderedSum]
      rw [ih hn.2]
      congr 2
      apply List.map_congr_left
      intro b hb
      have hab : a ≠ b := by rintro rfl; exact hn.1 hb
      rw [if_neg hab, crossPairs_map, crossPairs_unlike _ (fun p q => hsym p.2 q.2) _ hab]
      rfl
  rw [e2] at h1
  simp only [e1] at h1
  rw [List.sum_map_mul_left] at h2
  have h3 : 2 * Spec.pairsBetween side r1 r2 (f.map Prod.snd) =
      (ids.map fun a => (ids.map fun b => if a = b then 2 * Spec.speciesPairsBetween side r1 r2 a a f
        else if a = b then 0 else Spec.speciesPairsBetween side r1 r2 a b f).sum).sum := by
    rw [← h2]
    unfold Spec.pairsBetween
    rw [h1]
    omega
  rw [h3]
  congr 1
  apply List.map_congr_left
  intro a _
  congr 1
  apply List.map_congr_left
  intro b _
  by_cases hab : a = b
  · subst hab
    rw [if_pos rfl, if_pos rfl]
  · rw [if_neg hab, if_neg hab, if_neg hab, one_mul]

theorem mean_list_sum {α : Type} (ids : List S) (l : List α) (f : S → α → ℝ) :
    Spec.mean (l.map fun b => (ids.map fun a => f a b).sum) = (ids.map fun a => Spec.mean (l.map fun b => f a b)).sum := by
  induction ids with
  | nil =>
    unfold Spec.mean
    simp
  | cons a ids ih =>
    simp only [List.map_cons, List.sum_cons]
    rw [mean_add_map, ih]

/-- **C226**: at each point, the squared number of particles times the total function is the sum over the ordered pairs of species of
the product of their numbers of particles times their partial function. -/
theorem C226_sum {dr rmax : ℝ} {n : NOrigins} {bs : ℕ} {side : Vec d ℝ} {x : List (List (S × Vec d ℝ))} {N : ℕ} {skip : ℤ} {M : ℝ}
    (h : GrInput dr rmax n bs side (x.map fun f => f.map Prod.snd) N skip M) (legacy : Bool) (huge : ℝ) (ids : List S)
    (hids : 1 < ids.length) (hnd : ids.Nodup) (num : S → ℕ)
    (hnum : ∀ a ∈ ids, 0 < num a ∧ ∀ f ∈ x, (f.filter fun p => decide (p.1 = a)).length = num a)
    (hall : ∀ f ∈ x, ∀ p ∈ f, p.1 ∈ ids) :
    ∃ T D, grCommand legacy dr rmax n bs huge (x.map fun f => (side, fun _ => true, f.map Prod.snd)) = .ok T ∧
      (T.map Prod.fst).Nodup ∧ grPartials legacy dr rmax n bs huge false ids (grFrames side x) = .ok D ∧
      ∀ j : ℕ, (j + 1 / 2) * dr ≤ M → legacy = true ∨ ¬ 0 < rmax ∨ (j + 1) * dr ≤ M →
        ∃ (g : ℝ) (gp : S → S → ℝ), (((j : ℝ) + 1 / 2) * dr, some g) ∈ T ∧
          (∀ a ∈ ids, ∀ b ∈ ids, ∃ o t, dictGet D (a, b) = .ok o ∧ o.res = some t ∧ (t.map Prod.fst).Nodup ∧
            (((j : ℝ) + 1 / 2) * dr, some (gp a b)) ∈ t) ∧
          (N : ℝ) ^ 2 * g = (ids.map fun a => (ids.map fun b => (num a : ℝ) * num b * gp a b).sum).sum := by
  obtain ⟨T, t1, t2, -, t4⟩ := C221_definition h legacy huge
  obtain ⟨D, d1, d2⟩ := C226_definition h legacy huge ids hids hnd num hnum
  rw [List.map_map] at t1
  refine ⟨T, D, t1, t2.imp (fun h => h.ne), d1, fun j hj hor => ?_⟩
  refine ⟨_, fun a b => Spec.mean ((Spec.everyNth skip.toNat x).map fun f =>
            (Spec.speciesPairsBetween side (j * dr) ((j + 1) * dr) a b f : ℝ)) /
          ((if a = b then 1 / 2 else 1) * (num a : ℝ) * (num b / ∏ c, side c) *
            (Spec.ballVolume Real.pi d ((j + 1) * dr) - Spec.ballVolume Real.pi d (j * dr))), t4 j hj hor, ?_, ?_⟩
  · intro a ha b hb
    obtain ⟨o, t, o1, o2, o3, -, o5⟩ := d2 a ha b hb
    exact ⟨o, t, o1, o2, o3.imp (fun h => h.ne), o5 j hj hor⟩
  · have hN : (N : ℝ) ≠ 0 := by
      have := h.number_pos
      positivity
    set s := Spec.ballVolume Real.pi d ((j + 1) * dr) - Spec.ballVolume Real.pi d (j * dr) with hs
    set V := ∏ c, side c with hV
    set F := Spec.everyNth skip.toNat x with hF
    have e0 : (N : ℝ) ^ 2 * (Spec.mean ((Spec.everyNth skip.toNat (x.map fun f => f.map Prod.snd)).map fun f =>
        (Spec.pairsBetween side (j * dr) ((j + 1) * dr) f : ℝ)) / ((N : ℝ) / 2 * (N / V) * s)) =
        (Spec.mean (F.map fun f => 2 * (Spec.pairsBetween side (j * dr) ((j + 1) * dr) (f.map Prod.snd) : ℝ))) * (V / s) := by
      rw [show Spec.everyNth skip.toNat (x.map fun f => f.map Prod.snd) = F.map fun f => f.map Prod.snd from
        everyNth_map _ _ _, List.map_map, mean_mul_map]
      simp only [Function.comp_def]
      have : ∀ m : ℝ, (N : ℝ) ^ 2 * (m / ((N : ℝ) / 2 * (N / V) * s)) = 2 * m * (V / s) := by
        intro m
        rw [show (N : ℝ) / 2 * (N / V) * s = (N : ℝ) ^ 2 * (s / (2 * V)) by ring]
        rw [← mul_div_assoc, mul_div_mul_left _ _ (pow_ne_zero 2 hN)]
        rw [div_div_eq_mul_div]
        ring
      exact this _
    have e1 : ∀ a ∈ ids, ∀ b ∈ ids, (num a : ℝ) * num b * (Spec.mean (F.map fun f =>
        (Spec.speciesPairsBetween side (j * dr) ((j + 1) * dr) a b f : ℝ)) / ((if a = b then 1 / 2 else 1) * (num a : ℝ) * (num b / V) * s)) =
        Spec.mean (F.map fun f => (if a = b then 2 else 1) * (Spec.speciesPairsBetween side (j * dr) ((j + 1) * dr) a b f : ℝ)) * (V / s) := by
      intro a ha b hb
      have ha0 : (num a : ℝ) ≠ 0 := by have := (hnum a ha).1; positivity
      have hb0 : (num b : ℝ) ≠ 0 := by have := (hnum b hb).1; positivity
      rw [mean_mul_map]
      generalize Spec.mean (F.map fun f => (Spec.speciesPairsBetween side (j * dr) ((j + 1) * dr) a b f : ℝ)) = m
      have hw : ∀ w : ℝ, w ≠ 0 → (num a : ℝ) * num b * (m / (1 / w * (num a : ℝ) * (num b / V) * s)) = w * m * (V / s) := by
        intro w hw
        rw [show 1 / w * (num a : ℝ) * (num b / V) * s = ((num a : ℝ) * num b) * (s / (w * V)) by field_simp]
        rw [← mul_div_assoc, mul_div_mul_left _ _ (mul_ne_zero ha0 hb0), div_div_eq_mul_div]
        ring
      by_cases hab : a = b
      · simp only [if_pos hab]
        exact hw 2 two_ne_zero
      · simp only [if_neg hab]
        have := hw 1 one_ne_zero
        rw [div_one] at this
        exact this
    rw [e0]
    have e2 : (ids.map fun a => (ids.map fun b => (num a : ℝ) * num b * (Spec.mean (F.map fun f =>
        (Spec.speciesPairsBetween side (j * dr) ((j + 1) * dr) a b f : ℝ)) /
          ((if a = b then 1 / 2 else 1) * (num a : ℝ) * (num b / V) * s))).sum).sum =
        (ids.map fun a => (ids.map fun b => Spec.mean (F.map fun f => (if a = b then 2 else 1) *
          (Spec.speciesPairsBetween side (j * dr) ((j + 1) * dr) a b f : ℝ)) * (V / s)).sum).sum := by
      congr 1
      apply List.map_congr_left
      intro a ha
      congr 1
      apply List.map_congr_left
      intro b hb
      exact e1 a ha b hb
    rw [e2]
    simp only [List.sum_map_mul_right]
    congr 1
    rw [show (F.map fun f => 2 * (Spec.pairsBetween side (j * dr) ((j + 1) * dr) (f.map Prod.snd) : ℝ)) =
      F.map fun f => (ids.map fun a => (ids.map fun b => (if a = b then 2 else 1) *
          (Spec.speciesPairsBetween side (j * dr) ((j + 1) * dr) a b f : ℝ)).sum).sum from ?_]
    · rw [mean_list_sum]
      simp only [mean_list_sum]
    · apply List.map_congr_left
      intro f hf
      have := speciesPairs_sum h.side_pos (j * dr) ((j + 1) * dr) f ids hnd (hall f (everyNth_mem hf))
      have := congrArg (Nat.cast : ℕ → ℝ) this
      push_cast [Nat.cast_list_sum, List.map_map, Function.comp_def] at this
      exact this

end

/-- The hypotheses on the cell, for ten frames in a rectangular cell, each with two particles of species A and three of species B. -/
theorem exGrSpecies (x : List (List (Char × Vec 2 ℝ))) (hx : x.length = 10) (hn : ∀ f ∈ x, f.map Prod.fst = ['A', 'B', 'B', 'A', 'B'])
    (hin : ∀ f ∈ x, ∀ p ∈ f, ∀ c, -(exGrSide c / 2) ≤ p.2 c ∧ p.2 c < exGrSide c / 2) :
    GrInput (1 / 10) (-1) (.num 5) 2 exGrSide (x.map fun f => f.map Prod.snd) 5 2 3 ∧
      ∀ a ∈ ['A', 'B'], 0 < ['A', 'B', 'B', 'A', 'B'].count a ∧
        ∀ f ∈ x, (f.filter fun p => decide (p.1 = a)).length = ['A', 'B', 'B', 'A', 'B'].count a := by
  refine ⟨exGrInput (rmax := -1) (M := 3) (x.map fun f => f.map Prod.snd) (by simpa using hx) (by
      intro f hf
      obtain ⟨f', hf', rfl⟩ := List.mem_map.1 hf
      have := congrArg List.length (hn f' hf')
      simpa using this) (by
      intro f hf u hu
      obtain ⟨f', hf', rfl⟩ := List.mem_map.1 hf
      obtain ⟨p, hp, rfl⟩ := List.mem_map.1 hu
      exact hin f' hf' p hp) (by norm_num) (fun _ => rfl) (by norm_num), fun a ha => ⟨?_, fun f hf => ?_⟩⟩
  · rw [List.count_pos_iff]
    simp at ha ⊢
    tauto
  · rw [← hn f hf, ← List.countP_eq_length_filter, List.count, List.countP_map]
    apply List.countP_congr
    intro p _
    simp

/-- Non-trivial case: ten frames in a rectangular cell, each with two particles of species A and three of species B; all of the four
functions have their last point at 2.95, half of the smallest side being 3. The one of species B and A, copied from that of A and B,
is the number of pairs divided by that of an ideal gas. -/
example (x : List (List (Char × Vec 2 ℝ))) (hx : x.length = 10) (hn : ∀ f ∈ x, f.map Prod.fst = ['A', 'B', 'B', 'A', 'B'])
    (hin : ∀ f ∈ x, ∀ p ∈ f, ∀ c, -(exGrSide c / 2) ≤ p.2 c ∧ p.2 c < exGrSide c / 2) (legacy : Bool) :
    ∃ D, grPartials legacy (1 / 10) (-1) (.num 5) 2 1000000 false ['A', 'B'] (grFrames exGrSide x) = .ok D ∧
      ∃ o t, dictGet D ('B', 'A') = .ok o ∧ o.res = some t ∧ ((29 + 1 / 2) * (1 / 10), some
        (Spec.mean ((Spec.everyNth 2 x).map fun f => (Spec.speciesPairsBetween exGrSide (29 * (1 / 10)) ((29 + 1) * (1 / 10)) 'B' 'A' f : ℝ)) /
          (1 * (3 : ℕ) * ((2 : ℕ) / ∏ c, exGrSide c) *
            (Spec.ballVolume Real.pi 2 ((29 + 1) * (1 / 10)) - Spec.ballVolume Real.pi 2 (29 * (1 / 10)))))) ∈ t := by
  obtain ⟨hg, hnum⟩ := exGrSpecies x hx hn hin
  obtain ⟨D, h1, h2⟩ := C226_definition hg legacy 1000000 ['A', 'B'] (by decide) (by decide)
    (fun a => ['A', 'B', 'B', 'A', 'B'].count a) hnum
  obtain ⟨o, t, g1, g2, -, -, g3⟩ := h2 'B' (by simp) 'A' (by simp)
  have := g3 29 (by norm_num) (Or.inr (Or.inl (by norm_num)))
  rw [if_neg (by decide)] at this
  refine ⟨D, h1, o, t, g1, g2, ?_⟩
  exact_mod_cast this

/-- In the same case, the functions add up: `25 g = 4 g_AA + 6 g_AB + 6 g_BA + 9 g_BB`. -/
example (x : List (List (Char × Vec 2 ℝ))) (hx : x.length = 10) (hn : ∀ f ∈ x, f.map Prod.fst = ['A', 'B', 'B', 'A', 'B'])
    (hin : ∀ f ∈ x, ∀ p ∈ f, ∀ c, -(exGrSide c / 2) ≤ p.2 c ∧ p.2 c < exGrSide c / 2) (legacy : Bool) :
    ∃ T, grCommand legacy (1 / 10) (-1) (.num 5) 2 1000000 (x.map fun f => (exGrSide, fun _ => true, f.map Prod.snd)) = .ok T ∧
      ∃ g gAA gAB gBA gBB : ℝ, ((29 + 1 / 2) * (1 / 10), some g) ∈ T ∧ 25 * g = 4 * gAA + 6 * gAB + 6 * gBA + 9 * gBB := by
  obtain ⟨hg, hnum⟩ := exGrSpecies x hx hn hin
  obtain ⟨T, D, h1, -, -, h4⟩ := C226_sum hg legacy 1000000 ['A', 'B'] (by decide) (by decide)
    (fun a => ['A', 'B', 'B', 'A', 'B'].count a) hnum (by
      intro f hf p hp
      have : p.1 ∈ f.map Prod.fst := List.mem_map_of_mem hp
      rw [hn f hf] at this
      simp at this ⊢
      tauto)
  obtain ⟨g, gp, g1, -, g3⟩ := h4 29 (by norm_num) (Or.inr (Or.inl (by norm_num)))
  refine ⟨T, h1, g, gp 'A' 'A', gp 'A' 'B', gp 'B' 'A', gp 'B' 'B', by exact_mod_cast g1, ?_⟩
  have eA : ['A', 'B', 'B', 'A', 'B'].count 'A' = 2 := by decide
  have eB : ['A', 'B', 'B', 'A', 'B'].count 'B' = 3 := by decide
  simp only [List.map_cons, List.map_nil, List.sum_cons, List.sum_nil, eA, eB] at g3
  push_cast at g3
  linarith

end PP.Props
