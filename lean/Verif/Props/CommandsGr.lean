import Verif.Model.CommandsGr
import Verif.Props.GrCells
import Verif.Props.Commands
import Verif.Props.Sk

/-!
# C221: the command gr
-/

namespace PP.Spec

/-- The distance between `u` and the closest of the periodic images of `v`. -/
def ImageDist {d : ℕ} (L u v : Fin d → ℝ) (r : ℝ) : Prop :=
  (∃ m : Fin d → ℤ, r = √(∑ c, (u c - v c + m c * L c) ^ 2)) ∧ ∀ m : Fin d → ℤ, r ≤ √(∑ c, (u c - v c + m c * L c) ^ 2)

/-- The number of pairs of particles whose distance is at least `a` and less than `b`. -/
noncomputable def pairsBetween {d : ℕ} (L : Fin d → ℝ) (a b : ℝ) (x : List (Fin d → ℝ)) : ℕ :=
  selfPairs (fun u v => ∃ r, ImageDist L u v r ∧ a ≤ r ∧ r < b) x

end PP.Spec

namespace PP.Props
open PP Classical

variable {d : ℕ}

theorem imageDist_iff {L : Vec d ℝ} (hL : ∀ c, 0 < L c) (u v : Vec d ℝ) (r : ℝ) :
    Spec.ImageDist L u v r ↔ r = grDist Real.sqrt L u v := by
  obtain ⟨⟨m, h1⟩, -, h3⟩ := C35_minimum_image L (fun c => u c - v c) hL
  have hd : grDist Real.sqrt L u v = √(∑ c, (u c - v c + m c * L c) ^ 2) := by
    unfold grDist
    simp only [h1]
  have hle : ∀ m : Fin d → ℤ, grDist Real.sqrt L u v ≤ √(∑ c, (u c - v c + m c * L c) ^ 2) :=
    fun m => Real.sqrt_le_sqrt (h3 m)
  constructor
  · rintro ⟨⟨m', rfl⟩, h⟩
    exact le_antisymm (by rw [hd]; exact h m) (hle m')
  · rintro rfl
    exact ⟨⟨m, hd⟩, hle⟩

/-- The input with which the command is expected to work: a periodic cell that does not change with the particles inside it, the same
number of them in all frames, a spacing that is small compared with the cell and a largest distance within its diagonal. -/
structure GrInput (dr rmax : ℝ) (n : NOrigins) (bs : ℕ) (side : Vec d ℝ) (x : List (List (Vec d ℝ))) (N : ℕ) (skip : ℤ) (M : ℝ) :
    Prop where
  dims : d = 2 ∨ d = 3
  dr_pos : 0 < dr
  side_pos : ∀ c, 0 < side c
  frames : x ≠ []
  number : ∀ f ∈ x, f.length = N
  number_pos : 0 < N
  inside : ∀ f ∈ x, ∀ u ∈ f, ∀ c, -(side c / 2) ≤ u c ∧ u c < side c / 2
  skip : adjustSkip x.length bs (x.map List.length) n = .ok skip
  /-- `M` is the largest distance requested, or half of the smallest side -/
  given : 0 < rmax → M = rmax
  default : ¬ 0 < rmax → (∃ c, M = side c / 2) ∧ ∀ c, M ≤ side c / 2
  fits : ∃ c, M + 3 / 2 * dr ≤ side c * √(d : ℝ)

/-- **C221**: the command gr succeeds in both implementations. Its points are at distances `(j+1/2)*dr`, in increasing order, up to
`rmax`, or up to half of the smallest side if it is not given. The value at each of them is the mean over the frames used of the number
of pairs at distances from `j*dr` to `(j+1)*dr`, divided by that of an ideal gas, `N/2` times the number density times the volume of
the shell. With `rmax` the fast implementation is bound to do so only for the points whose shell is within `rmax`. -/
theorem C221_definition {dr rmax : ℝ} {n : NOrigins} {bs : ℕ} {side : Vec d ℝ} {x : List (List (Vec d ℝ))} {N : ℕ} {skip : ℤ} {M : ℝ}
    (h : GrInput dr rmax n bs side x N skip M) (legacy : Bool) (huge : ℝ) :
    ∃ t, grCommand legacy dr rmax n bs huge (x.map fun f => (side, fun _ => true, f)) = .ok t ∧
      (t.map Prod.fst).Pairwise (· < ·) ∧ (∀ p ∈ t, ∃ j : ℕ, p.1 = (j + 1 / 2) * dr ∧ p.1 ≤ M) ∧
      ∀ j : ℕ, (j + 1 / 2) * dr ≤ M → legacy = true ∨ ¬ 0 < rmax ∨ (j + 1) * dr ≤ M →
        (((j : ℝ) + 1 / 2) * dr,
          some (Spec.mean ((Spec.everyNth skip.toNat x).map fun f => (Spec.pairsBetween side (j * dr) ((j + 1) * dr) f : ℝ)) /
            ((N : ℝ) / 2 * (N / ∏ c, side c) * (Spec.ballVolume Real.pi d ((j + 1) * dr) - Spec.ballVolume Real.pi d (j * dr))))) ∈ t := by
  have hd : 0 < d := by rcases h.dims with e | e <;> omega
  have hsk : 0 < skip.toNat := adjustSkip_pos (List.length_pos_iff.2 h.frames) h.skip
  set o : GrObj d ℝ := ⟨x.map fun f => ⟨side, fun _ => true, f, f⟩, true, skip.toNat, none, .float dr, rmax⟩ with ho
  have hcmd : grCommand legacy dr rmax n bs huge (x.map fun f => (side, fun _ => true, f)) =
      if legacy then grLegacy Real.sqrt Real.pi o else grFast Real.sqrt Real.pi huge o := by
    unfold grCommand
    simp only [bind, Except.bind, List.map_map, List.length_map, Function.comp_def]
    rw [show (x.map fun f => f.length) = x.map List.length from rfl, h.skip]
  rw [hcmd]
  obtain ⟨f1, r1, hx⟩ : ∃ f r, x = f :: r := List.exists_cons_of_ne_nil h.frames
  have hfr : ∀ f ∈ o.frames, ∃ f' ∈ x, f = ⟨side, fun _ => true, f', f'⟩ := by
    intro f hf
    obtain ⟨f', hf', rfl⟩ := List.mem_map.1 hf
    exact ⟨f', hf', rfl⟩
  have hM0 : 0 ≤ M := by
    by_cases hr : 0 < rmax
    · rw [h.given hr]; exact hr.le
    · obtain ⟨⟨c, hc⟩, -⟩ := h.default hr
      rw [hc]
      have := h.side_pos c
      linarith
  have hw := h.dr_pos
  obtain ⟨c1, hfit⟩ := h.fits
  have hreg : GrRegular Real.sqrt o dr N N ⟨side, fun _ => true, f1, f1⟩ := by
    refine ⟨by rw [ho, hx]; rfl, hsk, h.dr_pos, rfl, rfl, ⟨c1, ?_⟩, ?_, h.number_pos, h.number_pos, ?_, ?_, ?_⟩
    · show 3 / 2 * dr ≤ side c1 * √(d : ℝ)
      linarith
    · intro f hf
      obtain ⟨f', -, rfl⟩ := hfr f hf
      exact h.side_pos
    · intro f hf
      obtain ⟨f', hf', rfl⟩ := hfr f hf
      exact h.number f' hf'
    · intro f hf
      obtain ⟨f', hf', rfl⟩ := hfr f hf
      exact h.number f' hf'
    · intro _ f hf
      obtain ⟨f', -, rfl⟩ := hfr f hf
      rfl
  have hper : ∀ f ∈ o.frames, ∀ c, f.periodic c = true := by
    intro f hf c
    obtain ⟨f', -, rfl⟩ := hfr f hf
    rfl
  obtain ⟨m, hm, hg, hm2⟩ := grSetupGrid_default Real.sqrt Real.sqrt_nonneg o side hw rfl rfl hreg.fit
  have hL := grLegacy_closed Real.sqrt Real.pi_pos o hreg.system hm hg
  have hlastside : ((originFrames o.frames o.skip).getLastD ⟨side, fun _ => true, f1, f1⟩).side = side := by
    obtain ⟨f', -, e⟩ := hfr _ (lastFrame_mem hreg.first hsk)
    rw [e]
  rw [hlastside] at hL
  obtain ⟨M', e1, e2, e3, e4⟩ := grCrop_ok (rmax := rmax) (side := side) hd
  have hMM : M' = M := by
    by_cases hr : 0 < rmax
    · rw [e1 hr, h.given hr]
    · obtain ⟨⟨c, hc⟩, hle⟩ := h.default hr
      obtain ⟨c', hc'⟩ := e3 hr
      apply le_antisymm
      · rw [hc]; exact e2 hr c
      · rw [← hc']; exact hle c'
  rw [show o.rmax = rmax from rfl, e4, hMM] at hL
  set T := ((List.range m).map fun j : ℕ => (((j : ℝ) + 1 / 2) * dr,
        some (grVal o Real.pi dr N N (originFrames o.frames o.skip)
          (cellVolume side) j
          fun f => pairCount o (grDist Real.sqrt) f (Spec.InBin (defaultEdges dr m) j)))).filter fun p => p.1 ≤ M with hT
  -- the table of the plain calculation
  have hsorted : (T.map Prod.fst).Pairwise (· < ·) := by
    rw [List.pairwise_map]
    refine List.Pairwise.filter _ ?_
    rw [List.pairwise_map]
    refine List.pairwise_lt_range.imp ?_
    intro a b hab
    have : (a : ℝ) < b := by exact_mod_cast hab
    simp only
    nlinarith
  have hpts : ∀ p ∈ T, ∃ j : ℕ, p.1 = (j + 1 / 2) * dr ∧ p.1 ≤ M := by
    intro p hp
    rw [hT, List.mem_filter, List.mem_map] at hp
    obtain ⟨⟨j, -, rfl⟩, hp⟩ := hp
    exact ⟨j, rfl, by simpa using hp⟩
  have hval : ∀ j : ℕ, (j + 1 / 2) * dr ≤ M → (((j : ℝ) + 1 / 2) * dr,
          some (Spec.mean ((Spec.everyNth skip.toNat x).map fun f => (Spec.pairsBetween side (j * dr) ((j + 1) * dr) f : ℝ)) /
            ((N : ℝ) / 2 * (N / ∏ c, side c) * (Spec.ballVolume Real.pi d ((j + 1) * dr) - Spec.ballVolume Real.pi d (j * dr))))) ∈ T := by
    intro j hj
    have hjm : j + 1 < m := by
      have h2 := hm2 c1
      have : ((j : ℝ) + 1) * dr < m * dr := by linarith
      have := lt_of_mul_lt_mul_right this hw.le
      exact_mod_cast this
    rw [hT, List.mem_filter]
    refine ⟨List.mem_map.2 ⟨j, List.mem_range.2 (by omega), ?_⟩, by simpa using hj⟩
    refine Prod.ext rfl (congrArg some ?_)
    have hsv : shellVol Real.pi d (j * dr) ((j + 1) * dr) =
        Spec.ballVolume Real.pi d ((j + 1) * dr) - Spec.ballVolume Real.pi d (j * dr) := by
      refine (C74_shell_volume Real.pi_pos hd (by positivity) (by nlinarith)).2 ?_
      rcases h.dims with e | e
      · left; rw [e]; exact even_two
      · right; exact e
    unfold grVal meanCount Spec.mean
    rw [hsv, show o.same = true from rfl, if_pos rfl]
    have hcount : ∀ f ∈ Spec.everyNth skip.toNat x,
        pairCount o (grDist Real.sqrt) ⟨side, fun _ => true, f, f⟩ (Spec.InBin (defaultEdges dr m) j) =
          Spec.pairsBetween side (j * dr) ((j + 1) * dr) f := by
      intro f hf
      unfold pairCount Spec.pairsBetween
      rw [show o.same = true from rfl, if_pos rfl]
      unfold Spec.selfPairs
      congr 1
      ext q
      simp only [Finset.mem_filter, Finset.mem_univ, true_and]
      refine and_congr_right fun _ => ?_
      rw [inBin_default (by omega), grDist_comm Real.sqrt side _ _ h.side_pos]
      constructor
      · rintro ⟨a, b | ⟨b, -⟩⟩
        · exact ⟨_, (imageDist_iff h.side_pos _ _ _).2 rfl, a, b⟩
        · omega
      · rintro ⟨r, hr, a, b⟩
        rw [imageDist_iff h.side_pos] at hr
        subst hr
        exact ⟨a, Or.inl b⟩
    have hfm : originFrames o.frames o.skip = (Spec.everyNth skip.toNat x).map fun f => ⟨side, fun _ => true, f, f⟩ := by
      rw [originFrames_eq _ hsk, ← everyNth_map]
    rw [hfm, List.map_map, List.length_map, List.length_map]
    rw [show (Spec.everyNth skip.toNat x).map ((fun f : GrFrame d ℝ => (pairCount o (grDist Real.sqrt) f
      (Spec.InBin (defaultEdges dr m) j) : ℝ)) ∘ fun f => ⟨side, fun _ => true, f, f⟩) =
      (Spec.everyNth skip.toNat x).map fun f => (Spec.pairsBetween side (j * dr) ((j + 1) * dr) f : ℝ) from
        List.map_congr_left fun f hf => congrArg Nat.cast (hcount f hf)]
    congr 1
    unfold cellVolume
    ring
  cases legacy with
  | true =>
    rw [if_pos rfl]
    exact ⟨T, hL, hsorted, hpts, fun j hj _ => hval j hj⟩
  | false =>
    rw [if_neg (by simp)]
    have hin : ∀ f ∈ o.frames, ∀ u, u ∈ f.pos0 ∨ u ∈ f.pos1 → ∀ c, |u c| ≤ f.side c / 2 := by
      intro f hf u hu c
      obtain ⟨f', hf', rfl⟩ := hfr f hf
      have := h.inside f' hf' u (by simpa using hu) c
      rw [abs_le]
      exact ⟨this.1, this.2.le⟩
    have huse : ∃ b, useLinkedCells o ⟨side, fun _ => true, f1, f1⟩ = .ok b := by
      unfold useLinkedCells
      split_ifs
      · obtain ⟨y, hy, -⟩ := pyMin_ofFn hd fun c => side c / o.rmax
        simp only [hy]
        exact ⟨_, rfl⟩
      · exact ⟨_, rfl⟩
    obtain ⟨b, hb⟩ := huse
    cases b with
    | false =>
      obtain ⟨fast, legacy, g1, g2, -, g4⟩ := C37_backends Real.sqrt Real.sqrt_nonneg Real.pi_pos huge o hreg hper hin hb
      rw [hL] at g2
      have hcut : (if 0 < o.rmax then ∃ c, o.rmax + dr ≤ side c * √(d : ℝ)
          else ∀ f ∈ o.frames, ∃ c c0, f.side c / 2 + dr ≤ side c0 * √(d : ℝ)) := by
        split_ifs with hr
        · refine ⟨c1, ?_⟩
          have := h.given hr
          show rmax + dr ≤ _
          linarith
        · intro f hf
          obtain ⟨f', -, rfl⟩ := hfr f hf
          obtain ⟨⟨c, hc⟩, -⟩ := h.default hr
          refine ⟨c, c1, ?_⟩
          show side c / 2 + dr ≤ _
          linarith
      have := g4 hcut
      obtain rfl := Except.ok.inj g2
      exact ⟨fast, g1, by rw [← this]; exact hsorted, by rw [← this]; exact hpts, fun j hj _ => by rw [← this]; exact hval j hj⟩
    | true =>
      have hcell : ∀ f ∈ o.frames, f.side = (⟨side, fun _ => true, f1, f1⟩ : GrFrame d ℝ).side := by
        intro f hf
        obtain ⟨f', -, rfl⟩ := hfr f hf
        rfl
      obtain ⟨fast, legacy, g1, g2, g3, g4⟩ := C44_linked_cells Real.sqrt Real.sqrt_nonneg (fun x hx => Real.mul_self_sqrt hx)
        Real.pi_pos huge o hreg h.dims hper hcell (by
          intro f hf u hu
          obtain ⟨f', hf', rfl⟩ := hfr f hf
          exact h.inside f' hf' u (by simpa using hu)) hb
      rw [hL] at g2
      obtain rfl := Except.ok.inj g2
      have hrm : 0 < rmax := by
        by_contra hc
        unfold useLinkedCells at hb
        rw [if_neg (show ¬ o.rmax > 0 from hc)] at hb
        cases hb
      refine ⟨fast, g1, hsorted.sublist g3.sublist, ?_, ?_⟩
      · intro p hp
        have : p.1 ∈ T.map Prod.fst := g3.sublist.subset (List.mem_map_of_mem hp)
        obtain ⟨q, hq, e⟩ := List.mem_map.1 this
        rw [← e]
        exact hpts q hq
      · intro j hj hor
        have hj1 : ((j : ℝ) + 1) * dr ≤ M := by
          rcases hor with e | e | e
          · cases e
          · exact absurd hrm e
          · exact e
        have hmem := hval j hj
        have : (((j : ℝ) + 1 / 2) * dr, some (Spec.mean ((Spec.everyNth skip.toNat x).map fun f =>
            (Spec.pairsBetween side (j * dr) ((j + 1) * dr) f : ℝ)) /
            ((N : ℝ) / 2 * (N / ∏ c, side c) * (Spec.ballVolume Real.pi d ((j + 1) * dr) - Spec.ballVolume Real.pi d (j * dr))))) ∈
            T.filter fun p => p.1 + dr / 2 ≤ o.rmax := by
          rw [List.mem_filter]
          refine ⟨hmem, ?_⟩
          rw [decide_eq_true_iff]
          show ((j : ℝ) + 1 / 2) * dr + dr / 2 ≤ rmax
          rw [← h.given hrm]
          linarith
        rw [← g4] at this
        exact (List.mem_filter.1 this).1

/-- The cell of the examples. -/
noncomputable def exGrSide : Vec 2 ℝ := fun c => if c = 0 then 8 else 6

theorem exGr_fits {a : ℝ} (ha : a ≤ 8) : a ≤ exGrSide 0 * √((2 : ℕ) : ℝ) := by
  have h1 : (1 : ℝ) ≤ √((2 : ℕ) : ℝ) := Real.one_le_sqrt.2 (by norm_num)
  have h2 : exGrSide 0 = 8 := by simp [exGrSide]
  rw [h2]
  linarith

theorem exGrInput {rmax M : ℝ} (x : List (List (Vec 2 ℝ))) (hx : x.length = 10) (hn : ∀ f ∈ x, f.length = 5)
    (hin : ∀ f ∈ x, ∀ u ∈ f, ∀ c, -(exGrSide c / 2) ≤ u c ∧ u c < exGrSide c / 2)
    (h1 : 0 < rmax → M = rmax) (h2 : ¬ 0 < rmax → M = 3) (hM : M ≤ 7) :
    GrInput (1 / 10) rmax (.num 5) 2 exGrSide x 5 2 M := by
  have h0 : exGrSide 0 = 8 := by simp [exGrSide]
  have h01 : exGrSide 1 = 6 := by simp [exGrSide]
  refine ⟨Or.inl rfl, by norm_num, ?_, ?_, hn, by norm_num, hin, ?_, h1, ?_, ⟨0, exGr_fits (by linarith)⟩⟩
  · intro c
    fin_cases c
    · show 0 < exGrSide 0
      rw [h0]; norm_num
    · show 0 < exGrSide 1
      rw [h01]; norm_num
  · rintro rfl; simp at hx
  · have e : x.map List.length = List.replicate 10 5 := by
      rw [List.eq_replicate_iff]
      refine ⟨by simpa using hx, fun b hb => ?_⟩
      obtain ⟨f, hf, rfl⟩ := List.mem_map.1 hb
      exact hn f hf
    rw [hx, e]
    decide +kernel
  · intro hr
    rw [h2 hr]
    refine ⟨⟨1, by rw [h01]; norm_num⟩, fun c => ?_⟩
    fin_cases c
    · show 3 ≤ exGrSide 0 / 2
      rw [h0]; norm_num
    · show 3 ≤ exGrSide 1 / 2
      rw [h01]; norm_num

/-- Non-trivial cases: ten frames of five particles in a rectangular cell, in blocks of two, with five origins. Without `rmax` the last
point is at 2.95, half of the smallest side being 3; -/
example (x : List (List (Vec 2 ℝ))) (hx : x.length = 10) (hn : ∀ f ∈ x, f.length = 5)
    (hin : ∀ f ∈ x, ∀ u ∈ f, ∀ c, -(exGrSide c / 2) ≤ u c ∧ u c < exGrSide c / 2) (legacy : Bool) :
    ∃ t, grCommand legacy (1 / 10) (-1) (.num 5) 2 1000000 (x.map fun f => (exGrSide, fun _ => true, f)) = .ok t ∧
      ∃ v, (2.95, some v) ∈ t := by
  obtain ⟨t, h1, -, -, h4⟩ := C221_definition (exGrInput (rmax := -1) x hx hn hin (by norm_num) (fun _ => rfl) (by norm_num)) legacy 1000000
  have := h4 29 (by norm_num) (Or.inr (Or.inl (by norm_num)))
  norm_num at this ⊢
  exact ⟨t, h1, _, this⟩

/-- with `rmax` 1.5, which makes the fast implementation use linked cells, the point at 1.05 has the pairs between 1 and 1.1. -/
example (x : List (List (Vec 2 ℝ))) (hx : x.length = 10) (hn : ∀ f ∈ x, f.length = 5)
    (hin : ∀ f ∈ x, ∀ u ∈ f, ∀ c, -(exGrSide c / 2) ≤ u c ∧ u c < exGrSide c / 2) (legacy : Bool) :
    ∃ t, grCommand legacy (1 / 10) (3 / 2) (.num 5) 2 1000000 (x.map fun f => (exGrSide, fun _ => true, f)) = .ok t ∧
      (∀ p ∈ t, p.1 ≤ 3 / 2) ∧
      (1.05, some (Spec.mean ((Spec.everyNth 2 x).map fun f => (Spec.pairsBetween exGrSide 1 1.1 f : ℝ)) /
        (25 / 96 * (Real.pi * 0.21)))) ∈ t := by
  obtain ⟨t, h1, -, h3, h4⟩ := C221_definition (exGrInput (rmax := 3 / 2) x hx hn hin (fun _ => rfl) (by norm_num) (by norm_num)) legacy 1000000
  refine ⟨t, h1, fun p hp => (h3 p hp).choose_spec.2, ?_⟩
  have := h4 10 (by norm_num) (Or.inr (Or.inr (by norm_num)))
  have hv : ∏ c, exGrSide c = 48 := by
    rw [Fin.prod_univ_two]
    simp [exGrSide]
    norm_num
  have hb : ∀ r, Spec.ballVolume Real.pi 2 r = Real.pi * r ^ 2 := by
    intro r
    simp [Spec.ballVolume]
  rw [hv, hb, hb] at this
  convert this using 3
  · norm_num
  · congr 1
    · norm_num
      rfl
    · norm_num
      ring

end PP.Props
