import Verif.Model.CommandsBaPartial
import Verif.Props.CommandsGrPartial
import Verif.Props.CommandsBa

/-!
# C232: the default cut-offs of the command ba for several species
-/

namespace PP.Spec

/-- Mean number of pairs of species `a` and `b` at distances from `j*dr` to `(j+1)*dr`, divided by that of an ideal gas with the same
numbers of particles. -/
noncomputable def speciesRatio {d : ℕ} {S : Type} [DecidableEq S] (L : Fin d → ℝ) (dr : ℝ) (num : S → ℕ)
    (x : List (List (S × (Fin d → ℝ)))) (a b : S) (j : ℕ) : ℝ :=
  mean (x.map fun f => (speciesPairsBetween L (j * dr) ((j + 1) * dr) a b f : ℝ)) /
    ((if a = b then 1 / 2 else 1) * (num a : ℝ) * (num b / ∏ c, L c) * (ballVolume Real.pi d ((j + 1) * dr) - ballVolume Real.pi d (j * dr)))

/-- The angles at the particles of species `a` between pairs of neighbours of species `b` closer than `r`. -/
noncomputable def speciesAngles {d : ℕ} {S : Type} [DecidableEq S] (L : Fin d → ℝ) (r : ℝ) (a b : S) (f : List (S × (Fin d → ℝ))) :
    List ℝ :=
  ((f.filter fun p => decide (p.1 = a)).map Prod.snd).flatMap fun u =>
    bondAngles L u ((f.filter fun p => decide (p.1 = b)).map Prod.snd) (fun _ => 0) fun _ => r

/-- The angles at all the particles between pairs of neighbours closer than the cut-off `r` of their species and that of the particle. -/
noncomputable def mixtureAngles {d : ℕ} {S : Type} (L : Fin d → ℝ) (r : S → S → ℝ) (f : List (S × (Fin d → ℝ))) : List ℝ :=
  f.flatMap fun p => bondAngles L p.2 (f.map Prod.snd) id fun j => ((f[j]?).map fun q => r p.1 q.1).getD 0

open Classical in
/-- Number of particles, including the one at `p`, closer to the particle `p` than the cut-off `r` of the two species. -/
noncomputable def mixtureWithin {d : ℕ} {S : Type} (L : Fin d → ℝ) (r : S → S → ℝ) (p : S × (Fin d → ℝ))
    (f : List (S × (Fin d → ℝ))) : ℕ :=
  f.countP fun q => decide (Closer L (r p.1 q.1) p.2 q.2)

open Classical in
/-- Number of particles of species `b` closer to `u` than `r`, including the one at `u` if there is. -/
noncomputable def speciesWithin {d : ℕ} {S : Type} [DecidableEq S] (L : Fin d → ℝ) (r : ℝ) (u : Fin d → ℝ) (b : S)
    (f : List (S × (Fin d → ℝ))) : ℕ :=
  ((f.filter fun p => decide (p.1 = b)).map Prod.snd).countP fun v => decide (Closer L r u v)

/-- `p` is the first maximum of `g` among the bins of width 0.1 whose centre is at most `M`. -/
def FirstMax (M : ℝ) (g : ℕ → ℝ) (p : ℕ) : Prop :=
  ((p : ℝ) + 1 / 2) * (1 / 10) ≤ M ∧ (∀ j : ℕ, ((j : ℝ) + 1 / 2) * (1 / 10) ≤ M → g j ≤ g p) ∧ ∀ j < p, g j < g p

end PP.Spec

namespace PP.Props
open PP

variable {d : ℕ} {S : Type} [DecidableEq S]

theorem speciesRatio_swap (side : Vec d ℝ) (dr : ℝ) (num : S → ℕ) (x : List (List (S × Vec d ℝ))) (a b : S) :
    Spec.speciesRatio side dr num x a b = Spec.speciesRatio side dr num x b a := by
  funext j
  have e : ∀ f, Spec.speciesPairsBetween side (j * dr) ((j + 1) * dr) a b f =
      Spec.speciesPairsBetween side (j * dr) ((j + 1) * dr) b a f := by
    intro f
    unfold Spec.speciesPairsBetween
    congr 1
    funext p q
    rw [or_comm]
  unfold Spec.speciesRatio
  simp only [e]
  by_cases hab : a = b
  · subst hab
    rfl
  · rw [if_neg hab, if_neg (Ne.symm hab)]
    congr 1
    ring

/-- The whole table of a partial g(r) without `rmax`. -/
theorem partialGr_table {dr : ℝ} (hdr : 0 < dr) {side : Vec d ℝ} {x : List (List (S × Vec d ℝ))} {skip : ℤ} {M : ℝ} (hM0 : 0 ≤ M)
    {num : S → ℕ} {a b : S} {t : List (ℝ × Option ℝ)} (h : IsPartialGr false dr (-1) side x skip M num a b t) :
    t = (List.range ⌊M / dr + 1 / 2⌋₊).map fun j : ℕ =>
      (((j : ℝ) + 1 / 2) * dr, some (Spec.speciesRatio side dr num (Spec.everyNth skip.toNat x) a b j)) := by
  obtain ⟨h2, h3, h4⟩ := h
  have hiff : ∀ j : ℕ, j < ⌊M / dr + 1 / 2⌋₊ ↔ ((j : ℝ) + 1 / 2) * dr ≤ M := by
    intro j
    rw [← Nat.succ_le_iff, Nat.le_floor_iff (by positivity), ← le_div_iff₀ hdr]
    push_cast
    constructor <;> intro h <;> linarith
  set T := (List.range ⌊M / dr + 1 / 2⌋₊).map fun j : ℕ =>
    (((j : ℝ) + 1 / 2) * dr, some (Spec.speciesRatio side dr num (Spec.everyNth skip.toNat x) a b j)) with hT
  have hTs : T.Pairwise fun p q => p.1 < q.1 := by
    rw [hT, List.pairwise_map]
    refine List.pairwise_lt_range.imp ?_
    intro a b hab
    have : (a : ℝ) < b := by exact_mod_cast hab
    simp only
    nlinarith
  have hts : t.Pairwise fun p q => p.1 < q.1 := List.pairwise_map.1 h2
  have hsub : ∀ p ∈ T, p ∈ t := by
    intro p hp
    obtain ⟨j, hj, rfl⟩ := List.mem_map.1 hp
    exact h4 j ((hiff j).1 (List.mem_range.1 hj)) (Or.inr (Or.inl (by norm_num)))
  have hinj : ∀ p ∈ t, ∀ q ∈ t, p.1 = q.1 → p = q := by
    exact fun p hp q hq e => List.inj_on_of_nodup_map (h2.imp ne_of_lt) hp hq e
  have hmem : ∀ p, p ∈ t ↔ p ∈ T := by
    refine fun p => ⟨fun hp => ?_, hsub p⟩
    obtain ⟨j, e, hj⟩ := h3 p hp
    have hq : (((j : ℝ) + 1 / 2) * dr, some (Spec.speciesRatio side dr num (Spec.everyNth skip.toNat x) a b j)) ∈ T :=
      List.mem_map.2 ⟨j, List.mem_range.2 ((hiff j).2 (by rw [← e]; exact hj)), rfl⟩
    rw [hinj p hp _ (hsub _ hq) e]
    exact hq
  have hnd : ∀ l : List (ℝ × Option ℝ), (l.Pairwise fun p q => p.1 < q.1) → l.Nodup :=
    fun l hl => hl.imp fun {a b} hab e => by rw [e] at hab; exact lt_irrefl _ hab
  exact ((List.perm_ext_iff_of_nodup (hnd _ hts) (hnd _ hTs)).2 hmem).eq_of_pairwise
    (fun a b _ _ h1 h2 => absurd h1 (not_lt.2 h2.le)) hts hTs

/-- The cut-offs in terms of the tables of the partial functions. -/
theorem baCutoffs_tables {bs : ℕ} {side : Vec d ℝ} {x : List (List (S × Vec d ℝ))} {N : ℕ} {skip : ℤ} {M : ℝ}
    (h : GrInput (1 / 10) (-1) .none bs side (x.map fun f => f.map Prod.snd) N skip M) (huge : ℝ) (uninit : S → S → ℝ) (ids : List S)
    (hids : 1 < ids.length) (hnd : ids.Nodup) (num : S → ℕ)
    (hnum : ∀ a ∈ ids, 0 < num a ∧ ∀ f ∈ x, (f.filter fun p => decide (p.1 = a)).length = num a) :
    ∃ c : S → S → Py ℝ, baCutoffs bs huge uninit ids (grFrames side x) = (ids.mapM fun a => ids.mapM fun b => c a b) ∧
      ∀ a ∈ ids, ∀ b ∈ ids, c a b =
        (baDefaultRcut ((List.range ⌊M / (1 / 10) + 1 / 2⌋₊).map fun j : ℕ => ((j : ℝ) + 1 / 2) * (1 / 10))
          ((List.range ⌊M / (1 / 10) + 1 / 2⌋₊).map (Spec.speciesRatio side (1 / 10) num (Spec.everyNth skip.toNat x) a b))).map
          fun r => r.getD (uninit a b) := by
  have hM0 : 0 ≤ M := by
    obtain ⟨⟨c, hc⟩, -⟩ := h.default (by norm_num)
    have := h.side_pos c
    rw [hc]; linarith
  obtain ⟨D, d1, d2⟩ := C226_definition h false huge ids hids hnd num hnum
  unfold grPartials at d1
  rw [if_pos ⟨hids, rfl⟩] at d1
  unfold baCutoffs
  rw [d1]
  refine ⟨_, rfl, fun a ha b hb => ?_⟩
  obtain ⟨o, t, o1, o2, o3⟩ := d2 a ha b hb
  have ht := partialGr_table (by norm_num) hM0 o3
  simp only [o1, o2, bind, Except.bind]
  rw [ht]
  have hv : ∀ (g : ℕ → ℝ) (l : List ℕ), l.mapM (fun j => (Except.ok (g j) : Py ℝ)) = .ok (l.map g) :=
    fun g l => mapM_ok_map fun _ _ => rfl
  simp only [List.mapM_map, Function.comp_def, hv, List.map_map]
  generalize baDefaultRcut (_ : List ℝ) (_ : List ℝ) = z
  cases z <;> rfl

/-- **C232**: let the frames have fixed numbers of particles of each of several species, in the cell, and let each partial g(r), with
spacing 0.1 and up to half of the smallest side, have its first maximum at `peak` and a later point that is not followed by a decrease.
Then a cut-off is found for all the pairs of species. It is the same for a pair and for the pair swapped, whatever is in the memory of
the array, and it is at a point of the partial g(r) from the maximum on that is not followed by a decrease, up to which it decreases
from the one after the maximum on. -/
theorem C232_cutoffs {bs : ℕ} {side : Vec d ℝ} {x : List (List (S × Vec d ℝ))} {N : ℕ} {skip : ℤ} {M : ℝ}
    (h : GrInput (1 / 10) (-1) .none bs side (x.map fun f => f.map Prod.snd) N skip M) (huge : ℝ) (ids : List S)
    (hids : 1 < ids.length) (hnd : ids.Nodup) (num : S → ℕ)
    (hnum : ∀ a ∈ ids, 0 < num a ∧ ∀ f ∈ x, (f.filter fun p => decide (p.1 = a)).length = num a) (peak : S → S → ℕ)
    (hpeak : ∀ a ∈ ids, ∀ b ∈ ids, Spec.FirstMax M (Spec.speciesRatio side (1 / 10) num (Spec.everyNth skip.toNat x) a b) (peak a b))
    (hrise : ∀ a ∈ ids, ∀ b ∈ ids, ∃ q : ℕ, peak a b < q ∧ ((q : ℝ) + 3 / 2) * (1 / 10) ≤ M ∧
      Spec.speciesRatio side (1 / 10) num (Spec.everyNth skip.toNat x) a b q ≤
        Spec.speciesRatio side (1 / 10) num (Spec.everyNth skip.toNat x) a b (q + 1)) :
    ∃ r : S → S → ℝ, (∀ uninit, baCutoffs bs huge uninit ids (grFrames side x) = .ok (ids.map fun a => ids.map (r a))) ∧
      ∀ a ∈ ids, ∀ b ∈ ids, r a b = r b a ∧ ∃ i : ℕ, r a b = ((i : ℝ) + 1 / 2) * (1 / 10) ∧ peak a b ≤ i ∧
        ((i : ℝ) + 3 / 2) * (1 / 10) ≤ M ∧
        Spec.speciesRatio side (1 / 10) num (Spec.everyNth skip.toNat x) a b i ≤
          Spec.speciesRatio side (1 / 10) num (Spec.everyNth skip.toNat x) a b (i + 1) ∧
        ∀ j, peak a b < j → j < i → Spec.speciesRatio side (1 / 10) num (Spec.everyNth skip.toNat x) a b (j + 1) <
          Spec.speciesRatio side (1 / 10) num (Spec.everyNth skip.toNat x) a b j := by
  have hM0 : 0 ≤ M := by
    obtain ⟨⟨c, hc⟩, -⟩ := h.default (by norm_num)
    have := h.side_pos c
    rw [hc]; linarith
  have key : ∀ a b, ∃ i : ℕ, a ∈ ids → b ∈ ids → peak a b ≤ i ∧ ((i : ℝ) + 3 / 2) * (1 / 10) ≤ M ∧
        Spec.speciesRatio side (1 / 10) num (Spec.everyNth skip.toNat x) a b i ≤
          Spec.speciesRatio side (1 / 10) num (Spec.everyNth skip.toNat x) a b (i + 1) ∧
        (∀ j, peak a b < j → j < i → Spec.speciesRatio side (1 / 10) num (Spec.everyNth skip.toNat x) a b (j + 1) <
          Spec.speciesRatio side (1 / 10) num (Spec.everyNth skip.toNat x) a b j) ∧
        baDefaultRcut ((List.range ⌊M / (1 / 10) + 1 / 2⌋₊).map fun j : ℕ => ((j : ℝ) + 1 / 2) * (1 / 10))
          ((List.range ⌊M / (1 / 10) + 1 / 2⌋₊).map (Spec.speciesRatio side (1 / 10) num (Spec.everyNth skip.toNat x) a b)) =
          .ok (some (((i : ℝ) + 1 / 2) * (1 / 10))) := by
    intro a b
    by_cases hab : a ∈ ids ∧ b ∈ ids
    · obtain ⟨p1, p2, p3⟩ := hpeak a hab.1 b hab.2
      obtain ⟨i, hi⟩ := (rcut_of_table hM0 _ p1 p2 p3).1 (hrise a hab.1 b hab.2)
      exact ⟨i, fun _ _ => hi⟩
    · exact ⟨0, fun h1 h2 => absurd ⟨h1, h2⟩ hab⟩
  choose i hi using key
  refine ⟨fun a b => ((i a b : ℝ) + 1 / 2) * (1 / 10), ?_, ?_⟩
  · intro uninit
    obtain ⟨c, c1, c2⟩ := baCutoffs_tables h huge uninit ids hids hnd num hnum
    rw [c1]
    refine mapM_ok_map fun a ha => mapM_ok_map fun b hb => ?_
    rw [c2 a ha b hb, (hi a b ha hb).2.2.2.2]
    rfl
  · intro a ha b hb
    obtain ⟨i1, i2, i3, i4, i5⟩ := hi a b ha hb
    refine ⟨?_, i a b, rfl, i1, i2, i3, i4⟩
    have := (hi b a hb ha).2.2.2.2
    rw [speciesRatio_swap, i5] at this
    simpa using this

theorem mapM_error_or {α β : Type} {e : PyErr} {f : α → Py β} {l : List α} (hf : ∀ a ∈ l, f a = .error e ∨ ∃ v, f a = .ok v) :
    l.mapM f = .error e ∨ ∃ v, l.mapM f = .ok v := by
  by_cases h : ∃ a ∈ l, f a = .error e
  · obtain ⟨a, ha, hfa⟩ := h
    exact Or.inl (mapM_error hf a ha hfa)
  · right
    push Not at h
    have : ∀ a ∈ l, ∃ v, f a = .ok v := fun a ha => (hf a ha).resolve_left (h a ha)
    clear h hf
    induction l with
    | nil => exact ⟨[], rfl⟩
    | cons b l ih =>
      obtain ⟨v, hv⟩ := this b (by simp)
      obtain ⟨w, hw⟩ := ih fun a ha => this a (List.mem_cons_of_mem _ ha)
      exact ⟨v :: w, by rw [List.mapM_cons, hv, hw]; rfl⟩

/-- **C232**: no cut-off at all is found, with an `IndexError`, as soon as the g(r) of one pair of species decreases from its first
maximum to half of the smallest side, whatever the others, each of which does so or has a later point that is not followed by a
decrease. -/
theorem C232_no_minimum {bs : ℕ} {side : Vec d ℝ} {x : List (List (S × Vec d ℝ))} {N : ℕ} {skip : ℤ} {M : ℝ}
    (h : GrInput (1 / 10) (-1) .none bs side (x.map fun f => f.map Prod.snd) N skip M) (huge : ℝ) (uninit : S → S → ℝ) (ids : List S)
    (hids : 1 < ids.length) (hnd : ids.Nodup) (num : S → ℕ)
    (hnum : ∀ a ∈ ids, 0 < num a ∧ ∀ f ∈ x, (f.filter fun p => decide (p.1 = a)).length = num a) (peak : S → S → ℕ)
    (hpeak : ∀ a ∈ ids, ∀ b ∈ ids, Spec.FirstMax M (Spec.speciesRatio side (1 / 10) num (Spec.everyNth skip.toNat x) a b) (peak a b))
    (hother : ∀ a ∈ ids, ∀ b ∈ ids, (∃ q : ℕ, peak a b < q ∧ ((q : ℝ) + 3 / 2) * (1 / 10) ≤ M ∧
      Spec.speciesRatio side (1 / 10) num (Spec.everyNth skip.toNat x) a b q ≤
        Spec.speciesRatio side (1 / 10) num (Spec.everyNth skip.toNat x) a b (q + 1)) ∨
      ∀ q : ℕ, peak a b ≤ q → ((q : ℝ) + 3 / 2) * (1 / 10) ≤ M →
        Spec.speciesRatio side (1 / 10) num (Spec.everyNth skip.toNat x) a b (q + 1) <
          Spec.speciesRatio side (1 / 10) num (Spec.everyNth skip.toNat x) a b q)
    {a b : S} (ha : a ∈ ids) (hb : b ∈ ids) (hdec : ∀ q : ℕ, peak a b ≤ q → ((q : ℝ) + 3 / 2) * (1 / 10) ≤ M →
      Spec.speciesRatio side (1 / 10) num (Spec.everyNth skip.toNat x) a b (q + 1) <
        Spec.speciesRatio side (1 / 10) num (Spec.everyNth skip.toNat x) a b q) :
    baCutoffs bs huge uninit ids (grFrames side x) = .error .indexError := by
  have hM0 : 0 ≤ M := by
    obtain ⟨⟨c, hc⟩, -⟩ := h.default (by norm_num)
    have := h.side_pos c
    rw [hc]; linarith
  obtain ⟨c, c1, c2⟩ := baCutoffs_tables h huge uninit ids hids hnd num hnum
  have herr : ∀ a ∈ ids, ∀ b ∈ ids, (∀ q : ℕ, peak a b ≤ q → ((q : ℝ) + 3 / 2) * (1 / 10) ≤ M →
      Spec.speciesRatio side (1 / 10) num (Spec.everyNth skip.toNat x) a b (q + 1) <
        Spec.speciesRatio side (1 / 10) num (Spec.everyNth skip.toNat x) a b q) → c a b = .error .indexError := by
    intro a ha b hb hd
    obtain ⟨p1, p2, p3⟩ := hpeak a ha b hb
    rw [c2 a ha b hb, (rcut_of_table hM0 _ p1 p2 p3).2 hd]
    rfl
  have hall : ∀ a ∈ ids, ∀ b ∈ ids, c a b = .error .indexError ∨ ∃ v, c a b = .ok v := by
    intro a ha b hb
    rcases hother a ha b hb with hq | hd
    · obtain ⟨p1, p2, p3⟩ := hpeak a ha b hb
      obtain ⟨i, -, -, -, -, hi⟩ := (rcut_of_table hM0 _ p1 p2 p3).1 hq
      exact Or.inr ⟨_, by rw [c2 a ha b hb, hi]; rfl⟩
    · exact Or.inl (herr a ha b hb hd)
  rw [c1]
  exact mapM_error (fun a' ha' => mapM_error_or (hall a' ha')) a ha (mapM_error (hall a ha) b hb (herr a ha b hb hdec))

/-! ### The partial functions -/

theorem map_range_getD {α : Type} (l : List α) (z : α) : (List.range l.length).map (fun i => l.getD i z) = l := by
  apply List.ext_getElem
  · simp
  · intro i h1 h2
    simp [h2]

/-- What the object of a pair of species computes, given the cut-offs. -/
theorem baFiltered_pair {n : NOrigins} {bs : ℕ} {dtheta : ℝ} (hd0 : 0 < dtheta) (hd1 : dtheta ≤ 180) {side : Vec d ℝ}
    {x : List (List (S × Vec d ℝ))} {N : ℕ} {skip skip0 : ℤ} {M : ℝ}
    (h : GrInput (1 / 10) (-1) .none bs side (x.map fun f => f.map Prod.snd) N skip0 M)
    (hskip : adjustSkip x.length bs (x.map List.length) n = .ok skip) {huge : ℝ} {uninit : S → S → ℝ} {ids : List S} {r : S → S → ℝ}
    (hr : baCutoffs bs huge uninit ids (grFrames side x) = .ok (ids.map fun a => ids.map (r a))) {a b : S} (ha : a ∈ ids) (hb : b ∈ ids)
    (hne : ∀ f ∈ x, (f.filter fun p => decide (p.1 = a)) ≠ []) {filters : List S}
    (hfil : filters = [a, b] ∨ a = b ∧ filters = [a])
    (hbuf : ∀ f ∈ Spec.everyNth skip.toNat x, ∀ p ∈ f, p.1 = a → Spec.speciesWithin side (r a b) p.2 b f ≤ 50) :
    baFiltered dtheta n bs huge uninit ids (grFrames side x) filters = .ok
      ((List.range ⌊180 / dtheta⌋₊).map fun i : ℕ => ((i : ℝ) + 1 / 2) * dtheta,
      (List.range ⌊180 / dtheta⌋₊).map fun i : ℕ =>
        if Spec.between 0 (⌊180 / dtheta⌋₊ * dtheta) ((Spec.everyNth skip.toNat x).flatMap (Spec.speciesAngles side (r a b) a b)) = 0
        then none
        else some ((Spec.between (i * dtheta) ((i + 1) * dtheta)
            ((Spec.everyNth skip.toNat x).flatMap (Spec.speciesAngles side (r a b) a b)) : ℝ) /
          (Spec.between 0 (⌊180 / dtheta⌋₊ * dtheta)
            ((Spec.everyNth skip.toNat x).flatMap (Spec.speciesAngles side (r a b) a b)) * dtheta))) := by
  set G : List (S × Vec d ℝ) → BaFrame d := fun f =>
    ⟨side, (f.filter fun p => decide (p.1 = a)).map Prod.snd, (f.filter fun p => decide (p.1 = a)).map fun _ => ids.idxOf a,
      (f.filter fun p => decide (p.1 = b)).map Prod.snd, (f.filter fun p => decide (p.1 = b)).map fun _ => ids.idxOf b⟩ with hG
  have hx0 : x ≠ [] := by
    rintro rfl
    exact h.frames rfl
  have hsk : 0 < skip.toNat := adjustSkip_pos (List.length_pos_iff.2 hx0) hskip
  have hev : Spec.everyNth skip.toNat (x.map G) = (Spec.everyNth skip.toNat x).map G := everyNth_map _ _ _
  have hmem : ∀ f ∈ Spec.everyNth skip.toNat x, f ∈ x := fun f hf => everyNth_mem hf
  have hnumber : ∀ (c : S), c ∈ ids → ∀ f : List (S × Vec d ℝ), (f.filter fun p => decide (p.1 = c)).mapM (fun p => speciesNumber ids p.1) =
      .ok ((f.filter fun p => decide (p.1 = c)).map fun _ => ids.idxOf c) := by
    intro c hc f
    refine mapM_ok_map fun p hp => ?_
    have : p.1 = c := by simpa using (List.mem_filter.1 hp).2
    rw [this, speciesNumber, if_pos hc]
  have hframes : (grFrames side x).mapM (baTyped ids filters) = .ok (x.map G) := by
    unfold grFrames
    rw [List.mapM_map]
    refine mapM_ok_map fun f _ => ?_
    rcases hfil with rfl | ⟨rfl, rfl⟩
    · simp only [Function.comp_apply, baTyped, filterSpecies, hnumber a ha, hnumber b hb, bind, Except.bind]
      rfl
    · simp only [Function.comp_apply, baTyped, filterSpecies, hnumber a ha, bind, Except.bind]
      rfl
  have hrow : ∀ c ∈ ids, ∀ {β : Type} (g : S → β), (ids.map g)[ids.idxOf c]? = some (g c) := by
    intro c hc β g
    have := List.idxOf_lt_length_of_mem hc
    rw [List.getElem?_map, List.getElem?_eq_getElem this]
    simp
  have hang : ∀ f, Spec.frameAngles (fun _ _ => r a b) (G f) = Spec.speciesAngles side (r a b) a b f := by
    intro f
    unfold Spec.speciesAngles
    conv_rhs => rw [← map_range_getD ((f.filter fun p => decide (p.1 = a)).map Prod.snd) 0, List.flatMap_map]
    rfl
  have hins : ∀ f ∈ x, ∀ (c : S), ∀ u ∈ (f.filter fun p => decide (p.1 = c)).map Prod.snd, ∀ i, -(side i / 2) ≤ u i ∧ u i < side i / 2 := by
    intro f hf c u hu
    exact h.inside (f.map Prod.snd) (List.mem_map_of_mem hf) u ((List.filter_sublist.map Prod.snd).subset hu)
  obtain ⟨grid, z, g1, g2, g3, g4⟩ := C70_values (rcut := ids.map fun a => ids.map (r a)) (rc := fun _ _ => r a b) (nsp := ids.length)
    hsk hd0 hd1 (x.map G)
    (by
      intro i hi
      exact ⟨_, by rw [List.getElem?_map, List.getElem?_eq_getElem hi]; rfl, by simp⟩)
    (by
      intro f' hf'
      rw [hev] at hf'
      obtain ⟨f, hf, rfl⟩ := List.mem_map.1 hf'
      refine ⟨by simp [hG], by simp [hG], h.side_pos, ?_, ?_⟩
      · intro u hu v hv c
        have a1 := hins f (hmem f hf) a u hu c
        have a2 := hins f (hmem f hf) b v hv c
        have a3 := h.side_pos c
        rw [abs_lt]
        constructor <;> show _ < _ <;> simp only [hG] <;> linarith
      · intro i hi
        obtain ⟨-, -, rfl⟩ := List.mem_map.1 hi
        refine ⟨_, hrow a ha _, ?_⟩
        intro j hj
        obtain ⟨-, -, rfl⟩ := List.mem_map.1 hj
        exact hrow b hb _)
    (by
      intro f' hf' k hk
      rw [hev] at hf'
      obtain ⟨f, hf, rfl⟩ := List.mem_map.1 hf'
      have hk' : (G f).pos0.getD k 0 ∈ (f.filter fun p => decide (p.1 = a)).map Prod.snd := by
        rw [List.getD_eq_getElem _ _ hk]
        exact List.getElem_mem hk
      obtain ⟨p, hp, hpe⟩ := List.mem_map.1 hk'
      obtain ⟨hp1, hp2⟩ := List.mem_filter.1 hp
      have := hbuf f hf p hp1 (by simpa using hp2)
      rw [hpe] at this
      refine le_trans (le_of_eq ?_) this
      unfold Spec.inRange Spec.speciesWithin
      conv_rhs => rw [← map_range_getD ((f.filter fun p => decide (p.1 = b)).map Prod.snd) 0, List.countP_map]
      rfl)
    (by
      rw [hev]
      obtain ⟨f, hf⟩ := List.exists_mem_of_ne_nil (Spec.everyNth skip.toNat x)
        (by rw [← originFrames_eq _ hsk]; exact originFrames_ne_nil hx0 hsk)
      refine ⟨G f, List.mem_map_of_mem hf, ?_⟩
      intro e
      exact hne f (hmem f hf) (List.map_eq_nil_iff.1 e))
  unfold baFiltered
  have hl : (grFrames side x).length = x.length := by simp [grFrames]
  have hn : ((grFrames side x).map fun s => s.particle.length) = x.map List.length := by
    simp [grFrames, Function.comp_def]
  simp only [bind, Except.bind, hl, hn, hskip, g1, hframes, hr]
  rw [hev, List.flatMap_map] at g4
  simp only [hang] at g4
  rw [g2]
  exact congrArg _ (Prod.ext g3 g4)

/-- **C233**: under the conditions of C232, with the same cut-offs `r`, and if no particle of any species has more than 50 particles of any
species, including itself, within the cut-off, the command ba gives a partial function for each ordered pair of species. Each of its
values is the fraction of the angles at particles of the first species between pairs of neighbours of the second species that are in the
bin, divided by its width, where angles from the last multiple of `dtheta` on are left out. -/
theorem C233_pairs {n : NOrigins} {bs : ℕ} {dtheta : ℝ} (hd0 : 0 < dtheta) (hd1 : dtheta ≤ 180) {side : Vec d ℝ}
    {x : List (List (S × Vec d ℝ))} {N : ℕ} {skip skip0 : ℤ} {M : ℝ}
    (h : GrInput (1 / 10) (-1) .none bs side (x.map fun f => f.map Prod.snd) N skip0 M)
    (hskip : adjustSkip x.length bs (x.map List.length) n = .ok skip) (huge : ℝ) (ids : List S)
    (hids : 1 < ids.length) (hnd : ids.Nodup) (num : S → ℕ)
    (hnum : ∀ a ∈ ids, 0 < num a ∧ ∀ f ∈ x, (f.filter fun p => decide (p.1 = a)).length = num a) (peak : S → S → ℕ)
    (hpeak : ∀ a ∈ ids, ∀ b ∈ ids, Spec.FirstMax M (Spec.speciesRatio side (1 / 10) num (Spec.everyNth skip0.toNat x) a b) (peak a b))
    (hrise : ∀ a ∈ ids, ∀ b ∈ ids, ∃ q : ℕ, peak a b < q ∧ ((q : ℝ) + 3 / 2) * (1 / 10) ≤ M ∧
      Spec.speciesRatio side (1 / 10) num (Spec.everyNth skip0.toNat x) a b q ≤
        Spec.speciesRatio side (1 / 10) num (Spec.everyNth skip0.toNat x) a b (q + 1)) :
    ∃ r : S → S → ℝ, (∀ a ∈ ids, ∀ b ∈ ids, r a b = r b a ∧ ∃ i : ℕ, r a b = ((i : ℝ) + 1 / 2) * (1 / 10) ∧ peak a b ≤ i ∧
        ((i : ℝ) + 3 / 2) * (1 / 10) ≤ M ∧
        Spec.speciesRatio side (1 / 10) num (Spec.everyNth skip0.toNat x) a b i ≤
          Spec.speciesRatio side (1 / 10) num (Spec.everyNth skip0.toNat x) a b (i + 1) ∧
        ∀ j, peak a b < j → j < i → Spec.speciesRatio side (1 / 10) num (Spec.everyNth skip0.toNat x) a b (j + 1) <
          Spec.speciesRatio side (1 / 10) num (Spec.everyNth skip0.toNat x) a b j) ∧
      ((∀ f ∈ Spec.everyNth skip.toNat x, ∀ p ∈ f, ∀ b ∈ ids, Spec.speciesWithin side (r p.1 b) p.2 b f ≤ 50) →
        ∀ uninit, ∃ D, baPartials dtheta n bs huge uninit false ids (grFrames side x) = .ok D ∧
          ∀ a ∈ ids, ∀ b ∈ ids, ∃ o, dictGet D (a, b) = .ok o ∧ o.res = some
            ((List.range ⌊180 / dtheta⌋₊).map fun i : ℕ => ((i : ℝ) + 1 / 2) * dtheta,
            (List.range ⌊180 / dtheta⌋₊).map fun i : ℕ =>
              if Spec.between 0 (⌊180 / dtheta⌋₊ * dtheta)
                ((Spec.everyNth skip.toNat x).flatMap (Spec.speciesAngles side (r a b) a b)) = 0 then none
              else some ((Spec.between (i * dtheta) ((i + 1) * dtheta)
                  ((Spec.everyNth skip.toNat x).flatMap (Spec.speciesAngles side (r a b) a b)) : ℝ) /
                (Spec.between 0 (⌊180 / dtheta⌋₊ * dtheta)
                  ((Spec.everyNth skip.toNat x).flatMap (Spec.speciesAngles side (r a b) a b)) * dtheta)))) := by
  obtain ⟨r, r1, r2⟩ := C232_cutoffs h huge ids hids hnd num hnum peak hpeak hrise
  refine ⟨r, r2, fun hbuf uninit => ?_⟩
  have hne : ∀ a ∈ ids, ∀ f ∈ x, (f.filter fun p => decide (p.1 = a)) ≠ [] := by
    intro a ha f hf e
    have h1 := (hnum a ha).2 f hf
    have h2 := (hnum a ha).1
    rw [e] at h1
    simp at h1
    omega
  have hrun : ∀ a ∈ ids, ∀ b ∈ ids, ∀ filters, (filters = [a, b] ∨ a = b ∧ filters = [a]) → _ :=
    fun a ha b hb filters hfil => baFiltered_pair hd0 hd1 h hskip (r1 (uninit filters)) ha hb (hne a ha) hfil
      (fun f hf p hp hpa => by rw [← hpa]; exact hbuf f hf p hp b hb)
  obtain ⟨D, hD, hDo⟩ := C61_two_body false ids hnd (fun filters _ => baFiltered dtheta n bs huge (uninit filters) ids (grFrames side x) filters)
    _ _ (fun a ha => hrun a ha a ha [a] (Or.inr ⟨rfl, rfl⟩)) (fun a ha b hb _ => hrun a ha b hb [a, b] (Or.inl rfl))
  refine ⟨D, ?_, ?_⟩
  · unfold baPartials
    rw [if_pos ⟨hids, rfl⟩]
    exact hD
  · intro a ha b hb
    obtain ⟨i, hi, rfl⟩ := List.getElem_of_mem ha
    obtain ⟨j, hj, rfl⟩ := List.getElem_of_mem hb
    obtain ⟨o, o1, -, o2, o3, o4, -⟩ := hDo i j hi hj
    refine ⟨o, o1, ?_⟩
    rcases lt_trichotomy i j with hij | hij | hij
    · rw [o3 hij]
    · subst hij
      rw [o2 rfl]
    · rw [o4 hij rfl]

/-- What the object without filters computes, given the cut-offs. -/
theorem baFiltered_total {n : NOrigins} {bs : ℕ} {dtheta : ℝ} (hd0 : 0 < dtheta) (hd1 : dtheta ≤ 180) {side : Vec d ℝ}
    {x : List (List (S × Vec d ℝ))} {N : ℕ} {skip skip0 : ℤ} {M : ℝ}
    (h : GrInput (1 / 10) (-1) .none bs side (x.map fun f => f.map Prod.snd) N skip0 M)
    (hskip : adjustSkip x.length bs (x.map List.length) n = .ok skip) {huge : ℝ} {uninit : S → S → ℝ} {ids : List S} {r : S → S → ℝ}
    (hr : baCutoffs bs huge uninit ids (grFrames side x) = .ok (ids.map fun a => ids.map (r a)))
    (hall : ∀ f ∈ x, ∀ p ∈ f, p.1 ∈ ids)
    (hbuf : ∀ f ∈ Spec.everyNth skip.toNat x, ∀ p ∈ f, Spec.mixtureWithin side r p f ≤ 50) :
    baFiltered dtheta n bs huge uninit ids (grFrames side x) [] = .ok
      ((List.range ⌊180 / dtheta⌋₊).map fun i : ℕ => ((i : ℝ) + 1 / 2) * dtheta,
      (List.range ⌊180 / dtheta⌋₊).map fun i : ℕ =>
        if Spec.between 0 (⌊180 / dtheta⌋₊ * dtheta) ((Spec.everyNth skip.toNat x).flatMap (Spec.mixtureAngles side r)) = 0
        then none
        else some ((Spec.between (i * dtheta) ((i + 1) * dtheta)
            ((Spec.everyNth skip.toNat x).flatMap (Spec.mixtureAngles side r)) : ℝ) /
          (Spec.between 0 (⌊180 / dtheta⌋₊ * dtheta)
            ((Spec.everyNth skip.toNat x).flatMap (Spec.mixtureAngles side r)) * dtheta))) := by
  classical
  set G : List (S × Vec d ℝ) → BaFrame d := fun f =>
    ⟨side, f.map Prod.snd, f.map fun p => ids.idxOf p.1, f.map Prod.snd, f.map fun p => ids.idxOf p.1⟩ with hG
  set rc : ℕ → ℕ → ℝ := fun i j => ((ids.map fun a => ids.map (r a)).getD i []).getD j 0 with hrc
  have hx0 : x ≠ [] := by
    rintro rfl
    exact h.frames rfl
  have hsk : 0 < skip.toNat := adjustSkip_pos (List.length_pos_iff.2 hx0) hskip
  have hev : Spec.everyNth skip.toNat (x.map G) = (Spec.everyNth skip.toNat x).map G := everyNth_map _ _ _
  have hmem : ∀ f ∈ Spec.everyNth skip.toNat x, f ∈ x := fun f hf => everyNth_mem hf
  have hframes : (grFrames side x).mapM (baTyped ids []) = .ok (x.map G) := by
    unfold grFrames
    rw [List.mapM_map]
    refine mapM_ok_map fun f hf => ?_
    have hnumber : f.mapM (fun p => speciesNumber ids p.1) = .ok (f.map fun p => ids.idxOf p.1) :=
      mapM_ok_map fun p hp => by rw [speciesNumber, if_pos (hall f hf p hp)]
    simp only [Function.comp_apply, baTyped, hnumber, bind, Except.bind]
    rfl
  have hrow : ∀ c ∈ ids, ∀ {β : Type} (g : S → β), (ids.map g)[ids.idxOf c]? = some (g c) := by
    intro c hc β g
    have := List.idxOf_lt_length_of_mem hc
    rw [List.getElem?_map, List.getElem?_eq_getElem this]
    simp
  have hrcv : ∀ a ∈ ids, ∀ b ∈ ids, rc (ids.idxOf a) (ids.idxOf b) = r a b := by
    intro a ha b hb
    simp only [hrc, List.getD_eq_getElem?_getD, hrow a ha, Option.getD_some, hrow b hb]
  have hid : ∀ (f : List (S × Vec d ℝ)) (j : ℕ) (hj : j < f.length), (f.map fun p => ids.idxOf p.1).getD j 0 = ids.idxOf f[j].1 := by
    intro f j hj
    rw [List.getD_eq_getElem _ _ (by simpa using hj), List.getElem_map]
  have hps : ∀ (f : List (S × Vec d ℝ)) (j : ℕ) (hj : j < f.length), (f.map Prod.snd).getD j 0 = f[j].2 := by
    intro f j hj
    rw [List.getD_eq_getElem _ _ (by simpa using hj), List.getElem_map]
  have hang : ∀ f ∈ x, Spec.frameAngles rc (G f) = Spec.mixtureAngles side r f := by
    intro f hf
    unfold Spec.mixtureAngles Spec.frameAngles
    have : ∀ g : S × Vec d ℝ → List ℝ, f.flatMap g = (List.range f.length).flatMap fun i => ((f[i]?).map g).getD [] := by
      intro g
      rw [List.flatMap_def, List.flatMap_def]
      congr 1
      apply List.ext_getElem
      · simp
      · intro i h1 h2
        simp at h1
        simp [h1]
    rw [this]
    rw [show (G f).pos0.length = f.length by simp [hG]]
    rw [List.flatMap_def, List.flatMap_def]
    congr 1
    apply List.map_congr_left
    intro i hi
    have hi' := List.mem_range.1 hi
    rw [List.getElem?_eq_getElem hi', Option.map_some, Option.getD_some]
    simp only [hG]
    rw [hps f i hi', hid f i hi']
    have hbond : Spec.bonded side f[i].2 (f.map Prod.snd) (fun j => (f.map fun p => ids.idxOf p.1).getD j 0) (rc (ids.idxOf f[i].1)) =
        Spec.bonded side f[i].2 (f.map Prod.snd) id (fun j => ((f[j]?).map fun q => r f[i].1 q.1).getD 0) := by
      unfold Spec.bonded
      apply List.filter_congr
      intro j hj
      have hj' : j < f.length := by simpa using hj
      beta_reduce
      rw [hid f j hj', hrcv _ (hall f hf _ (List.getElem_mem _)) _ (hall f hf _ (List.getElem_mem _))]
      simp [List.getElem?_eq_getElem hj']
    unfold Spec.bondAngles
    rw [hbond]
  obtain ⟨grid, z, g1, g2, g3, g4⟩ := C70_values (rcut := ids.map fun a => ids.map (r a)) (rc := rc) (nsp := ids.length)
    hsk hd0 hd1 (x.map G)
    (by
      intro i hi
      exact ⟨_, by rw [List.getElem?_map, List.getElem?_eq_getElem hi]; rfl, by simp⟩)
    (by
      intro f' hf'
      rw [hev] at hf'
      obtain ⟨f, hf, rfl⟩ := List.mem_map.1 hf'
      refine ⟨by simp [hG], by simp [hG], h.side_pos, ?_, ?_⟩
      · intro u hu v hv c
        have a1 := h.inside (f.map Prod.snd) (List.mem_map_of_mem (hmem f hf)) u hu c
        have a2 := h.inside (f.map Prod.snd) (List.mem_map_of_mem (hmem f hf)) v hv c
        have a3 := h.side_pos c
        rw [abs_lt]
        constructor <;> show _ < _ <;> simp only [hG] <;> linarith
      · intro i hi
        obtain ⟨p, hp, rfl⟩ := List.mem_map.1 hi
        refine ⟨_, hrow _ (hall f (hmem f hf) p hp) _, ?_⟩
        intro j hj
        obtain ⟨q, hq, rfl⟩ := List.mem_map.1 hj
        rw [hrcv _ (hall f (hmem f hf) p hp) _ (hall f (hmem f hf) q hq)]
        exact hrow _ (hall f (hmem f hf) q hq) _)
    (by
      intro f' hf' k hk
      rw [hev] at hf'
      obtain ⟨f, hf, rfl⟩ := List.mem_map.1 hf'
      have hk' : k < f.length := by simpa [hG] using hk
      refine le_trans (le_of_eq ?_) (hbuf f hf f[k] (List.getElem_mem _))
      unfold Spec.inRange Spec.mixtureWithin
      simp only [hG, List.length_map]
      rw [hid f k hk', hps f k hk']
      have e : f.countP (fun q => decide (Spec.Closer side (r f[k].1 q.1) f[k].2 q.2)) =
          (List.range f.length).countP fun j => ((f[j]?).map fun q => decide (Spec.Closer side (r f[k].1 q.1) f[k].2 q.2)).getD false := by
        have e' : f.map (fun q => decide (Spec.Closer side (r f[k].1 q.1) f[k].2 q.2)) =
            (List.range f.length).map fun j => ((f[j]?).map fun q => decide (Spec.Closer side (r f[k].1 q.1) f[k].2 q.2)).getD false := by
          apply List.ext_getElem
          · simp
          · intro i h1 h2
            simp at h1
            simp [h1]
        have := congrArg (List.countP id) e'
        rw [List.countP_map, List.countP_map] at this
        exact this
      rw [e]
      apply List.countP_congr
      intro j hj
      have hj' := List.mem_range.1 hj
      rw [hid f j hj', hps f j hj', hrcv _ (hall f (hmem f hf) _ (List.getElem_mem _)) _ (hall f (hmem f hf) _ (List.getElem_mem _)),
        List.getElem?_eq_getElem hj', Option.map_some, Option.getD_some])
    (by
      rw [hev]
      obtain ⟨f, hf⟩ := List.exists_mem_of_ne_nil (Spec.everyNth skip.toNat x)
        (by rw [← originFrames_eq _ hsk]; exact originFrames_ne_nil hx0 hsk)
      refine ⟨G f, List.mem_map_of_mem hf, ?_⟩
      intro e
      have h1 := h.number (f.map Prod.snd) (List.mem_map_of_mem (hmem f hf))
      rw [show f.map Prod.snd = [] from e] at h1
      have h2 := h.number_pos
      simp at h1
      omega)
  unfold baFiltered
  have hl : (grFrames side x).length = x.length := by simp [grFrames]
  have hn : ((grFrames side x).map fun s => s.particle.length) = x.map List.length := by
    simp [grFrames, Function.comp_def]
  simp only [bind, Except.bind, hl, hn, hskip, g1, hframes, hr]
  have hfl : ((Spec.everyNth skip.toNat x).map G).flatMap (Spec.frameAngles rc) =
      (Spec.everyNth skip.toNat x).flatMap (Spec.mixtureAngles side r) := by
    rw [List.flatMap_map, List.flatMap_def, List.flatMap_def]
    congr 1
    exact List.map_congr_left fun f hf => hang f (hmem f hf)
  rw [hev, hfl] at g4
  rw [g2]
  exact congrArg _ (Prod.ext g3 g4)

/-- **C233**: under the conditions of C232, with the same cut-offs `r`, if all the species are those of `ids` and no particle has more than
50 particles, including itself, within the cut-offs of its species and theirs, the function of the whole system is the distribution
of the angles at all the particles between pairs of neighbours, each of which is closer than the cut-off of the two species. -/
theorem C233_total {n : NOrigins} {bs : ℕ} {dtheta : ℝ} (hd0 : 0 < dtheta) (hd1 : dtheta ≤ 180) {side : Vec d ℝ}
    {x : List (List (S × Vec d ℝ))} {N : ℕ} {skip skip0 : ℤ} {M : ℝ}
    (h : GrInput (1 / 10) (-1) .none bs side (x.map fun f => f.map Prod.snd) N skip0 M)
    (hskip : adjustSkip x.length bs (x.map List.length) n = .ok skip) (huge : ℝ) (ids : List S)
    (hids : 1 < ids.length) (hnd : ids.Nodup) (hall : ∀ f ∈ x, ∀ p ∈ f, p.1 ∈ ids) (num : S → ℕ)
    (hnum : ∀ a ∈ ids, 0 < num a ∧ ∀ f ∈ x, (f.filter fun p => decide (p.1 = a)).length = num a) (peak : S → S → ℕ)
    (hpeak : ∀ a ∈ ids, ∀ b ∈ ids, Spec.FirstMax M (Spec.speciesRatio side (1 / 10) num (Spec.everyNth skip0.toNat x) a b) (peak a b))
    (hrise : ∀ a ∈ ids, ∀ b ∈ ids, ∃ q : ℕ, peak a b < q ∧ ((q : ℝ) + 3 / 2) * (1 / 10) ≤ M ∧
      Spec.speciesRatio side (1 / 10) num (Spec.everyNth skip0.toNat x) a b q ≤
        Spec.speciesRatio side (1 / 10) num (Spec.everyNth skip0.toNat x) a b (q + 1)) :
    ∃ r : S → S → ℝ, (∀ a ∈ ids, ∀ b ∈ ids, r a b = r b a ∧ ∃ i : ℕ, r a b = ((i : ℝ) + 1 / 2) * (1 / 10) ∧ peak a b ≤ i ∧
        ((i : ℝ) + 3 / 2) * (1 / 10) ≤ M ∧
        Spec.speciesRatio side (1 / 10) num (Spec.everyNth skip0.toNat x) a b i ≤
          Spec.speciesRatio side (1 / 10) num (Spec.everyNth skip0.toNat x) a b (i + 1) ∧
        ∀ j, peak a b < j → j < i → Spec.speciesRatio side (1 / 10) num (Spec.everyNth skip0.toNat x) a b (j + 1) <
          Spec.speciesRatio side (1 / 10) num (Spec.everyNth skip0.toNat x) a b j) ∧
      ((∀ f ∈ Spec.everyNth skip.toNat x, ∀ p ∈ f, Spec.mixtureWithin side r p f ≤ 50) →
        ∀ uninit, baFiltered dtheta n bs huge uninit ids (grFrames side x) [] = .ok
          ((List.range ⌊180 / dtheta⌋₊).map fun i : ℕ => ((i : ℝ) + 1 / 2) * dtheta,
          (List.range ⌊180 / dtheta⌋₊).map fun i : ℕ =>
            if Spec.between 0 (⌊180 / dtheta⌋₊ * dtheta) ((Spec.everyNth skip.toNat x).flatMap (Spec.mixtureAngles side r)) = 0
            then none
            else some ((Spec.between (i * dtheta) ((i + 1) * dtheta)
                ((Spec.everyNth skip.toNat x).flatMap (Spec.mixtureAngles side r)) : ℝ) /
              (Spec.between 0 (⌊180 / dtheta⌋₊ * dtheta)
                ((Spec.everyNth skip.toNat x).flatMap (Spec.mixtureAngles side r)) * dtheta)))) := by
  obtain ⟨r, r1, r2⟩ := C232_cutoffs h huge ids hids hnd num hnum peak hpeak hrise
  exact ⟨r, r2, fun hbuf uninit => baFiltered_total hd0 hd1 h hskip (r1 uninit) hall hbuf⟩

/-! ### Examples -/

/-- One particle of species A and one of species B at distance `δ`. -/
noncomputable def exTwoKinds (δ : ℝ) : List (Char × Vec 2 ℝ) := [('A', ![0, 0]), ('B', ![δ, 0])]

theorem exTwoKinds_pairs {δ : ℝ} {k : ℕ} (h1 : k * (1 / 10) ≤ δ) (h2 : δ < (k + 1) * (1 / 10)) (h3 : δ ≤ 3) (a b : Char) (j : ℕ) :
    Spec.speciesPairsBetween exGrSide (j * (1 / 10)) ((j + 1) * (1 / 10)) a b (exTwoKinds δ) =
      if j = k ∧ ('A' = a ∧ 'B' = b ∨ 'A' = b ∧ 'B' = a) then 1 else 0 := by
  have hpos : ∀ c, 0 < exGrSide c := by intro c; fin_cases c <;> simp [exGrSide]
  have hδ : 0 ≤ δ := le_trans (by positivity) h1
  have hd : ∀ r, Spec.ImageDist exGrSide ![0, 0] ![δ, 0] r ↔ r = δ := by
    intro r
    rw [imageDist_near hpos]
    · rw [Fin.sum_univ_two, show (![0, 0] : Vec 2 ℝ) 0 - (![δ, 0] : Vec 2 ℝ) 0 = -δ by simp,
        show (![0, 0] : Vec 2 ℝ) 1 - (![δ, 0] : Vec 2 ℝ) 1 = 0 by simp,
        show (-δ) ^ 2 + 0 ^ 2 = δ ^ 2 by ring, Real.sqrt_sq hδ]
    · intro c
      fin_cases c
      · simp [exGrSide, abs_of_nonneg hδ]; linarith
      · norm_num [exGrSide]
  have hj : (∃ r, Spec.ImageDist exGrSide ![0, 0] ![δ, 0] r ∧ (j : ℝ) * (1 / 10) ≤ r ∧ r < ((j : ℝ) + 1) * (1 / 10)) ↔ j = k := by
    constructor
    · rintro ⟨r, hr, g1, g2⟩
      rw [hd] at hr
      subst hr
      have a1 : (j : ℝ) < k + 1 := by linarith
      have a2 : (k : ℝ) < j + 1 := by linarith
      have a1' : j < k + 1 := by exact_mod_cast a1
      have a2' : k < j + 1 := by exact_mod_cast a2
      omega
    · rintro rfl
      exact ⟨δ, (hd _).2 rfl, h1, h2⟩
  unfold Spec.speciesPairsBetween Spec.selfPairs
  have hP : ∀ q : Fin (exTwoKinds δ).length × Fin (exTwoKinds δ).length, (q.1 < q.2 ∧
      (((exTwoKinds δ)[q.1].1 = a ∧ (exTwoKinds δ)[q.2].1 = b ∨ (exTwoKinds δ)[q.1].1 = b ∧ (exTwoKinds δ)[q.2].1 = a) ∧
      ∃ r, Spec.ImageDist exGrSide (exTwoKinds δ)[q.1].2 (exTwoKinds δ)[q.2].2 r ∧
      (j : ℝ) * (1 / 10) ≤ r ∧ r < ((j : ℝ) + 1) * (1 / 10))) ↔ (q.1 < q.2 ∧ (j = k ∧ ('A' = a ∧ 'B' = b ∨ 'A' = b ∧ 'B' = a))) := by
    rintro ⟨⟨m, hm⟩, ⟨n, hn⟩⟩
    refine and_congr_right fun hq => ?_
    have hm' : m < 2 := hm
    have hn' : n < 2 := hn
    have hmn : m < n := hq
    obtain rfl : m = 0 := by omega
    obtain rfl : n = 1 := by omega
    exact (and_congr_right fun _ => hj).trans and_comm
  simp only [hP]
  by_cases hc : j = k ∧ ('A' = a ∧ 'B' = b ∨ 'A' = b ∧ 'B' = a)
  · simp only [hc, and_true, if_true, true_and]
    have : (Finset.univ.filter fun q : Fin 2 × Fin 2 => q.1 < q.2).card = 1 := by decide
    convert this <;> rfl
  · simp [hc]

theorem exTwoKinds_ratio {δ : ℝ} {k : ℕ} (h1 : k * (1 / 10) ≤ δ) (h2 : δ < (k + 1) * (1 / 10)) (h3 : δ ≤ 3) (a b : Char) (j : ℕ) :
    (¬ (j = k ∧ ('A' = a ∧ 'B' = b ∨ 'A' = b ∧ 'B' = a)) → Spec.speciesRatio exGrSide (1 / 10) (fun _ => 1) [exTwoKinds δ] a b j = 0) ∧
    ((j = k ∧ ('A' = a ∧ 'B' = b ∨ 'A' = b ∧ 'B' = a)) →
      0 < Spec.speciesRatio exGrSide (1 / 10) (fun _ => 1) [exTwoKinds δ] a b j) := by
  unfold Spec.speciesRatio Spec.mean
  simp only [List.map_cons, List.map_nil, exTwoKinds_pairs h1 h2 h3]
  refine ⟨fun h => by simp [h], fun h => ?_⟩
  have hab : a ≠ b := by
    rintro rfl
    rcases h.2 with ⟨rfl, h⟩ | ⟨rfl, h⟩ <;> exact absurd h (by decide)
  have hv : ∏ c, exGrSide c = 48 := by
    rw [Fin.prod_univ_two]
    simp [exGrSide]
    norm_num
  have hb : ∀ r, Spec.ballVolume Real.pi 2 r = Real.pi * r ^ 2 := by
    intro r
    simp [Spec.ballVolume]
  have := Real.pi_pos
  rw [hv, hb, hb, if_pos h, if_neg hab]
  refine div_pos (by norm_num) (mul_pos (by norm_num) ?_)
  have : (0 : ℝ) ≤ j := by positivity
  nlinarith

theorem exTwoKindsInput {δ : ℝ} (h0 : 0 ≤ δ) (h3 : δ ≤ 3) :
    GrInput (1 / 10) (-1) .none 1 exGrSide ([exTwoKinds δ].map fun f => f.map Prod.snd) 2 1 3 := by
  have h0' : exGrSide 0 = 8 := by simp [exGrSide]
  have h01 : exGrSide 1 = 6 := by simp [exGrSide]
  refine ⟨Or.inl rfl, by norm_num, ?_, by simp, by simp [exTwoKinds], by norm_num, ?_, show adjustSkip 1 1 [2] .none = .ok 1 by decide +kernel, by norm_num, ?_,
    ⟨0, exGr_fits (by norm_num)⟩⟩
  · intro c
    fin_cases c <;> simp [exGrSide]
  · intro f hf u hu c
    simp only [List.map_cons, List.map_nil, List.mem_singleton] at hf
    subst hf
    simp only [exTwoKinds, List.map_cons, List.map_nil, List.mem_cons, List.not_mem_nil, or_false] at hu
    fin_cases c <;> rcases hu with rfl | rfl <;> norm_num [exGrSide] <;> constructor <;> linarith
  · intro _
    refine ⟨⟨1, by rw [h01]; norm_num⟩, fun c => ?_⟩
    fin_cases c
    · show 3 ≤ exGrSide 0 / 2
      rw [h0']; norm_num
    · show 3 ≤ exGrSide 1 / 2
      rw [h01]; norm_num

theorem exTwoKinds_peak {δ : ℝ} {k : ℕ} (h1 : k * (1 / 10) ≤ δ) (h2 : δ < (k + 1) * (1 / 10)) (h3 : δ ≤ 3) (hk : k < 30) :
    ∀ a ∈ ['A', 'B'], ∀ b ∈ ['A', 'B'], Spec.FirstMax 3 (Spec.speciesRatio exGrSide (1 / 10) (fun _ => 1) [exTwoKinds δ] a b)
      (if a = b then 0 else k) := by
  intro a ha b hb
  have hr := exTwoKinds_ratio h1 h2 h3 a b
  have hk' : (k : ℝ) ≤ 29 := by exact_mod_cast Nat.le_of_lt_succ hk
  by_cases hab : a = b
  · subst hab
    have hno : ¬ ('A' = a ∧ 'B' = a ∨ 'A' = a ∧ 'B' = a) := by rintro (⟨rfl, h⟩ | ⟨rfl, h⟩) <;> exact absurd h (by decide)
    rw [if_pos rfl]
    refine ⟨by norm_num, fun j _ => ?_, fun j hj => absurd hj (by omega)⟩
    rw [(hr j).1 (fun h => hno h.2), (hr 0).1 (fun h => hno h.2)]
  · have hyes : 'A' = a ∧ 'B' = b ∨ 'A' = b ∧ 'B' = a := by
      simp only [List.mem_cons, List.not_mem_nil, or_false] at ha hb
      rcases ha with rfl | rfl <;> rcases hb with rfl | rfl <;> simp at hab ⊢
    have hpos := (hr k).2 ⟨rfl, hyes⟩
    rw [if_neg hab]
    refine ⟨by linarith, fun j _ => ?_, fun j hj => ?_⟩
    · rcases eq_or_ne j k with rfl | hj
      · exact le_rfl
      · rw [(hr j).1 (fun h => hj h.1)]; exact hpos.le
    · rw [(hr j).1 (fun h => by omega)]
      exact hpos

/-- A non-trivial case: a particle of species A and one of species B at distance 1.05. The cut-off is 1.15 for A with B and for B with
A. -/
example (uninit : Char → Char → ℝ) : ∃ u v, baCutoffs 1 1000000 uninit ['A', 'B'] (grFrames exGrSide [exTwoKinds (21 / 20)]) =
    .ok [[u, 23 / 20], [23 / 20, v]] := by
  have hb1 : ((10 : ℕ) : ℝ) * (1 / 10) ≤ 21 / 20 := by norm_num
  have hb2 : (21 / 20 : ℝ) < ((10 : ℕ) + 1) * (1 / 10) := by norm_num
  have hr := exTwoKinds_ratio hb1 hb2 (by norm_num)
  have he : Spec.everyNth (Int.toNat 1) [exTwoKinds (21 / 20)] = [exTwoKinds (21 / 20)] := by simp [Spec.everyNth]
  obtain ⟨r, r1, r2⟩ := C232_cutoffs (exTwoKindsInput (δ := 21 / 20) (by norm_num) (by norm_num)) 1000000 ['A', 'B'] (by simp)
    (by simp) (fun _ => 1) (by simp [exTwoKinds]) (fun a b => if a = b then 0 else 10)
    (by rw [he]; exact exTwoKinds_peak hb1 hb2 (by norm_num) (by norm_num))
    (by
      intro a _ b _
      refine ⟨11, by split_ifs <;> norm_num, by norm_num, ?_⟩
      rw [he, (hr a b 11).1 (fun h => by omega), (hr a b 12).1 (fun h => by omega)])
  obtain ⟨s1, i, s2, s3, -, s4, s5⟩ := r2 'A' (by simp) 'B' (by simp)
  rw [he] at s4 s5
  simp only [show ('A' = 'B') = False by simp, if_false] at s3 s5
  have hi : i = 11 := by
    have n10 : i ≠ 10 := by
      rintro rfl
      rw [(hr _ _ 11).1 (fun h => by omega)] at s4
      have := (hr 'A' 'B' 10).2 ⟨rfl, Or.inl ⟨rfl, rfl⟩⟩
      linarith
    by_contra hc
    have := s5 11 (by omega) (by omega)
    rw [(hr _ _ 11).1 (fun h => by omega), (hr _ _ 12).1 (fun h => by omega)] at this
    exact lt_irrefl _ this
  have e : r 'A' 'B' = 23 / 20 := by rw [s2, hi]; norm_num
  refine ⟨r 'A' 'A', r 'B' 'B', ?_⟩
  rw [r1 uninit]
  simp [e, ← s1]

/-- There is no cut-off, not even for A with A, if the distance is 2.95, since the maximum of the g(r) of A with B is at its last
point. -/
example (uninit : Char → Char → ℝ) : baCutoffs 1 1000000 uninit ['A', 'B'] (grFrames exGrSide [exTwoKinds (59 / 20)]) =
    .error .indexError := by
  have hb1 : ((29 : ℕ) : ℝ) * (1 / 10) ≤ 59 / 20 := by norm_num
  have hb2 : (59 / 20 : ℝ) < ((29 : ℕ) + 1) * (1 / 10) := by norm_num
  have hr := exTwoKinds_ratio hb1 hb2 (by norm_num)
  have he : Spec.everyNth (Int.toNat 1) [exTwoKinds (59 / 20)] = [exTwoKinds (59 / 20)] := by simp [Spec.everyNth]
  have hlast : ∀ q : ℕ, 29 ≤ q → ¬ ((q : ℝ) + 3 / 2) * (1 / 10) ≤ 3 := by
    intro q hq hM
    have : (29 : ℝ) ≤ q := by exact_mod_cast hq
    linarith
  refine C232_no_minimum (exTwoKindsInput (δ := 59 / 20) (by norm_num) (by norm_num)) 1000000 uninit ['A', 'B'] (by simp)
    (by simp) (fun _ => 1) (by simp [exTwoKinds]) (fun a b => if a = b then 0 else 29)
    (by rw [he]; exact exTwoKinds_peak hb1 hb2 (by norm_num) (by norm_num)) ?_ (a := 'A') (b := 'B') (by simp) (by simp) ?_
  · intro a _ b _
    by_cases hab : a = b
    · left
      refine ⟨1, by simp [hab], by norm_num, ?_⟩
      rw [he, (hr a b 1).1 (fun h => by omega), (hr a b 2).1 (fun h => by omega)]
    · right
      intro q hq hM
      rw [if_neg hab] at hq
      exact absurd hM (hlast q hq)
  · intro q hq hM
    simp only [show ('A' = 'B') = False by simp, if_false] at hq
    exact absurd hM (hlast q hq)

/-- An equilateral triangle of one particle of species A and two of species B. -/
noncomputable def exKindsTriangle : List (Char × Vec 2 ℝ) :=
  [('A', ![0, 0]), ('B', ![21 / 20, 0]), ('B', ![21 / 40, 21 / 40 * √3])]

theorem exKindsTriangle_pairs (a b : Char) (j : ℕ) :
    Spec.speciesPairsBetween exGrSide (j * (1 / 10)) ((j + 1) * (1 / 10)) a b exKindsTriangle =
      if j = 10 then (Finset.univ.filter fun q : Fin 3 × Fin 3 => q.1 < q.2 ∧
        (['A', 'B', 'B'][q.1] = a ∧ ['A', 'B', 'B'][q.2] = b ∨ ['A', 'B', 'B'][q.1] = b ∧ ['A', 'B', 'B'][q.2] = a)).card else 0 := by
  have hsnd : ∀ k (hk : k < 3), (exKindsTriangle[k]'hk).2 = exTriangle[k]'hk := by
    intro k hk
    interval_cases k <;> rfl
  have hfst : ∀ k (hk : k < 3), (exKindsTriangle[k]'hk).1 = ['A', 'B', 'B'][k]'hk := by
    intro k hk
    interval_cases k <;> rfl
  have hP : ∀ q : Fin 3 × Fin 3, (q.1 < q.2 ∧
      (((exKindsTriangle[q.1.1]'q.1.2).1 = a ∧ (exKindsTriangle[q.2.1]'q.2.2).1 = b ∨
        (exKindsTriangle[q.1.1]'q.1.2).1 = b ∧ (exKindsTriangle[q.2.1]'q.2.2).1 = a) ∧
      ∃ r, Spec.ImageDist exGrSide (exKindsTriangle[q.1.1]'q.1.2).2 (exKindsTriangle[q.2.1]'q.2.2).2 r ∧
      (j : ℝ) * (1 / 10) ≤ r ∧ r < ((j : ℝ) + 1) * (1 / 10))) ↔ (q.1 < q.2 ∧
        (['A', 'B', 'B'][q.1] = a ∧ ['A', 'B', 'B'][q.2] = b ∨ ['A', 'B', 'B'][q.1] = b ∧ ['A', 'B', 'B'][q.2] = a)) ∧ j = 10 := by
    intro q
    rw [hsnd _ q.1.2, hsnd _ q.2.2, hfst _ q.1.2, hfst _ q.2.2, and_assoc]
    refine and_congr_right fun hq => and_congr Iff.rfl ?_
    constructor
    · rintro ⟨r, hr, h1, h2⟩
      have hr' := (exTriangle_dist q hq r).1 hr
      subst hr'
      have a1 : (j : ℝ) < 11 := by linarith
      have a2 : (9 : ℝ) < j := by linarith
      have a1' : j < 11 := by exact_mod_cast a1
      have a2' : 9 < j := by exact_mod_cast a2
      omega
    · rintro rfl
      exact ⟨21 / 20, (exTriangle_dist q hq _).2 rfl, by norm_num, by norm_num⟩
  unfold Spec.speciesPairsBetween Spec.selfPairs
  by_cases hj : j = 10
  · rw [if_pos hj]
    refine Finset.card_bij (fun q _ => q) ?_ (fun _ _ _ _ e => e) ?_
    · intro q hq
      exact Finset.mem_filter.2 ⟨Finset.mem_univ _, ((hP q).1 ((@Finset.mem_filter _ _ (_) _ _).1 hq).2).1⟩
    · intro q hq
      exact ⟨q, (@Finset.mem_filter _ _ (_) _ _).2 ⟨Finset.mem_univ _, (hP q).2 ⟨(Finset.mem_filter.1 hq).2, hj⟩⟩, rfl⟩
  · rw [if_neg hj]
    refine Finset.card_eq_zero.2 (Finset.eq_empty_of_forall_notMem fun q hq => ?_)
    exact hj ((hP q).1 ((@Finset.mem_filter _ _ (_) _ _).1 hq).2).2

theorem exKindsTriangle_ratio (a b : Char) (j : ℕ) :
    (j ≠ 10 ∨ a = 'A' ∧ b = 'A' → Spec.speciesRatio exGrSide (1 / 10) (fun c => ['A', 'B', 'B'].count c) [exKindsTriangle] a b j = 0) ∧
    (j = 10 ∧ a ∈ ['A', 'B'] ∧ b ∈ ['A', 'B'] ∧ ¬ (a = 'A' ∧ b = 'A') →
      0 < Spec.speciesRatio exGrSide (1 / 10) (fun c => ['A', 'B', 'B'].count c) [exKindsTriangle] a b j) := by
  unfold Spec.speciesRatio Spec.mean
  simp only [List.map_cons, List.map_nil, exKindsTriangle_pairs]
  refine ⟨?_, ?_⟩
  · rintro (h | ⟨rfl, rfl⟩)
    · simp [h]
    · rw [show (Finset.univ.filter fun q : Fin 3 × Fin 3 => q.1 < q.2 ∧ (['A', 'B', 'B'][q.1] = 'A' ∧ ['A', 'B', 'B'][q.2] = 'A' ∨
        ['A', 'B', 'B'][q.1] = 'A' ∧ ['A', 'B', 'B'][q.2] = 'A')).card = 0 by decide]
      simp
  · rintro ⟨rfl, ha, hb, hab⟩
    have hv : ∏ c, exGrSide c = 48 := by
      rw [Fin.prod_univ_two]
      simp [exGrSide]
      norm_num
    have hbv : ∀ r, Spec.ballVolume Real.pi 2 r = Real.pi * r ^ 2 := by
      intro r
      simp [Spec.ballVolume]
    have := Real.pi_pos
    have hs : (0 : ℝ) < Real.pi * (((10 : ℕ) + 1) * (1 / 10)) ^ 2 - Real.pi * ((10 : ℕ) * (1 / 10)) ^ 2 := by
      push_cast
      nlinarith
    have hcard : 0 < (Finset.univ.filter fun q : Fin 3 × Fin 3 => q.1 < q.2 ∧ (['A', 'B', 'B'][q.1] = a ∧ ['A', 'B', 'B'][q.2] = b ∨
        ['A', 'B', 'B'][q.1] = b ∧ ['A', 'B', 'B'][q.2] = a)).card := by
      simp only [List.mem_cons, List.not_mem_nil, or_false] at ha hb
      rcases ha with rfl | rfl <;> rcases hb with rfl | rfl
      · exact absurd ⟨rfl, rfl⟩ hab
      all_goals decide
    have hn : ∀ c ∈ ['A', 'B'], (0 : ℝ) < (['A', 'B', 'B'].count c : ℕ) := by
      intro c hc
      simp only [List.mem_cons, List.not_mem_nil, or_false] at hc
      rcases hc with rfl | rfl <;> exact_mod_cast (by decide)
    have h1 := hn a ha
    have h2 := hn b hb
    have h3 : (0 : ℝ) < if a = b then 1 / 2 else 1 := by split_ifs <;> norm_num
    have h4 : (0 : ℝ) < (Finset.univ.filter fun q : Fin 3 × Fin 3 => q.1 < q.2 ∧ (['A', 'B', 'B'][q.1] = a ∧ ['A', 'B', 'B'][q.2] = b ∨
        ['A', 'B', 'B'][q.1] = b ∧ ['A', 'B', 'B'][q.2] = a)).card := by exact_mod_cast hcard
    rw [hv, hbv, hbv, if_pos rfl]
    refine div_pos ?_ (mul_pos (mul_pos (mul_pos h3 h1) (div_pos h2 (by norm_num))) hs)
    simpa using hcard

theorem exKindsTriangleInput : GrInput (1 / 10) (-1) .none 1 exGrSide ([exKindsTriangle].map fun f => f.map Prod.snd) 3 1 3 :=
  exBaInput.gr

theorem exKindsTriangle_peak : ∀ a ∈ ['A', 'B'], ∀ b ∈ ['A', 'B'], Spec.FirstMax 3
    (Spec.speciesRatio exGrSide (1 / 10) (fun c => ['A', 'B', 'B'].count c) (Spec.everyNth (Int.toNat 1) [exKindsTriangle]) a b)
    ((fun a b => if a = 'A' ∧ b = 'A' then 0 else 10) a b) := by
  have hr := exKindsTriangle_ratio
  have he : Spec.everyNth (Int.toNat 1) [exKindsTriangle] = [exKindsTriangle] := by simp [Spec.everyNth]
  intro a ha b hb
  rw [he]
  by_cases hab : a = 'A' ∧ b = 'A'
  · simp only [if_pos hab]
    refine ⟨by norm_num, fun j _ => ?_, fun j hj => absurd hj (by omega)⟩
    rw [(hr a b j).1 (Or.inr hab), (hr a b 0).1 (Or.inr hab)]
  · have hpos := (hr a b 10).2 ⟨rfl, ha, hb, hab⟩
    simp only [if_neg hab]
    refine ⟨by norm_num, fun j _ => ?_, fun j hj => ?_⟩
    · rcases eq_or_ne j 10 with rfl | hj
      · exact le_rfl
      · rw [(hr a b j).1 (Or.inl hj)]; exact hpos.le
    · rw [(hr a b j).1 (Or.inl (by omega))]
      exact hpos

theorem exKindsTriangle_rise : ∀ a ∈ ['A', 'B'], ∀ b ∈ ['A', 'B'], ∃ q : ℕ, (fun a b => if a = 'A' ∧ b = 'A' then 0 else 10) a b < q ∧
    ((q : ℝ) + 3 / 2) * (1 / 10) ≤ 3 ∧
      Spec.speciesRatio exGrSide (1 / 10) (fun c => ['A', 'B', 'B'].count c) (Spec.everyNth (Int.toNat 1) [exKindsTriangle]) a b q ≤
        Spec.speciesRatio exGrSide (1 / 10) (fun c => ['A', 'B', 'B'].count c) (Spec.everyNth (Int.toNat 1) [exKindsTriangle]) a b (q + 1) := by
  have hr := exKindsTriangle_ratio
  have he : Spec.everyNth (Int.toNat 1) [exKindsTriangle] = [exKindsTriangle] := by simp [Spec.everyNth]
  intro a _ b _
  refine ⟨11, by beta_reduce; split_ifs <;> norm_num, by norm_num, ?_⟩
  rw [he, (hr a b 11).1 (Or.inl (by omega)), (hr a b 12).1 (Or.inl (by omega))]

/-- A non-trivial case: an equilateral triangle of side 1.05 with one particle of species A and two of species B. The cut-off of A with B
is 1.15, and the value at 62 degrees of the partial function of A with B is that of the angles at A between particles of species B. -/
example (uninit : List Char → Char → Char → ℝ) :
    ∃ D, baPartials 4 .none 1 1000000 uninit false ['A', 'B'] (grFrames exGrSide [exKindsTriangle]) = .ok D ∧
      ∃ o grid value, dictGet D ('A', 'B') = .ok o ∧ o.res = some (grid, value) ∧ value.getD 15 none =
        (if Spec.between 0 180 (Spec.speciesAngles exGrSide (23 / 20) 'A' 'B' exKindsTriangle) = 0 then none
        else some ((Spec.between 60 64 (Spec.speciesAngles exGrSide (23 / 20) 'A' 'B' exKindsTriangle) : ℝ) /
          (Spec.between 0 180 (Spec.speciesAngles exGrSide (23 / 20) 'A' 'B' exKindsTriangle) * 4))) := by
  have hr := exKindsTriangle_ratio
  have he : Spec.everyNth (Int.toNat 1) [exKindsTriangle] = [exKindsTriangle] := by simp [Spec.everyNth]
  obtain ⟨r, r1, r2⟩ := C233_pairs (n := .none) (dtheta := 4) (by norm_num) (by norm_num) exKindsTriangleInput (skip := 1)
    (show adjustSkip 1 1 [3] .none = .ok 1 by decide +kernel) 1000000 ['A', 'B'] (by simp) (by simp) (fun c => ['A', 'B', 'B'].count c)
    (by simp [exKindsTriangle]) (fun a b => if a = 'A' ∧ b = 'A' then 0 else 10)
    exKindsTriangle_peak exKindsTriangle_rise
  obtain ⟨-, i, s2, s3, -, s4, s5⟩ := r1 'A' (by simp) 'B' (by simp)
  rw [he] at s4 s5
  simp only [show ('B' = 'A') = False by simp, and_false, if_false] at s3 s5
  have hi : i = 11 := by
    have n10 : i ≠ 10 := by
      rintro rfl
      rw [(hr _ _ 11).1 (Or.inl (by omega))] at s4
      have := (hr 'A' 'B' 10).2 ⟨rfl, by simp, by simp, by simp⟩
      linarith
    by_contra hc
    have := s5 11 (by omega) (by omega)
    rw [(hr _ _ 11).1 (Or.inl (by omega)), (hr _ _ 12).1 (Or.inl (by omega))] at this
    exact lt_irrefl _ this
  have e : r 'A' 'B' = 23 / 20 := by rw [s2, hi]; norm_num
  obtain ⟨D, d1, d2⟩ := r2 (by
    intro f hf p _ b _
    rw [he, List.mem_singleton] at hf
    subst hf
    refine le_trans List.countP_le_length ?_
    rw [List.length_map]
    exact le_trans (List.length_filter_le _ _) (by simp [exKindsTriangle])) uninit
  obtain ⟨o, o1, o2⟩ := d2 'A' (by simp) 'B' (by simp)
  refine ⟨D, d1, o, _, _, o1, o2, ?_⟩
  have h45 : ⌊(180 : ℝ) / 4⌋₊ = 45 := by norm_num
  rw [h45, he, e]
  simp only [List.flatMap_cons, List.flatMap_nil, List.append_nil]
  rw [List.getD_eq_getElem _ _ (by simp)]
  simp only [List.getElem_map, List.getElem_range]
  norm_num

/-- In the same case, the function of the whole system is computed too, with no more than 3 particles within the cut-off of any of them. -/
example (uninit : Char → Char → ℝ) : ∃ r : Char → Char → ℝ, r 'A' 'B' = r 'B' 'A' ∧ ∃ grid value,
    baFiltered 4 .none 1 1000000 uninit ['A', 'B'] (grFrames exGrSide [exKindsTriangle]) [] = .ok (grid, value) ∧ value.getD 15 none =
        (if Spec.between 0 180 (Spec.mixtureAngles exGrSide r exKindsTriangle) = 0 then none
        else some ((Spec.between 60 64 (Spec.mixtureAngles exGrSide r exKindsTriangle) : ℝ) /
          (Spec.between 0 180 (Spec.mixtureAngles exGrSide r exKindsTriangle) * 4))) := by
  have he : Spec.everyNth (Int.toNat 1) [exKindsTriangle] = [exKindsTriangle] := by simp [Spec.everyNth]
  obtain ⟨r, r1, r2⟩ := C233_total (n := .none) (dtheta := 4) (by norm_num) (by norm_num) exKindsTriangleInput (skip := 1)
    (show adjustSkip 1 1 [3] .none = .ok 1 by decide +kernel) 1000000 ['A', 'B'] (by simp) (by simp) (by simp [exKindsTriangle]; tauto)
    (fun c => ['A', 'B', 'B'].count c) (by simp [exKindsTriangle]) (fun a b => if a = 'A' ∧ b = 'A' then 0 else 10)
    exKindsTriangle_peak exKindsTriangle_rise
  refine ⟨r, (r1 'A' (by simp) 'B' (by simp)).1, _, _, r2 ?_ uninit, ?_⟩
  · intro f hf p _
    rw [he, List.mem_singleton] at hf
    subst hf
    exact le_trans List.countP_le_length (by simp [exKindsTriangle])
  · have h45 : ⌊(180 : ℝ) / 4⌋₊ = 45 := by norm_num
    rw [h45, he]
    simp only [List.flatMap_cons, List.flatMap_nil, List.append_nil]
    rw [List.getD_eq_getElem _ _ (by simp)]
    simp only [List.getElem_map, List.getElem_range]
    norm_num

/-- With the option `no_partial` no partial function is computed. -/
example (uninit : List Char → Char → Char → ℝ) (fr : List (System (Char × Vec 2 ℝ) (CellInfo 2 ℝ))) :
    baPartials 4 .none 1 1000000 uninit true ['A', 'B'] fr = .ok [] := if_neg (by simp)

end PP.Props
