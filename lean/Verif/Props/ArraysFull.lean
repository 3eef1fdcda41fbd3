import Verif.Props.Arrays

/-!
# C104: all arrays, for any number of filters
-/

set_option linter.unusedSectionVars false

namespace PP.Props
open PP

variable {d : ℕ} {S K Y : Type} [Field K] [DecidableEq S]

/-- All the species appear in the first frame. -/
def _root_.PP.Spec.SpeciesInFirst (s0 : ASys d S K Y) (traj : List (ASys d S K Y)) : Prop :=
  ∀ s ∈ s0 :: traj, ∀ p ∈ s.particle, ∃ p0 ∈ s0.particle, p0.species = p.species

/-- The entries of `ids` are the positions, in the list `names`, of the species of the particles of the groups `g`. -/
def _root_.PP.Spec.IdsOf (names : List S) (ids : List (List ℕ)) (g : List (ASys d S K Y)) : Prop :=
  ids.map (fun l => l.map fun i => names[i]?) = g.map fun s => s.particle.map fun p => some p.species

theorem dumpAllIds_ok (distinct : List S → List S) (hdist : ∀ l a, a ∈ distinct l ↔ a ∈ l) (ps : List PhaseVar)
    (s0 : ASys d S K Y) (traj : List (ASys d S K Y)) (c : ASys d S K Y → ASys d S K Y)
    (hsub : .ids ∈ ps → ∀ s, ∀ p ∈ (c s).particle, p ∈ s.particle)
    (hspc : .ids ∈ ps → Spec.SpeciesInFirst s0 traj) :
    ∃ r, dumpAllIds ps (distinct (s0.particle.map APart.species)) ((s0 :: traj).map c) = .ok r ∧
      (.ids ∈ ps → Spec.IdsOf (distinct (s0.particle.map APart.species)) r ((s0 :: traj).map c)) := by
  unfold dumpAllIds
  by_cases h : PhaseVar.ids ∈ ps
  · rw [if_pos h]
    obtain ⟨r, h1, h2⟩ := mapM_dumpIds (names := distinct (s0.particle.map APart.species)) (s0 :: traj) c (by
      intro s hs p hp
      obtain ⟨p0, hp0, he⟩ := hspc h s hs p (hsub h s p hp)
      rw [hdist, ← he]
      exact List.mem_map_of_mem hp0)
    refine ⟨r, h1, fun _ => ?_⟩
    unfold Spec.IdsOf
    rw [h2, List.map_map]
    rfl
  · rw [if_neg h]
    exact ⟨[], rfl, fun h' => absurd h' h⟩

theorem firstFilter_sub {cbk : List (ASys d S K Y → ASys d S K Y)}
    (h : ∀ c ∈ cbk, ∀ s, ∀ p ∈ (c s).particle, p ∈ s.particle) (s : ASys d S K Y) :
    ∀ p ∈ (firstFilter cbk s).particle, p ∈ s.particle := by
  cases cbk with
  | nil => exact fun p hp => hp
  | cons c r => exact h c (by simp) s

/-- **C104.** The folded positions, velocities and species requested by a function with at most one filter: one array per
frame, of the particles selected by the filter; for two-body functions the two groups are the same. -/
theorem C104_one_filter_partial (distinct : List S → List S) (hdist : ∀ l a, a ∈ distinct l ↔ a ∈ l)
    (dec : Decorators d S K Y) (o : ArrObj d S K Y) (s0 : ASys d S K Y) (traj : List (ASys d S K Y))
    (ho : Spec.FreshArrays o) (hn : o.nbodies = 1 ∨ o.nbodies = 2) (hc : o.cbk.length ≤ 1)
    (hcm : o.fixCm = false) (hunf : .posUnf ∉ o.phasespace)
    (hsub : .ids ∈ o.phasespace → ∀ c ∈ o.cbk, ∀ s, ∀ p ∈ (c s).particle, p ∈ s.particle)
    (hspc : .ids ∈ o.phasespace → Spec.SpeciesInFirst s0 traj) :
    ∃ o', setupArrays distinct dec (s0 :: traj) o = .ok o' ∧
      (let g := (s0 :: traj).map (firstFilter o.cbk)
       let names := distinct (s0.particle.map APart.species)
       (o.nbodies = 1 →
        (.pos ∈ o.phasespace → o'.pos = g.map fun s => s.particle.map APart.pos) ∧
        (.vel ∈ o.phasespace → o'.vel = g.map fun s => s.particle.map APart.vel) ∧
        (.ids ∈ o.phasespace → Spec.IdsOf names o'.ids g)) ∧
       (o.nbodies = 2 →
        (.pos ∈ o.phasespace → o'.pos0 = (g.map fun s => s.particle.map APart.pos) ∧
          o'.pos1 = g.map fun s => s.particle.map APart.pos) ∧
        (.vel ∈ o.phasespace → o'.vel0 = (g.map fun s => s.particle.map APart.vel) ∧
          o'.vel1 = g.map fun s => s.particle.map APart.vel) ∧
        (.ids ∈ o.phasespace → Spec.IdsOf names o'.ids0 g ∧ Spec.IdsOf names o'.ids1 g))) := by
  obtain ⟨r, hr, hids⟩ := dumpAllIds_ok distinct hdist o.phasespace s0 traj (firstFilter o.cbk)
    (fun h => firstFilter_sub (hsub h)) hspc
  have hone : ∃ o1, setupOnebody distinct dec (s0 :: traj) o = .ok o1 ∧
      (.pos ∈ o.phasespace → o1.pos = ((s0 :: traj).map (firstFilter o.cbk)).map fun s => s.particle.map APart.pos) ∧
      (.vel ∈ o.phasespace → o1.vel = ((s0 :: traj).map (firstFilter o.cbk)).map fun s => s.particle.map APart.vel) ∧
      (.ids ∈ o.phasespace → o1.ids = r) := by
    unfold setupOnebody chooseTraj unfoldedMissing
    simp only [if_neg hunf, hcm, bind, Except.bind, pure, Except.pure, Bool.false_eq_true, and_false, or_self, if_false]
    unfold readFolded
    by_cases h : PhaseVar.pos ∈ o.phasespace ∨ PhaseVar.vel ∈ o.phasespace ∨ PhaseVar.ids ∈ o.phasespace
    · have hg : pyGet (s0 :: traj) 0 = .ok s0 := rfl
      simp only [if_pos h, hg, bind, Except.bind, pure, Except.pure, hr, readUnfolded, if_neg hunf]
      refine ⟨_, rfl, ?_, ?_, ?_⟩
      · intro h'; simp only [if_pos h', ho.pos, List.nil_append]; rfl
      · intro h'; simp only [if_pos h', ho.vel, List.nil_append]; rfl
      · intro _; simp only [ho.ids, List.nil_append]
    · simp only [if_neg h, readUnfolded, if_neg hunf]
      push Not at h
      exact ⟨_, rfl, fun h' => absurd h' h.1, fun h' => absurd h' h.2.1, fun h' => absurd h' h.2.2⟩
  obtain ⟨o1, h1, hp, hv, hi⟩ := hone
  rcases hn with hn | hn
  · refine ⟨o1, by unfold setupArrays; rw [if_pos hn, h1], ?_⟩
    refine ⟨fun _ => ⟨hp, hv, fun h => by rw [hi h]; exact hids h⟩, fun h => absurd h (by omega)⟩
  · have h2 : setupTwobody distinct dec (s0 :: traj) o = .ok { o1 with
        pos0 := o1.pos, pos1 := o1.pos, vel0 := o1.vel, vel1 := o1.vel, ids0 := o1.ids, ids1 := o1.ids } := by
      unfold setupTwobody
      rw [h1]
      match hcb : o.cbk, hc with
      | [], _ => rfl
      | [c], _ => rfl
      | c :: c' :: r, h => simp at h
    refine ⟨_, by unfold setupArrays; rw [if_neg (by omega), if_pos hn, h2], ?_⟩
    refine ⟨fun h => absurd h (by omega), fun _ => ⟨fun h => ⟨hp h, hp h⟩, fun h => ⟨hv h, hv h⟩, fun h => ?_⟩⟩
    simp only [hi h]
    exact ⟨hids h, hids h⟩

/-- **C104.** All arrays of a two-body function with two filters: one per frame and group, of the particles selected by
the filter of the group; the unfolded positions are those of the unfolded trajectory. -/
theorem C104_two_filters_partial (distinct : List S → List S) (hdist : ∀ l a, a ∈ distinct l ↔ a ∈ l)
    (dec : Decorators d S K Y) (o : ArrObj d S K Y) (s0 : ASys d S K Y) (traj : List (ASys d S K Y))
    (c0 c1 : ASys d S K Y → ASys d S K Y) (hn : o.nbodies = 2) (hc : o.cbk = [c0, c1])
    (hp0 : o.pos0 = []) (hp1 : o.pos1 = []) (hv0 : o.vel0 = []) (hv1 : o.vel1 = []) (hi0 : o.ids0 = [])
    (hi1 : o.ids1 = []) (hu0 : o.posUnf0 = []) (hu1 : o.posUnf1 = [])
    (hsub : .ids ∈ o.phasespace → ∀ c ∈ o.cbk, ∀ s, ∀ p ∈ (c s).particle, p ∈ s.particle)
    (hspc : .ids ∈ o.phasespace → Spec.SpeciesInFirst s0 traj) :
    ∃ o', setupArrays distinct dec (s0 :: traj) o = .ok o' ∧
      (let names := distinct (s0.particle.map APart.species)
       (.pos ∈ o.phasespace → o'.pos0 = ((s0 :: traj).map fun s => (c0 s).particle.map APart.pos) ∧
          o'.pos1 = (s0 :: traj).map fun s => (c1 s).particle.map APart.pos) ∧
       (.vel ∈ o.phasespace → o'.vel0 = ((s0 :: traj).map fun s => (c0 s).particle.map APart.vel) ∧
          o'.vel1 = (s0 :: traj).map fun s => (c1 s).particle.map APart.vel) ∧
       (.ids ∈ o.phasespace → Spec.IdsOf names o'.ids0 ((s0 :: traj).map c0) ∧
          Spec.IdsOf names o'.ids1 ((s0 :: traj).map c1)) ∧
       (.posUnf ∈ o.phasespace →
          o'.posUnf0 = ((dec.unfolded false (s0 :: traj)).map fun s => (c0 s).particle.map APart.pos) ∧
          o'.posUnf1 = (dec.unfolded false (s0 :: traj)).map fun s => (c1 s).particle.map APart.pos)) := by
  obtain ⟨r0, hr0, hids0⟩ := dumpAllIds_ok distinct hdist o.phasespace s0 traj c0
    (fun h => hsub h c0 (by simp [hc])) hspc
  obtain ⟨r1, hr1, hids1⟩ := dumpAllIds_ok distinct hdist o.phasespace s0 traj c1
    (fun h => hsub h c1 (by simp [hc])) hspc
  have hg : pyGet (s0 :: traj) 0 = .ok s0 := rfl
  have key : setupArrays distinct dec (s0 :: traj) o = readTwo distinct dec c0 c1 (s0 :: traj) o := by
    unfold setupArrays setupTwobody
    rw [if_neg (by omega), if_pos hn, hc]
  rw [key]
  unfold readTwo
  by_cases h : PhaseVar.pos ∈ o.phasespace ∨ PhaseVar.vel ∈ o.phasespace ∨ PhaseVar.ids ∈ o.phasespace
  · simp only [if_pos h, hg, bind, Except.bind, pure, Except.pure, hr0, hr1]
    by_cases hu : PhaseVar.posUnf ∈ o.phasespace
    · simp only [if_pos hu]
      refine ⟨_, rfl, fun h' => ?_, fun h' => ?_, fun h' => ?_, fun h' => ?_⟩
      · simp only [if_pos h', hp0, hp1, List.nil_append]; exact ⟨rfl, rfl⟩
      · simp only [if_pos h', hv0, hv1, List.nil_append]; exact ⟨rfl, rfl⟩
      · simp only [hi0, hi1, List.nil_append]; exact ⟨hids0 h', hids1 h'⟩
      · simp only [hu0, hu1, List.nil_append]; exact ⟨rfl, rfl⟩
    · simp only [if_neg hu]
      refine ⟨_, rfl, fun h' => ?_, fun h' => ?_, fun h' => ?_, fun h' => absurd h' hu⟩
      · simp only [if_pos h', hp0, hp1, List.nil_append]; exact ⟨rfl, rfl⟩
      · simp only [if_pos h', hv0, hv1, List.nil_append]; exact ⟨rfl, rfl⟩
      · simp only [hi0, hi1, List.nil_append]; exact ⟨hids0 h', hids1 h'⟩
  · simp only [if_neg h, bind, Except.bind, pure, Except.pure]
    push Not at h
    by_cases hu : PhaseVar.posUnf ∈ o.phasespace
    · simp only [if_pos hu]
      refine ⟨_, rfl, fun h' => absurd h' h.1, fun h' => absurd h' h.2.1, fun h' => absurd h' h.2.2, fun h' => ?_⟩
      simp only [hu0, hu1, List.nil_append]; exact ⟨rfl, rfl⟩
    · simp only [if_neg hu]
      exact ⟨_, rfl, fun h' => absurd h' h.1, fun h' => absurd h' h.2.1, fun h' => absurd h' h.2.2,
        fun h' => absurd h' hu⟩

/-- All variables of two groups, and those of one group of a two-body function. -/
example (o : ArrObj 1 ℕ ℚ Unit) (ho : o = { pairExample false with phasespace := [.pos, .vel, .ids, .posUnf] }) :
    (∃ o', setupArrays (fun l => l.dedup) decExample driftExample o = .ok o' ∧ table o'.pos1 = [[2], [4]] ∧
      o'.ids0 = [[0], [0]] ∧ o'.ids1 = [[1], [1]]) ∧
    ∃ o', setupArrays (fun l => l.dedup) decExample driftExample { o with cbk := [], phasespace := [.pos, .ids] } = .ok o' ∧
      table o'.pos1 = [[0, 2], [1, 4]] ∧ o'.ids1 = [[0, 1], [0, 1]] ∧
      Spec.IdsOf [1, 2] o'.ids1 driftExample := by
  subst ho
  refine ⟨⟨_, rfl, by decide +kernel, by decide +kernel, by decide +kernel⟩, ?_⟩
  exact ⟨_, rfl, by decide +kernel, by decide +kernel, by unfold Spec.IdsOf; decide +kernel⟩

example : ∃ o', setupArrays (fun l => l.dedup) decExample driftExample (pairExample false) = .ok o' ∧
    o'.pos0 = (driftExample.map fun s => (s.particle.filter fun p => p.species = 1).map APart.pos) := by
  obtain ⟨o', h1, h2, -⟩ := C104_two_filters_partial (fun l => l.dedup) (by simp) decExample (pairExample false)
    ⟨[⟨![0], some ![0], ![1], 1, 1⟩, ⟨![2], some ![2], ![1], 2, 3⟩], ()⟩
    [⟨[⟨![1], some ![1], ![1], 1, 1⟩, ⟨![4], some ![14], ![1], 2, 3⟩], ()⟩] _ _ rfl rfl rfl rfl rfl rfl rfl rfl rfl rfl (fun h => absurd h (by decide))
    (fun h => absurd h (by decide))
  exact ⟨o', h1, (h2 (by decide)).1⟩

end PP.Props
