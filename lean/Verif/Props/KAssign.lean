import Verif.Props.KObject
import Verif.Props.GrOpen

/-!
# C147: a k grid assigned to an object that has its wave-vectors
-/

set_option linter.unusedSectionVars false

namespace PP.Props
open PP

variable {d : ℕ}

theorem skStep_setKgrid (o : SkChoices d) (fr : List (CellFrame d)) (g : List ℝ) (st : List SkAcc × KAttrs d ℝ) (i : ℕ) :
    skStep o fr false (st.1, st.2.setKgrid g) i = (skStep o fr false st i).map fun s => (s.1, s.2.setKgrid g) := by
  unfold skStep
  cases pyGet fr i with
  | error e => rfl
  | ok f =>
    simp only [bind, Except.bind, Bool.false_eq_true, if_false]
    unfold KAttrs.read KAttrs.setKgrid
    simp only
    cases (List.finRange d).mapM fun j : Fin d => pyGet st.2.k0 (j : ℕ) with
    | error e => rfl
    | ok x =>
      simp only [bind, Except.bind, pure, Except.pure]
      unfold skFrame secondTable
      simp only
      split <;> rfl

open Classical in
/-- **C147** is false: the k grid returned is the one last assigned to `kgrid`, whatever the wave-vectors, also in a cell
that changes. -/
theorem C147_counterexample_returned (o : SkChoices d) (fr : List (CellFrame d)) (a : KAttrs d ℝ) (g : List ℝ)
    {r : List ℝ × List ℝ × KAttrs d ℝ} (h : skComputeA o fr (a.setKgrid g) = .ok r) : r.1 = g := by
  unfold skComputeA at h
  obtain ⟨f0, -, h⟩ := bind_ok_iff.1 h
  rw [setup_returns (a := a.setKgrid g) rfl] at h
  obtain ⟨a', h1, h⟩ := bind_ok_iff.1 h
  cases h1
  obtain ⟨vc, -, h⟩ := bind_ok_iff.1 h
  obtain ⟨is, -, h⟩ := bind_ok_iff.1 h
  obtain ⟨st, -, h⟩ := bind_ok_iff.1 h
  obtain ⟨n0, -, h⟩ := bind_ok_iff.1 h
  obtain ⟨n1, -, h⟩ := bind_ok_iff.1 h
  obtain ⟨v, -, h⟩ := bind_ok_iff.1 h
  simp only [pure, Except.pure, Except.ok.injEq] at h
  rw [← h]
  rfl

open Classical in
/-- The attributes hold wave-vectors for a k grid `k`, and a k grid `g` of the same length is assigned: the grid of the
structure factor is `g` and in a fixed cell the values are those of before. -/
theorem skComputeA_setKgrid (o : SkChoices d) (fr : List (CellFrame d)) (a : KAttrs d ℝ) (k g : List ℝ)
    (ha : a.kgrid = some k) (hl : g.length = k.length) :
    (∀ r, skComputeA o fr (a.setKgrid g) = .ok r → r.1 = g) ∧
    (isCellVariable (fr.map CellFrame.side) 1 = .ok false →
      (skComputeA o fr (a.setKgrid g)).map (fun r => r.2.1) = (skComputeA o fr a).map fun r => r.2.1) := by
  constructor
  · exact fun r h => C147_counterexample_returned o fr a g h
  · intro hv
    unfold skComputeA
    cases pyGet fr 0 with
    | error e => rfl
    | ok f0 =>
      simp only [bind, Except.bind]
      rw [setup_returns (a := a.setKgrid g) rfl, setup_returns (a := a) (by rw [ha]; rfl)]
      simp only [hv]
      cases pyRange 0 fr.length o.skip with
      | error e => rfl
      | ok is =>
        simp only
        have hs := foldlM_map_state (fun s : List SkAcc × KAttrs d ℝ => (s.1, s.2.setKgrid g)) (g := skStep o fr false)
          (g' := skStep o fr false) (fun st i => skStep_setKgrid o fr g st i) is
          (List.replicate (a.kgrid.getD []).length ⟨0, 0, 0, 0⟩, a)
        have e : ((a.setKgrid g).kgrid.getD []).length = (a.kgrid.getD []).length := by
          rw [ha]
          exact hl
        rw [e]
        simp only at hs
        rw [hs]
        cases is.foldlM (skStep o fr false) (List.replicate (a.kgrid.getD []).length ⟨0, 0, 0, 0⟩, a) with
        | error e => rfl
        | ok st =>
          simp only [Except.map]
          cases meanNumber (fr.map fun f => f.pos0.length) with
          | error e => rfl
          | ok n0 =>
            simp only
            cases meanNumber (fr.map fun f => if o.same then f.pos0.length else f.pos1.length) with
            | error e => rfl
            | ok n1 =>
              simp only
              cases st.1.mapM (skNonorm o.weighted) with
              | error e => rfl
              | ok v => rfl

open Classical in
/-- **C147** is false: if wave-vectors are assigned to `kvectors` and then a k grid `g` of the same length to `kgrid`,
in a fixed cell `compute()` returns `g` as the grid along with the values of the wave-vectors, whatever `g`. -/
theorem C147_counterexample_relabelled (o : SkChoices d) {fr : List (CellFrame d)} {f0 : CellFrame d}
    (h0 : fr[0]? = some f0) (hc : ∀ f ∈ fr, f.side = f0.side) (grid : Option (List ℝ)) (kv : List (List (Vec d ℝ)))
    {k v : List ℝ} {a' : KAttrs d ℝ}
    (h : skComputeA o fr ((KAttrs.new d grid).setKvectors Real.sqrt Real.pi f0.side kv) = .ok (k, v, a'))
    (g : List ℝ) (hl : g.length = kv.length) :
    ∃ b, skComputeA o fr (((KAttrs.new d grid).setKvectors Real.sqrt Real.pi f0.side kv).setKgrid g) = .ok (g, v, b) := by
  have hk := (setKvectors_fits (KAttrs.new d grid) f0.side kv).2
  obtain ⟨h1, h2⟩ := skComputeA_setKgrid o fr _ _ g hk (by
    rw [hl]
    simp [KAttrs.getKvectors, KAttrs.setKvectors, kvectorsSet])
  have h2 := h2 (constant_cell h0 hc)
  rw [h] at h2
  cases hx : skComputeA o fr (((KAttrs.new d grid).setKvectors Real.sqrt Real.pi f0.side kv).setKgrid g) with
  | error e => rw [hx] at h2; cases h2
  | ok r =>
    rw [hx] at h2
    obtain ⟨g', v', b⟩ := r
    have e1 : g' = g := h1 _ hx
    have e2 : v' = v := by simpa [Except.map] using h2
    exact ⟨b, by rw [e1, e2]⟩

/-- A non-trivial case: one wave-vector; the grid returned is the meaningless `[100]`. -/
example : ∃ v b, skComputeA ⟨0, fun _ l n => l.take n, ⟨2, 1 / 10, -1, 10, 20⟩, true, false, 1⟩
      [⟨![5, 6, 7], [![0, 1, 2], ![1, 1, 1]], [![0, 1, 2], ![1, 1, 1]], [], []⟩]
      (((KAttrs.new 3 none).setKvectors Real.sqrt Real.pi ![5, 6, 7] [[![2 * Real.pi / 5, 0, 0]]]).setKgrid [100]) =
    .ok ([100], v, b) := by
  have hside : ∀ c, 0 < (![5, 6, 7] : Vec 3 ℝ) c := by intro c; fin_cases c <;> norm_num
  obtain ⟨⟨k, v, a'⟩, h⟩ := C147_given_computes_partial
    (o := ⟨0, fun _ l n => l.take n, ⟨2, 1 / 10, -1, 10, 20⟩, true, false, 1⟩) one_pos rfl
    (fr := [⟨![5, 6, 7], [![0, 1, 2], ![1, 1, 1]], [![0, 1, 2], ![1, 1, 1]], [], []⟩])
    (f0 := ⟨![5, 6, 7], [![0, 1, 2], ![1, 1, 1]], [![0, 1, 2], ![1, 1, 1]], [], []⟩) rfl (by simp) hside (by simp)
    (grid := none) (kv := [[![2 * Real.pi / 5, 0, 0]]])
    (by
      intro l hl x hx c
      simp only [List.mem_singleton] at hl
      subst hl
      simp only [List.mem_singleton] at hx
      subst hx
      fin_cases c
      · exact ⟨1, by simp⟩
      · exact ⟨0, by simp⟩
      · exact ⟨0, by simp⟩)
    (by simp)
    (by
      intro l hl x hx
      simp only [List.mem_singleton] at hl
      subst hl
      simp only [List.mem_singleton] at hx
      subst hx
      refine Or.inl fun c => ?_
      have := Real.pi_pos
      fin_cases c
      · simp
      · simp; positivity
      · simp; positivity)
  obtain ⟨b, hb⟩ := C147_counterexample_relabelled _ rfl (by simp) none _ h [100] rfl
  exact ⟨v, b, hb⟩

end PP.Props
