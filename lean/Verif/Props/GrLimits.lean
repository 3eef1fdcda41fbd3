import Verif.Props.Gr
import Verif.Props.LinkedCells

/-!
# C77-C79: particles on the surface of the cell, grids given by the user, integer spacing
-/

set_option linter.unusedSectionVars false

namespace PP.Props
open PP

section
variable {K : Type} [Field K] [LinearOrder K] [IsStrictOrderedRing K] [FloorRing K] {d : ℕ}

/-! ## C77 -/

theorem mapM_ok_mem {α β : Type} {f : α → Py β} {l : List α} {r : List β} (h : l.mapM f = .ok r) :
    ∀ b ∈ r, ∃ a ∈ l, f a = .ok b := by
  induction l generalizing r with
  | nil => cases h; simp
  | cons a l ih =>
    rw [List.mapM_cons] at h
    cases ha : f a with
    | error e => rw [ha] at h; cases h
    | ok b =>
      cases hl : l.mapM f with
      | error e => rw [ha, hl] at h; cases h
      | ok bs =>
        rw [ha, hl] at h
        cases h
        intro x hx
        rcases List.mem_cons.1 hx with rfl | hx
        · exact ⟨a, by simp, ha⟩
        · obtain ⟨y, hy, hf⟩ := ih hl x hx
          exact ⟨y, by simp [hy], hf⟩

theorem mapM_error {α β : Type} {f : α → Py β} {l : List α} {e : PyErr} (h : ∀ a ∈ l, f a = .error e ∨ ∃ b, f a = .ok b)
    (a : α) (ha : a ∈ l) (hf : f a = .error e) : l.mapM f = .error e := by
  induction l with
  | nil => simp at ha
  | cons x l ih =>
    rw [List.mapM_cons]
    rcases h x (by simp) with hx | ⟨b, hx⟩
    · rw [hx]; rfl
    · rcases List.mem_cons.1 ha with rfl | ha
      · rw [hf] at hx; cases hx
      · rw [hx, ih (fun y hy => h y (by simp [hy])) ha]; rfl

/-- The index of a particle on the upper face of the cell, or beyond, is not that of a subcell. -/
theorem index_upper (rcut : K) (L x : Vec d K) (c : Fin d) (hr : 0 < rcut) (hL : rcut ≤ L c) (hx : L c / 2 ≤ x c)
    (m : CellMap d K) (hb : m.box = L) (hn : m.nCell = fun c => pyInt (L c / rcut)) : m.nCell c ≤ m.index x c := by
  obtain ⟨h1, -⟩ := nCell_le hr hL
  have h2 : m.nCell c = pyInt (L c / rcut) := by rw [hn]
  have hL0 : 0 < L c := lt_of_lt_of_le hr hL
  have h3 : (0 : K) < (m.nCell c : K) := by rw [h2]; exact_mod_cast lt_of_lt_of_le zero_lt_one h1
  unfold CellMap.index
  rw [hb]
  have h4 : (m.nCell c : K) ≤ (x c + L c / 2) / (L c / (m.nCell c : K)) := by
    rw [le_div_iff₀ (div_pos hL0 h3), mul_div_cancel₀ _ h3.ne']
    linarith
  have h5 : m.nCell c ≤ ⌊(x c + L c / 2) / (L c / (m.nCell c : K))⌋ := Int.le_floor.2 h4
  unfold pyInt at h5 ⊢
  rw [if_pos (le_trans h3.le h4)]
  exact h5

/-- **C77** is false: with a particle on the upper face of the cell the calculation of the neighbours always raises
`KeyError`. -/
theorem C77_counterexample_key_error (rcut : K) (L : Vec d K) (pos : List (Vec d K)) (other : Option (List (Vec d K)))
    (newton : Bool) (periodic : Fin d → Bool) (asArray : Bool) (hd : d = 2 ∨ d = 3) (hr : 0 < rcut)
    (x : Vec d K) (hx : x ∈ pos) (c : Fin d) (hL : rcut ≤ L c) (hxc : x c = L c / 2) :
    (LinkedCells.new rcut).compute L pos other newton periodic asArray = .error .keyError := by
  have hoffs : ∃ offs, (if other.isNone && newton then newtonOffsets d else allOffsets d) = .ok offs := by
    split_ifs
    · exact newtonOffsets_dim hd
    · exact allOffsets_dim hd
  obtain ⟨offs, ho⟩ := hoffs
  set m : CellMap d K := { box := L, nCell := fun c => pyInt (L c / rcut), offsets := offs,
                           periodic := periodic } with hm
  have hadj : adjust rcut L (other.isNone && newton) periodic = .ok m := by
    unfold adjust
    split_ifs at ho ⊢ <;> · rw [ho]; rfl
  have hnb : m.neighbors pos other = .error .keyError := by
    obtain ⟨i, hi, hxi⟩ := List.getElem_of_mem hx
    have hrun : ∀ j, j < pos.length → pyGet (pos.map m.index) j = .ok (m.index (pos.getD j x)) := by
      intro j hj
      unfold pyGet
      simp [List.getElem?_eq_getElem hj]
    unfold CellMap.neighbors
    dsimp only
    refine mapM_error ?_ i (List.mem_range.2 hi) ?_
    · intro j hj
      rw [hrun j (List.mem_range.1 hj)]
      simp only [bind, Except.bind]
      unfold CellMap.neigh
      split_ifs
      · exact Or.inr ⟨_, rfl⟩
      · exact Or.inl rfl
    · rw [hrun i hi]
      simp only [bind, Except.bind]
      unfold CellMap.neigh
      rw [if_neg]
      intro hall
      have h1 := (hall c).2
      have h2 := index_upper rcut L x c hr hL hxc.ge m rfl rfl
      rw [List.getD_eq_getElem _ _ hi, hxi] at h1
      omega
  unfold LinkedCells.compute LinkedCells.new
  simp only [hadj, bind, Except.bind, hnb]

/-- **C77**, two groups: a particle of the second group on the upper face of the cell is a neighbour of no particle,
however close. -/
theorem C77_counterexample_missed (rcut : K) (L : Vec d K) (pos other : List (Vec d K)) (newton : Bool)
    (periodic : Fin d → Bool) (asArray : Bool) (hr : 0 < rcut) (lc : LinkedCells d K)
    (nb : List (List ℕ)) (hcomp : (LinkedCells.new rcut).compute L pos (some other) newton periodic asArray = .ok (lc, nb))
    (j : ℕ) (y : Vec d K) (hy : other[j]? = some y) (c : Fin d) (hL : rcut ≤ L c) (hyc : y c = L c / 2) (i : ℕ) :
    Spec.listed nb i j = 0 := by
  unfold LinkedCells.compute LinkedCells.new at hcomp
  simp only [bind, Except.bind] at hcomp
  cases hadj : adjust rcut L ((some other).isNone && newton) periodic with
  | error e => rw [hadj] at hcomp; cases hcomp
  | ok m =>
    have hmb : m.box = L ∧ m.nCell = fun c => pyInt (L c / rcut) := by
      unfold adjust at hadj
      simp only [Option.isNone_some, Bool.false_and, Bool.false_eq_true, if_false, bind, Except.bind] at hadj
      cases ha : allOffsets d with
      | error e => rw [ha] at hadj; cases hadj
      | ok offs => rw [ha] at hadj; cases hadj; exact ⟨rfl, rfl⟩
    rw [hadj] at hcomp
    simp only at hcomp
    cases hnb : m.neighbors pos (some other) with
    | error e => rw [hnb] at hcomp; cases hcomp
    | ok nb' =>
      rw [hnb] at hcomp
      simp only at hcomp
      split_ifs at hcomp
      cases hcomp
      have hidx := index_upper rcut L y c hr hL hyc.ge m hmb.1 hmb.2
      have hcell : ∀ cell : Cell d, cell c < m.nCell c → j ∉ particlesInCell (other.map m.index) cell := by
        intro cell hc hj
        simp only [particlesInCell, List.mem_filter, decide_eq_true_eq, List.getElem?_map, hy, Option.map_some,
          Option.some.injEq] at hj
        rw [← hj.2] at hc
        omega
      unfold Spec.listed
      rw [List.count_eq_zero]
      intro hj
      rcases hi : nb[i]? with _ | l
      · rw [List.getD_eq_getElem?_getD, hi] at hj; simp at hj
      · rw [List.getD_eq_getElem?_getD, hi] at hj
        simp only [Option.getD_some] at hj
        unfold CellMap.neighbors at hnb
        obtain ⟨k, -, hk⟩ := mapM_ok_mem hnb l (List.mem_of_getElem? hi)
        cases hg : pyGet (pos.map m.index) k with
        | error e => rw [hg] at hk; cases hk
        | ok icell =>
          rw [hg] at hk
          simp only [bind, Except.bind] at hk
          cases hne : m.neigh icell with
          | error e => rw [hne] at hk; cases hk
          | ok cells =>
            rw [hne] at hk
            cases hk
            unfold CellMap.neigh at hne
            split_ifs at hne with hin
            cases hne
            rw [List.mem_append] at hj
            rcases hj with hj | hj
            · exact hcell icell (hin c).2 hj
            · rw [List.mem_flatMap] at hj
              obtain ⟨cell, hmem, hj⟩ := hj
              rw [List.mem_filter] at hmem
              refine hcell cell ?_ hj
              have := hmem.2
              simp only [cellOutside, Bool.not_eq_true', decide_eq_false_iff_not, not_exists, not_or, not_le,
                not_lt] at this
              have h1 := this c
              omega

/-- Examples: the error, and a pair at distance 1/2 which is missed. -/
example : (LinkedCells.new (1 : ℚ)).compute ![4, 4] [![0, 0], ![2, 0]] none true (fun _ => true) true
      = .error .keyError ∧
    ((LinkedCells.new (1 : ℚ)).compute ![4, 4] [![3 / 2, 0]] (some [![2, 0]]) true (fun _ => true) true).map Prod.snd
      = .ok [[]] := by
  refine ⟨C77_counterexample_key_error _ _ _ _ _ _ _ (Or.inl rfl) (by norm_num) ![2, 0] (by simp) 0 (by norm_num)
    (by norm_num), by decide +kernel⟩

/-! ## C78 -/

theorem bind_snd {α β γ : Type} {x : Py α} {y : β} {r : α × β} (h : (do let a ← x; return (a, y) : Py (α × β)) = .ok r) :
    r.2 = y := by
  cases x with
  | error e => cases h
  | ok a => cases h; rfl

theorem grFastKernel_bins {sq : K → K} {dr : K} {lc distinct : Bool} {nb : List (List ℕ)} {side : Vec d K}
    {pos0 pos1 : List (Vec d K)} {hist : List ℕ} {bins : List K} {r : List ℕ × List K}
    (h : grFastKernel sq dr lc distinct nb side pos0 pos1 hist bins = .ok r) : r.2 = fBins dr bins.length := by
  unfold grFastKernel at h
  split_ifs at h
  · exact bind_snd (γ := Unit) h
  · exact bind_snd (γ := Unit) h
  · exact bind_snd (γ := Unit) h
  · exact bind_snd (γ := Unit) h

theorem grFastFrame_bins {sq : K → K} {huge dr : K} {o : GrObj d K} {st st' : GrFastState d K} {f : GrFrame d K}
    (h : grFastFrame sq huge o dr st f = .ok st') :
    st' = st ∨ st'.bins = fBins dr st.bins.length := by
  unfold grFastFrame at h
  by_cases h1 : (f.pos0.isEmpty || f.pos1.isEmpty) = true
  · rw [if_pos h1] at h
    cases h; exact Or.inl rfl
  · rw [if_neg h1] at h
    right
    dsimp only at h
    generalize hc : grFastCells st.cells f _ _ = rc at h
    cases rc with
    | error e => cases h
    | ok rc =>
      simp only [Except.bind] at h
      by_cases h2 : ((∀ c, f.periodic c = false) ∨ ∀ c, f.periodic c = true)
      · simp only [not_not.2 h2, if_false] at h
        generalize hk : grFastKernel sq dr _ _ _ _ _ _ _ _ = rk at h
        cases rk with
        | error e => cases h
        | ok rk =>
          cases h
          exact grFastKernel_bins hk
      · simp only [h2, not_false_iff, if_true] at h
        cases h

theorem fold_bins {sq : K → K} {huge dr : K} {o : GrObj d K} (l : List ℕ) (st st' : GrFastState d K) (n : ℕ)
    (hst : st.bins.length = n)
    (hinv : st.flags.isSome = true → st.bins = fBins dr n)
    (h : l.foldlM (fun st i => do
      let f ← pyGet o.frames i
      grFastFrame sq huge o dr st f) st = .ok st') : st'.flags.isSome = true → st'.bins = fBins dr n := by
  induction l generalizing st with
  | nil => cases h; exact hinv
  | cons i l ih =>
    rw [List.foldlM_cons] at h
    cases hf : pyGet o.frames i with
    | error e => rw [hf] at h; cases h
    | ok f =>
      rw [hf] at h
      simp only [bind, Except.bind] at h
      cases hs : grFastFrame sq huge o dr st f with
      | error e => rw [hs] at h; cases h
      | ok st1 =>
        rw [hs] at h
        rcases grFastFrame_bins hs with h1 | h1
        · subst h1; exact ih st1 hst hinv h
        · rw [hst] at h1
          exact ih st1 (by rw [h1]; simp [fBins]) (fun _ => h1) h

/-- **C78** is false for the fast calculation: whatever the grid given by the user, the distances returned are odd
multiples of half the difference of its first two entries. -/
theorem C78_counterexample_fast (sq : K → K) (pi huge : K) (o : GrObj d K) (g0 g1 : K) (g : List K)
    (hg : o.rgrid = some (g0 :: g1 :: g)) (t : List (K × Option K)) (h : grFast sq pi huge o = .ok t) :
    ∀ p ∈ t, ∃ j : ℕ, p.1 = ((j : K) + 1 / 2) * (g1 - g0) := by
  unfold grFast at h
  cases hf : pyGet o.frames 0 with
  | error e => rw [hf] at h; cases h
  | ok f0 =>
    have hgrid : grSetupGrid sq o f0.side = .ok (g0 :: g1 :: g) := by
      unfold grSetupGrid; rw [hg]; rfl
    have e0 : pyGet (g0 :: g1 :: g) 0 = .ok g0 := rfl
    have e1 : pyGet (g0 :: g1 :: g) 1 = .ok g1 := rfl
    rw [hf] at h
    simp only [bind, Except.bind, hgrid, e0, e1] at h
    cases hu : useLinkedCells o f0 with
    | error e => rw [hu] at h; cases h
    | ok useLc =>
      rw [hu] at h
      simp only at h
      cases ho : pyRange 0 o.frames.length o.skip with
      | error e => rw [ho] at h; cases h
      | ok origins =>
        rw [ho] at h
        simp only at h
        generalize hst : (List.foldlM _ _ origins : Py (GrFastState d K)) = rs at h
        cases rs with
        | error e => cases h
        | ok st =>
          simp only at h
          have hb := fold_bins (sq := sq) (huge := huge) (dr := g1 - g0) (o := o) origins _ st (g0 :: g1 :: g).length rfl
            (by simp) hst
          generalize hb0 : pyGet st.bins 0 = r0 at h
          generalize hb1 : pyGet st.bins 1 = r1 at h
          cases r0 with
          | error e => cases h
          | ok b0 =>
            cases r1 with
            | error e => cases h
            | ok b1 =>
              simp only at h
              cases hfl : st.flags with
              | none => rw [hfl] at h; cases h
              | some fl =>
                have hb' := hb (by rw [hfl]; rfl)
                rw [hfl] at h
                obtain ⟨distinct, removeSelf⟩ := fl
                simp only at h
                have hin : ∀ (v : List (Option K)) (p : K × Option K), p ∈ st.bins.dropLast.zip v →
                    ∃ j : ℕ, p.1 = ((j : K) + 1 / 2) * (g1 - g0) := by
                  intro v p hp
                  have h1 := (List.of_mem_zip (show (p.1, p.2) ∈ _ from hp)).1
                  have h2 := List.mem_of_mem_dropLast h1
                  rw [hb', fBins, List.mem_map] at h2
                  obtain ⟨j, -, hj⟩ := h2
                  exact ⟨j, by rw [← hj]; ring⟩
                have hcrop : ∀ (v : List (Option K)), grCrop o.rmax st.system.side (st.bins.dropLast.zip v) = .ok t →
                    ∀ p ∈ t, ∃ j : ℕ, p.1 = ((j : K) + 1 / 2) * (g1 - g0) := by
                  intro v hv p hp
                  unfold grCrop at hv
                  split_ifs at hv
                  · cases hv
                    exact hin v p (List.mem_filter.1 hp).1
                  · cases hm : pyMin (List.ofFn st.system.side) with
                    | error e => rw [hm] at hv; cases hv
                    | ok m =>
                      rw [hm] at hv
                      cases hv
                      exact hin v p (List.mem_filter.1 hp).1
                split_ifs at h with hrm
                · generalize hv : pyGet _ 1 = rv at h
                  cases rv with
                  | error e => cases h
                  | ok v1 => exact hcrop _ h
                · exact hcrop _ h

theorem grEdges_uniform {a w : K} {n : ℕ} (hn : 2 ≤ n) :
    grEdges ((List.range n).map fun i : ℕ => a + (i : K) * w)
      = .ok ((List.range (n + 1)).map fun i : ℕ => a - w / 2 + (i : K) * w) := by
  obtain ⟨m, rfl⟩ : ∃ m, n = m + 2 := ⟨n - 2, by omega⟩
  have e : ((List.range (m + 2)).map fun i : ℕ => a + (i : K) * w) = (a + ((0 : ℕ) : K) * w) ::
      (a + ((1 : ℕ) : K) * w) :: (List.range m).map fun i : ℕ => a + ((i + 2 : ℕ) : K) * w := by
    rw [List.range_succ_eq_map, List.range_succ_eq_map]
    simp only [List.map_cons, List.map_map, Function.comp_def, List.cons.injEq, true_and]
  rw [e]
  unfold grEdges
  simp only
  rw [← e]
  have hh : (a + ((1 : ℕ) : K) * w - (a + ((0 : ℕ) : K) * w)) / 2 = w / 2 := by push_cast; ring
  rw [hh]
  have hlast : ((a + ((1 : ℕ) : K) * w) :: (List.range m).map fun i : ℕ => a + ((i + 2 : ℕ) : K) * w).getLast
      (by simp) = a + ((m + 1 : ℕ) : K) * w := by
    cases m with
    | zero => simp
    | succ m =>
      rw [List.getLast_cons (by simp), List.getLast_map, List.getLast_range]
      push_cast; ring
  rw [hlast]
  congr 1
  rw [List.range_succ (n := m + 2), List.map_append, List.map_map]
  congr 1
  · apply List.map_congr_left
    intro i _
    simp only [Function.comp]
    ring
  · simp only [List.map_cons, List.map_nil]
    congr 1
    push_cast; ring

/-- **C78** for the legacy calculation: with a grid of equally spaced distances, all the distances returned are
entries of the grid, in the same order. -/
theorem C78_legacy_partial (sq : K → K) (pi : K) (o : GrObj d K) (a w : K) (n : ℕ) (hn : 2 ≤ n)
    (hg : o.rgrid = some ((List.range n).map fun i : ℕ => a + (i : K) * w)) (t : List (K × Option K))
    (h : grLegacy sq pi o = .ok t) :
    (t.map Prod.fst).Sublist ((List.range n).map fun i : ℕ => a + (i : K) * w) := by
  unfold grLegacy grLegacyArrays at h
  cases hf : pyGet o.frames 0 with
  | error e => rw [hf] at h; cases h
  | ok f0 =>
    have hgrid : grSetupGrid sq o f0.side = .ok ((List.range n).map fun i : ℕ => a + (i : K) * w) := by
      unfold grSetupGrid
      rw [hg]
      simp only [bind, Except.bind]
      rw [if_neg]
      · rfl
      · simp; omega
    rw [hf] at h
    simp only [bind, Except.bind, hgrid, grEdges_uniform hn] at h
    generalize hist : histogram (K := K) _ [] = rh at h
    cases rh with
    | error e => cases h
    | ok _ =>
      simp only at h
      generalize ho : pyRange 0 o.frames.length o.skip = ro at h
      cases ro with
      | error e => cases h
      | ok origins =>
        simp only at h
        generalize hst : (List.foldlM _ _ origins : Py (List (List ℕ) × GrFrame d K)) = rs at h
        cases rs with
        | error e => cases h
        | ok st =>
          simp only at h
          have hlen : ((List.range (n + 1)).map fun i : ℕ => a - w / 2 + (i : K) * w).length - 1 = n := by simp
          rw [hlen] at h
          have hget : ∀ j < n + 1, ((List.range (n + 1)).map fun i : ℕ => a - w / 2 + (i : K) * w).getD j 0
              = a - w / 2 + (j : K) * w := by
            intro j hj
            rw [List.getD_eq_getElem?_getD, List.getElem?_map, List.getElem?_range hj]
            rfl
          have hcrop : ∀ (V : ℕ → Option K), grCrop o.rmax st.2.side ((List.range n).map fun j =>
                ((((List.range (n + 1)).map fun i : ℕ => a - w / 2 + (i : K) * w).getD j 0
                  + ((List.range (n + 1)).map fun i : ℕ => a - w / 2 + (i : K) * w).getD (j + 1) 0) / 2, V j)) = .ok t →
              (t.map Prod.fst).Sublist ((List.range n).map fun i : ℕ => a + (i : K) * w) := by
            intro V hV
            have e : ((List.range n).map fun j =>
                ((((List.range (n + 1)).map fun i : ℕ => a - w / 2 + (i : K) * w).getD j 0
                  + ((List.range (n + 1)).map fun i : ℕ => a - w / 2 + (i : K) * w).getD (j + 1) 0) / 2, V j))
                = (List.range n).map fun j : ℕ => (a + (j : K) * w, V j) := by
              apply List.map_congr_left
              intro j hj
              rw [List.mem_range] at hj
              rw [hget j (by omega), hget (j + 1) (by omega)]
              congr 1
              push_cast
              ring
            rw [e] at hV
            have hsub : ∀ q : K × Option K → Bool, ((((List.range n).map fun j : ℕ => (a + (j : K) * w, V j)).filter q).map
                Prod.fst).Sublist ((List.range n).map fun i : ℕ => a + (i : K) * w) := by
              intro q
              have h1 := (List.filter_sublist (p := q) (l := (List.range n).map fun j : ℕ => (a + (j : K) * w, V j))).map
                Prod.fst
              rw [List.map_map] at h1
              exact h1
            unfold grCrop at hV
            split_ifs at hV
            · cases hV
              exact hsub _
            · cases hm : pyMin (List.ofFn st.2.side) with
              | error e => rw [hm] at hV; cases hV
              | ok m =>
                rw [hm] at hV
                cases hV
                exact hsub _
          exact hcrop _ h

/-- The grid 1, 2, 3: the legacy calculation returns these distances, the fast one returns others. -/
def rgridExample : GrObj 2 ℚ :=
  { frames := [⟨![8, 8], fun _ => true, [![0, 0], ![3, 0], ![3, -2]], [![0, 0], ![3, 0], ![3, -2]]⟩],
    skip := 1, same := true, rgrid := some [1, 2, 3], dr := .float 1, rmax := -1 }

example : ((grLegacy Rat.sqrt 3 rgridExample).map fun t => t.map Prod.fst) = .ok [1, 2, 3] ∧
    ((grFast Rat.sqrt 3 1000000 rgridExample).map fun t => t.map Prod.fst) = .ok [1 / 2, 3 / 2] := by
  decide +kernel

/-! ## C79 -/

/-- **C79** is false: with `dr=1` given as a python integer, both calculations raise `IndexError`. -/
theorem C79_counterexample_integer (sq : K → K) (pi huge : K) (o : GrObj d K) (hd : 0 < d) (hne : o.frames ≠ [])
    (hg : o.rgrid = none) (hdr : o.dr = .int 1) :
    grFast sq pi huge o = .error .indexError ∧ grLegacy sq pi o = .error .indexError := by
  obtain ⟨f0, hf0⟩ : ∃ f0, pyGet o.frames 0 = .ok f0 := by
    cases hf : o.frames with
    | nil => exact absurd hf hne
    | cons a l => exact ⟨a, rfl⟩
  obtain ⟨mx, hmx, -⟩ := pyMax_ofFn hd f0.side
  have hgrid : grSetupGrid sq o f0.side = .ok [(1 : K) / 2] := by
    unfold grSetupGrid
    rw [hg, hdr]
    simp only [bind, Except.bind, hmx, GridStep.val, linearGrid]
    simp [pure, Except.pure]
  constructor
  · unfold grFast
    rw [hf0]
    simp only [bind, Except.bind, hgrid]
    rfl
  · unfold grLegacy grLegacyArrays
    rw [hf0]
    simp only [bind, Except.bind, hgrid]
    rfl

/-- The same trajectory, with integer and with floating point spacing. -/
example : grFast Rat.sqrt 3 1000000 { rgridExample with rgrid := none, dr := .int 1 } = .error .indexError ∧
    ((grFast Rat.sqrt 3 1000000 { rgridExample with rgrid := none, dr := .float 1 }).map fun t => t.map Prod.fst)
      = .ok [1 / 2, 3 / 2, 5 / 2, 7 / 2] :=
  ⟨(C79_counterexample_integer _ _ _ _ (by norm_num) (by simp [rgridExample]) rfl rfl).1, by decide +kernel⟩

/-- **C79** is false for larger integers as well: `dr=n` is taken as the number of points. Both calculations are those
with an explicit grid of `n` points from `n/2` to `L√d`, `L` being the largest side of the cell of the first frame: the
distances are not spaced by `n`. -/
theorem C79_counterexample_points (sq : K → K) (pi huge : K) (o : GrObj d K) (n : ℕ) (hn : 2 ≤ n) {f0 : GrFrame d K}
    (hf : o.frames[0]? = some f0) {L : K} (hL : ∀ c, f0.side c ≤ L) (hLc : ∃ c, f0.side c = L)
    (hg : o.rgrid = none) (hdr : o.dr = .int n) :
    let g : List K := (List.range n).map fun i : ℕ => (n : K) / 2 + i * ((L * sq d - n / 2) / (n - 1))
    g.getLast? = some (L * sq d) ∧
    grFast sq pi huge o = grFast sq pi huge { o with rgrid := some g } ∧
    grLegacy sq pi o = grLegacy sq pi { o with rgrid := some g } ∧
    ∀ t, grLegacy sq pi o = .ok t → (t.map Prod.fst).Sublist g := by
  intro g
  have hd : 0 < d := hLc.choose.pos
  obtain ⟨mx, hmx, h1, c1, h2⟩ := pyMax_ofFn hd f0.side
  have hmL : mx = L := by
    obtain ⟨c2, h3⟩ := hLc
    exact le_antisymm (h2 ▸ hL c1) (h3 ▸ h1 c2)
  subst hmL
  have hne : g.isEmpty = false := by
    cases hgg : g with
    | nil =>
      have : g.length = 0 := by rw [hgg]; rfl
      simp [g] at this
      omega
    | cons a r => rfl
  have hn1 : ((n : ℤ) : K) = n := by push_cast; rfl
  have hn2 : (n : K) - 1 ≠ 0 := by
    have : (2 : K) ≤ n := by exact_mod_cast hn
    intro h0
    linarith
  have hgrid : grSetupGrid sq o f0.side = .ok g := by
    unfold grSetupGrid
    rw [hg, hdr]
    simp only [bind, Except.bind, hmx, GridStep.val, linearGrid]
    have hgt : (n : ℤ) > 1 := by omega
    simp only [if_pos hgt, hn1, Int.toNat_natCast]
    rw [if_neg]
    · rfl
    · show ¬ g.isEmpty = true
      rw [hne]; simp
  have hgrid' : grSetupGrid sq { o with rgrid := some g } f0.side = .ok g := by
    unfold grSetupGrid
    simp only [bind, Except.bind, hne]
    rfl
  have hf0 : pyGet o.frames 0 = .ok f0 := by unfold pyGet; rw [hf]
  have e : grLegacy sq pi o = grLegacy sq pi { o with rgrid := some g } := by
    unfold grLegacy grLegacyArrays
    simp only [hf0, bind, Except.bind, hgrid, hgrid']
  refine ⟨?_, ?_, e, ?_⟩
  · obtain ⟨m, rfl⟩ : ∃ m, n = m + 1 := ⟨n - 1, by omega⟩
    simp only [g, List.range_succ, List.map_append, List.map_cons, List.map_nil, List.getLast?_append,
      List.getLast?_singleton, Option.some_or]
    congr 1
    push_cast at hn2 ⊢
    have : (m : K) ≠ 0 := by simpa using hn2
    field_simp
    ring
  · unfold grFast
    simp only [hf0, bind, Except.bind, hgrid, hgrid']
    rfl
  · intro t ht
    rw [e] at ht
    exact C78_legacy_partial sq pi _ _ _ n hn rfl t ht

/-- A non-trivial case: with `dr=2` there are two points, of which one lies within half the side. -/
example : ((grLegacy Rat.sqrt 3 { rgridExample with rgrid := none, dr := .int 2 }).map fun t => t.map Prod.fst)
      = .ok [1] ∧
    ((grLegacy Rat.sqrt 3 { rgridExample with rgrid := none, dr := .float 2 }).map fun t => t.map Prod.fst)
      = .ok [1, 3] := by
  decide +kernel

end
end PP.Props
