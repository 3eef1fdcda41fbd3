import Verif.Model.Helpers
import Verif.Spec.TGrid
import Verif.Lemmas.Correlation
import Verif.Props.Correlation
import Mathlib.Data.List.GetD
import Mathlib.Tactic.FieldSimp
import Mathlib.Tactic.Linarith
import Mathlib.Tactic.NormNum

/-!
# C18-C21: the discrete time grid (`_templated`, `setup_t_grid`)
-/

namespace PP.Props
open PP

/-! ## Helper lemmas -/

theorem pyMinKey_foldl {α κ : Type} [LinearOrder α] [LinearOrder κ] (key : α → κ) (r : List α) (a : α)
    (hs : (a :: r).Pairwise (· ≤ ·)) :
    let m := r.foldl (fun best b => if key b < key best then b else best) a
    m ∈ a :: r ∧ ∀ b ∈ a :: r, key m ≤ key b ∧ (key b = key m → m ≤ b) := by
  induction r generalizing a with
  | nil => simp
  | cons c r ih =>
    simp only [List.foldl_cons]
    have hac : a ≤ c := (List.pairwise_cons.1 hs).1 c (by simp)
    have hcr : (c :: r).Pairwise (· ≤ ·) := (List.pairwise_cons.1 hs).2
    have har : (a :: r).Pairwise (· ≤ ·) := by
      rw [List.pairwise_cons] at hs ⊢
      exact ⟨fun x hx => hs.1 x (by simp [hx]), (List.pairwise_cons.1 hs.2).2⟩
    split_ifs with h
    · obtain ⟨h1, h2⟩ := ih c hcr
      refine ⟨List.mem_cons_of_mem _ h1, ?_⟩
      intro b hb
      rcases List.mem_cons.1 hb with rfl | hb
      · have := (h2 c (by simp)).1
        refine ⟨this.trans h.le, fun h' => absurd h' (ne_of_gt (lt_of_le_of_lt this h))⟩
      · exact h2 b hb
    · obtain ⟨h1, h2⟩ := ih a har
      push Not at h
      refine ⟨?_, ?_⟩
      · rcases List.mem_cons.1 h1 with h1 | h1
        · rw [h1]; simp
        · simp [h1]
      · intro b hb
        rcases List.mem_cons.1 hb with rfl | hb
        · exact h2 b (by simp)
        · rcases List.mem_cons.1 hb with rfl | hb
          · refine ⟨(h2 a (by simp)).1.trans h, fun h' => ?_⟩
            have h3 := (h2 a (by simp)).1
            exact le_trans ((h2 a (by simp)).2 (le_antisymm (h'.symm ▸ h) h3)) hac
          · exact h2 b (by simp [hb])

theorem nearest_unique {κ : Type*} [LinearOrder κ] [AddCommGroup κ] {entry : List κ} {t v w : κ}
    (hv : Spec.Nearest entry t v) (hw : Spec.Nearest entry t w) : v = w := by
  have h := le_antisymm (hv.2 w hw.1).1 (hw.2 v hv.1).1
  exact le_antisymm ((hv.2 w hw.1).2 h.symm) ((hw.2 v hv.1).2 h)

theorem pyMinKey_nearest {κ : Type} [LinearOrder κ] [AddCommGroup κ] (entry : List κ) (t : κ)
    (hs : entry.Pairwise (· ≤ ·)) (hne : entry ≠ []) :
    ∃ v, pyMinKey (fun x => |x - t|) entry = .ok v ∧ Spec.Nearest entry t v := by
  cases entry with
  | nil => exact absurd rfl hne
  | cons a r =>
    exact ⟨_, rfl, pyMinKey_foldl (fun x => |x - t|) r a hs⟩

theorem mapM_forall₂ {α β : Type} {f : α → Py β} {R : α → β → Prop} {l : List α}
    (h : ∀ a ∈ l, ∃ b, f a = .ok b ∧ R a b) : ∃ m, l.mapM f = .ok m ∧ List.Forall₂ R l m := by
  induction l with
  | nil => exact ⟨[], rfl, List.Forall₂.nil⟩
  | cons a l ih =>
    obtain ⟨b, hb, hr⟩ := h a (by simp)
    obtain ⟨m, hm, hf⟩ := ih fun c hc => h c (by simp [hc])
    refine ⟨b :: m, ?_, List.Forall₂.cons hr hf⟩
    rw [List.mapM_cons, hb, hm]; rfl

theorem forall₂_mem_right {α β : Type*} {R : α → β → Prop} {l : List α} {m : List β}
    (h : List.Forall₂ R l m) : ∀ b ∈ m, ∃ a ∈ l, R a b := by
  induction h with
  | nil => simp
  | cons h1 _ ih =>
    intro b hb
    rcases List.mem_cons.1 hb with rfl | hb
    · exact ⟨_, by simp, h1⟩
    · obtain ⟨a, ha, hr⟩ := ih b hb; exact ⟨a, by simp [ha], hr⟩

theorem forall₂_mem_left {α β : Type*} {R : α → β → Prop} {l : List α} {m : List β}
    (h : List.Forall₂ R l m) : ∀ a ∈ l, ∃ b ∈ m, R a b := by
  induction h with
  | nil => simp
  | cons h1 _ ih =>
    intro b hb
    rcases List.mem_cons.1 hb with rfl | hb
    · exact ⟨_, by simp, h1⟩
    · obtain ⟨a, ha, hr⟩ := ih b hb; exact ⟨a, by simp [ha], hr⟩

/-! ## C18 -/

section C18
variable {κ : Type} [LinearOrder κ] [AddCommGroup κ]

/-- **C18.** The template match is a strictly increasing list, whose elements are exactly the
entries nearest to the template values. -/
theorem C18_templated (entry template : List κ) (hs : entry.Pairwise (· ≤ ·)) (hne : entry ≠ []) :
    ∃ l, templated entry template = .ok l ∧ l.Pairwise (· < ·) ∧
      ∀ v, v ∈ l ↔ ∃ t ∈ template, Spec.Nearest entry t v := by
  obtain ⟨m, hm, hf⟩ := mapM_forall₂ (f := fun t => pyMinKey (fun x => |x - t|) entry)
    (R := Spec.Nearest entry) (l := template) fun t _ => pyMinKey_nearest entry t hs hne
  refine ⟨pySorted (pySet m), ?_, pySorted_lt (List.nodup_dedup m), ?_⟩
  · unfold templated; rw [hm]; rfl
  · intro v
    rw [mem_pySorted]
    unfold pySet
    rw [List.mem_dedup]
    constructor
    · exact forall₂_mem_right hf v
    · rintro ⟨t, ht, hv⟩
      obtain ⟨w, hw, hw2⟩ := forall₂_mem_left hf t ht
      rwa [nearest_unique hv hw2]

/-- **C18**, with `keep_multiple=True`: one nearest entry per template value, sorted. -/
theorem C18_templated_multiple (entry template : List κ) (hs : entry.Pairwise (· ≤ ·))
    (hne : entry ≠ []) :
    ∃ l m, templated entry template true = .ok l ∧ l.Pairwise (· ≤ ·) ∧ l.Perm m ∧
      List.Forall₂ (Spec.Nearest entry) template m := by
  obtain ⟨m, hm, hf⟩ := mapM_forall₂ (f := fun t => pyMinKey (fun x => |x - t|) entry)
    (R := Spec.Nearest entry) (l := template) fun t _ => pyMinKey_nearest entry t hs hne
  refine ⟨pySorted m, m, ?_, pySorted_le m, List.perm_insertionSort _ m, hf⟩
  unfold templated; rw [hm]; rfl

end C18

/-- Repeated and unordered template values, a tie (7 is as far from 4 as from 10). -/
example : templated ([1, 4, 10, 100] : List ℤ) [7, 80, 0, 7] = .ok [1, 4, 100] ∧
    templated ([1, 4, 10, 100] : List ℤ) [7, 80, 0, 7] true = .ok [1, 4, 4, 100] ∧
    ([1, 4, 10, 100] : List ℤ).Pairwise (· ≤ ·) := by
  refine ⟨by decide +kernel, by decide +kernel, by decide⟩

/-! ## C19 -/

/-- What the dictionary of lags contains. -/
structure OffSampInv (steps : List ℤ) (seen : ℕ × ℕ → Prop) (d : List (ℤ × (ℕ × ℕ))) : Prop where
  nodup : (dictKeys d).Nodup
  sound : ∀ e ∈ d, seen e.2 ∧ e.1 = Spec.lag steps e.2
  complete : ∀ g, seen g → Spec.lag steps g ∈ dictKeys d

theorem dictSet_append {κ V : Type*} [DecidableEq κ] (d : List (κ × V)) (k : κ) (v : V)
    (h : k ∉ dictKeys d) : dictSet d k v = d ++ [(k, v)] := by
  induction d with
  | nil => rfl
  | cons e d ih =>
    obtain ⟨a, b⟩ := e
    simp only [dictKeys, List.map_cons, List.mem_cons, not_or] at h
    simp only [dictSet]
    rw [if_neg (fun h' => h.1 h'.symm), ih h.2]; rfl

theorem pyGet_getD_ok {α : Type} {x : List α} {i : ℕ} (h : i < x.length) (d : α) :
    pyGet x i = .ok (x.getD i d) := by
  unfold pyGet
  rw [List.getElem?_eq_getElem h]
  simp [List.getD_eq_getElem?_getD, List.getElem?_eq_getElem h]

theorem offSampInner_inv {steps : List ℤ} {seen : ℕ × ℕ → Prop} {d : List (ℤ × (ℕ × ℕ))} {off i : ℕ}
    (h : OffSampInv steps seen d) (hi : i < steps.length) (ho : off ≤ i) :
    ∃ d', offSampInner steps off d i = .ok d' ∧
      OffSampInv steps (fun g => seen g ∨ g = (off, i - off)) d' := by
  unfold offSampInner
  rw [pyGet_getD_ok hi 0, pyGet_getD_ok (lt_of_le_of_lt ho hi) 0]
  simp only [bind, Except.bind, pure, Except.pure]
  have hlag : Spec.lag steps (off, i - off) = steps.getD i 0 - steps.getD off 0 := by
    unfold Spec.lag
    simp only
    rw [Nat.add_sub_cancel' ho]
  rw [← hlag]
  split_ifs with hm
  · refine ⟨d, rfl, h.nodup, fun e he => ⟨Or.inl (h.sound e he).1, (h.sound e he).2⟩, ?_⟩
    rintro g (hg | rfl)
    · exact h.complete g hg
    · exact hm
  · refine ⟨_, rfl, ?_, ?_, ?_⟩
    · rw [dictSet_append _ _ _ hm]
      simp only [dictKeys, List.map_append, List.map_cons, List.map_nil] at hm ⊢
      rw [List.nodup_append]
      refine ⟨h.nodup, by simp, ?_⟩
      intro a ha b hb
      simp only [List.mem_singleton] at hb
      subst hb
      rintro rfl
      exact hm ha
    · rw [dictSet_append _ _ _ hm]
      intro e he
      rcases List.mem_append.1 he with he | he
      · exact ⟨Or.inl (h.sound e he).1, (h.sound e he).2⟩
      · simp only [List.mem_singleton] at he
        subst he
        exact ⟨Or.inr rfl, rfl⟩
    · rw [dictSet_append _ _ _ hm]
      simp only [dictKeys, List.map_append, List.map_cons, List.map_nil, List.mem_append,
        List.mem_singleton]
      rintro g (hg | rfl)
      · exact Or.inl (h.complete g hg)
      · exact Or.inr rfl

theorem offSampInv_congr {steps : List ℤ} {s s' : ℕ × ℕ → Prop} {d : List (ℤ × (ℕ × ℕ))}
    (h : OffSampInv steps s d) (hs : ∀ g, s g ↔ s' g) : OffSampInv steps s' d := by
  have : s = s' := funext fun g => propext (hs g)
  rwa [← this]

theorem offSamp_row {steps : List ℤ} {off : ℕ} (l : List ℕ)
    (hl : ∀ i ∈ l, i < steps.length ∧ off ≤ i) :
    ∀ {seen : ℕ × ℕ → Prop} {d : List (ℤ × (ℕ × ℕ))}, OffSampInv steps seen d →
      ∃ d', l.foldlM (offSampInner steps off) d = .ok d' ∧
        OffSampInv steps (fun g => seen g ∨ ∃ i ∈ l, g = (off, i - off)) d' := by
  induction l with
  | nil => intro seen d h; exact ⟨d, rfl, offSampInv_congr h (by simp)⟩
  | cons i l ih =>
    intro seen d h
    obtain ⟨d1, h1, h2⟩ := offSampInner_inv h (hl i (by simp)).1 (hl i (by simp)).2
    obtain ⟨d2, h3, h4⟩ := ih (fun j hj => hl j (by simp [hj])) h2
    refine ⟨d2, ?_, offSampInv_congr h4 ?_⟩
    · rw [List.foldlM_cons, h1]; exact h3
    · intro g; simp only [List.mem_cons, exists_eq_or_imp]; tauto

/-- Pairs scanned by `setup_t_grid`. The bound on the separation is `n - 2*off`, not `n - off`. -/
def Scanned (n : ℕ) (offsets : List ℕ) (g : ℕ × ℕ) : Prop :=
  g.1 ∈ offsets ∧ g.2 + 2 * g.1 < n

theorem offSamp_inv (steps : List ℤ) (offsets : List ℕ) :
    ∃ d, offSamp steps offsets = .ok d ∧ OffSampInv steps (Scanned steps.length offsets) d := by
  unfold offSamp
  have key : ∀ (os : List ℕ) {seen : ℕ × ℕ → Prop} {d : List (ℤ × (ℕ × ℕ))},
      OffSampInv steps seen d →
      ∃ d', os.foldlM (fun d off =>
        (rangeList off (steps.length - off) 1).foldlM (offSampInner steps off) d) d = .ok d' ∧
        OffSampInv steps (fun g => seen g ∨ Scanned steps.length os g) d' := by
    intro os
    induction os with
    | nil => intro seen d h; exact ⟨d, rfl, offSampInv_congr h (by simp [Scanned])⟩
    | cons off os ih =>
      intro seen d h
      obtain ⟨d1, h1, h2⟩ := offSamp_row (off := off) (rangeList off (steps.length - off) 1)
        (by intro i hi; rw [mem_rangeList one_pos] at hi; omega) h
      obtain ⟨d2, h3, h4⟩ := ih h2
      refine ⟨d2, ?_, offSampInv_congr h4 ?_⟩
      · rw [List.foldlM_cons, h1]; exact h3
      · intro g
        simp only [Scanned, List.mem_cons]
        constructor
        · rintro ((h | ⟨i, hi, rfl⟩) | h)
          · exact Or.inl h
          · right
            rw [mem_rangeList one_pos] at hi
            exact ⟨Or.inl rfl, by simp only; omega⟩
          · exact Or.inr ⟨Or.inr h.1, h.2⟩
        · rintro (h | ⟨h | h, h'⟩)
          · exact Or.inl (Or.inl h)
          · left; right
            refine ⟨g.1 + g.2, ?_, ?_⟩
            · rw [mem_rangeList one_pos]; refine ⟨by omega, by omega, by simp [Nat.mod_one]⟩
            · rw [← h, Nat.add_sub_cancel_left]
          · exact Or.inr ⟨h, h'⟩
  obtain ⟨d, h1, h2⟩ := key offsets (seen := fun _ => False) (d := [])
    ⟨by simp [dictKeys], by simp, by simp⟩
  exact ⟨d, h1, offSampInv_congr h2 (by simp)⟩

theorem dictGet_mem {κ V : Type} [DecidableEq κ] {d : List (κ × V)} {k : κ} (h : k ∈ dictKeys d) :
    ∃ v, dictGet d k = .ok v ∧ (k, v) ∈ d := by
  induction d with
  | nil => simp [dictKeys] at h
  | cons e d ih =>
    obtain ⟨a, b⟩ := e
    simp only [dictGet]
    by_cases hk : a = k
    · subst hk; exact ⟨b, by simp, by simp⟩
    · rw [if_neg hk]
      simp only [dictKeys, List.map_cons, List.mem_cons] at h
      obtain ⟨v, h1, h2⟩ := ih (h.resolve_left (fun h' => hk h'.symm))
      exact ⟨v, h1, by simp [h2]⟩

section C19
variable {K : Type} [Field K] [LinearOrder K] [IsStrictOrderedRing K] [FloorRing K]

/-- Step differences found by `setup_t_grid` before matching: the lags of all scanned pairs. -/
def _root_.PP.Spec.IsScannedLag (steps : List ℤ) (offsets : List ℕ) (v : ℤ) : Prop :=
  ∃ g, Scanned steps.length offsets g ∧ Spec.lag steps g = v

/-- The grid, for the two choices of the offsets. -/
theorem setupTGrid_spec (steps : List ℤ) (blockSize : ℕ) (dt : K) (tGrid : List K) (offset : Bool) (os : List ℕ)
    (hos : (if offset then List.range blockSize else [0]) = os) (h0 : 0 ∈ os)
    (hs : steps ≠ []) (hdt : dt ≠ 0) :
    ∃ grid, setupTGrid steps blockSize dt tGrid offset = .ok grid ∧
      (∀ g ∈ grid, Scanned steps.length os g) ∧
      (grid.map (Spec.lag steps)).Pairwise (· < ·) ∧
      ∀ v, v ∈ grid.map (Spec.lag steps) ↔
        Spec.IsScannedLag steps os v ∧
        ∃ t ∈ tGrid, ∀ w, Spec.IsScannedLag steps os w →
          |v - pyRound (t / dt)| ≤ |w - pyRound (t / dt)| ∧
          (|w - pyRound (t / dt)| = |v - pyRound (t / dt)| → v ≤ w) := by
  obtain ⟨d, hd, inv⟩ := offSamp_inv steps os
  have hmemk : ∀ v, v ∈ dictKeys d ↔ Spec.IsScannedLag steps os v := by
    intro v
    constructor
    · intro h
      simp only [dictKeys, List.mem_map] at h
      obtain ⟨e, he, rfl⟩ := h
      exact ⟨e.2, (inv.sound e he).1, (inv.sound e he).2.symm⟩
    · rintro ⟨g, hg, rfl⟩; exact inv.complete g hg
  have hlen : 0 < steps.length := List.length_pos_of_ne_nil hs
  have hne : pySorted (dictKeys d) ≠ [] := by
    have : Spec.lag steps (0, 0) ∈ pySorted (dictKeys d) := by
      rw [mem_pySorted, hmemk]
      exact ⟨(0, 0), ⟨h0, by simpa using hlen⟩, rfl⟩
    exact List.ne_nil_of_mem this
  obtain ⟨ig, hig, hf⟩ := mapM_forall₂ (l := tGrid)
    (f := fun t => do let q ← pyDiv t dt; return pyRound q)
    (R := fun t i => i = pyRound (t / dt)) (by
      intro t _
      refine ⟨_, ?_, rfl⟩
      simp [pyDiv, hdt, bind, Except.bind, pure, Except.pure])
  obtain ⟨l, hl, hl1, hl2⟩ := C18_templated (pySorted (dictKeys d)) (pySorted (pySet ig))
    (pySorted_le _) hne
  have hlk : ∀ v ∈ l, v ∈ dictKeys d := by
    intro v hv
    obtain ⟨t, -, hn⟩ := (hl2 v).1 hv
    exact mem_pySorted.1 hn.1
  obtain ⟨grid, hg, hgf⟩ := mapM_forall₂ (l := l) (f := fun t => dictGet d t)
    (R := fun v g => (v, g) ∈ d) (fun v hv => dictGet_mem (hlk v hv))
  have hlag : grid.map (Spec.lag steps) = l := by
    clear hg
    have : ∀ {l : List ℤ} {grid : List (ℕ × ℕ)}, List.Forall₂ (fun v g => (v, g) ∈ d) l grid →
        grid.map (Spec.lag steps) = l := by
      intro l grid h
      induction h with
      | nil => rfl
      | cons h1 _ ih => rw [List.map_cons, ih, ← (inv.sound _ h1).2]
    exact this hgf
  refine ⟨grid, ?_, ?_, ?_, ?_⟩
  · unfold setupTGrid
    rw [hos, hd]
    simp only [bind, Except.bind]
    simp only [bind, Except.bind] at hig
    rw [hig]
    simp only
    rw [hl]
    exact hg
  · intro g hg'
    obtain ⟨v, -, hv⟩ := forall₂_mem_right hgf g hg'
    exact (inv.sound _ hv).1
  · rw [hlag]; exact hl1
  · intro v
    rw [hlag, hl2]
    constructor
    · rintro ⟨t, ht, hn⟩
      rw [mem_pySorted] at ht
      unfold pySet at ht
      rw [List.mem_dedup] at ht
      obtain ⟨t', ht', rfl⟩ := forall₂_mem_right hf t ht
      refine ⟨(hmemk v).1 (mem_pySorted.1 hn.1), t', ht', ?_⟩
      intro w hw
      exact hn.2 w (mem_pySorted.2 ((hmemk w).2 hw))
    · rintro ⟨hv, t, ht, hn⟩
      obtain ⟨i, hi, rfl⟩ := forall₂_mem_left hf t ht
      refine ⟨_, mem_pySorted.2 (List.mem_dedup.2 hi), mem_pySorted.2 ((hmemk v).2 hv), ?_⟩
      intro b hb
      exact hn b ((hmemk b).1 (mem_pySorted.1 hb))

/-- **C19, partial.** Every pair of the grid is realisable, the lags are strictly increasing and they
are exactly the nearest matches of the requested times (rounded to steps) among the scanned lags.
Missing: the scan stops at separations `n - 2*off` instead of `n - off`, so that realisable lags
can be overlooked (see `C19_counterexample`). -/
theorem C19_t_grid_partial (steps : List ℤ) (blockSize : ℕ) (dt : K) (tGrid : List K)
    (hs : steps ≠ []) (hbs : 0 < blockSize) (hdt : dt ≠ 0) :
    ∃ grid, setupTGrid steps blockSize dt tGrid = .ok grid ∧
      (∀ g ∈ grid, Spec.Realisable steps.length blockSize g) ∧
      (grid.map (Spec.lag steps)).Pairwise (· < ·) ∧
      ∀ v, v ∈ grid.map (Spec.lag steps) ↔
        Spec.IsScannedLag steps (List.range blockSize) v ∧
        ∃ t ∈ tGrid, ∀ w, Spec.IsScannedLag steps (List.range blockSize) w →
          |v - pyRound (t / dt)| ≤ |w - pyRound (t / dt)| ∧
          (|w - pyRound (t / dt)| = |v - pyRound (t / dt)| → v ≤ w) := by
  obtain ⟨grid, h1, h2, h3⟩ := setupTGrid_spec steps blockSize dt tGrid true (List.range blockSize) rfl
    (List.mem_range.2 hbs) hs hdt
  refine ⟨grid, h1, fun g hg => ?_, h3⟩
  have := h2 g hg
  unfold Scanned at this
  simp only [List.mem_range] at this
  exact ⟨this.1, by omega⟩

theorem pyRound_le (q : K) : |(pyRound q : K) - q| ≤ 1 / 2 := by
  have h1 := Int.floor_le q
  have h2 := Int.lt_floor_add_one q
  unfold pyRound
  simp only
  split_ifs with a b c <;> rw [abs_le] <;> push_cast <;> constructor <;> linarith

/-- **C19, partial**, in terms of the requested times: for every requested time there is a grid entry
at most one step farther from it than the closest scanned lag. -/
theorem C19_closest_partial (steps : List ℤ) (blockSize : ℕ) (dt : K) (tGrid : List K)
    (grid : List (ℕ × ℕ)) (hs : steps ≠ []) (hbs : 0 < blockSize) (hdt : dt ≠ 0)
    (h : setupTGrid steps blockSize dt tGrid = .ok grid) (t : K) (ht : t ∈ tGrid) :
    ∃ g ∈ grid, ∀ w, Spec.IsScannedLag steps (List.range blockSize) w →
      |(Spec.lag steps g : K) - t / dt| ≤ |(w : K) - t / dt| + 1 := by
  obtain ⟨grid', h', -, -, hv⟩ := C19_t_grid_partial steps blockSize dt tGrid hs hbs hdt
  rw [h] at h'; cases h'
  -- the nearest scanned lag exists
  obtain ⟨d, hd, inv⟩ := offSamp_inv steps (List.range blockSize)
  have hmemk : ∀ v, v ∈ pySorted (dictKeys d) ↔
      Spec.IsScannedLag steps (List.range blockSize) v := by
    intro v
    rw [mem_pySorted]
    constructor
    · intro h
      simp only [dictKeys, List.mem_map] at h
      obtain ⟨e, he, rfl⟩ := h
      exact ⟨e.2, (inv.sound e he).1, (inv.sound e he).2.symm⟩
    · rintro ⟨g, hg, rfl⟩; exact inv.complete g hg
  have hlen : 0 < steps.length := List.length_pos_of_ne_nil hs
  have hne : pySorted (dictKeys d) ≠ [] := List.ne_nil_of_mem
    ((hmemk _).2 ⟨(0, 0), ⟨by simpa using hbs, by simpa using hlen⟩, rfl⟩)
  obtain ⟨v, -, hn⟩ := pyMinKey_nearest (pySorted (dictKeys d)) (pyRound (t / dt)) (pySorted_le _) hne
  have := (hv v).2 ⟨(hmemk v).1 hn.1, t, ht, fun w hw => hn.2 w ((hmemk w).2 hw)⟩
  obtain ⟨g, hg, rfl⟩ := List.mem_map.1 this
  refine ⟨g, hg, fun w hw => ?_⟩
  have h1 := (hn.2 w ((hmemk w).2 hw)).1
  have h1' : |(Spec.lag steps g : K) - (pyRound (t / dt) : K)| ≤ |(w : K) - (pyRound (t / dt) : K)| := by
    exact_mod_cast h1
  have h2 := pyRound_le (t / dt)
  have h3 := abs_sub_le (Spec.lag steps g : K) (pyRound (t / dt) : K) (t / dt)
  have h4 := abs_sub_le (w : K) (t / dt) (pyRound (t / dt) : K)
  rw [abs_sub_comm (t / dt)] at h4
  linarith

/-- **C19**, error: no frames and a non-empty request is a `ValueError` (`min` of an empty list). -/
theorem C19_t_grid_empty (blockSize : ℕ) (dt t : K) (tGrid : List K) (hdt : dt ≠ 0) :
    setupTGrid [] blockSize dt (t :: tGrid) = .error .valueError := by
  obtain ⟨d, hd, inv⟩ := offSamp_inv [] (List.range blockSize)
  have hd0 : d = [] := by
    cases d with
    | nil => rfl
    | cons e d =>
      have := (inv.sound e (by simp)).1
      unfold Scanned at this; simp at this
  subst hd0
  obtain ⟨ig, hig, hf⟩ := mapM_forall₂ (l := t :: tGrid)
    (f := fun t => do let q ← pyDiv t dt; return pyRound q)
    (R := fun t i => i = pyRound (t / dt)) (by
      intro t _
      refine ⟨_, ?_, rfl⟩
      simp [pyDiv, hdt, bind, Except.bind, pure, Except.pure])
  unfold setupTGrid
  simp only [if_true]
  rw [hd]
  simp only [bind, Except.bind] at hig ⊢
  rw [hig]
  obtain ⟨i, hi, -⟩ := forall₂_mem_left hf t (by simp)
  have hne : pySorted (pySet ig) ≠ [] := List.ne_nil_of_mem (mem_pySorted.2 (List.mem_dedup.2 hi))
  cases hp : pySorted (pySet ig) with
  | nil => exact absurd hp hne
  | cons a r =>
    simp only
    rw [hp]; rfl

end C19

/-- A logarithmic block of three frames repeated twice. -/
example : setupTGrid ([0, 1, 4, 10, 11, 14, 20] : List ℤ) 3 (1 / 2 : ℚ) [0, 1, 3, 10] =
    .ok [(0, 0), (0, 1), (2, 1), (0, 6)] := by
  decide +kernel

/-- **C19 is false** for the code: with steps 0, 1, 4, 10, 11, 14 in blocks of 3, the step difference
7 = 11 - 4 (offset 2, separation 2) is realisable, but a request of a lag of 7 steps is given 6. -/
theorem C19_counterexample :
    setupTGrid ([0, 1, 4, 10, 11, 14] : List ℤ) 3 (1 : ℚ) [7] = .ok [(2, 1)] ∧
    Spec.lag [0, 1, 4, 10, 11, 14] (2, 1) = 6 ∧
    Spec.Realisable 6 3 (2, 2) ∧ Spec.lag [0, 1, 4, 10, 11, 14] (2, 2) = 7 := by
  refine ⟨by decide +kernel, by decide, by unfold Spec.Realisable; decide, by decide⟩

/-! ## C20 -/

theorem grid_nodup {steps : List ℤ} {grid : List (ℕ × ℕ)}
    (h : (grid.map (Spec.lag steps)).Pairwise (· < ·)) : grid.Nodup :=
  List.Nodup.of_map _ (h.imp ne_of_lt)

/-- If the offsets are below the block size, which divides the stride, and the grid has no repetitions,
then the sampled pairs have no repetitions. -/
theorem sampled_nodup (n skip blockSize : ℕ) (grid : List (ℕ × ℕ)) (hg : grid.Nodup)
    (ho : ∀ g ∈ grid, g.1 < blockSize) (hd : blockSize ∣ skip) : (Spec.sampled n skip grid).Nodup := by
  unfold Spec.sampled
  rw [List.nodup_flatMap]
  constructor
  · intro g _
    refine List.Nodup.map ?_ (List.nodup_range.filter _)
    intro a b h; exact (Prod.mk.injEq _ _ _ _ ▸ h).1
  · refine (List.Pairwise.and_mem.1 hg).imp ?_
    rintro g g' ⟨hgm, hgm', hne⟩
    simp only [Function.onFun]
    intro p hp hp'
    simp only [List.mem_map, List.mem_filter, List.mem_range, decide_eq_true_eq] at hp hp'
    obtain ⟨a, ⟨-, h1, h2, -⟩, rfl⟩ := hp
    obtain ⟨b, ⟨-, h3, h4, -⟩, heq⟩ := hp'
    simp only [Prod.mk.injEq] at heq
    obtain ⟨rfl, h5⟩ := heq
    have e1 : (b - g.1) % blockSize = 0 := Nat.mod_eq_zero_of_dvd (hd.trans (Nat.dvd_of_mod_eq_zero h2))
    have e2 : (b - g'.1) % blockSize = 0 := Nat.mod_eq_zero_of_dvd (hd.trans (Nat.dvd_of_mod_eq_zero h4))
    have l1 := ho g hgm
    have l2 := ho g' hgm'
    have : g.1 = g'.1 := by
      have f1 := Nat.div_add_mod (b - g.1) blockSize
      have f2 := Nat.div_add_mod (b - g'.1) blockSize
      rw [e1] at f1; rw [e2] at f2
      have k1 : b % blockSize = g.1 := by
        have : b = g.1 + blockSize * ((b - g.1) / blockSize) := by omega
        rw [this, Nat.add_mul_mod_self_left, Nat.mod_eq_of_lt l1]
      have k2 : b % blockSize = g'.1 := by
        have : b = g'.1 + blockSize * ((b - g'.1) / blockSize) := by omega
        rw [this, Nat.add_mul_mod_self_left, Nat.mod_eq_of_lt l2]
      rw [← k1, ← k2]
    exact hne (Prod.ext this h5.symm)

/-- **C20.** Over the discrete time grid and a stride multiple of the block size, no
(origin, separation) pair is sampled twice. -/
theorem C20_no_double_count {K : Type} [Field K] [LinearOrder K] [IsStrictOrderedRing K] [FloorRing K]
    (steps : List ℤ) (blockSize : ℕ) (dt : K) (tGrid : List K) (grid : List (ℕ × ℕ))
    (hs : steps ≠ []) (hbs : 0 < blockSize) (hdt : dt ≠ 0)
    (h : setupTGrid steps blockSize dt tGrid = .ok grid) (n skip : ℕ) (hd : blockSize ∣ skip) :
    (Spec.sampled n skip grid).Nodup := by
  obtain ⟨grid', h', h1, h2, -⟩ := C19_t_grid_partial steps blockSize dt tGrid hs hbs hdt
  rw [h] at h'; cases h'
  exact sampled_nodup n skip blockSize grid (grid_nodup h2) (fun g hg => (h1 g hg).1) hd

/-- The sampled pairs of a concrete block-structured trajectory, stride of one block. -/
example : Spec.sampled 7 3 [(0, 0), (0, 1), (2, 1), (0, 6)] =
    [(0, 0), (3, 0), (6, 0), (0, 1), (3, 1), (2, 1), (5, 1), (0, 6)] ∧ (3 : ℕ) ∣ 3 := by
  refine ⟨by decide, by decide⟩

/-- The hypothesis on the stride is needed: with a stride that is not a multiple of the block size
(which `adjust_skip` can return, see C16) a pair is sampled twice. -/
theorem C20_stride_needed :
    setupTGrid ([0, 1, 3, 6, 12, 13, 15, 18] : List ℤ) 4 (1 : ℚ) [1, 2] = .ok [(0, 1), (1, 1)] ∧
    ¬ (Spec.sampled 8 1 [(0, 1), (1, 1)]).Nodup := by
  refine ⟨by decide +kernel, by decide⟩

/-! ## C21 -/

theorem getD_block {steps : List ℤ} {bs : ℕ} {P : ℤ}
    (h : ∀ i, i + bs < steps.length → steps.getD (i + bs) 0 = steps.getD i 0 + P) (m i : ℕ)
    (hi : i + m * bs < steps.length) : steps.getD (i + m * bs) 0 = steps.getD i 0 + m * P := by
  induction m with
  | zero => simp
  | succ m ih =>
    have e : i + (m + 1) * bs = (i + m * bs) + bs := by ring
    rw [e] at hi ⊢
    rw [h _ hi, ih (by omega)]
    push_cast; ring

/-- On block-periodic steps all the sampled pairs of a grid entry have the lag of the entry. -/
theorem lag_of_sampled {steps : List ℤ} {bs skip off i i0 : ℕ}
    (hp : Spec.BlockPeriodic steps bs) (hd : bs ∣ skip) (h1 : off ≤ i0) (h2 : (i0 - off) % skip = 0)
    (h3 : i0 + i < steps.length) : Spec.lag steps (i0, i) = Spec.lag steps (off, i) := by
  obtain ⟨P, hP⟩ := hp
  obtain ⟨m, hm⟩ := hd.trans (Nat.dvd_of_mod_eq_zero h2)
  have e : i0 = off + m * bs := by rw [mul_comm] at hm; omega
  subst e
  unfold Spec.lag
  simp only
  have e2 : off + m * bs + i = (off + i) + m * bs := by ring
  rw [e2, getD_block hP m (off + i) (by omega), getD_block hP m off (by omega)]
  ring

variable {X V : Type}

/-- **C21.** On block-periodic steps, with a stride multiple of the block size and a grid whose pairs
exist and have strictly increasing lags (as returned by `setup_t_grid`, C19), the reported lags are
exactly the lags of the grid, and each value is the average over the pairs of its own grid entry. -/
theorem C21_block_periodic (ar : Arith V) (f : X → X → Py V) (k : X → X → V) (steps : List ℤ)
    (x : List X) (blockSize skip : ℕ) (grid : List (ℕ × ℕ)) (hskip : 0 < skip)
    (hd : blockSize ∣ skip) (hx : x.length = steps.length)
    (hp : Spec.BlockPeriodic steps blockSize)
    (hg : ∀ g ∈ grid, Spec.Realisable steps.length blockSize g)
    (hl : (grid.map (Spec.lag steps)).Pairwise (· < ·))
    (hf : ∀ a ∈ x, ∀ b ∈ x, f a b = .ok (k a b)) :
    gcfOffset ar f grid skip steps x = .ok (grid.map (Spec.lag steps), grid.map fun g =>
      let own := Spec.terms steps x (Spec.sampled steps.length skip [g])
      ar.div ((own.map fun e => k e.2.1 e.2.2).foldl ar.add ar.zero) own.length) := by
  obtain ⟨lags, h1, h2, h3⟩ := C01_gcf_offset_mean ar f k grid skip steps x hskip hx.le hf
  rw [hx] at h2 h3
  -- the lag of a term
  have hterm : ∀ g ∈ grid, ∀ e ∈ Spec.terms steps x (Spec.sampled steps.length skip [g]),
      e.1 = Spec.lag steps g := by
    intro g _ e he
    unfold Spec.terms at he
    rw [List.mem_filterMap] at he
    obtain ⟨p, hp1, hp2⟩ := he
    have hlt := sampled_lt hp1
    rw [mem_sampled] at hp1
    obtain ⟨off, ho, h4, h5, h6⟩ := hp1
    rw [List.mem_singleton] at ho
    have hp3 := term_isSome (t := steps) (x := x) hlt (by rw [hx]; exact hlt)
    rw [hp3] at hp2
    cases hp2
    have := lag_of_sampled hp hd h4 h5 h6
    rw [ho] at this
    rw [← this]
    unfold Spec.lag
    simp only
    rw [List.getD_eq_getElem _ _ hlt, List.getD_eq_getElem _ _ (by omega)]
  have hflat : Spec.terms steps x (Spec.sampled steps.length skip grid)
      = grid.flatMap fun g => Spec.terms steps x (Spec.sampled steps.length skip [g]) := by
    unfold Spec.terms Spec.sampled
    rw [List.filterMap_flatMap]
    apply List.flatMap_congr
    intro g _; simp
  -- each entry is sampled at least once
  have hself : ∀ g ∈ grid, ∃ e ∈ Spec.terms steps x (Spec.sampled steps.length skip [g]),
      e.1 = Spec.lag steps g := by
    intro g hgm
    have hmem : g ∈ Spec.sampled steps.length skip [g] := by
      rw [mem_sampled]; exact ⟨g.1, by simp, le_rfl, by simp, (hg g hgm).2⟩
    have := term_isSome (t := steps) (x := x) (hg g hgm).2 (by rw [hx]; exact (hg g hgm).2)
    have hm := List.mem_filterMap.2 ⟨g, hmem, this⟩
    exact ⟨_, hm, hterm g hgm _ hm⟩
  have hlags : lags = grid.map (Spec.lag steps) := by
    apply sorted_unique h1 hl
    intro d
    rw [h2, hflat]
    simp only [List.mem_flatMap, List.mem_map]
    constructor
    · rintro ⟨e, ⟨g, hgm, he⟩, rfl⟩
      exact ⟨g, hgm, (hterm g hgm e he).symm⟩
    · rintro ⟨g, hgm, rfl⟩
      obtain ⟨e, he, h'⟩ := hself g hgm
      exact ⟨e, ⟨g, hgm, he⟩, h'⟩
  -- the terms at a lag are those of its entry
  have hat : ∀ g ∈ grid, Spec.termsAt (Spec.lag steps g)
      (Spec.terms steps x (Spec.sampled steps.length skip grid))
      = (Spec.terms steps x (Spec.sampled steps.length skip [g])).map Prod.snd := by
    intro g hgm
    rw [hflat]
    unfold Spec.termsAt
    congr 1
    clear hflat h3 h2 hself hlags h1
    induction grid with
    | nil => simp at hgm
    | cons a grid ih =>
      rw [List.flatMap_cons, List.filter_append]
      rw [List.map_cons, List.pairwise_cons] at hl
      rcases List.mem_cons.1 hgm with rfl | hgm'
      · have e1 : (Spec.terms steps x (Spec.sampled steps.length skip [g])).filter
            (fun e => decide (e.1 = Spec.lag steps g))
            = Spec.terms steps x (Spec.sampled steps.length skip [g]) := by
          rw [List.filter_eq_self]
          intro e he; simpa using hterm g (by simp) e he
        have e2 : (grid.flatMap fun g => Spec.terms steps x (Spec.sampled steps.length skip [g])).filter
            (fun e => decide (e.1 = Spec.lag steps g)) = [] := by
          rw [List.filter_eq_nil_iff]
          intro e he
          rw [List.mem_flatMap] at he
          obtain ⟨g', hg', he'⟩ := he
          have := hterm g' (by simp [hg']) e he'
          have hlt := hl.1 _ (List.mem_map_of_mem hg')
          simp only [decide_eq_true_eq]
          rw [this]; exact ne_of_gt hlt
        rw [e1, e2, List.append_nil]
      · have e1 : (Spec.terms steps x (Spec.sampled steps.length skip [a])).filter
            (fun e => decide (e.1 = Spec.lag steps g)) = [] := by
          rw [List.filter_eq_nil_iff]
          intro e he
          have := hterm a (by simp) e he
          have hlt := hl.1 _ (List.mem_map_of_mem hgm')
          simp only [decide_eq_true_eq]
          rw [this]; exact ne_of_lt hlt
        rw [e1, List.nil_append]
        exact ih (fun b hb => hg b (by simp [hb])) hl.2 (fun b hb => hterm b (by simp [hb])) hgm'
  rw [h3, hlags, List.map_map]
  congr 2
  apply List.map_congr_left
  intro g hgm
  simp only [Function.comp]
  rw [hat g hgm, List.map_map, List.length_map]
  rfl

/-- **C21**, end to end: the lags reported for the grid built by `setup_t_grid`. -/
theorem C21_setup_t_grid {K : Type} [Field K] [LinearOrder K] [IsStrictOrderedRing K] [FloorRing K]
    (ar : Arith V) (f : X → X → Py V) (k : X → X → V) (steps : List ℤ)
    (x : List X) (blockSize skip : ℕ) (dt : K) (tGrid : List K) (grid : List (ℕ × ℕ))
    (hs : steps ≠ []) (hbs : 0 < blockSize) (hdt : dt ≠ 0) (hskip : 0 < skip)
    (hd : blockSize ∣ skip) (hx : x.length = steps.length)
    (hp : Spec.BlockPeriodic steps blockSize)
    (h : setupTGrid steps blockSize dt tGrid = .ok grid)
    (hf : ∀ a ∈ x, ∀ b ∈ x, f a b = .ok (k a b)) :
    ∃ vals, gcfOffset ar f grid skip steps x = .ok (grid.map (Spec.lag steps), vals) ∧
      vals.length = grid.length := by
  obtain ⟨grid', h', h1, h2, -⟩ := C19_t_grid_partial steps blockSize dt tGrid hs hbs hdt
  rw [h] at h'; cases h'
  exact ⟨_, C21_block_periodic ar f k steps x blockSize skip grid hskip hd hx hp h1 h2 hf, by simp⟩

/-- A block-periodic trajectory. -/
example : Spec.BlockPeriodic [0, 1, 4, 10, 11, 14, 20] 3 ∧
    (([(0, 0), (0, 1), (2, 1), (0, 6)] : List (ℕ × ℕ)).map
      (Spec.lag [0, 1, 4, 10, 11, 14, 20])).Pairwise (· < ·) := by
  refine ⟨⟨10, ?_⟩, by decide⟩
  intro i hi
  simp only [List.length_cons, List.length_nil] at hi
  have : i = 0 ∨ i = 1 ∨ i = 2 ∨ i = 3 := by omega
  rcases this with rfl | rfl | rfl | rfl <;> decide

end PP.Props
