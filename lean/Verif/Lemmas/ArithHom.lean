import Verif.Lemmas.TimeCorr

/-! Maps that commute with the operations of the accumulators commute with the time averages. -/

set_option linter.unusedSectionVars false

namespace PP

/-- `φ` commutes with sum and division by a count. -/
structure ArithHom {V W : Type} (ar : Arith V) (br : Arith W) (φ : V → W) : Prop where
  zero : φ ar.zero = br.zero
  add : ∀ a b, φ (ar.add a b) = br.add (φ a) (φ b)
  div : ∀ a m, φ (ar.div a m) = br.div (φ a) m

section
variable {V W T X : Type} {ar : Arith V} {br : Arith W} {φ : V → W}

/-- Image of the values of a dictionary. -/
def dictMap (φ : V → W) (D : List (T × V)) : List (T × W) := D.map fun e => (e.1, φ e.2)

theorem dictKeys_dictMap (D : List (T × V)) : dictKeys (dictMap φ D) = dictKeys D := by
  unfold dictKeys dictMap; rw [List.map_map]; rfl

theorem ddAdd_dictMap [DecidableEq T] (h : ArithHom ar br φ) (D : List (T × V)) (k : T) (v : V) :
    ddAdd br.zero br.add (dictMap φ D) k (φ v) = dictMap φ (ddAdd ar.zero ar.add D k v) := by
  induction D with
  | nil => simp [ddAdd, dictMap, h.add, h.zero]
  | cons e D ih =>
    obtain ⟨k', v'⟩ := e
    simp only [dictMap, List.map_cons, ddAdd] at ih ⊢
    split_ifs
    · simp [h.add]
    · simp only [List.map_cons, ih]

theorem ddGet_dictMap [DecidableEq T] (h : ArithHom ar br φ) (D : List (T × V)) (k : T) :
    ddGet br.zero (dictMap φ D) k = φ (ddGet ar.zero D k) := by
  induction D with
  | nil => simp [ddGet, dictMap, h.zero]
  | cons e D ih =>
    obtain ⟨k', v'⟩ := e
    simp only [dictMap, List.map_cons, ddGet] at ih ⊢
    split_ifs
    · rfl
    · exact ih

theorem foldlM_image {α β γ : Type} (m : α → β) {g : α → γ → Py α} {g' : β → γ → Py β}
    (h : ∀ a c, g' (m a) c = (g a c).map m) (l : List γ) (a : α) :
    l.foldlM g' (m a) = (l.foldlM g a).map m := by
  induction l generalizing a with
  | nil => rfl
  | cons c l ih =>
    rw [List.foldlM_cons, List.foldlM_cons, h]
    cases hg : g a c with
    | error e => rfl
    | ok a' => exact ih a'

variable [LinearOrder T] [Sub T]

theorem corrLoop_hom (h : ArithHom ar br φ) (f : X → X → Py V) (skip : ℕ) (t : List T) (x : List X)
    (e : List (ℕ × ℕ × ℕ)) :
    corrLoop br (fun a b => (f a b).map φ) skip t x e
      = (corrLoop ar f skip t x e).map fun acc => (dictMap φ acc.1, acc.2) := by
  have hstep : ∀ i (acc : Acc T V) i0, corrStep br (fun a b => (f a b).map φ) t x i (dictMap φ acc.1, acc.2) i0
      = (corrStep ar f t x i acc i0).map fun acc => (dictMap φ acc.1, acc.2) := by
    intro i acc i0
    unfold corrStep
    cases pyGet t (i0 + i) <;> cases pyGet t i0 <;> cases pyGet x (i0 + i) <;> cases pyGet x i0 <;> try rfl
    rename_i ta tb xa xb
    simp only [bind, Except.bind]
    cases f xa xb with
    | error e => rfl
    | ok v => simp only [Except.map, pure, Except.pure, ddAdd_dictMap h]
  unfold corrLoop
  refine foldlM_image (fun acc : Acc T V => ((dictMap φ acc.1, acc.2) : Acc T W)) ?_ e ([], [])
  intro acc c
  cases pyRange c.1 c.2.1 skip with
  | error e => rfl
  | ok r => exact foldlM_image (fun acc : Acc T V => ((dictMap φ acc.1, acc.2) : Acc T W)) (hstep c.2.2) r acc

theorem gcfOffset_hom (h : ArithHom ar br φ) (f : X → X → Py V) (grid : List (ℕ × ℕ)) (skip : ℕ) (t : List T)
    (x : List X) :
    gcfOffset br (fun a b => (f a b).map φ) grid skip t x
      = (gcfOffset ar f grid skip t x).map fun r => (r.1, r.2.map φ) := by
  unfold gcfOffset
  rw [corrLoop_hom h]
  cases corrLoop ar f skip t x (grid.map fun g => (g.1, x.length - g.2, g.2)) with
  | error e => rfl
  | ok acc =>
    simp only [Except.map, bind, Except.bind, pure, Except.pure, dictKeys_dictMap, List.map_map]
    congr 2
    refine List.map_congr_left fun k _ => ?_
    simp only [Function.comp_apply, ddGet_dictMap h, h.div]

/-- A map that commutes with the operations can be applied to the kernel or to the values. -/
theorem timeCorr_hom {K : Type} [Field K] [LinearOrder K] [FloorRing K] (h : ArithHom ar br φ) (f : X → X → Py V)
    (tr : Traj K) (dg : List (ℕ × ℕ)) (skip : ℕ) (x : List X) :
    timeCorr br (fun a b => (f a b).map φ) tr dg skip x
      = (timeCorr ar f tr dg skip x).map fun r => (r.1, r.2.map φ) := by
  unfold timeCorr
  rw [gcfOffset_hom h]
  cases gcfOffset ar f dg skip tr.steps x <;> rfl

end

/-- Multiplication by a number. -/
theorem arithHom_mul {K : Type} [Field K] (k : K) : ArithHom (Arith.nan K) (Arith.nan K) (Option.map (k * ·)) where
  zero := by simp [Arith.nan]
  add a b := by cases a <;> cases b <;> simp [Arith.nan, mul_add]
  div a m := by cases a <;> simp [Arith.nan, mul_div_assoc]

end PP
