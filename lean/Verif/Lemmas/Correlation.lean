import Verif.Model.Correlation
import Verif.Spec.Correlation
import Verif.Lemmas.Dict
/-! Characterisation of the correlation loops. -/
set_option linter.unusedSectionVars false

namespace PP

/-! ### Monadic folds in `Except` -/

theorem foldlM_ok {α β : Type} {step : β → α → Py β} {s : β → α → β} {l : List α}
    (h : ∀ a ∈ l, ∀ acc, step acc a = .ok (s acc a)) (acc : β) :
    l.foldlM step acc = (.ok (l.foldl s acc) : Py β) := by
  induction l generalizing acc with
  | nil => rfl
  | cons a l ih =>
    rw [List.foldlM_cons, h a (by simp) acc]
    exact ih (fun b hb => h b (by simp [hb])) _

theorem foldlM_err {α β : Type} {step : β → α → Py β} {e : PyErr} {l : List α}
    (h1 : ∃ a ∈ l, ∀ acc, step acc a = .error e)
    (h2 : ∀ a ∈ l, ∀ acc, step acc a = .error e ∨ ∃ r, step acc a = .ok r) (acc : β) :
    l.foldlM step acc = (.error e : Py β) := by
  induction l generalizing acc with
  | nil => simp at h1
  | cons a l ih =>
    rw [List.foldlM_cons]
    rcases h2 a (by simp) acc with h | ⟨r, h⟩
    · rw [h]; rfl
    · rw [h]
      obtain ⟨b, hb, hb2⟩ := h1
      rcases List.mem_cons.1 hb with rfl | hb'
      · rw [hb2] at h; cases h
      · exact ih ⟨b, hb', hb2⟩ (fun c hc => h2 c (by simp [hc])) r

theorem foldlM_flatMap {α β γ : Type} (step : β → α → Py β) (f : γ → List α) (l : List γ) (acc : β) :
    l.foldlM (fun acc c => (f c).foldlM step acc) acc = (l.flatMap f).foldlM step acc := by
  induction l generalizing acc with
  | nil => rfl
  | cons a l ih =>
    rw [List.foldlM_cons, List.flatMap_cons, List.foldlM_append]
    congr 1; funext r; exact ih r

variable {T X V : Type} [LinearOrder T] [Sub T]

/-- Pairs visited by the double loop. -/
def loopPairs (skip : ℕ) (entries : List (ℕ × ℕ × ℕ)) : List (ℕ × ℕ) :=
  entries.flatMap fun e => (rangeList e.1 e.2.1 skip).map fun i0 => (i0, e.2.2)

theorem corrLoop_eq {ar : Arith V} {f : X → X → Py V} {skip : ℕ} {t : List T} {x : List X}
    {entries : List (ℕ × ℕ × ℕ)} (hs : 0 < skip) :
    corrLoop ar f skip t x entries
      = (loopPairs skip entries).foldlM (fun acc p => corrStep ar f t x p.2 acc p.1) ([], []) := by
  unfold corrLoop loopPairs
  rw [← foldlM_flatMap]
  congr 1
  funext acc e
  have : pyRange e.1 e.2.1 skip = .ok (rangeList e.1 e.2.1 skip) := by
    unfold pyRange; rw [if_neg (by omega)]
  rw [this, List.foldlM_map]; rfl

theorem corrStep_ok {ar : Arith V} {f : X → X → Py V} {t : List T} {x : List X} {p : ℕ × ℕ}
    {d : T} {a b : X} {v : V} (h : Spec.term t x p = some (d, a, b)) (hf : f a b = .ok v)
    (acc : Acc T V) :
    corrStep ar f t x p.2 acc p.1
      = .ok (ddAdd ar.zero ar.add acc.1 d v, ddAdd 0 (· + ·) acc.2 d 1) := by
  unfold Spec.term at h
  unfold corrStep pyGet
  cases h1 : t[p.1 + p.2]? <;> cases h2 : t[p.1]? <;> cases h3 : x[p.1 + p.2]? <;>
    cases h4 : x[p.1]? <;> simp only [h1, h2, h3, h4] at h <;> try cases h
  simp only [hf, Except.bind, bind, pure, Except.pure]

theorem corrStep_err {ar : Arith V} {f : X → X → Py V} {t : List T} {x : List X} {p : ℕ × ℕ}
    (h : t[p.1 + p.2]? = none) (acc : Acc T V) :
    corrStep ar f t x p.2 acc p.1 = .error .indexError := by
  unfold corrStep pyGet
  simp only [h]; rfl

theorem term_isSome {t : List T} {x : List X} {p : ℕ × ℕ} (ht : p.1 + p.2 < t.length)
    (hx : p.1 + p.2 < x.length) :
    Spec.term t x p = some (t[p.1 + p.2] - t[p.1], x[p.1 + p.2], x[p.1]) := by
  have h1 : t[p.1 + p.2]? = some t[p.1 + p.2] := List.getElem?_eq_getElem ht
  have h2 : t[p.1]? = some t[p.1] := List.getElem?_eq_getElem (by omega)
  have h3 : x[p.1 + p.2]? = some x[p.1 + p.2] := List.getElem?_eq_getElem hx
  have h4 : x[p.1]? = some x[p.1] := List.getElem?_eq_getElem (by omega)
  unfold Spec.term
  simp only [h1, h2, h3, h4]

theorem term_mem {t : List T} {x : List X} {p : ℕ × ℕ} {d : T} {a b : X}
    (h : Spec.term t x p = some (d, a, b)) : a ∈ x ∧ b ∈ x := by
  unfold Spec.term at h
  cases h1 : t[p.1 + p.2]? <;> cases h2 : t[p.1]? <;> cases h3 : x[p.1 + p.2]? <;>
    cases h4 : x[p.1]? <;> simp only [h1, h2, h3, h4] at h <;> try cases h
  exact ⟨List.mem_of_getElem? h3, List.mem_of_getElem? h4⟩

/-- Contents of the two dictionaries at the end of the loops. -/
def accOf (ar : Arith V) (g : X → X → V) (S : List (T × X × X)) : Acc T V :=
  ((S.map fun e => (e.1, g e.2.1 e.2.2)).foldl (fun d e => ddAdd ar.zero ar.add d e.1 e.2) [],
   (S.map fun e => (e.1, 1)).foldl (fun d e => ddAdd 0 (· + ·) d e.1 e.2) [])

theorem corrLoop_ok {ar : Arith V} {f : X → X → Py V} {g : X → X → V} {skip : ℕ} {t : List T}
    {x : List X} {entries : List (ℕ × ℕ × ℕ)} (hs : 0 < skip)
    (hx : ∀ p ∈ loopPairs skip entries, p.1 + p.2 < x.length)
    (ht : ∀ p ∈ loopPairs skip entries, p.1 + p.2 < t.length)
    (hf : ∀ a ∈ x, ∀ b ∈ x, f a b = .ok (g a b)) :
    corrLoop ar f skip t x entries
      = .ok (accOf ar g (Spec.terms t x (loopPairs skip entries))) := by
  rw [corrLoop_eq hs]
  generalize loopPairs skip entries = ps at *
  have key : ∀ (acc : Acc T V), ps.foldlM (fun acc p => corrStep ar f t x p.2 acc p.1) acc
      = (.ok (((Spec.terms t x ps).map fun e => (e.1, g e.2.1 e.2.2)).foldl
            (fun d e => ddAdd ar.zero ar.add d e.1 e.2) acc.1,
          ((Spec.terms t x ps).map fun e => (e.1, 1)).foldl
            (fun d e => ddAdd 0 (· + ·) d e.1 e.2) acc.2) : Py (Acc T V)) := by
    induction ps with
    | nil => intro acc; rfl
    | cons p ps ih =>
      intro acc
      have h := term_isSome (ht p (by simp)) (hx p (by simp))
      have hm := term_mem h
      rw [List.foldlM_cons, corrStep_ok h (hf _ hm.1 _ hm.2)]
      have ih' := ih (fun q hq => hx q (by simp [hq])) (fun q hq => ht q (by simp [hq]))
        (ddAdd ar.zero ar.add acc.1 (t[p.1 + p.2]'(ht p (by simp)) - t[p.1]'(by have := ht p (by simp); omega)) (g (x[p.1 + p.2]'(hx p (by simp))) (x[p.1]'(by have := hx p (by simp); omega))),
         ddAdd 0 (· + ·) acc.2 (t[p.1 + p.2]'(ht p (by simp)) - t[p.1]'(by have := ht p (by simp); omega)) 1)
      have e : Spec.terms t x (p :: ps) = (t[p.1 + p.2]'(ht p (by simp)) - t[p.1]'(by have := ht p (by simp); omega), x[p.1 + p.2]'(hx p (by simp)), x[p.1]'(by have := hx p (by simp); omega)) :: Spec.terms t x ps := by
        unfold Spec.terms
        rw [List.filterMap_cons, h]
      rw [e]
      exact ih'
  exact key _

theorem accOf_keys (ar : Arith V) (g : X → X → V) (S : List (T × X × X)) (d : T) :
    d ∈ dictKeys (accOf ar g S).1 ↔ ∃ e ∈ S, e.1 = d := by
  unfold accOf
  rw [mem_keys_foldl]
  simp [dictKeys]

theorem accOf_nodup (ar : Arith V) (g : X → X → V) (S : List (T × X × X)) :
    (dictKeys (accOf ar g S).1).Nodup := by
  unfold accOf
  exact nodup_keys_foldl _ _ _ _ (by simp [dictKeys])

theorem accOf_cf (ar : Arith V) (g : X → X → V) (S : List (T × X × X)) (d : T) :
    ddGet ar.zero (accOf ar g S).1 d
      = ((Spec.termsAt d S).map fun p => g p.1 p.2).foldl ar.add ar.zero := by
  unfold accOf Spec.termsAt
  rw [ddGet_foldl]
  have e : ∀ l : List (T × X × X),
      List.map Prod.snd (List.filter (fun e => decide (e.1 = d)) (List.map (fun e => (e.1, g e.2.1 e.2.2)) l))
       = List.map (fun p => g p.1 p.2) (List.map Prod.snd (List.filter (fun e => decide (e.1 = d)) l)) := by
    intro l
    induction l with
    | nil => rfl
    | cons a l ih => by_cases h : a.1 = d <;> simp [h] at ih ⊢ <;> exact ih
  rw [e]; rfl

theorem foldl_add_one (l : List ℕ) (h : ∀ a ∈ l, a = 1) (c : ℕ) :
    l.foldl (· + ·) c = c + l.length := by
  induction l generalizing c with
  | nil => rfl
  | cons a l ih =>
    have ha : a = 1 := h a (by simp)
    rw [List.foldl_cons, ih (fun b hb => h b (by simp [hb])), List.length_cons]; omega

theorem accOf_cnt (ar : Arith V) (g : X → X → V) (S : List (T × X × X)) (d : T) :
    ddGet 0 (accOf ar g S).2 d = (Spec.termsAt d S).length := by
  unfold accOf Spec.termsAt
  rw [ddGet_foldl, foldl_add_one]
  · have e : ∀ l : List (T × X × X),
      (List.map Prod.snd (List.filter (fun e => decide (e.1 = d)) (List.map (fun e => (e.1, 1)) l))).length
       = (List.map Prod.snd (List.filter (fun e => decide (e.1 = d)) l)).length := by
      intro l
      induction l with
      | nil => rfl
      | cons a l ih => by_cases h : a.1 = d <;> simp [h] at ih ⊢ <;> exact ih
    rw [e]; simp [ddGet]
  · intro a ha
    simp only [List.mem_map, List.mem_filter] at ha
    obtain ⟨e, ⟨⟨e', -, rfl⟩, -⟩, rfl⟩ := ha
    rfl

theorem termsAt_length_pos {S : List (T × X × X)} {d : T} (h : ∃ e ∈ S, e.1 = d) :
    0 < (Spec.termsAt d S).length := by
  obtain ⟨e, he, hd⟩ := h
  apply List.length_pos_of_mem (a := e.2)
  unfold Spec.termsAt
  exact List.mem_map_of_mem (List.mem_filter.2 ⟨he, by simpa using hd⟩)

/-- Pairs visited by `gcf_offset` are the sampled pairs. -/
theorem loopPairs_gcfOffset {skip n : ℕ} (hs : 0 < skip) (grid : List (ℕ × ℕ)) :
    loopPairs skip (grid.map fun g => (g.1, n - g.2, g.2)) = Spec.sampled n skip grid := by
  unfold loopPairs Spec.sampled
  rw [List.flatMap_map]
  apply List.flatMap_congr
  intro g _
  show List.map _ (rangeList g.1 (n - g.2) skip) = _
  rw [rangeList_eq_filter (n := n) hs (by omega)]
  congr 1
  apply List.filter_congr
  intro i _
  have : (g.1 ≤ i ∧ i < n - g.2 ∧ (i - g.1) % skip = 0) ↔ (g.1 ≤ i ∧ (i - g.1) % skip = 0 ∧ i + g.2 < n) := by
    constructor <;> rintro ⟨a, b, c⟩ <;> refine ⟨a, ?_, ?_⟩ <;> first | assumption | omega
  simp [this]

theorem sampled_lt {n skip : ℕ} {grid : List (ℕ × ℕ)} {p : ℕ × ℕ}
    (h : p ∈ Spec.sampled n skip grid) : p.1 + p.2 < n := by
  unfold Spec.sampled at h
  simp only [List.mem_flatMap, List.mem_map, List.mem_filter, decide_eq_true_eq] at h
  obtain ⟨g, -, i0, ⟨-, h⟩, rfl⟩ := h
  exact h.2.2

theorem mem_sampled {n skip : ℕ} {grid : List (ℕ × ℕ)} {p : ℕ × ℕ} :
    p ∈ Spec.sampled n skip grid ↔
      ∃ off, (off, p.2) ∈ grid ∧ off ≤ p.1 ∧ (p.1 - off) % skip = 0 ∧ p.1 + p.2 < n := by
  unfold Spec.sampled
  simp only [List.mem_flatMap, List.mem_map, List.mem_filter, decide_eq_true_eq, List.mem_range]
  constructor
  · rintro ⟨g, hg, i0, ⟨-, h⟩, rfl⟩
    exact ⟨g.1, hg, h⟩
  · rintro ⟨off, hg, h⟩
    exact ⟨(off, p.2), hg, p.1, ⟨by omega, h⟩, rfl⟩

end PP
