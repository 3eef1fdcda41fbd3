import Verif.Model.Fourier
import Verif.Spec.Shells
import Verif.Lemmas.Expo
import Mathlib.Tactic.Ring
import Mathlib.Tactic.Linarith
import Mathlib.Tactic.FinCases
import Mathlib.Data.List.GetD
import Mathlib.Algebra.Order.BigOperators.Group.Finset

/-!
# Lemmas about shells of wave-vectors
-/

namespace PP

set_option linter.unusedSectionVars false

theorem mem_symRange {n m : ℤ} : m ∈ symRange n ↔ -n ≤ m ∧ m ≤ n := by
  unfold symRange
  simp only [List.mem_map, List.mem_range]
  constructor
  · rintro ⟨i, hi, rfl⟩; omega
  · rintro ⟨h1, h2⟩
    exact ⟨(m + n).toNat, by omega, by omega⟩

theorem nodup_symRange (n : ℤ) : (symRange n).Nodup := by
  unfold symRange
  exact List.Nodup.map (fun a b h => by simpa using h) List.nodup_range

theorem kIter_ok {d : ℕ} {n : ℤ} {it : List (KVec d)} (h : kIter d n = .ok it) :
    it.Nodup ∧ (d = 2 ∨ d = 3) ∧ ∀ v : KVec d, v ∈ it ↔ ∀ c, -n ≤ v c ∧ v c ≤ n := by
  match d, it, h with
  | 2, _, h =>
    cases h
    refine ⟨?_, Or.inl rfl, ?_⟩
    · rw [List.nodup_flatMap]
      refine ⟨fun x _ => List.Nodup.map (fun a b h => ?_) (nodup_symRange n), ?_⟩
      · simpa using congrFun h 1
      · refine (nodup_symRange n).imp ?_
        intro a b hab v ha hb
        simp only [List.mem_map] at ha hb
        obtain ⟨y, -, rfl⟩ := ha
        obtain ⟨z, -, hz⟩ := hb
        exact hab (by simpa using (congrFun hz 0).symm)
    · intro v
      simp only [List.mem_flatMap, List.mem_map, mem_symRange]
      constructor
      · rintro ⟨a, ha, b, hb, rfl⟩ c
        fin_cases c <;> assumption
      · intro hv
        exact ⟨v 0, hv 0, v 1, hv 1, by ext c; fin_cases c <;> rfl⟩
  | 3, _, h =>
    cases h
    refine ⟨?_, Or.inr rfl, ?_⟩
    · rw [List.nodup_flatMap]
      refine ⟨fun x _ => ?_, ?_⟩
      · rw [List.nodup_flatMap]
        refine ⟨fun y _ => List.Nodup.map (fun a b h => ?_) (nodup_symRange n), ?_⟩
        · simpa using congrFun h 2
        · refine (nodup_symRange n).imp ?_
          intro a b hab v ha hb
          simp only [List.mem_map] at ha hb
          obtain ⟨y, -, rfl⟩ := ha
          obtain ⟨z, -, hz⟩ := hb
          exact hab (by simpa using (congrFun hz 1).symm)
      · refine (nodup_symRange n).imp ?_
        intro a b hab v ha hb
        simp only [List.mem_map, List.mem_flatMap] at ha hb
        obtain ⟨y, -, z, -, rfl⟩ := ha
        obtain ⟨y', -, z', -, hz⟩ := hb
        exact hab (by simpa using (congrFun hz 0).symm)
    · intro v
      simp only [List.mem_flatMap, List.mem_map, mem_symRange]
      constructor
      · rintro ⟨a, ha, b, hb, e, he, rfl⟩ c
        fin_cases c <;> assumption
      · intro hv
        exact ⟨v 0, hv 0, v 1, hv 1, v 2, hv 2, by ext c; fin_cases c <;> rfl⟩
  | 0, _, h => cases h
  | 1, _, h => cases h
  | (n + 4), _, h => cases h

theorem kIter_isOk {d : ℕ} (hd : d = 2 ∨ d = 3) (n : ℤ) : ∃ it, kIter d n = .ok it := by
  rcases hd with rfl | rfl <;> exact ⟨_, rfl⟩

theorem kSq_eq {d : ℕ} (k0 : Vec d ℝ) (v : KVec d) : kSq k0 v = ∑ c, (k0 c * v c) ^ 2 := by
  unfold kSq; exact Finset.sum_congr rfl fun c _ => (pow_two _).symm

theorem kSq_nonneg {d : ℕ} (k0 : Vec d ℝ) (v : KVec d) : 0 ≤ kSq k0 v := by
  rw [kSq_eq]; exact Finset.sum_nonneg fun c _ => sq_nonneg _

theorem sqrt_kSq {d : ℕ} (k0 : Vec d ℝ) (v : KVec d) : √(kSq k0 v) = Spec.knorm k0 v := by
  rw [kSq_eq]; rfl

/-- Content of one shell after a loop that appends to the shells. -/
theorem foldl_modify_getD {α β : Type} (g : α → Option ℕ) (h : α → β) (l : List α) (acc : List (List β)) (i : ℕ)
    (hi : i < acc.length) :
    (l.foldl (fun acc a => match g a with | none => acc | some i => acc.modify i (· ++ [h a])) acc).length =
      acc.length ∧
    (l.foldl (fun acc a => match g a with | none => acc | some i => acc.modify i (· ++ [h a])) acc).getD i [] =
      acc.getD i [] ++ (l.filter fun a => decide (g a = some i)).map h := by
  induction l generalizing acc with
  | nil => simp
  | cons a l ih =>
    simp only [List.foldl_cons]
    cases ha : g a with
    | none =>
      have := ih acc hi
      refine ⟨this.1, this.2.trans ?_⟩
      simp [ha]
    | some j =>
      have := ih (acc.modify j (· ++ [h a])) (by simpa using hi)
      refine ⟨this.1.trans (by simp), this.2.trans ?_⟩
      by_cases hij : j = i
      · subst hij
        simp [ha, List.getD_eq_getElem?_getD, List.getElem?_modify, hi]
      · have : ¬ (some j = some i) := by simpa using hij
        simp [ha, List.getD_eq_getElem?_getD, List.getElem?_modify, hij]

theorem addToShell_eq {d : ℕ} (sq : ℝ → ℝ) (dk kgrid : List ℝ) (k0 : Vec d ℝ) (kmaxSq : ℝ) (kbin : ℤ) :
    addToShell sq dk kgrid k0 kmaxSq kbin = fun acc (ik : KVec d) =>
      match (if kSq k0 ik > kmaxSq then none else shellOf dk kgrid (sq (kSq k0 ik))) with
      | none => acc
      | some i => acc.modify i (· ++ [fun c => ik c + kbin]) := by
  funext acc ik
  unfold addToShell
  split_ifs <;> rfl

theorem shellOf_eq_some {dk kgrid : List ℝ} {x : ℝ} {i : ℕ} : shellOf dk kgrid x = some i ↔
    i < kgrid.length ∧ Spec.Fits kgrid dk i x ∧ ∀ j < i, ¬ Spec.Fits kgrid dk j x := by
  unfold shellOf Spec.Fits
  rw [List.find?_range_eq_some]
  simp only [decide_eq_true_eq, List.mem_range]
  constructor
  · rintro ⟨h1, h2, h3⟩; exact ⟨h2, h1, fun j hj => by simpa using h3 j hj⟩
  · rintro ⟨h1, h2, h3⟩; exact ⟨h2, h1, fun j hj => by simpa using h3 j hj⟩

theorem pyMin_ofFn_pos {d : ℕ} {k0 : Vec d ℝ} (hk0 : ∀ c, 0 < k0 c) (hd : d ≠ 0) :
    ∃ m, pyMin (List.ofFn k0) = .ok m ∧ 0 < m ∧ ∀ c, m ≤ k0 c := by
  have aux : ∀ (l : List ℝ) (a : ℝ), 0 < a → (∀ x ∈ l, 0 < x) →
      0 < l.foldl min a ∧ l.foldl min a ≤ a ∧ ∀ x ∈ l, l.foldl min a ≤ x := by
    intro l
    induction l with
    | nil => intro a ha _; simpa using ha
    | cons b l ih =>
      intro a ha hl
      obtain ⟨h1, h2, h3⟩ := ih (min a b) (lt_min ha (hl b (by simp))) fun x hx => hl x (by simp [hx])
      refine ⟨h1, h2.trans (min_le_left _ _), ?_⟩
      intro x hx
      rcases List.mem_cons.1 hx with rfl | hx
      · exact h2.trans (min_le_right _ _)
      · exact h3 x hx
  have hall : ∀ x ∈ List.ofFn k0, 0 < x := by
    intro x hx
    obtain ⟨j, rfl⟩ := List.mem_ofFn.1 hx
    exact hk0 j
  cases h : List.ofFn k0 with
  | nil =>
    have := congrArg List.length h
    simp at this
    exact absurd this hd
  | cons a l =>
    rw [h] at hall
    obtain ⟨h1, h2, h3⟩ := aux l a (hall a (by simp)) fun x hx => hall x (by simp [hx])
    refine ⟨_, rfl, h1, ?_⟩
    intro c
    have : k0 c ∈ a :: l := by rw [← h]; exact List.mem_ofFn.2 ⟨c, rfl⟩
    rcases List.mem_cons.1 this with e | e
    · rw [e]; exact h2
    · exact h3 _ e

/-- A wave-vector that does not exceed `kmax` lies within the box that is scanned. -/
theorem comp_le_of_knorm_le {d : ℕ} {k0 : Vec d ℝ} (hk0 : ∀ c, 0 < k0 c) {m kmax : ℝ} (hm : 0 < m)
    (hmk : ∀ c, m ≤ k0 c) {v : KVec d} (h : Spec.knorm k0 v ≤ kmax) (c : Fin d) :
    -(1 + pyInt (kmax / m)) ≤ v c ∧ v c ≤ 1 + pyInt (kmax / m) := by
  have h0 : 0 ≤ kmax := (Real.sqrt_nonneg _).trans h
  have h1 : |k0 c * v c| ≤ Spec.knorm k0 v := by
    apply Real.abs_le_sqrt
    exact Finset.single_le_sum (f := fun c => (k0 c * (v c : ℝ)) ^ 2) (fun c _ => sq_nonneg _) (Finset.mem_univ c)
  have h2 : m * |(v c : ℝ)| ≤ kmax := by
    rw [abs_mul, abs_of_pos (hk0 c)] at h1
    exact (mul_le_mul_of_nonneg_right (hmk c) (abs_nonneg _)).trans (h1.trans h)
  have h3 : ((|v c| : ℤ) : ℝ) ≤ kmax / m := by
    rw [le_div_iff₀ hm, mul_comm]; push_cast; exact h2
  have h4 : |v c| ≤ pyInt (kmax / m) := by
    unfold pyInt
    rw [if_pos (div_nonneg h0 hm.le)]
    exact Int.le_floor.2 h3
  rw [abs_le] at h4
  omega

/-- One pass: which wave-vectors end up in which shell. -/
theorem fillShells_spec {d : ℕ} {k0 : Vec d ℝ} (hk0 : ∀ c, 0 < k0 c) (hd : d = 2 ∨ d = 3) {kgrid dk : List ℝ}
    (hn : kgrid ≠ []) (hl : dk.length = kgrid.length) :
    ∃ kvec kbin, fillShells Real.sqrt k0 kgrid dk = .ok (kvec, kbin) ∧ kvec.length = kgrid.length ∧
      (0 ≤ Spec.kTop kgrid dk → 1 ≤ kbin) ∧
      ∀ i < kgrid.length, (kvec.getD i []).Nodup ∧ (0 ≤ Spec.kTop kgrid dk → ∀ w : KVec d, w ∈ kvec.getD i [] ↔
        Spec.First kgrid dk i (Spec.knorm k0 fun c => w c - kbin)) ∧
        (0 ≤ Spec.kTop kgrid dk → ∀ w ∈ kvec.getD i [], ∀ c, 0 < w c ∧ w c < 2 * kbin) := by
  have hlen : 0 < kgrid.length := List.length_pos_iff.2 hn
  obtain ⟨m, hm, hm0, hmk⟩ := pyMin_ofFn_pos hk0 (by omega)
  set kmax := Spec.kTop kgrid dk with hkmax
  set kbin := 1 + pyInt (kmax / m) with hkbin
  obtain ⟨it, hit⟩ := kIter_isOk hd kbin
  obtain ⟨hnd, -, hmem⟩ := kIter_ok hit
  have hfill : fillShells Real.sqrt k0 kgrid dk =
      .ok (it.foldl (addToShell Real.sqrt dk kgrid k0 (kmax ^ 2) kbin) (List.replicate kgrid.length []), kbin) := by
    unfold fillShells
    rw [pyGet_ok (by omega), pyGet_ok (by omega), hm]
    simp only [bind, Except.bind]
    have e : kgrid[kgrid.length - 1] + dk[dk.length - 1] = kmax := by
      rw [hkmax, Spec.kTop, List.getD_eq_getElem _ _ (by omega), List.getD_eq_getElem _ _ (by omega)]
    rw [e, ← hkbin, hit]
    rfl
  refine ⟨_, _, hfill, ?_, ?_, ?_⟩
  · rw [addToShell_eq]
    have := (foldl_modify_getD (fun ik : KVec d => if kSq k0 ik > kmax ^ 2 then none else
      shellOf dk kgrid (√(kSq k0 ik))) (fun ik c => ik c + kbin) it (List.replicate kgrid.length []) 0
      (by simpa using hlen)).1
    rw [this]; simp
  · intro h0
    have : 0 ≤ pyInt (kmax / m) := by
      unfold pyInt; rw [if_pos (div_nonneg h0 hm0.le)]; exact Int.floor_nonneg.2 (div_nonneg h0 hm0.le)
    omega
  · intro i hi
    have key := (foldl_modify_getD (fun ik : KVec d => if kSq k0 ik > kmax ^ 2 then none else
      shellOf dk kgrid (√(kSq k0 ik))) (fun ik c => ik c + kbin) it (List.replicate kgrid.length []) i
      (by simpa using hi)).2
    rw [addToShell_eq, key]
    have hrep : (List.replicate kgrid.length ([] : List (KVec d))).getD i [] = [] := by
      rw [List.getD_eq_getElem _ _ (by simpa using hi)]; simp
    rw [hrep, List.nil_append]
    have memiff : 0 ≤ kmax → ∀ v : KVec d, (v ∈ it ∧ (if kSq k0 v > kmax ^ 2 then none else
        shellOf dk kgrid (√(kSq k0 v))) = some i) ↔ Spec.First kgrid dk i (Spec.knorm k0 v) := by
      intro h0 v
      have hle : ¬ (kSq k0 v > kmax ^ 2) ↔ Spec.knorm k0 v ≤ kmax := by
        rw [not_lt, ← sqrt_kSq, Real.sqrt_le_left h0]
      constructor
      · rintro ⟨-, h⟩
        by_cases hg : kSq k0 v > kmax ^ 2
        · rw [if_pos hg] at h; cases h
        · rw [if_neg hg, shellOf_eq_some, sqrt_kSq] at h
          exact ⟨hle.1 hg, h.2.1, h.2.2⟩
      · rintro ⟨h1, h2, h3⟩
        refine ⟨(hmem v).2 (comp_le_of_knorm_le hk0 hm0 hmk h1), ?_⟩
        rw [if_neg (hle.2 h1), shellOf_eq_some, sqrt_kSq]
        exact ⟨hi, h2, h3⟩
    refine ⟨?_, ?_, ?_⟩
    · refine List.Nodup.map ?_ (hnd.filter _)
      intro a b h
      funext c
      simpa using congrFun h c
    · intro h0 w
      simp only [List.mem_map, List.mem_filter, decide_eq_true_eq]
      constructor
      · rintro ⟨v, hv, rfl⟩
        simpa using (memiff h0 v).1 hv
      · intro h
        exact ⟨fun c => w c - kbin, (memiff h0 _).2 h, by funext c; simp⟩
    · intro h0 w
      simp only [List.mem_map, List.mem_filter, decide_eq_true_eq]
      rintro ⟨v, hv, rfl⟩ c
      have h1 := ((memiff h0 v).1 hv).1
      have h2 : |v c| ≤ pyInt (kmax / m) := by
        have := comp_le_of_knorm_le hk0 hm0 hmk h1 c
        have h3 : |k0 c * v c| ≤ Spec.knorm k0 v := by
          apply Real.abs_le_sqrt
          exact Finset.single_le_sum (f := fun c => (k0 c * (v c : ℝ)) ^ 2) (fun c _ => sq_nonneg _)
            (Finset.mem_univ c)
        rw [abs_mul, abs_of_pos (hk0 c)] at h3
        have h4 : m * |(v c : ℝ)| ≤ kmax :=
          (mul_le_mul_of_nonneg_right (hmk c) (abs_nonneg _)).trans (h3.trans h1)
        unfold pyInt
        rw [if_pos (div_nonneg h0 hm0.le)]
        apply Int.le_floor.2
        rw [le_div_iff₀ hm0, mul_comm]; push_cast; exact h4
      rw [abs_le] at h2
      dsimp only
      omega

end PP
