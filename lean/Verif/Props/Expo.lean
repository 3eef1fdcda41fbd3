import Verif.Lemmas.Expo

/-!
# C46: the table of exponentials
-/

namespace PP.Props

variable {d : ℕ}

/-- **C46** (one frame). `expo_sphere(k0, nk, pos)` succeeds for `nk ≥ 1` and a non-empty frame, and its entry
`[p, j, nk+m]` is `exp(i m k0_j x_pj)` for every particle `p`, dimension `j` and `-nk ≤ m ≤ nk`, whatever the
content of the uninitialised array. -/
theorem C46_table (garbage : ℕ → ℂ) (k0 : Vec d ℝ) (nk : ℕ) (hnk : 1 ≤ nk) (pos : List (Vec d ℝ)) (hpos : pos ≠ []) :
    ∃ T, expoSphere (fun x : ℝ => Complex.exp (Complex.I * x)) garbage k0 nk pos = .ok T ∧ T.length = pos.length ∧
      ∀ (p : ℕ) (hp : p < pos.length) (j : Fin d) (m : ℤ), -nk ≤ m → m ≤ nk →
        (do let a ← pyGet T p; let b ← pyGet a j; npGet b (nk + m)) =
          .ok (Complex.exp (Complex.I * (m * (k0 j * pos[p] j)))) := by
  refine ⟨_, expoSphere_eq garbage k0 nk hnk pos hpos, by simp, ?_⟩
  intro p hp j m h1 h2
  rw [pyGet_ok (by simpa using hp)]
  simp only [bind, Except.bind]
  rw [pyGet_ok (by simp)]
  simp only [Except.bind, List.getElem_map, List.getElem_finRange]
  rw [expoList_get _ _ _ h1 h2, ccis_int_mul]
  simp

/-- **C46** (several frames, as used by the self intermediate scattering function). -/
theorem C46_frames (garbage : ℕ → ℂ) (k0 : Vec d ℝ) (nk : ℕ) (hnk : 1 ≤ nk) (pos : List (List (Vec d ℝ)))
    (hpos : pos ≠ []) :
    ∃ T, expoFrames (fun x : ℝ => Complex.exp (Complex.I * x)) garbage k0 nk pos = .ok T ∧ T.length = pos.length ∧
      ∀ (i : ℕ) (hi : i < pos.length) (p : ℕ) (hp : p < pos[i].length) (j : Fin d) (m : ℤ), -nk ≤ m → m ≤ nk →
        (do let f ← pyGet T i; let a ← pyGet f p; let b ← pyGet a j; npGet b (nk + m)) =
          .ok (Complex.exp (Complex.I * (m * (k0 j * pos[i][p] j)))) := by
  refine ⟨_, expoFrames_eq garbage k0 nk hnk pos hpos, by simp, ?_⟩
  intro i hi p hp j m h1 h2
  rw [pyGet_ok (by simpa using hi)]
  simp only [bind, Except.bind]
  rw [pyGet_ok (by simpa using hp)]
  simp only [Except.bind]
  rw [pyGet_ok (by simp)]
  simp only [Except.bind, List.getElem_map, List.getElem_finRange]
  rw [expoList_get _ _ _ h1 h2, ccis_int_mul]
  simp

/-- **C46** (`expo_sphere_safe`). For `kmax ≥ 0` and positive `k0` the other function builds the same table as
`expo_sphere` with `nk = 1 + floor(kmax / min(k0))`. -/
theorem C46_safe (garbage : ℕ → ℂ) (k0 : Vec d ℝ) (kmax : ℝ) (hk : 0 ≤ kmax) (hk0 : ∀ j, 0 < k0 j) (m : ℝ)
    (hm : pyMin (List.ofFn k0) = .ok m) (pos : List (List (Vec d ℝ))) (hpos : pos ≠ []) :
    expoSphereSafe (fun x : ℝ => Complex.exp (Complex.I * x)) garbage k0 kmax pos =
      expoFrames (fun x : ℝ => Complex.exp (Complex.I * x)) garbage k0 (1 + ⌊kmax / m⌋₊) pos := by
  have hm0 : 0 ≤ m := by
    have aux : ∀ (l : List ℝ) (a : ℝ), 0 < a → (∀ x ∈ l, 0 < x) → 0 < l.foldl min a := by
      intro l
      induction l with
      | nil => intro a ha _; simpa using ha
      | cons b l ih =>
        intro a ha hl
        exact ih _ (lt_min ha (hl b (by simp))) fun x hx => hl x (by simp [hx])
    have hall : ∀ x ∈ List.ofFn k0, 0 < x := by
      intro x hx
      obtain ⟨j, rfl⟩ := List.mem_ofFn.1 hx
      exact hk0 j
    cases h : List.ofFn k0 with
    | nil => rw [h] at hm; cases hm
    | cons a l =>
      rw [h] at hm hall
      simp only [pyMin] at hm
      cases hm
      exact (aux l a (hall a (by simp)) fun x hx => hall x (by simp [hx])).le
  have hq : 0 ≤ kmax / m := div_nonneg hk hm0
  have hn : (1 : ℤ) + pyInt (kmax / m) = ((1 + ⌊kmax / m⌋₊ : ℕ) : ℤ) := by
    unfold pyInt
    rw [if_pos hq]
    push_cast
    rw [Int.natCast_floor_eq_floor hq]
  unfold expoSphereSafe expoFrames
  rw [hm, if_neg hpos]
  simp only [bind, Except.bind]
  rw [hn, if_neg (by omega)]
  rfl

/-- **C46**: with room for one multiple at least, the tables are built for any positions as soon as there is one particle, or
one frame, and otherwise the functions raise `IndexError`, since they look at the first one. -/
theorem C46_built (garbage : ℕ → ℂ) (k0 : Vec d ℝ) (nk : ℕ) (hnk : 1 ≤ nk) (pos : List (Vec d ℝ)) (frames : List (List (Vec d ℝ))) :
    ((∃ T, expoSphere (fun x : ℝ => Complex.exp (Complex.I * x)) garbage k0 nk pos = .ok T) ↔ 0 < pos.length) ∧
    (pos = [] → expoSphere (fun x : ℝ => Complex.exp (Complex.I * x)) garbage k0 nk pos = .error .indexError) ∧
    ((∃ T, expoFrames (fun x : ℝ => Complex.exp (Complex.I * x)) garbage k0 nk frames = .ok T) ↔ 0 < frames.length) ∧
    (frames = [] → expoFrames (fun x : ℝ => Complex.exp (Complex.I * x)) garbage k0 nk frames = .error .indexError) := by
  refine ⟨⟨fun ⟨T, h⟩ => ?_, fun h => ?_⟩, fun h => ?_, ⟨fun ⟨T, h⟩ => ?_, fun h => ?_⟩, fun h => ?_⟩
  · rcases pos with _ | ⟨a, l⟩
    · cases h
    · simp
  · obtain ⟨T, h, -⟩ := C46_table garbage k0 nk hnk pos (List.length_pos_iff.1 h)
    exact ⟨T, h⟩
  · subst h; rfl
  · rcases frames with _ | ⟨a, l⟩
    · cases h
    · simp
  · obtain ⟨T, h, -⟩ := C46_frames garbage k0 nk hnk frames (List.length_pos_iff.1 h)
    exact ⟨T, h⟩
  · subst h; rfl

/-- A table of size zero cannot be built: `expo_sphere` always writes the entry `nk+1`. -/
theorem C46_no_room (garbage : ℕ → ℂ) (k0 : Vec (d + 1) ℝ) (pos : List (Vec (d + 1) ℝ)) :
    expoSphere (fun x : ℝ => Complex.exp (Complex.I * x)) garbage k0 0 pos = .error .indexError := by
  unfold expoSphere
  split_ifs with h
  · rfl
  · cases pos with
    | nil => exact absurd rfl h
    | cons r pos =>
      rw [List.mapM_cons, List.finRange_succ, List.mapM_cons]
      rfl

/-- A non-trivial case: two particles in three dimensions, third power along the second axis, that is
`exp(i 3 (π/2)) = -i`. -/
example : ∃ T, expoSphere (fun x : ℝ => Complex.exp (Complex.I * x)) (fun _ => 7) ![1, Real.pi, 2] 3
      [![0, 0, 0], ![1, 1 / 2, 3]] = .ok T ∧
    (do let a ← pyGet T 1; let b ← pyGet a 1; npGet b 6) = .ok (-Complex.I) := by
  obtain ⟨T, h, -, hT⟩ := C46_table (fun _ => 7) ![1, Real.pi, 2] 3 (by omega) [![0, 0, 0], ![1, 1 / 2, 3]] (by simp)
  refine ⟨T, h, ?_⟩
  have := hT 1 (by simp) 1 3 (by norm_num) (by norm_num)
  simp only [Fin.val_one] at this
  rw [show ((3 : ℕ) : ℤ) + 3 = 6 by norm_num] at this
  rw [this]
  congr 1
  rw [show Complex.I * (((3 : ℤ) : ℂ) * (((![1, Real.pi, 2] : Fin 3 → ℝ) 1 : ℝ) *
      (([![0, 0, 0], ![1, 1 / 2, 3]] : List (Fin 3 → ℝ))[1] 1 : ℝ))) = (3 : ℕ) * (Real.pi / 2 * Complex.I) by
    simp; ring]
  rw [Complex.exp_nat_mul, Complex.exp_pi_div_two_mul_I]
  exact Complex.I_pow_three

/-- A non-trivial case for `expo_sphere_safe`: `kmax = 5`, `k0 = (1, 2)`. -/
example : pyMin (List.ofFn (![1, 2] : Fin 2 → ℝ)) = .ok 1 ∧ ∀ j, 0 < (![1, 2] : Fin 2 → ℝ) j := by
  constructor
  · simp [pyMin, List.ofFn_succ]
  · intro j; fin_cases j <;> norm_num

/-- Two frames, with two and with no particles: a table; no frame: `IndexError`. -/
example : (∃ T, expoFrames (fun x : ℝ => Complex.exp (Complex.I * x)) (fun _ => 7) ![1, 2] 3 [[![0, 1], ![1, 1]], []] = .ok T) ∧
    expoFrames (fun x : ℝ => Complex.exp (Complex.I * x)) (fun _ => 7) (![1, 2] : Vec 2 ℝ) 3 [] = .error .indexError :=
  ⟨(C46_built (fun _ => 7) ![1, 2] 3 (by omega) [] [[![0, 1], ![1, 1]], []]).2.2.1.2 (by simp),
    (C46_built (fun _ => 7) ![1, 2] 3 (by omega) [] []).2.2.2 rfl⟩

end PP.Props
