import Verif.Model.CommandsIk
import Verif.Props.Ik

/-!
# C222: the command ik with a selection of frames
-/

namespace PP.Props
open PP

variable {d : ℕ}

/-- The frames of a file of which all are used. -/
theorem ikSelected_ok {file : List (IkSystem d)} {sel : List ℕ} (g : ℕ → IkSystem d) (hsel : ∀ j ∈ sel, file[j]? = some (g j)) :
    ikSelected file sel = .ok (sel.zipIdx.map fun ji => ⟨(g ji.1).pos, file[ji.2]?.map fun g => g.radius, (g ji.1).volume, (g ji.1).ks⟩) := by
  unfold ikSelected
  apply mapM_ok_map
  intro ji hji
  have := hsel ji.1 (List.fst_mem_of_mem_zipIdx hji)
  unfold pyGet
  rw [this]
  rfl

/-- **C222**, the part that holds: if the radii in the frames selected are those in the same number of frames at the beginning of the
file, as with `--last` only or if radii do not change with time, then the command gives the same result, or the same exception, as for
a file that contains the selected frames only. -/
theorem C222_selection_partial (file chosen : List (IkSystem d)) (sel : List ℕ) (skip nk : ℕ)
    (hsel : sel.map (fun j => file[j]?) = chosen.map some)
    (hrad : ∀ (i : ℕ) (f g : IkSystem d), file[i]? = some f → chosen[i]? = some g → f.radius = g.radius) (hlen : sel.length ≤ file.length) :
    ikCommand file sel skip nk = ikCommand chosen (List.range chosen.length) skip nk := by
  have hl : sel.length = chosen.length := by simpa using congrArg List.length hsel
  unfold ikCommand
  suffices h : ikSelected file sel = ikSelected chosen (List.range chosen.length) by rw [h]
  unfold ikSelected
  have key : ∀ (F G : ℕ × ℕ → Py (IkFrame d)) (a b : List (ℕ × ℕ)), a.map F = b.map G → a.mapM F = b.mapM G := by
    intro F G a b h
    have e1 : a.mapM F = (a.map F).mapM id := by rw [List.mapM_map]; rfl
    have e2 : b.mapM G = (b.map G).mapM id := by rw [List.mapM_map]; rfl
    rw [e1, e2, h]
  apply key
  apply List.ext_getElem
  · simp [hl]
  · intro i h1 h2
    have hi : i < chosen.length := by simpa using h2
    have hi' : i < sel.length := by omega
    have hs : file[sel[i]]? = some chosen[i] := by
      have := congrArg (fun l => l[i]?) hsel
      simpa [hi, hi'] using this
    have hf : i < file.length := by omega
    have := hrad i _ _ (List.getElem?_eq_getElem hf) (List.getElem?_eq_getElem hi)
    simp [pyGet, hs, hi, hf, this]

/-- **C222** is false: of a file with one ball per frame, let one frame be selected that is not the first one, in which the ball has
radius `2π/q`, where `q` is the norm of the indices of the only wave-vector; it has radius `π/q` in the first frame. The command gives
a quarter of the value for the file that contains the selected frame only, which is the square of the transform of the ball divided by
the volume. -/
theorem C222_counterexample_first (first : IkSystem 3) (rest : List (IkSystem 3)) (a : ℕ) (x : Vec 3 ℝ) (V : ℝ) (hV : 0 < V)
    (ks : KState 3 ℝ) (v : KVec 3) (hkv : ks.kvectors = [[v]]) (ha : Allowed ks) (hv : v ≠ 0)
    (hfirst : first.radius = [Real.pi / √(∑ c, (v c : ℝ) ^ 2)])
    (hsel : (first :: rest)[a]? = some ⟨[x], [2 * Real.pi / √(∑ c, (v c : ℝ) ^ 2)], V, ks⟩) :
    ∃ y n n', 0 < y ∧ y = Spec.ballTransform (√(∑ c, (v c : ℝ) ^ 2)) (2 * Real.pi / √(∑ c, (v c : ℝ) ^ 2)) ^ 2 / V ∧
      ikCommand [⟨[x], [2 * Real.pi / √(∑ c, (v c : ℝ) ^ 2)], V, ks⟩] [0] 1 1 = .ok ([y], n) ∧
      ikCommand (first :: rest) [a] 1 1 = .ok ([y / 4], n') := by
  have hq : √(∑ c, (v c : ℝ) ^ 2) ≠ 0 := by
    have := ikNorm_ne hv
    unfold ikNorm at this
    simpa only [pow_two] using this
  set q := √(∑ c, (v c : ℝ) ^ 2) with hqdef
  have hq0 : 0 < q := lt_of_le_of_ne (Real.sqrt_nonneg _) (Ne.symm hq)
  have hval : ∀ R : ℝ, ∃ n, ikCompute [⟨[x], some [R], V, ks⟩] 1 1 = .ok ([Spec.ballTransform q R ^ 2 / V], n) := by
    intro R
    have hreg : IkRegular [⟨[x], some [R], V, ks⟩] 1 1 := by
      refine ⟨by simp, by simp, by simp, by simp, ?_, ?_, ?_⟩
      · intro f hf; rw [List.mem_singleton] at hf; rw [hf]; exact ha
      · intro f hf; rw [List.mem_singleton] at hf; rw [hf]; simp [hkv, hv]
      · intro f hf; rw [List.mem_singleton] at hf; rw [hf]; simp [hkv]
    obtain ⟨value, nonorm, h1, h2, h3⟩ := C72_definition_partial _ 1 1 hreg
    refine ⟨nonorm, ?_⟩
    rw [h1]
    congr 2
    obtain ⟨b, rfl⟩ : ∃ b, value = [b] := by
      match value, h2 with
      | [b], _ => exact ⟨b, rfl⟩
    have h4 := h3 0 (by omega)
    rw [List.getD_cons_zero] at h4
    rw [h4]
    have hb : ballModes (fun _ v => √(∑ c, (v c : ℝ) ^ 2)) [⟨[x], some [R], V, ks⟩] 1 0 = [Spec.ballTransform q R ^ 2] := by
      have hev : Spec.everyNth 1 [(⟨[x], some [R], V, ks⟩ : IkFrame 3)] = [⟨[x], some [R], V, ks⟩] := by simp [Spec.everyNth]
      unfold ballModes
      rw [hev]
      simp only [List.flatMap_cons, List.flatMap_nil, List.append_nil, hkv, List.getD_cons_zero, List.map_cons, List.map_nil]
      unfold Spec.ballMode
      rw [fieldMode_single, ← hqdef]
      simp only [Option.getD_some, List.getD_cons_zero]
    rw [hb]
    simp
  have e1 : Spec.ballTransform q (Real.pi / q) = 4 * Real.pi ^ 2 / q ^ 3 := by
    rw [← ikForm_eq hq]
    unfold ikForm
    have : q * (Real.pi / q) = Real.pi := by field_simp
    rw [this]
    simp
    ring
  have e2 : Spec.ballTransform q (2 * Real.pi / q) = -8 * Real.pi ^ 2 / q ^ 3 := by
    rw [← ikForm_eq hq]
    unfold ikForm
    have : q * (2 * Real.pi / q) = 2 * Real.pi := by field_simp
    rw [this, Real.sin_two_pi, Real.cos_two_pi]
    ring
  have hpos := Real.pi_pos
  obtain ⟨n, hn⟩ := hval (2 * Real.pi / q)
  obtain ⟨n', hn'⟩ := hval (Real.pi / q)
  refine ⟨Spec.ballTransform q (2 * Real.pi / q) ^ 2 / V, n, n', ?_, rfl, ?_, ?_⟩
  · rw [e2]
    have : -8 * Real.pi ^ 2 / q ^ 3 ≠ 0 := div_ne_zero (mul_ne_zero (by norm_num) (by positivity)) (by positivity)
    positivity
  · unfold ikCommand
    rw [ikSelected_ok (fun _ => ⟨[x], [2 * Real.pi / q], V, ks⟩) (by simp)]
    exact hn
  · unfold ikCommand
    rw [ikSelected_ok (fun _ => ⟨[x], [2 * Real.pi / q], V, ks⟩) (by simpa using hsel)]
    simp only [bind, Except.bind, List.zipIdx_cons, List.zipIdx_nil, List.map_cons, List.map_nil, List.getElem?_cons_zero,
      Option.map_some, hfirst]
    rw [hn', e1, e2]
    congr 3
    ring

/-- **C222** is false: nothing is computed if a frame selected, at place `i`, has more or fewer particles than frame `i` of the file,
although the file has a radius for each particle of each frame. -/
theorem C222_counterexample_number (file : List (IkSystem d)) (sel : List ℕ) (skip nk i j : ℕ) (f g : IkSystem d) (hs : 0 < skip)
    (hj : sel[i]? = some j) (hf : file[j]? = some f) (hg : file[i]? = some g) (hi : i % skip = 0)
    (hv : ∃ l ∈ f.ks.kvectors, l ≠ []) (hfull : ∀ u ∈ file, u.radius.length = u.pos.length) (hn : f.pos.length ≠ g.pos.length)
    (r : List ℝ × List ℝ) : ikCommand file sel skip nk ≠ .ok r := by
  intro h
  unfold ikCommand at h
  obtain ⟨frames, h1, h2⟩ := bind_ok_iff.1 h
  refine C72_missing_radii frames skip nk i ⟨f.pos, some g.radius, f.volume, f.ks⟩ hs ?_ hi hv ?_ r h2
  · unfold ikSelected at h1
    obtain ⟨hl, hget⟩ := mapM_ok_get h1
    have hi' : i < sel.length := (List.getElem?_eq_some_iff.1 hj).1
    have hz : i < sel.zipIdx.length := by simpa using hi'
    have hlt : i < frames.length := by omega
    have hgi := hget i hz hlt
    have hsj : sel[i] = j := by
      rw [List.getElem?_eq_getElem hi'] at hj
      exact Option.some.inj hj
    simp only [List.getElem_zipIdx, Nat.zero_add, hsj, pyGet, hf, hg, bind, Except.bind, pure, Except.pure, Option.map_some,
      Except.ok.injEq] at hgi
    rw [List.getElem?_eq_getElem hlt, ← hgi]
  · rintro rs ⟨⟩
    rw [hfull g (List.mem_of_getElem? hg)]
    exact fun e => hn e.symm

/-- The wave-vectors of the examples: one wave-vector, of indices (2,1,1). -/
noncomputable def exIkKs : KState 3 ℝ := ⟨fun _ => 1, [1], [[![2, 1, 1]]], 1⟩

theorem exIkKs_allowed : Allowed exIkKs := by
  refine ⟨by simp [exIkKs], ?_⟩
  intro l hl v hv c
  simp only [exIkKs, List.mem_cons, List.not_mem_nil, or_false] at hl
  subst hl
  simp only [List.mem_cons, List.not_mem_nil, or_false] at hv
  subst hv
  fin_cases c <;> simp [exIkKs]

/-- Four frames in which the radii of the two balls change: the first two, selected with `--last`, meet the hypotheses, -/
example (p q : List (Vec 3 ℝ)) (ks : KState 3 ℝ) :
    ikCommand [⟨p, [1, 2], 8, ks⟩, ⟨q, [1, 3], 8, ks⟩, ⟨p, [2, 2], 8, ks⟩, ⟨q, [4, 3], 8, ks⟩] [0, 1] 1 1 =
      ikCommand [⟨p, [1, 2], 8, ks⟩, ⟨q, [1, 3], 8, ks⟩] [0, 1] 1 1 := by
  refine C222_selection_partial _ [⟨p, [1, 2], 8, ks⟩, ⟨q, [1, 3], 8, ks⟩] [0, 1] 1 1 rfl ?_ (by simp)
  intro i f g hf hg
  match i with
  | 0 => simp at hf hg; subst hf hg; rfl
  | 1 => simp at hf hg; subst hf hg; rfl
  | i + 2 => simp at hg

/-- as do the last two of a file in which they do not change. -/
example (p q : List (Vec 3 ℝ)) (ks : KState 3 ℝ) :
    ikCommand [⟨p, [1, 2], 8, ks⟩, ⟨q, [1, 2], 7, ks⟩, ⟨q, [1, 2], 8, ks⟩, ⟨p, [1, 2], 9, ks⟩] [2, 3] 1 1 =
      ikCommand [⟨q, [1, 2], 8, ks⟩, ⟨p, [1, 2], 9, ks⟩] [0, 1] 1 1 := by
  refine C222_selection_partial _ [⟨q, [1, 2], 8, ks⟩, ⟨p, [1, 2], 9, ks⟩] [2, 3] 1 1 rfl ?_ (by simp)
  intro i f g hf hg
  match i with
  | 0 => simp at hf hg; subst hf hg; rfl
  | 1 => simp at hf hg; subst hf hg; rfl
  | i + 2 => simp at hg

/-- A case of the first counter-example: the second of two frames. -/
example (x x' : Vec 3 ℝ) :
    let R := Real.pi / √(∑ c, ((![2, 1, 1] : KVec 3) c : ℝ) ^ 2)
    let R' := 2 * Real.pi / √(∑ c, ((![2, 1, 1] : KVec 3) c : ℝ) ^ 2)
    ∃ y n n', 0 < y ∧ ikCommand [⟨[x], [R'], 8, exIkKs⟩] [0] 1 1 = .ok ([y], n) ∧
      ikCommand [⟨[x'], [R], 8, exIkKs⟩, ⟨[x], [R'], 8, exIkKs⟩] [1] 1 1 = .ok ([y / 4], n') := by
  intro R R'
  obtain ⟨y, n, n', h0, -, h1, h2⟩ := C222_counterexample_first ⟨[x'], [R], 8, exIkKs⟩ [⟨[x], [R'], 8, exIkKs⟩] 1 x 8 (by norm_num)
    exIkKs ![2, 1, 1] rfl exIkKs_allowed (by
      intro h
      have := congrFun h 0
      simp at this) rfl rfl
  exact ⟨y, n, n', h0, h1, h2⟩

/-- A case of the second one: the number of particles changes. -/
example (x y z : Vec 3 ℝ) (r : List ℝ × List ℝ) :
    ikCommand [⟨[x], [1], 8, exIkKs⟩, ⟨[y, z], [1, 2], 8, exIkKs⟩] [1] 1 1 ≠ .ok r := by
  refine C222_counterexample_number _ [1] 1 1 0 1 ⟨[y, z], [1, 2], 8, exIkKs⟩ ⟨[x], [1], 8, exIkKs⟩ (by norm_num) rfl rfl rfl rfl
    ⟨[![2, 1, 1]], by simp [exIkKs], by simp⟩ ?_ (by simp) r
  intro u hu
  simp only [List.mem_cons, List.not_mem_nil, or_false] at hu
  rcases hu with rfl | rfl <;> rfl

end PP.Props
