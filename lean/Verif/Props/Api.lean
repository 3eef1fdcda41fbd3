import Verif.Model.Api
import Verif.Props.Grids
import Mathlib.Tactic.Linarith
import Mathlib.Tactic.Ring

/-!
# C69, C88, C92, C93: the api
-/

set_option linter.unusedSectionVars false

namespace PP.Props
open PP

/-- What is computed, unless `chi4qs` is called with `fast`. -/
theorem apiCommand_ok {o : ApiOptions} {c : Command} {files : List ℕ} {r : List (List ApiRun)}
    (hr : apiCommand o c files = .ok r) : r = apiLoop o c o.radius files := by
  unfold apiCommand at hr
  split_ifs at hr
  exact (Except.ok.inj hr).symm

/-- Without `ik`, each file is treated independently of the others. -/
theorem apiCommand_eq_map {o : ApiOptions} {c : Command} (hc : c ≠ .ik) {files : List ℕ} {r : List (List ApiRun)}
    (hr : apiCommand o c files = .ok r) : r = files.map fun n => (apiFile o c o.radius n).1 := by
  have h : ∀ n, (apiFile o c o.radius n).2 = o.radius := by
    intro n
    cases c <;> simp [apiFile] at hc ⊢
  rw [apiCommand_ok hr]
  clear hr
  induction files with
  | nil => rfl
  | cons n files ih => simp only [apiLoop, List.map_cons, h, ih]

/-- **C69**, what holds: `gr`, `sk`, `msd`, `vacf`, `alpha2`, `qst`, `qt`, `ba` compute the function of the whole system
for every file, and, unless told not to (or with a filter) the partial ones if there is more than one species. -/
theorem C69_computed_partial (o : ApiOptions) (c : Command)
    (hc : c ∈ [.gr, .sk, .msd, .vacf, .alpha2, .qst, .qt, .ba]) (files : List ℕ) :
    ∃ r, apiCommand o c files = .ok r ∧ r.length = files.length ∧
    ∀ i (h : i < files.length) (h' : i < r.length),
      (∃ x ∈ r[i], x.partials = false) ∧
      ((∃ x ∈ r[i], x.partials = true) ↔ 1 < files[i] ∧ o.noPartial = false ∧ o.filter = false) := by
  have hik : c ≠ .ik := by rintro rfl; simp at hc
  have hch : ¬ (c = .chi4qs ∧ o.fast = true) := by rintro ⟨rfl, -⟩; simp at hc
  have hr : apiCommand o c files = .ok (apiLoop o c o.radius files) := by unfold apiCommand; rw [if_neg hch]
  refine ⟨_, hr, ?_⟩
  simp only [apiCommand_eq_map hik hr, List.length_map, List.getElem_map, true_and]
  intro i h _
  generalize files[i] = n
  have hp : ∀ b, (∃ r ∈ partialRuns o n b, r.partials = true) ↔ 1 < n ∧ o.noPartial = false ∧ o.filter = false := by
    intro b
    unfold partialRuns ApiOptions.skipPartial
    cases o.filter <;> cases o.noPartial <;> by_cases hn : 1 < n <;> simp [hn]
  simp only [List.mem_cons, List.not_mem_nil, or_false] at hc
  rcases hc with rfl | rfl | rfl | rfl | rfl | rfl | rfl | rfl <;>
    simp [apiFile, hp]

/-- **C69**, what holds for filters: with `gr`, `sk` and `ba` all that is computed is filtered. -/
theorem C69_filtered_partial (o : ApiOptions) (ho : o.filter = true) (c : Command) (hc : c ∈ [.gr, .sk, .ba])
    (files : List ℕ) : ∃ r, apiCommand o c files = .ok r ∧ r.length = files.length ∧
      ∀ l ∈ r, l ≠ [] ∧ ∀ x ∈ l, x.filtered = true := by
  have hik : c ≠ .ik := by rintro rfl; simp at hc
  have hch : ¬ (c = .chi4qs ∧ o.fast = true) := by rintro ⟨rfl, -⟩; simp at hc
  have hr : apiCommand o c files = .ok (apiLoop o c o.radius files) := by unfold apiCommand; rw [if_neg hch]
  refine ⟨_, hr, ?_⟩
  rw [apiCommand_eq_map hik hr]
  refine ⟨by simp, ?_⟩
  intro l hl
  obtain ⟨n, _, rfl⟩ := List.mem_map.mp hl
  simp only [List.mem_cons, List.not_mem_nil, or_false] at hc
  rcases hc with rfl | rfl | rfl <;> simp [apiFile, ho, partialRuns, ApiOptions.skipPartial]

/-- **C69** is false: with all the other functions the filter is never applied, whatever the files and options. -/
theorem C69_counterexample_filter (o : ApiOptions) (c : Command) (hc : c ∉ [.gr, .sk, .ba]) (files : List ℕ)
    (r : List (List ApiRun)) (hr : apiCommand o c files = .ok r) : ∀ l ∈ r, ∀ x ∈ l, x.filtered = false := by
  rw [apiCommand_ok hr]
  clear hr
  generalize o.radius = b
  induction files generalizing b with
  | nil => simp [apiLoop]
  | cons n files ih =>
    intro l hl
    simp only [apiLoop, List.mem_cons] at hl
    rcases hl with rfl | hl
    · have hp : ∀ b, ∀ r ∈ partialRuns o n b, r.filtered = false := by
        intro b
        unfold partialRuns
        split_ifs <;> simp
      intro r hr
      cases c <;> simp only [List.mem_cons, List.not_mem_nil, or_false, reduceCtorEq, not_true_eq_false, true_or, or_true,
          not_false_eq_true] at hc <;>
        simp only [apiFile, List.mem_append, List.mem_cons, List.not_mem_nil, or_false] at hr
      · split_ifs at hr <;> simp at hr; simp [hr]
      · rcases hr with rfl | hr
        · rfl
        · exact hp _ r hr
      · rcases hr with rfl | hr
        · rfl
        · exact hp _ r hr
      · rcases hr with hr | hr
        · split_ifs at hr <;> simp at hr; simp [hr]
        · exact hp _ r hr
      · rcases hr with hr | hr
        · split_ifs at hr <;> simp at hr; simp [hr]
        · exact hp _ r hr
      · rcases hr with hr | hr
        · split_ifs at hr <;> simp at hr; simp [hr]
        · split_ifs at hr <;> simp at hr; simp [hr]
      all_goals
        rcases hr with rfl | hr
        · rfl
        · exact hp _ r hr
    · exact ih _ l hl

/-- **C69** is false: `ik` computes only the first file, and nothing at all if the trajectory of the radii is given. -/
theorem C69_counterexample_ik (o : ApiOptions) (n : ℕ) (files : List ℕ) :
    apiCommand o .ik (n :: files) =
      .ok ((if o.radius then [] else [⟨false, false, false⟩]) :: List.replicate files.length []) := by
  have h : ∀ files : List ℕ, apiLoop o .ik true files = List.replicate files.length [] := by
    intro files
    induction files with
    | nil => rfl
    | cons n files ih => simp [apiLoop, apiFile, List.replicate_succ, ih]
  unfold apiCommand
  cases hr : o.radius <;> simp [apiLoop, apiFile, h]

/-- **C69** is false: `chi4qs` raises an exception with `fast`; otherwise it computes something for a file if and only
if the total is requested or there is more than one species: by default nothing is computed for systems of one
species. -/
theorem C69_counterexample_chi4qs (o : ApiOptions) (files : List ℕ) :
    (o.fast = true → apiCommand o .chi4qs files = .error .attributeError) ∧
    (o.fast = false → ∃ r, apiCommand o .chi4qs files = .ok r ∧ r.length = files.length ∧
      ∀ i (h : i < files.length) (h' : i < r.length), r[i] ≠ [] ↔ o.total = true ∨ 1 < files[i]) := by
  refine ⟨fun h => by simp [apiCommand, h], fun hf => ?_⟩
  have hr : apiCommand o .chi4qs files = .ok (apiLoop o .chi4qs o.radius files) := by simp [apiCommand, hf]
  refine ⟨_, hr, ?_⟩
  simp only [apiCommand_eq_map (by decide) hr, List.getElem_map, List.length_map, true_and]
  intro i h _
  generalize files[i] = n
  cases ht : o.total <;> by_cases hn : 1 < n <;> simp [apiFile, ht, hn]

/-- **C69** is false: `fkt` and `fskt` compute nothing for a file with several species if partial functions are not
wanted, or if there is a filter, and the total is not requested. -/
theorem C69_counterexample_fkt (o : ApiOptions) (c : Command) (hc : c = .fkt ∨ c = .fskt) (files : List ℕ) :
    ∃ r, apiCommand o c files = .ok r ∧ r.length = files.length ∧
      ∀ i (h : i < files.length) (h' : i < r.length), r[i] ≠ [] ↔
        o.total = true ∨ files[i] = 1 ∨ (1 < files[i] ∧ o.noPartial = false ∧ o.filter = false) := by
  have hik : c ≠ .ik := by rcases hc with rfl | rfl <;> decide
  have hr : apiCommand o c files = .ok (apiLoop o c o.radius files) := by
    rcases hc with rfl | rfl <;> simp [apiCommand]
  refine ⟨_, hr, ?_⟩
  simp only [apiCommand_eq_map hik hr, List.getElem_map, List.length_map, true_and]
  intro i h _
  generalize files[i] = n
  rcases hc with rfl | rfl <;>
    cases ht : o.total <;> cases hf : o.filter <;> cases hp : o.noPartial <;> by_cases h1 : n = 1 <;>
      by_cases hn : 1 < n <;> simp [apiFile, partialRuns, ApiOptions.skipPartial, ht, hf, hp, h1, hn]

/-- Two files, of one and two species, with a filter: what is computed by `gr`, `msd`, `fkt`. -/
example : apiCommand ⟨true, false, false, false, false, false⟩ .gr [1, 2] =
      .ok [[⟨false, true, false⟩], [⟨false, true, false⟩]] ∧
    apiCommand ⟨true, false, false, false, false, false⟩ .msd [1, 2] =
      .ok [[⟨false, false, false⟩], [⟨false, false, false⟩]] ∧
    apiCommand ⟨true, false, false, false, false, false⟩ .fkt [1, 2] = .ok [[⟨false, false, false⟩], []] ∧
    apiCommand ⟨false, false, false, false, false, false⟩ .fkt [1, 2] =
      .ok [[⟨false, false, false⟩], [⟨true, false, false⟩]] := ⟨rfl, rfl, rfl, rfl⟩

/-! ### C92 -/

/-- **C92**, what holds: `fkt` and `fskt` use the centre-of-mass option for all that they compute, and apart from
`chi4qs` no command computes partial functions if told not to. -/
theorem C92_options_partial (o : ApiOptions) (c : Command) (files : List ℕ) (r : List (List ApiRun))
    (hr : apiCommand o c files = .ok r) :
    (c = .fkt ∨ c = .fskt → ∀ l ∈ r, ∀ x ∈ l, x.fixCm = o.fixCm) ∧
    (c ≠ .chi4qs → o.noPartial = true → ∀ l ∈ r, ∀ x ∈ l, x.partials = false) := by
  constructor
  · intro hc
    have hik : c ≠ .ik := by rcases hc with rfl | rfl <;> decide
    rw [apiCommand_eq_map hik hr]
    intro l hl
    obtain ⟨n, _, rfl⟩ := List.mem_map.mp hl
    intro x hx
    rcases hc with rfl | rfl <;>
    · simp only [apiFile, partialRuns, List.mem_append] at hx
      rcases hx with hx | hx <;> split_ifs at hx <;> simp at hx <;> simp [hx]
  · intro hc hn
    have hp : ∀ n b, partialRuns o n b = [] := by
      intro n b
      unfold partialRuns ApiOptions.skipPartial
      cases o.filter <;> simp [hn]
    rw [apiCommand_ok hr]
    clear hr
    generalize o.radius = b
    induction files generalizing b with
    | nil => simp [apiLoop]
    | cons n files ih =>
      intro l hl
      simp only [apiLoop, List.mem_cons] at hl
      rcases hl with rfl | hl
      · intro x hx
        cases c <;> simp only [ne_eq, not_true_eq_false] at hc <;> simp only [apiFile, hp, List.append_nil] at hx <;>
          (try split_ifs at hx) <;> simp at hx <;> simp [hx]
      · exact ih _ l hl

/-- **C92** is false: `msd` with `fix_cm` corrects the total function, but none of the partial ones. -/
theorem C92_counterexample_fix_cm (o : ApiOptions) (ho : o.fixCm = true) (hp : o.noPartial = false)
    (hf : o.filter = false) (files : List ℕ) (hn : ∀ n ∈ files, 1 < n) :
    apiCommand o .msd files = .ok (files.map fun _ => [⟨false, false, true⟩, ⟨true, false, false⟩]) := by
  have hr : apiCommand o .msd files = .ok (apiLoop o .msd o.radius files) := by simp [apiCommand]
  rw [hr, apiCommand_eq_map (by decide) hr]
  congr 1
  refine List.map_congr_left fun n h => ?_
  simp [apiFile, partialRuns, ApiOptions.skipPartial, ho, hp, hf, hn n h]

/-- **C92** is false: `chi4qs` computes partial functions even with `no_partial`. -/
theorem C92_counterexample_no_partial (o : ApiOptions) (ho : o.total = false) (hf : o.fast = false)
    (files : List ℕ) (hn : ∀ n ∈ files, 1 < n) :
    apiCommand o .chi4qs files = .ok (files.map fun _ => [⟨true, false, false⟩]) := by
  have hr : apiCommand o .chi4qs files = .ok (apiLoop o .chi4qs o.radius files) := by simp [apiCommand, hf]
  rw [hr, apiCommand_eq_map (by decide) hr]
  congr 1
  refine List.map_congr_left fun n h => ?_
  simp [apiFile, ho, hn n h]

/-- A file with two species, `fix_cm`: `fkt` with the total, and `msd`. -/
example : apiCommand ⟨false, false, true, false, true, false⟩ .fkt [2] =
      .ok [[⟨false, false, true⟩, ⟨true, false, true⟩]] ∧
    apiCommand ⟨false, false, true, false, true, false⟩ .msd [2] =
      .ok [[⟨false, false, true⟩, ⟨true, false, false⟩]] := ⟨rfl, rfl⟩

/-! ### C93 -/

/-- The largest time requested from a command. -/
noncomputable def lastTime (c : Command) (T tmax frac : ℝ) : ℝ :=
  if tmax > 0 then (if c = .msd ∨ c = .vacf ∨ c = .chi4qs then min T tmax else tmax) else frac * T

theorem apiTimeGrid_eq (c : Command) (func : ℝ → ℝ → Py (List ℝ)) (dt T tmax frac : ℝ) (h : 0 < tmax ∨ 0 < frac)
    (g : List ℝ) (hg : func dt (lastTime c T tmax frac) = .ok g) :
    apiTimeGrid c func dt T tmax frac = .ok (some (0 :: g)) := by
  unfold apiTimeGrid
  unfold lastTime at hg
  by_cases ht : tmax > 0
  · have hcap : (if c.capped = true then min T tmax else tmax) =
        (if c = .msd ∨ c = .vacf ∨ c = .chi4qs then min T tmax else tmax) := by
      simp [Command.capped]
    rw [if_pos ht] at hg ⊢
    rw [hcap, hg]
    rfl
  · rw [if_neg ht] at hg ⊢
    rw [if_pos (by tauto), hg]
    rfl

/-- **C93**, what holds: with a largest time, or fraction of the total time, beyond the time step, and at least two
samples, linear and logarithmic grids start with 0 and the time step, increase, and end at the time requested. -/
theorem C93_time_grid_partial (c : Command) (dt T tmax frac : ℝ) (tsamples : ℕ) (hs : 2 ≤ tsamples) (hdt : 0 < dt)
    (h : 0 < tmax ∨ 0 < frac) (hlast : dt < lastTime c T tmax frac) (func : ℝ → ℝ → Py (List ℝ))
    (hfunc : func = (fun a b => linearGrid a b (.int tsamples)) ∨ func = fun a b => logxGrid a b tsamples) :
    ∃ g, apiTimeGrid c func dt T tmax frac = .ok (some g) ∧ g.length = tsamples + 1 ∧ g[0]? = some 0 ∧
      g[1]? = some dt ∧ g[tsamples]? = some (lastTime c T tmax frac) ∧ g.Pairwise (· < ·) := by
  have key : ∃ g, func dt (lastTime c T tmax frac) = .ok g ∧ g.length = tsamples ∧ g[0]? = some dt ∧
      g[tsamples - 1]? = some (lastTime c T tmax frac) ∧ g.Pairwise (· < ·) := by
    rcases hfunc with rfl | rfl
    · obtain ⟨l, hl, h1, h2, h3, h4⟩ := C06_linear_grid_count dt (lastTime c T tmax frac) (tsamples : ℤ)
      have hlen : l.length = tsamples := by
        have : (l.length : ℤ) = tsamples := by rw [h1]; simp
        exact_mod_cast this
      refine ⟨l, hl, hlen, ?_, ?_, ?_⟩
      · rw [List.getElem?_eq_getElem (by omega), h2]
      · rw [← hlen, List.getElem?_eq_getElem (by omega), h3 (by exact_mod_cast hs)]
      · rw [← List.isChain_iff_pairwise, List.isChain_iff_getElem]
        intro i hi
        have h5 := h4 i hi
        have h6 : 0 < (lastTime c T tmax frac - dt) / (((tsamples : ℤ) : ℝ) - 1) := by
          apply div_pos (by linarith)
          have : (2 : ℝ) ≤ tsamples := by exact_mod_cast hs
          push_cast
          linarith
        linarith
    · obtain ⟨l, hl, h1, h2, h3, _, h4⟩ := C08_logx_grid_pos dt _ tsamples hdt hlast (by omega)
      refine ⟨l, hl, h1, ?_, ?_, h3⟩
      · rw [List.getElem?_eq_getElem (by omega), h2]
      · rw [← h1, List.getElem?_eq_getElem (by omega), h4 hs]
  obtain ⟨g, hg, h1, h2, h3, h4⟩ := key
  refine ⟨0 :: g, apiTimeGrid_eq c func dt T tmax frac h g hg, by simp [h1], rfl, h2, ?_, ?_⟩
  · obtain ⟨k, rfl⟩ : ∃ k, tsamples = k + 1 := ⟨tsamples - 1, by omega⟩
    simpa using h3
  · rw [List.pairwise_cons]
    refine ⟨?_, h4⟩
    intro a ha
    cases g with
    | nil => simp at ha
    | cons b g =>
      simp only [List.getElem?_cons_zero, Option.some.injEq] at h2
      subst h2
      rcases List.mem_cons.mp ha with rfl | ha
      · exact hdt
      · exact hdt.trans ((List.pairwise_cons.mp h4).1 a ha)

/-- **C93** is false: `fkt`, `fskt`, `alpha2`, `qst` and `qt` accept a largest time beyond the end of the trajectory, and
their grid extends to it. -/
theorem C93_counterexample (c : Command) (hc : c ∈ [.fkt, .fskt, .alpha2, .qst, .qt]) (dt T tmax frac : ℝ)
    (tsamples : ℕ) (hs : 2 ≤ tsamples) (hdt : 0 < dt) (hT : dt < T) (htm : T < tmax) :
    ∃ g, apiTimeGrid c (fun a b => logxGrid a b tsamples) dt T tmax frac = .ok (some g) ∧
      ∃ t ∈ g, T < t := by
  have hne : ¬ (c = .msd ∨ c = .vacf ∨ c = .chi4qs) := by
    rintro (rfl | rfl | rfl) <;> simp at hc
  have hl : lastTime c T tmax frac = tmax := by
    unfold lastTime
    rw [if_pos (by linarith), if_neg hne]
  obtain ⟨g, hg, _, _, _, h4, _⟩ := C93_time_grid_partial c dt T tmax frac tsamples hs hdt (Or.inl (by linarith))
    (by rw [hl]; linarith) _ (Or.inr rfl)
  rw [hl] at h4
  exact ⟨g, hg, tmax, List.mem_of_getElem? h4, htm⟩

/-- **C93**: the other commands that accept a largest time never go beyond the end of the trajectory, nor do any with a
fraction between 0 and 1. -/
theorem C93_within (c : Command) (dt T tmax frac : ℝ) (tsamples : ℕ) (hs : 2 ≤ tsamples) (hdt : 0 < dt)
    (h : 0 < tmax ∨ 0 < frac) (hlast : dt < lastTime c T tmax frac) (func : ℝ → ℝ → Py (List ℝ))
    (hfunc : func = (fun a b => linearGrid a b (.int tsamples)) ∨ func = fun a b => logxGrid a b tsamples)
    (hT : 0 ≤ T) (hc : (c = .msd ∨ c = .vacf ∨ c = .chi4qs) ∨ tmax ≤ 0) (hf : frac ≤ 1) :
    ∃ g, apiTimeGrid c func dt T tmax frac = .ok (some g) ∧ ∀ t ∈ g, 0 ≤ t ∧ t ≤ T := by
  obtain ⟨g, hg, h1, h2, _, h4, h5⟩ := C93_time_grid_partial c dt T tmax frac tsamples hs hdt h hlast func hfunc
  have hle : lastTime c T tmax frac ≤ T := by
    unfold lastTime
    split_ifs with h1 h2
    · exact min_le_left _ _
    · rcases hc with h | h
      · exact absurd h h2
      · exact absurd h1 (not_lt.mpr h)
    · nlinarith
  refine ⟨g, hg, fun t ht => ?_⟩
  obtain ⟨i, hi, rfl⟩ := List.getElem_of_mem ht
  have hmono : ∀ i j (hi : i < g.length) (hj : j < g.length), i ≤ j → g[i] ≤ g[j] := by
    intro i j hi hj hij
    rcases hij.eq_or_lt with rfl | hij
    · exact le_rfl
    · exact (List.pairwise_iff_getElem.mp h5 i j hi hj hij).le
  rw [List.getElem?_eq_getElem (by omega), Option.some.injEq] at h2 h4
  exact ⟨h2 ▸ hmono 0 i (by omega) hi (by omega), (hmono i tsamples hi (by omega) (by omega)).trans (h4 ▸ hle)⟩

/-- A trajectory of total time 100 with unit time step: `msd` stops at 100, `fkt` goes on to 200. -/
example : lastTime .msd 100 200 (3 / 4) = 100 ∧ lastTime .fkt 100 200 (3 / 4) = 200 ∧
    lastTime .fkt 100 (-1) (3 / 4) = 75 := by
  simp [lastTime]
  norm_num

/-! ### C88 -/

/-- **C88**: with `--first` and `--last` and a block size, the limits are rounded down to multiples of the block size:
the frames selected are whole blocks. -/
theorem C88_whole_blocks (blockSize : ℕ) (hb : 0 < blockSize) (s : ℤ) :
    ∃ k : ℤ, blockAlign blockSize (some s) = some (k * blockSize) ∧ k * blockSize ≤ s ∧ s < (k + 1) * blockSize := by
  refine ⟨s / blockSize, rfl, ?_, ?_⟩
  · exact Int.ediv_mul_le _ (by omega)
  · exact Int.lt_ediv_add_one_mul_self _ (by omega)

/-- **C88** is false: if `last` is less than the block size no frame is left. -/
theorem C88_counterexample_empty (blockSize n : ℕ) (s : ℤ) (h0 : 0 ≤ s) (hs : s < blockSize) :
    blockAlign blockSize (some s) = some 0 ∧ sliceFrames n none (some 0) = [] := by
  refine ⟨?_, ?_⟩
  · simp [blockAlign, Int.ediv_eq_zero_of_lt h0 hs]
  · simp [sliceFrames]

/-- **C88**, what holds: the frames selected by aligned limits are those of the blocks between them. -/
theorem C88_frames_partial (blockSize n a b : ℕ) (hn : b * blockSize ≤ n) (i : ℕ) :
    i ∈ sliceFrames n (some (a * blockSize)) (some (b * blockSize)) ↔ a * blockSize ≤ i ∧ i < b * blockSize := by
  simp only [sliceFrames, Option.getD_some, List.mem_filter, List.mem_range, Bool.and_eq_true, decide_eq_true_eq]
  constructor
  · exact fun h => h.2
  · exact fun h => ⟨by omega, h⟩

example : blockAlign 4 (some 10) = some 8 ∧ blockAlign 4 (some 3) = some 0 ∧
    sliceFrames 12 (some 4) (some 8) = [4, 5, 6, 7] := by decide

end PP.Props
