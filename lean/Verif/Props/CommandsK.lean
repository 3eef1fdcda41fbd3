import Verif.Model.CommandsK
import Verif.Props.Commands
import Verif.Props.FktSubset
import Verif.Props.ApiArgs
import Verif.Props.Runs
import Verif.Props.Uniform
import Verif.Props.Inequalities

/-!
# C218: the commands fkt and fskt
-/

namespace PP.Props
open PP

variable {d : ℕ}

/-- The sampled lags, in order, reach the largest time of the grid. -/
theorem lags_upTo (tr : Traj ℝ) (g : List ℝ) (M : ℝ) (hM : M ∈ g) (h0 : 0 ∈ g) (hle : ∀ t ∈ g, t ≤ M)
    (hs : tr.steps.Pairwise (· < ·)) (hne : tr.steps ≠ []) (hbs : 0 < tr.blockSize) (hdt : 0 < tr.timestep) (offset : Bool)
    (skip : ℕ) :
    ∃ dg, setupTGrid tr.steps tr.blockSize tr.timestep g offset = .ok dg ∧ Spec.Sampled tr.steps skip dg tr.steps.length 0 ∧
      (offset = false → ∀ p ∈ dg, p.1 = 0) ∧
      ∀ lags : List ℤ, lags.Pairwise (· < ·) → (∀ δ, δ ∈ lags ↔ Spec.Sampled tr.steps skip dg tr.steps.length δ) →
        ∀ row : List ℝ, row.length = lags.length →
          Spec.TimesUpTo tr.steps tr.timestep M (lags.map fun δ : ℤ => (δ : ℝ) * tr.timestep, row) := by
  obtain ⟨dg, hdg, hspan⟩ := tgrid_span tr.steps hs hne tr.blockSize hbs tr.timestep hdt g M h0 hM hle offset
  have h00 : 0 ∈ (if offset then List.range tr.blockSize else [0]) := by cases offset <;> simp [hbs]
  obtain ⟨dg', hdg', hscan, -, -⟩ := setupTGrid_spec tr.steps tr.blockSize tr.timestep g offset _ rfl h00 hne hdt.ne'
  rw [hdg] at hdg'
  cases hdg'
  have hdgl : ∀ p ∈ dg, Spec.Sampled tr.steps skip dg tr.steps.length (Spec.lag tr.steps p) := by
    intro p hp
    obtain ⟨-, hlt⟩ := hscan p hp
    refine ⟨(p.1, p.2), ?_, rfl⟩
    unfold Spec.sampled
    rw [List.mem_flatMap]
    refine ⟨p, hp, ?_⟩
    rw [List.mem_map]
    refine ⟨p.1, ?_, rfl⟩
    rw [List.mem_filter]
    refine ⟨by rw [List.mem_range]; omega, ?_⟩
    simp only [le_refl, Nat.sub_self, Nat.zero_mod, true_and, decide_eq_true_eq]
    omega
  have h0s : Spec.Sampled tr.steps skip dg tr.steps.length 0 := by
    obtain ⟨p, hp, hp0⟩ := hspan.1
    rw [← hp0]
    exact hdgl p hp
  refine ⟨dg, hdg, h0s, fun ho p hp => by subst ho; simpa using (hscan p hp).1, ?_⟩
  intro lags l1 l2 row hrow
  have hlagm : ∀ δ ∈ lags, ∃ (i j : ℕ) (a b : ℤ), i ≤ j ∧ tr.steps[i]? = some a ∧ tr.steps[j]? = some b ∧ δ = b - a := by
    intro δ hδ
    obtain ⟨p, hp, rfl⟩ := (l2 δ).1 hδ
    have hlt := sampled_lt hp
    have e1 : tr.steps[p.1 + p.2]? = some (tr.steps[p.1 + p.2]'(by omega)) := List.getElem?_eq_getElem _
    have e2 : tr.steps[p.1]? = some (tr.steps[p.1]'(by omega)) := List.getElem?_eq_getElem _
    refine ⟨p.1, p.1 + p.2, _, _, by omega, e2, e1, ?_⟩
    rw [List.getD_eq_getElem?_getD, List.getD_eq_getElem?_getD, e1, e2]
    rfl
  have hnn : ∀ δ ∈ lags, 0 ≤ δ := by
    intro δ hδ
    obtain ⟨i, j, a, b, hij, ha, hb, rfl⟩ := hlagm δ hδ
    obtain ⟨hi, rfl⟩ := List.getElem?_eq_some_iff.1 ha
    obtain ⟨hj, rfl⟩ := List.getElem?_eq_some_iff.1 hb
    rcases hij.eq_or_lt with rfl | hlt
    · simp
    · have := List.pairwise_iff_getElem.1 hs i j hi hj hlt
      omega
  refine ⟨by simp [hrow], ?_, ?_, ?_, ?_⟩
  · show (lags.map fun δ : ℤ => (δ : ℝ) * tr.timestep).Pairwise (· < ·)
    rw [List.pairwise_map]
    refine l1.imp ?_
    intro a b hab
    have : (a : ℝ) < b := by exact_mod_cast hab
    exact mul_lt_mul_of_pos_right this hdt
  · have h0m : (0 : ℤ) ∈ lags := (l2 0).2 h0s
    cases lags with
    | nil => simp at h0m
    | cons a l =>
      have ha : a = 0 := by
        have h1 := hnn a (by simp)
        rcases List.mem_cons.1 h0m with h | h
        · exact h.symm
        · have := (List.pairwise_cons.1 l1).1 0 h
          omega
      simp [ha]
  · intro t ht
    obtain ⟨δ, hδ, rfl⟩ := List.mem_map.1 ht
    obtain ⟨i, j, a, b, hij, ha, hb, rfl⟩ := hlagm δ hδ
    exact ⟨i, j, a, b, hij, ha, hb, rfl⟩
  · obtain ⟨-, p, hp, -, hnear⟩ := hspan
    exact ⟨(Spec.lag tr.steps p : ℝ) * tr.timestep, List.mem_map.2 ⟨_, (l2 _).2 (hdgl p hp), rfl⟩,
      near_times tr hdt M _ h00 _ hnear⟩

/-- A mean of numbers close to `k` is close to `k`. -/
theorem abs_avg_lt {l : List ℝ} {k δ : ℝ} (hl : l ≠ []) (h : ∀ y ∈ l, |y - k| < δ) : |l.sum / l.length - k| < δ := by
  have hb : (l.length : ℝ) * (k - δ) < l.sum ∧ l.sum < l.length * (k + δ) := by
    induction l with
    | nil => exact absurd rfl hl
    | cons a r ih =>
      have ha := abs_lt.1 (h a (by simp))
      rw [List.sum_cons, List.length_cons]
      push_cast
      rcases r with _ | ⟨b, r⟩
      · simp only [List.length_nil, List.sum_nil, Nat.cast_zero]
        constructor <;> linarith
      · obtain ⟨h1, h2⟩ := ih (by simp) fun y hy => h y (by simp [hy])
        constructor <;> linarith
  have hp : (0 : ℝ) < l.length := by exact_mod_cast List.length_pos_iff.2 hl
  rw [abs_lt, lt_sub_iff_add_lt, sub_lt_iff_lt_add, lt_div_iff₀ hp, div_lt_iff₀ hp]
  constructor <;> nlinarith [hb.1, hb.2]

/-- The shells of wave-numbers that are far enough from each other, with wave-vectors around each of them, are not widened. -/
theorem setup_near {depth : ℕ} {pick : ℕ → List (KVec d) → ℕ → List (KVec d)} (hpick : IsSample pick)
    {p : KParams ℝ} (hdk : 0 < p.dk) {side : Vec d ℝ} (hside : ∀ c, 0 < side c) {grid : Option (List ℝ)} {g : List ℝ} (hg : ∀ x ∈ g, 0 ≤ x)
    (hsep : g.Pairwise fun a b => a + 2 * p.dk ≤ b)
    (hpop : ∀ x ∈ g, ∃ v : Fin d → ℤ, |Spec.knorm (smallestK Real.pi side) v - x| < p.dk)
    (hreq : initialGrid p (smallestK Real.pi side) grid = .ok g)
    {s : KState d ℝ} (h : kSetup Real.sqrt Real.pi depth pick p side grid = .ok s) {i : ℕ} (hi : i < g.length)
    (hnk : 1 ≤ p.nk) : ∀ w ∈ s.kvectors.getD i [], |Spec.knorm s.k0 (fun c => w c - s.koffset) - g.getD i 0| < p.dk := by
  have hk0 := smallestK_pos hside
  have hne : g ≠ [] := by rintro rfl; simp at hi
  unfold kSetup at h
  simp only [hreq, bind, Except.bind] at h
  have hdkn : ∀ i < g.length, 0 ≤ (List.replicate g.length p.dk).getD i 0 := by
    intro i hi; rw [List.getD_eq_getElem _ _ (by simpa using hi)]; simpa using hdk.le
  cases depth with
  | zero => cases h
  | succ depth =>
    cases hgs : setupGridSphere Real.sqrt (smallestK Real.pi side) g (depth + 1) (List.replicate g.length p.dk) with
    | error e => rw [hgs] at h; cases h
    | ok r =>
      obtain ⟨kvec, koff, dk⟩ := r
      obtain ⟨-, hd, -, -, -, -⟩ := setup_ok hk0 (by simp) hdkn hgs
      obtain ⟨kv1, kb1, hf, hl, -, hsp⟩ := fillShells_spec hk0 hd hne
        (dk := List.replicate g.length p.dk) (by simp)
      have htop : 0 ≤ Spec.kTop g (List.replicate g.length p.dk) := by
        unfold Spec.kTop
        rw [List.length_replicate]
        refine add_nonneg ?_ (hdkn _ (by omega))
        rw [List.getD_eq_getElem _ _ (by omega)]
        exact hg _ (List.getElem_mem _)
      have hmem : ∀ j (hj : j < g.length) (w : KVec d), w ∈ kv1.getD j [] ↔
          |Spec.knorm (smallestK Real.pi side) (fun c => w c - kb1) - g[j]| < p.dk := by
        intro j hj w
        rw [(hsp j hj).2.1 htop, first_separated hdk hsep (List.getElem?_eq_getElem hj)]
      have hall : (kv1.all fun s => !s.isEmpty) = true := by
        rw [List.all_eq_true]
        intro l hl1
        obtain ⟨j, hj, rfl⟩ := List.getElem_of_mem hl1
        obtain ⟨v, hv⟩ := hpop g[j] (List.getElem_mem _)
        have := (hmem j (by omega) fun c => v c + kb1).2 (by simpa using hv)
        rw [List.getD_eq_getElem _ _ hj] at this
        cases hkv : kv1[j] with
        | nil => rw [hkv] at this; cases this
        | cons a r => rfl
      rw [setupGridSphere, hf] at hgs
      simp only [bind, Except.bind, hall, if_true] at hgs
      cases hgs
      rw [setupGridSphere, hf] at h
      simp only [bind, Except.bind, hall, if_true, pure, Except.pure] at h
      cases hm : kvec.zipIdx.mapM (fun e => decimate pick p.nk e.2 e.1) with
      | error e => rw [hm] at h; cases h
      | ok kv =>
        rw [hm] at h
        cases h
        obtain ⟨hl2, hget⟩ := mapM_ok_get hm
        rw [List.length_zipIdx] at hl2
        have hi1 : i < kvec.length := by omega
        have hi2 : i < kv.length := by omega
        have hg1 := hget i (by simpa using hi1) hi2
        simp only [List.getElem_zipIdx, Nat.zero_add] at hg1
        have hme := hmem i hi
        rw [List.getD_eq_getElem _ _ hi1] at hme
        unfold decimate at hg1
        simp only at hg1
        rw [if_neg (by omega)] at hg1
        obtain ⟨-, hs2⟩ := hpick i kvec[i] (min p.nk kvec[i].length).toNat (by omega)
        rw [Except.ok.inj hg1] at hs2
        intro w hw
        dsimp only at hw ⊢
        rw [List.getD_eq_getElem _ _ hi2] at hw
        rw [List.getD_eq_getElem _ _ hi]
        exact (hme w).1 (hs2.subset hw)

/-- The wave-numbers requested by the options: the numbers between the commas of `kgrid`, or `ksamples` equally spaced numbers from
`kmin` to `kmax`. -/
def Requested (q : KOptions) (k : List ℝ) : Prop :=
  match q.kgrid with
  | some s => ∃ (l : List Str) (v : List ℚ), l ≠ [] ∧ (∀ f ∈ l, ',' ∉ f) ∧ s = List.intercalate [','] l ∧
      List.Forall₂ (fun f x => pyFloatOfStr f = .ok x) l v ∧ k = v.map fun x : ℚ => (x : ℝ)
  | none => k.length = q.ksamples ∧ ∀ (i : ℕ) (h : i < k.length), k[i] = q.kmin + i * ((q.kmax - q.kmin) / (q.ksamples - 1))

theorem Requested.list {q : KOptions} {k : List ℝ} (h : Requested q k) : q.list = .ok k := by
  unfold Requested at h
  unfold KOptions.list
  cases hq : q.kgrid with
  | some s =>
    rw [hq] at h
    obtain ⟨l, v, h1, h2, rfl, h4, rfl⟩ := h
    simp only [(C168_kgrid l h1 h2).1 v h4, bind, Except.bind, pure, Except.pure]
  | none =>
    rw [hq] at h
    obtain ⟨h1, h2⟩ := h
    unfold linearGrid
    refine congrArg Except.ok ?_
    apply List.ext_getElem
    · simp [h1]
    · intro i hi hi'
      rw [h2 i hi', List.getElem_map, List.getElem_range]
      by_cases hn : (q.ksamples : ℤ) > 1
      · rw [if_pos hn]
        push_cast
        rfl
      · have : i = 0 := by omega
        subst this
        simp

/-- The wave-vectors `Q` behind the wave-numbers `ks`: at least one and at most `nk` for each, all different, compatible with the
cell; the wave-number is the mean of their norms. -/
def _root_.PP.Spec.Waves (side : Vec d ℝ) (nk : ℤ) (ks : List ℝ) (Q : List (List (Fin d → ℝ))) : Prop :=
  Q.length = ks.length ∧ ∀ i < ks.length, Q.getD i [] ≠ [] ∧ (Q.getD i []).Nodup ∧ ((Q.getD i []).length : ℤ) ≤ nk ∧
    (∀ q ∈ Q.getD i [], ∃ v : Fin d → ℤ, ∀ c, q c = 2 * Real.pi / side c * v c) ∧
    ks.getD i 0 = Spec.mean ((Q.getD i []).map fun q => √(∑ c, q c ^ 2))

/-- The options with which the commands are expected to work: a limit of the time, at least two samples, wave-numbers that are
not negative. -/
structure ScatteringInput (o : TimeOptions) (q : KOptions) (tr : Traj ℝ) (side : Vec d ℝ) (k : List ℝ) (skip : ℤ) : Prop where
  dims : d = 2 ∨ d = 3
  func : o.func ∈ ["linear".toList, "linear_grid".toList, "logx".toList, "logx_grid".toList]
  samples : 2 ≤ o.tsamples
  limit : 0 < o.tmax ∨ 0 < o.fraction
  sorted : tr.steps.Pairwise (· < ·)
  steps_ne : tr.steps ≠ []
  block : 0 < tr.blockSize
  timestep : 0 < tr.timestep
  total : 0 ≤ tr.totalTime
  skip : adjustSkip tr.steps.length tr.blockSize tr.npart o.norigins = .ok skip
  side_pos : ∀ c, 0 < side c
  dk : 0 < q.dk
  nk : 1 ≤ q.nk
  klist : Requested q k
  k_ne : k ≠ []
  k_nonneg : ∀ x ∈ k, 0 ≤ x

/-- The wave-numbers requested are not closer than `2*dk` and there are wave-vectors of the cell around each of them. -/
structure Distinct (q : KOptions) (side : Vec d ℝ) (k : List ℝ) : Prop where
  apart : (pySorted k).Pairwise fun a b => a + 2 * q.dk ≤ b
  around : ∀ x ∈ k, ∃ v : Fin d → ℤ, |√(∑ c, (2 * Real.pi / side c * v c) ^ 2) - x| < q.dk

/-- The setup succeeds. -/
theorem scatteringSetup_ok {c : Command} (hc : c = .fkt ∨ c = .fskt) {o : TimeOptions} {q : KOptions} {tr : Traj ℝ} {side : Vec d ℝ}
    {k : List ℝ} {skip : ℤ} (h : ScatteringInput o q tr side k skip)
    (pick : ℕ → List (KVec d) → ℕ → List (KVec d)) (hpick : IsSample pick) :
    ∃ depth dg s, scatteringSetup c o q depth pick tr side = .ok (skip.toNat, dg, s) ∧ 0 < skip.toNat ∧
      Spec.Sampled tr.steps skip.toNat dg tr.steps.length 0 ∧
      (∀ lags : List ℤ, lags.Pairwise (· < ·) → (∀ δ, δ ∈ lags ↔ Spec.Sampled tr.steps skip.toNat dg tr.steps.length δ) →
        ∀ row : List ℝ, row.length = lags.length →
          Spec.TimesUpTo tr.steps tr.timestep (max tr.timestep (if 0 < o.tmax then o.tmax else o.fraction * tr.totalTime))
            (lags.map fun δ : ℤ => (δ : ℝ) * tr.timestep, row)) ∧
      Allowed s ∧ s.kgrid.length = s.kvectors.length ∧ s.kvectors ≠ [] ∧ (∀ l ∈ s.kvectors, l ≠ []) ∧
      s.kvectors.length = k.length ∧ Spec.Waves side q.nk s.kgrid (kvectorsGet s) ∧
      (o.norigins.offsetBoth = false → ∀ p ∈ dg, p.1 = 0) ∧
      (Distinct q side k → ∀ i < k.length, |s.kgrid.getD i 0 - (pySorted k).getD i 0| < q.dk) := by
  obtain ⟨f, hf⟩ : ∃ f, funcOf o.func = .ok f := by
    have hfunc := h.func
    simp only [List.mem_cons, List.not_mem_nil, or_false] at hfunc
    rcases hfunc with e | e | e | e <;> rw [e] <;> exact ⟨_, rfl⟩
  have hlast : lastTime c tr.totalTime o.tmax o.fraction = if 0 < o.tmax then o.tmax else o.fraction * tr.totalTime := by
    unfold lastTime
    rcases hc with rfl | rfl <;> simp
  have hL : 0 ≤ lastTime c tr.totalTime o.tmax o.fraction := by
    rw [hlast]
    split_ifs with h1
    · exact h1.le
    · exact mul_nonneg ((h.limit.resolve_left h1).le) h.total
  obtain ⟨g, hg, g1, g2, g3⟩ := grid_ends f o.tsamples h.samples tr.timestep _ h.timestep hL
  have hgrid : apiTimeGrid c (f.grid o.tsamples) tr.timestep tr.totalTime o.tmax o.fraction = .ok (some (0 :: g)) :=
    apiTimeGrid_eq _ _ _ _ _ _ h.limit g hg
  rw [hlast] at g2 g3 hL
  generalize (if 0 < o.tmax then o.tmax else o.fraction * tr.totalTime) = L at *
  have hM : max tr.timestep L ∈ (0 :: g) := by
    rcases max_choice tr.timestep L with e | e <;> rw [e] <;> simp [g1, g2]
  have hle : ∀ t ∈ (0 :: g), t ≤ max tr.timestep L := by
    intro t ht
    rcases List.mem_cons.1 ht with rfl | ht
    · exact hL.trans (le_max_right _ _)
    · exact g3 t ht
  obtain ⟨dg, hdg, hz, horig, htimes⟩ := lags_upTo tr (0 :: g) _ hM (by simp) hle h.sorted h.steps_ne h.block h.timestep
    o.norigins.offsetBoth skip.toNat
  have hperm : (pySorted k).Perm k := List.perm_insertionSort _ _
  have hsort : pySorted k ≠ [] := by
    intro e
    rw [e] at hperm
    exact h.k_ne (List.nil_perm.1 hperm)
  have hreq : initialGrid q.params (smallestK Real.pi side) (some k) = .ok (pySorted k) := by
    unfold initialGrid
    cases hs : pySorted k with
    | nil => exact absurd hs hsort
    | cons a r =>
      have : 0 ≤ a := h.k_nonneg a (hperm.subset (by rw [hs]; simp))
      simp only [hs, if_neg (not_lt.2 this)]
  have hnn : ∀ i < (pySorted k).length, 0 ≤ (pySorted k).getD i 0 := by
    intro i hi
    rw [List.getD_eq_getElem _ _ hi]
    exact h.k_nonneg _ (hperm.subset (List.getElem_mem _))
  obtain ⟨depth, s, hset⟩ := kSetup_exists (pick := pick) (p := q.params) h.dims (by have := h.nk; show 0 ≤ q.nk; omega) h.dk
    h.side_pos hreq hsort hnn
  obtain ⟨hk0, hl1, hl2, dk, -, hsel⟩ := setup_selection hpick (p := q.params) h.nk (le_of_lt h.dk) h.side_pos hset hreq hnn
  have hkl : (pySorted k).length = k.length := hperm.length_eq
  have hpos : 0 < (pySorted k).length := List.length_pos_iff.2 hsort
  refine ⟨depth, dg, s, ?_, adjustSkip_pos (List.length_pos_iff.2 h.steps_ne) h.skip, hz, htimes,
    ⟨(hsel 0 hpos).2.2.2.2.2.2.2.2, ?_⟩, by omega, ?_, ?_, by omega, ⟨?_, ?_⟩, horig, ?_⟩
  · have hfk : fktInit tr (some (0 :: g)) 60 true o.norigins.offsetBoth = .ok dg := by
      unfold fktInit fktGrid
      show (do
        let g ← (do
          let t0 ← pyGet (0 :: g) 0
          return if t0 > 0 then 0 :: (0 :: g) else 0 :: g : Py (List ℝ))
        setupTGrid tr.steps tr.blockSize tr.timestep g o.norigins.offsetBoth) = _
      have : pyGet ((0 : ℝ) :: g) 0 = .ok 0 := rfl
      rw [this]
      show setupTGrid tr.steps tr.blockSize tr.timestep (if (0 : ℝ) > 0 then 0 :: (0 :: g) else 0 :: g) _ = _
      rw [if_neg (lt_irrefl _)]
      exact hdg
    unfold scatteringSetup
    rw [hf]
    show (apiTimeGrid c (f.grid o.tsamples) tr.timestep tr.totalTime o.tmax o.fraction >>= _) = _
    rw [hgrid, h.klist.list, h.skip]
    show (fktInit tr (some (0 :: g)) 60 true o.norigins.offsetBoth >>= _) = _
    rw [hfk]
    show (kSetup Real.sqrt Real.pi depth pick q.params side (some k) >>= _) = _
    rw [hset]
    rfl
  · intro l hl v hv c
    obtain ⟨i, hi, rfl⟩ := List.getElem_of_mem hl
    have := (hsel i (by omega)).2.2.2.2.2.2.2.1 v (by rw [List.getD_eq_getElem _ _ hi]; exact hv) c
    omega
  · intro e
    rw [e] at hl2
    simp at hl2
    omega
  · intro l hl
    obtain ⟨i, hi, rfl⟩ := List.getElem_of_mem hl
    have := (hsel i (by omega)).2.1
    rwa [List.getD_eq_getElem _ _ hi] at this
  · unfold kvectorsGet
    rw [List.length_map]
    omega
  · intro i hi
    obtain ⟨-, b1, b2, -, b3, b4, -⟩ := hsel i (by omega)
    have hk0p : ∀ c, 0 < s.k0 c := fun c => by rw [hk0 c]; exact div_pos (by positivity) (h.side_pos c)
    rw [kvectorsGet_at]
    refine ⟨by simpa using b1, b2.map (kvecOf_injective hk0p), ?_, ?_, ?_⟩
    · rw [List.length_map, b3]
      exact min_le_left _ _
    · intro w hw
      obtain ⟨v, -, rfl⟩ := List.mem_map.1 hw
      exact ⟨fun c => v c - s.koffset, fun c => by unfold kvecOf; rw [hk0 c]⟩
    · rw [b4]
      unfold Spec.mean
      rw [List.map_map, List.length_map]
      refine congrArg (· / _) (congrArg List.sum (List.map_congr_left fun w _ => ?_))
      exact (norm_kvecOf s w).symm
  · intro hD i hi
    obtain ⟨-, hv, -, -, -, hmean, -⟩ := hsel i (by omega)
    rw [hmean]
    have hn := setup_near hpick (p := q.params) h.dk h.side_pos (fun y hy => h.k_nonneg y (hperm.subset hy)) hD.apart
      (fun y hy => hD.around y (hperm.subset hy)) hreq hset (i := i) (by omega) h.nk
    have := abs_avg_lt (l := (s.kvectors.getD i []).map fun w => Spec.knorm s.k0 fun c => w c - s.koffset)
      (k := (pySorted k).getD i 0) (δ := q.dk) (by simpa using hv) (by
        intro y hy
        obtain ⟨w, hw, rfl⟩ := List.mem_map.1 hy
        exact hn w hw)
    rwa [List.length_map] at this

/-- **C218** for the command fskt: the calculation succeeds (with enough depth of recursion) in both implementations, and gives
one wave-number for each one requested (within `dk` of it, in increasing order, if those requested are `Distinct`) and one curve for
each of them, at times that increase from zero and include
one that is as near to the largest time requested as any frame counted from the first one, up to one step. Each curve starts from one and remains between minus one and one. -/
theorem C218_self (impl : Impl) {o : TimeOptions} {q : KOptions} {tr : Traj ℝ} {side : Vec d ℝ} {k : List ℝ} {skip : ℤ}
    (h : ScatteringInput o q tr side k skip) (hm : impl = .fast → q.lookupMb ≠ 0)
    (pick : ℕ → List (KVec d) → ℕ → List (KVec d)) (hpick : IsSample pick)
    (x : List (List (Vec d ℝ))) (hx : x.length = tr.steps.length) {N : ℕ} (hN : 0 < N) (hnp : ∀ f ∈ x, f.length = N) :
    ∃ depth ks ts vs, fsktCommand impl o q depth pick tr side x = .ok (ks, ts, vs) ∧
      ks.length = k.length ∧ vs.length = k.length ∧
      (Distinct q side k → ∀ i < k.length, |ks.getD i 0 - (pySorted k).getD i 0| < q.dk) ∧
      ∀ row ∈ vs, Spec.TimesUpTo tr.steps tr.timestep
          (max tr.timestep (if 0 < o.tmax then o.tmax else o.fraction * tr.totalTime)) (ts, row) ∧
        row.head? = some 1 ∧ ∀ y ∈ row, |y| ≤ 1 := by
  obtain ⟨depth, dg, s, e, hsk, hz, htimes, a1, a2, a3, a4, a5, -, -, a6⟩ := scatteringSetup_ok (c := .fskt) (Or.inr rfl) h pick hpick
  have hne : x ≠ [] := by
    rintro rfl
    exact h.steps_ne (List.length_eq_zero_iff.1 hx.symm)
  set ob : FsObj d := ⟨tr.steps, tr.timestep, skip.toNat, dg, x, s, q.lookupMb, true⟩ with hob
  have hr : FsRegular ob N := ⟨hne, hsk, hx.le, hnp, hN, a1, a2, a3, a4⟩
  have hz' : Spec.Sampled ob.steps ob.skip ob.tgrid ob.pos.length 0 := by rw [hob]; simpa [hx] using hz
  obtain ⟨ts, vs, hv, -, hvl, hrows⟩ := C53_zero_lag ob hr h.sorted hz'
  have hb := C53_bounded ob hr (fun _ => ⟨h.sorted, hz'⟩) hv
  have hts : ts = (fsLags ob).map fun δ : ℤ => (δ : ℝ) * tr.timestep := by
    have := (fsLegacy_eq ob hr).symm.trans hv
    simp only [Except.ok.injEq, Prod.mk.injEq] at this
    exact this.1.symm
  refine ⟨depth, s.kgrid, ts, vs, ?_, by omega, by rw [hvl]; exact a5, a6, ?_⟩
  · unfold fsktCommand
    rw [e]
    cases impl with
    | legacy =>
      show (fsLegacy ob >>= _) = _
      rw [hv]
      rfl
    | fast =>
      show (fsFast ob >>= _) = _
      rw [C54_fast_eq_legacy ob hr (hm rfl), hv]
      rfl
  · intro row hrow
    obtain ⟨r1, r2⟩ := hrows row hrow
    refine ⟨?_, r2, hb row hrow⟩
    rw [hts]
    refine htimes (fsLags ob) (lagList_sorted _ _) (fun δ => ?_) row (by rw [r1, hts]; simp)
    rw [← hx]
    exact mem_lagList

/-- **C218** for the command fkt: the same wave-numbers, number of curves and times. Each curve is that before the
normalisation divided by its first value, which is not negative; it starts from one unless this value is zero. -/
theorem C218_coherent {o : TimeOptions} {q : KOptions} {tr : Traj ℝ} {side : Vec d ℝ} {k : List ℝ} {skip : ℤ}
    (h : ScatteringInput o q tr side k skip) (pick : ℕ → List (KVec d) → ℕ → List (KVec d)) (hpick : IsSample pick)
    (x : List (List (Vec d ℝ))) (hx : x.length = tr.steps.length) (hnp : ∀ f ∈ x, f ≠ []) :
    ∃ depth ks ts vs ws, fktCommand o q depth pick tr side x = .ok (ks, ts, vs, ws) ∧
      ks.length = k.length ∧ vs.length = k.length ∧ ws.length = k.length ∧
      (Distinct q side k → ∀ i < k.length, |ks.getD i 0 - (pySorted k).getD i 0| < q.dk) ∧
      (∀ row ∈ vs, Spec.TimesUpTo tr.steps tr.timestep
          (max tr.timestep (if 0 < o.tmax then o.tmax else o.fraction * tr.totalTime)) (ts, row)) ∧
      ∀ i < k.length, ∃ c, (ws.getD i []).head? = some c ∧ 0 ≤ c ∧ vs.getD i [] = (ws.getD i []).map (· / c) ∧
        (c ≠ 0 → (vs.getD i []).head? = some 1) := by
  obtain ⟨depth, dg, s, e, hsk, hz, htimes, a1, a2, a3, a4, a5, -, -, a6⟩ := scatteringSetup_ok (c := .fkt) (Or.inl rfl) h pick hpick
  set ob : FkObj d := ⟨tr.steps, tr.timestep, skip.toNat, dg, true, x, x, s, true⟩ with hob
  have hr : FkRegular ob := ⟨h.dims, hsk, hx.le, rfl, fun _ => rfl, hnp, hnp, a1, a2, a3, a4⟩
  have hz' : Spec.Sampled ob.steps ob.skip ob.tgrid ob.pos0.length 0 := by rw [hob]; simpa [hx] using hz
  obtain ⟨ts, vs, ws, hv, -, hnorm, hwl, hrows, -⟩ := C56_normalised_partial ob hr h.sorted hz' rfl
  obtain ⟨ts', vs', ws', hv', -, hpos⟩ := C56_zero_lag_nonneg_partial ob hr rfl h.sorted hz'
  rw [hv] at hv'
  cases hv'
  have hts : ts = (fkLags ob).map fun δ : ℤ => (δ : ℝ) * tr.timestep := by
    have := (fkCompute_eq ob hr).symm.trans hv
    simp only [Except.ok.injEq, Prod.mk.injEq] at this
    exact this.1.symm
  have hvl : vs.length = ws.length := by rw [hnorm]; simp
  have hwk : ws.length = k.length := hwl.trans a5
  refine ⟨depth, s.kgrid, ts, vs, ws, ?_, by omega, by omega, hwk, a6, ?_, ?_⟩
  · unfold fktCommand
    rw [e]
    show (fkCompute ob >>= _) = _
    rw [hv]
    rfl
  · intro row hrow
    rw [hnorm] at hrow
    obtain ⟨w, hw, rfl⟩ := List.mem_map.1 hrow
    rw [hts]
    refine htimes (fkLags ob) (lagList_sorted _ _) (fun δ => ?_) _ (by
      have := hrows w hw
      rw [List.length_map, this, hts]
      simp)
    rw [← hx]
    exact mem_lagList
  · intro i hi
    have hiw : i < ws.length := by omega
    obtain ⟨c, hc, hc0⟩ := hpos ws[i] (List.getElem_mem hiw)
    rw [hnorm, List.getD_eq_getElem _ _ hiw, List.getD_eq_getElem _ _ (by simpa using hiw), List.getElem_map]
    have hg : ws[i].getD 0 0 = c := by
      rw [List.getD_eq_getElem?_getD, ← List.head?_eq_getElem?, hc]
      rfl
    refine ⟨c, hc, hc0, by rw [hg], fun hne => ?_⟩
    rw [List.head?_map, hc, hg]
    simp [div_self hne]

/-! ### A single time origin -/

/-- The two ways of asking for one time origin. -/
def OneOrigin (n : NOrigins) : Prop := n = .num 1 ∨ n = .str ['1']

theorem OneOrigin.offset {n : NOrigins} (h : OneOrigin n) : n.offsetBoth = false := by
  rcases h with rfl | rfl <;> decide +kernel

theorem OneOrigin.skip {n : NOrigins} (h : OneOrigin n) {len bs : ℕ} {npart : List ℕ} (hl : 0 < len) (hb : 0 < bs) :
    adjustSkip len bs npart n = .ok len := by
  rcases h with rfl | rfl
  · exact (C15_single_origin len bs npart hl hb).1
  · exact skip_one_str len bs npart hl hb

theorem flatMap_one {α β : Type} (l : List α) (f : α → β) : (l.flatMap fun a => [f a]) = l.map f := by
  induction l with
  | nil => rfl
  | cons a l ih => rw [List.flatMap_cons, ih]; rfl

/-- With one time origin all the pairs at a lag are the same pair. -/
theorem pairs_first {X : Type} {steps : List ℤ} (hs : steps.Pairwise (· < ·)) {x : List X} (hx : x.length = steps.length)
    {dg : List (ℕ × ℕ)} (h0 : ∀ p ∈ dg, p.1 = 0) {δ : ℤ} (hδ : Spec.Sampled steps steps.length dg x.length δ) :
    Spec.framePairs steps steps.length dg x δ ≠ [] ∧ ∃ (i : ℕ) (ti t0 : ℤ) (xi x0 : X), steps[i]? = some ti ∧
      steps[0]? = some t0 ∧ x[i]? = some xi ∧ x[0]? = some x0 ∧ ti - t0 = δ ∧
      ∀ e ∈ Spec.framePairs steps steps.length dg x δ, e = (xi, x0) := by
  have key : ∀ p ∈ Spec.sampled x.length steps.length dg, p.1 = 0 ∧ p.2 < steps.length := by
    intro p hp
    obtain ⟨off, ho, h3, h4, h5⟩ := mem_sampled.1 hp
    have h6 : off = 0 := h0 _ ho
    subst h6
    rw [Nat.sub_zero, Nat.mod_eq_of_lt (by omega)] at h4
    exact ⟨h4, by omega⟩
  refine ⟨framePairs_sampled hx.le hδ, ?_⟩
  obtain ⟨p, hp, rfl⟩ := hδ
  obtain ⟨k1, k2⟩ := key p hp
  have hl : 0 < steps.length := by omega
  refine ⟨p.2, steps[p.2], steps[0], x[p.2], x[0], List.getElem?_eq_getElem _, List.getElem?_eq_getElem _,
    List.getElem?_eq_getElem _, List.getElem?_eq_getElem _, ?_, ?_⟩
  · rw [k1, Nat.zero_add, List.getD_eq_getElem _ _ k2, List.getD_eq_getElem _ _ hl]
  · intro e he
    rw [framePairs_eq steps _ dg x hx.le x[0]] at he
    obtain ⟨r, hr, rfl⟩ := List.mem_map.1 he
    unfold pairsAt at hr
    obtain ⟨hr1, hr2⟩ := List.mem_filter.1 hr
    obtain ⟨k3, k4⟩ := key r hr1
    rw [decide_eq_true_eq] at hr2
    unfold stepDiff at hr2
    rw [k1, k3, Nat.zero_add, Nat.zero_add, List.getD_eq_getElem _ _ k2, List.getD_eq_getElem _ _ k4] at hr2
    have : r.2 = p.2 := lag_zero_same hs (List.getElem?_eq_getElem k4) (List.getElem?_eq_getElem k2) (by omega)
    rw [k3, this, Nat.zero_add, List.getD_eq_getElem _ _ (by omega), List.getD_eq_getElem _ _ (by omega)]

/-- Values that are means over pairs which are all the same. -/
theorem from_first {X : Type} {steps : List ℤ} (hs : steps.Pairwise (· < ·)) {x : List X} (hx : x.length = steps.length)
    {dg : List (ℕ × ℕ)} (h0 : ∀ p ∈ dg, p.1 = 0) (dt : ℝ) {ι : Type} (kl : List ι) (F : ι → X → X → List ℝ) :
    Spec.FromFirst steps dt x (fun a b => Spec.mean (kl.flatMap fun v => F v a b))
      ((lagList steps (Spec.sampled x.length steps.length dg)).map fun δ : ℤ => (δ : ℝ) * dt,
        ((lagList steps (Spec.sampled x.length steps.length dg)).map fun δ => Spec.mean (kl.flatMap fun v =>
          (Spec.framePairs steps steps.length dg x δ).flatMap fun ab => F v ab.1 ab.2)).map some) := by
  refine ⟨by simp, ?_⟩
  intro p hp
  rw [List.map_map, List.zip_map', List.mem_map] at hp
  obtain ⟨δ, hδ, rfl⟩ := hp
  obtain ⟨hne, i, ti, t0, xi, x0, e1, e2, e3, e4, e5, e6⟩ := pairs_first hs hx h0 (mem_lagList.1 hδ)
  refine ⟨i, ti, t0, xi, x0, e1, e2, e3, e4, by rw [e5], ?_⟩
  refine congrArg some ?_
  show Spec.mean _ = Spec.mean (kl.flatMap fun v => F v xi x0)
  rw [← mean_repeat kl _ hne fun v => F v xi x0]
  congr 1
  refine List.flatMap_congr fun v _ => ?_
  refine List.flatMap_congr fun e he => ?_
  rw [e6 e he]

/-- **C219** for the command fskt: with a single time origin, asked for as a number or as a string, the values at each time are
the means over wave-vectors and particles of the cosines of `k·(r(t) - r(0))`, between the first frame and the one at that time
after it. -/
theorem C219_self (impl : Impl) {o : TimeOptions} (ho : OneOrigin o.norigins) {q : KOptions} {tr : Traj ℝ} {side : Vec d ℝ}
    {k : List ℝ} {skip : ℤ} (h : ScatteringInput o q tr side k skip) (hm : impl = .fast → q.lookupMb ≠ 0)
    (pick : ℕ → List (KVec d) → ℕ → List (KVec d)) (hpick : IsSample pick)
    (x : List (List (Vec d ℝ))) (hx : x.length = tr.steps.length) {N : ℕ} (hN : 0 < N) (hnp : ∀ f ∈ x, f.length = N) :
    ∃ depth ks ts vs Q, fsktCommand impl o q depth pick tr side x = .ok (ks, ts, vs) ∧ ks.length = k.length ∧
      vs.length = k.length ∧ Spec.Waves side q.nk ks Q ∧
      ∀ i < k.length, Spec.FromFirst tr.steps tr.timestep x
        (fun a b => Spec.mean ((Q.getD i []).flatMap fun v => Spec.selfTerms v a b)) (ts, (vs.getD i []).map some) := by
  obtain ⟨depth, dg, s, e, hsk, hz, -, a1, a2, a3, a4, a5, a6, a7, -⟩ := scatteringSetup_ok (c := .fskt) (Or.inr rfl) h pick hpick
  have hne : x ≠ [] := by
    rintro rfl
    exact h.steps_ne (List.length_eq_zero_iff.1 hx.symm)
  have hskip : skip.toNat = tr.steps.length := by
    have := h.skip.symm.trans (ho.skip (npart := tr.npart) (List.length_pos_iff.2 h.steps_ne) h.block)
    cases this
    simp
  rw [hskip] at e hz hsk
  set ob : FsObj d := ⟨tr.steps, tr.timestep, tr.steps.length, dg, x, s, q.lookupMb, true⟩ with hob
  have hr : FsRegular ob N := ⟨hne, hsk, hx.le, hnp, hN, a1, a2, a3, a4⟩
  have hz' : Spec.Sampled ob.steps ob.skip ob.tgrid ob.pos.length 0 := by rw [hob]; simpa [hx] using hz
  have hv : fsLegacy ob = .ok ((fsLags ob).map fun δ : ℤ => (δ : ℝ) * tr.timestep, fsRaw ob) := by
    rw [fsLegacy_eq ob hr, fsRaw_norm ob hr h.sorted hz', ite_self]
  have hlen : (fsRaw ob).length = k.length := by
    unfold fsRaw
    rw [List.length_map]
    exact a5
  refine ⟨depth, s.kgrid, (fsLags ob).map fun δ : ℤ => (δ : ℝ) * tr.timestep, fsRaw ob, kvectorsGet s, ?_, by omega, hlen, a6, ?_⟩
  · unfold fsktCommand
    rw [e]
    cases impl with
    | legacy =>
      show (fsLegacy ob >>= _) = _
      rw [hv]
      rfl
    | fast =>
      show (fsFast ob >>= _) = _
      rw [C54_fast_eq_legacy ob hr (hm rfl), hv]
      rfl
  · intro i hi
    have hi' : i < s.kvectors.length := by omega
    have hrow : (fsRaw ob).getD i [] = (fsLags ob).map fun δ => Spec.mean (selfList ob s.kvectors[i] δ) := by
      rw [List.getD_eq_getElem _ _ (by omega)]
      unfold fsRaw
      rw [List.getElem_map]
    rw [hrow, kvectorsGet_at, List.getD_eq_getElem _ _ hi']
    have := from_first h.sorted hx (a7 ho.offset) tr.timestep s.kvectors[i] fun v a b => Spec.selfTerms (kvecOf s v) a b
    simp only [List.flatMap_map]
    exact this

/-- **C219** for the command fkt: with a single time origin the values at each time before the normalisation are the means over
wave-vectors of the product of the density modes of the first frame and of the one at that time after it. -/
theorem C219_coherent {o : TimeOptions} (ho : OneOrigin o.norigins) {q : KOptions} {tr : Traj ℝ} {side : Vec d ℝ}
    {k : List ℝ} {skip : ℤ} (h : ScatteringInput o q tr side k skip)
    (pick : ℕ → List (KVec d) → ℕ → List (KVec d)) (hpick : IsSample pick)
    (x : List (List (Vec d ℝ))) (hx : x.length = tr.steps.length) (hnp : ∀ f ∈ x, f ≠ []) :
    ∃ depth ks ts vs ws Q, fktCommand o q depth pick tr side x = .ok (ks, ts, vs, ws) ∧ ks.length = k.length ∧
      ws.length = k.length ∧ Spec.Waves side q.nk ks Q ∧
      ∀ i < k.length, vs.getD i [] = ((ws.getD i []).map fun y => y / (ws.getD i []).getD 0 0) ∧
        Spec.FromFirst tr.steps tr.timestep x
          (fun a b => Spec.mean ((Q.getD i []).map fun v => (Spec.density v a * star (Spec.density v b)).re))
          (ts, (ws.getD i []).map some) := by
  obtain ⟨depth, dg, s, e, hsk, hz, -, a1, a2, a3, a4, a5, a6, a7, -⟩ := scatteringSetup_ok (c := .fkt) (Or.inl rfl) h pick hpick
  have hskip : skip.toNat = tr.steps.length := by
    have := h.skip.symm.trans (ho.skip (npart := tr.npart) (List.length_pos_iff.2 h.steps_ne) h.block)
    cases this
    simp
  rw [hskip] at e hz hsk
  set ob : FkObj d := ⟨tr.steps, tr.timestep, tr.steps.length, dg, true, x, x, s, true⟩ with hob
  have hr : FkRegular ob := ⟨h.dims, hsk, hx.le, rfl, fun _ => rfl, hnp, hnp, a1, a2, a3, a4⟩
  have hlen : (fkRaw ob).length = k.length := by
    unfold fkRaw
    rw [List.length_map]
    exact a5
  refine ⟨depth, s.kgrid, (fkLags ob).map fun δ : ℤ => (δ : ℝ) * tr.timestep,
    (fkRaw ob).map fun v => v.map fun y => y / v.getD 0 0, fkRaw ob, kvectorsGet s, ?_, by omega, hlen, a6, ?_⟩
  · unfold fktCommand
    rw [e]
    show (fkCompute ob >>= _) = _
    rw [fkCompute_eq ob hr]
    rfl
  · intro i hi
    have hi' : i < s.kvectors.length := by omega
    refine ⟨?_, ?_⟩
    · have hi2 : i < (fkRaw ob).length := by omega
      rw [List.getD_eq_getElem _ _ (by simpa using hi2), List.getElem_map, List.getD_eq_getElem _ _ hi2]
    have hrow : (fkRaw ob).getD i [] = (fkLags ob).map fun δ => Spec.mean (cohList ob s.kvectors[i] δ) := by
      rw [List.getD_eq_getElem _ _ (by omega)]
      unfold fkRaw
      rw [List.getElem_map]
    have hz2 : x.zip x = x.map fun f => (f, f) := by
      have := List.zip_map' (f := fun f : List (Vec d ℝ) => f) (g := fun f => f) (l := x)
      simpa using this
    have hcoh : ∀ δ, cohList ob s.kvectors[i] δ = s.kvectors[i].flatMap fun v =>
        (Spec.framePairs tr.steps tr.steps.length dg x δ).flatMap fun ab =>
          [(Spec.density (kvecOf s v) ab.1 * star (Spec.density (kvecOf s v) ab.2)).re] := by
      intro δ
      unfold cohList
      refine List.flatMap_congr fun v _ => ?_
      show (Spec.framePairs tr.steps tr.steps.length dg (x.zip x) δ).map _ = _
      rw [hz2, framePairs_mapped _ _ _ _ _ hx.le, List.map_map, flatMap_one]
      rfl
    rw [hrow, kvectorsGet_at, List.getD_eq_getElem _ _ hi']
    have := from_first h.sorted hx (a7 ho.offset) tr.timestep s.kvectors[i]
      fun v a b => [(Spec.density (kvecOf s v) a * star (Spec.density (kvecOf s v) b)).re]
    simp only [hcoh, List.map_map, flatMap_one] at this ⊢
    exact this

/-- Options of the examples: the wave-numbers 2 and 1 written in this order. -/
noncomputable def exKOpt : KOptions := ⟨-1, -1, 20, some "2,1".toList, 1 / 10, 9, 64⟩

/-- Options of the times of the examples. -/
noncomputable def exTOpt : TimeOptions := ⟨-1, 3 / 4, 30, "logx".toList, .num 5, -1, false⟩

/-- Trajectory of the examples: ten frames in blocks of two. -/
noncomputable def exTTraj : Traj ℝ := ⟨[0, 1, 10, 11, 20, 21, 30, 31, 40, 41], 1 / 100, 2, 41 / 100, [5]⟩

theorem exScattering : ScatteringInput exTOpt exKOpt exTTraj exKSide [2, 1] 2 := by
  refine ⟨Or.inl rfl, by decide +kernel, by norm_num [exTOpt], Or.inr (by norm_num [exTOpt]), by decide +kernel, by simp [exTTraj],
    by norm_num [exTTraj], by norm_num [exTTraj], by norm_num [exTTraj], by decide +kernel, exKSide_pos, by norm_num [exKOpt],
    by norm_num [exKOpt], ?_, by simp, by simp⟩
  exact ⟨["2".toList, "1".toList], [2, 1], by simp, by decide +kernel, by decide +kernel,
    .cons (by decide +kernel) (.cons (by decide +kernel) .nil), by simp⟩

/-- Without `kgrid`: twenty wave-numbers from one to twenty. -/
example : Requested ⟨1, 20, 20, none, 1 / 10, 9, 64⟩ ((List.range 20).map fun i : ℕ => (i : ℝ) + 1) := by
  refine ⟨by simp, fun i h => ?_⟩
  simp only [List.getElem_map, List.getElem_range]
  norm_num
  ring

theorem exDistinct : Distinct exKOpt exKSide [2, 1] := by
  have hs : pySorted [(2 : ℝ), 1] = [1, 2] := by
    unfold pySorted
    simp [List.insertionSort, List.orderedInsert]
  refine ⟨by rw [hs]; norm_num [exKOpt], ?_⟩
  intro x hx
  have := exCommon.around x (by simp at hx ⊢; tauto)
  exact this

/-- A non-trivial case: five particles in a square cell, both implementations. -/
example (impl : Impl) (x : List (List (Vec 2 ℝ))) (hx : x.length = 10) (hn : ∀ f ∈ x, f.length = 5) :
    ∃ depth ks ts vs, fsktCommand impl exTOpt exKOpt depth (fun _ l n => l.take n) exTTraj exKSide x = .ok (ks, ts, vs) ∧
      ks.length = 2 ∧ vs.length = 2 ∧ |ks.getD 0 0 - 1| < 1 / 10 ∧ ∀ row ∈ vs, row.head? = some 1 := by
  obtain ⟨depth, ks, ts, vs, h1, h2, h3, h4, h5⟩ := C218_self impl exScattering (fun _ => by norm_num [exKOpt]) _ isSample_take x hx
    (by norm_num : 0 < 5) hn
  have h6 := h4 exDistinct 0 (by simp)
  have hs : (pySorted [(2 : ℝ), 1]).getD 0 0 = 1 := by
    unfold pySorted
    simp [List.insertionSort, List.orderedInsert]
  rw [hs] at h6
  exact ⟨depth, ks, ts, vs, h1, h2, h3, h6, fun row hr => (h5 row hr).2.1⟩

/-- A non-trivial case: the same system and the command fkt. -/
example (x : List (List (Vec 2 ℝ))) (hx : x.length = 10) (hn : ∀ f ∈ x, f ≠ []) :
    ∃ depth ks ts vs ws, fktCommand exTOpt exKOpt depth (fun _ l n => l.take n) exTTraj exKSide x = .ok (ks, ts, vs, ws) ∧
      ks.length = 2 ∧ vs.length = 2 ∧ ∀ row ∈ vs, ts.head? = some 0 ∧ row.length = ts.length := by
  obtain ⟨depth, ks, ts, vs, ws, h1, h2, h3, -, -, h5, -⟩ := C218_coherent exScattering _ isSample_take x hx hn
  exact ⟨depth, ks, ts, vs, ws, h1, h2, h3, fun row hr => ⟨(h5 row hr).2.2.1, (h5 row hr).1.symm⟩⟩

/-- A non-trivial case: the same trajectory with blocks and one origin, given as a number or as a string. -/
theorem exScattering_one (n : NOrigins) (hn : OneOrigin n) :
    ScatteringInput { exTOpt with norigins := n } exKOpt exTTraj exKSide [2, 1] 10 := by
  have h := exScattering
  exact ⟨h.dims, h.func, h.samples, h.limit, h.sorted, h.steps_ne, h.block, h.timestep, h.total,
    hn.skip (by simp [exTTraj]) h.block, h.side_pos, h.dk, h.nk, h.klist, h.k_ne, h.k_nonneg⟩

example (impl : Impl) (x : List (List (Vec 2 ℝ))) (hx : x.length = 10) (hn : ∀ f ∈ x, f.length = 5) :
    ∃ depth ks ts vs Q, fsktCommand impl { exTOpt with norigins := .num 1 } exKOpt depth (fun _ l n => l.take n) exTTraj exKSide x =
        .ok (ks, ts, vs) ∧ Spec.Waves exKSide 9 ks Q ∧
      Spec.FromFirst exTTraj.steps exTTraj.timestep x
        (fun a b => Spec.mean ((Q.getD 1 []).flatMap fun v => Spec.selfTerms v a b)) (ts, (vs.getD 1 []).map some) := by
  obtain ⟨depth, ks, ts, vs, Q, h1, -, -, h4, h5⟩ := C219_self impl (o := { exTOpt with norigins := .num 1 }) (Or.inl rfl)
    (exScattering_one _ (Or.inl rfl)) (fun _ => by norm_num [exKOpt]) _ isSample_take x hx (by norm_num : 0 < 5) hn
  exact ⟨depth, ks, ts, vs, Q, h1, h4, h5 1 (by simp)⟩

example (x : List (List (Vec 2 ℝ))) (hx : x.length = 10) (hn : ∀ f ∈ x, f ≠ []) :
    ∃ depth ks ts vs ws Q, fktCommand { exTOpt with norigins := .str ['1'] } exKOpt depth (fun _ l n => l.take n) exTTraj exKSide x =
        .ok (ks, ts, vs, ws) ∧ Spec.Waves exKSide 9 ks Q ∧
      Spec.FromFirst exTTraj.steps exTTraj.timestep x
        (fun a b => Spec.mean ((Q.getD 1 []).map fun v => (Spec.density v a * star (Spec.density v b)).re))
        (ts, (ws.getD 1 []).map some) := by
  obtain ⟨depth, ks, ts, vs, ws, Q, h1, -, -, h4, h5⟩ := C219_coherent (o := { exTOpt with norigins := .str ['1'] }) (Or.inr rfl)
    (exScattering_one _ (Or.inr rfl)) _ isSample_take x hx hn
  exact ⟨depth, ks, ts, vs, ws, Q, h1, h4, (h5 1 (by simp)).2⟩

end PP.Props
