import Verif.Props.Symmetry
import Verif.Props.GrOpen
import Verif.Props.GrUnits
import Verif.Props.Overlap

/-!
# C158: labels, orientation and units of the dynamic susceptibility
-/

set_option linter.unusedSectionVars false

namespace PP.Props
open PP

variable {K : Type} [Field K] [LinearOrder K] [IsStrictOrderedRing K] [FloorRing K] {n d : ℕ}

/-- The attributes of the object whose frames are those of another one moved by `h`. -/
def chi4Moved (h : Frame n d K → Frame n d K) (s : Chi4State n d K) : Chi4State n d K :=
  ⟨s.pos.map h, s.grid, s.value, s.average, s.variance⟩

/-- The attributes of the object whose times are multiplied by `c`. -/
def chi4Times (c : K) (s : Chi4State n d K) : Chi4State n d K :=
  ⟨s.pos, s.grid.map (c * ·), s.value, s.average, s.variance⟩

theorem chi4Inner_moved {h : Frame n d K → Frame n d K} {a2 b2 : K}
    (hk : ∀ x y, selfOverlap (h x) (h y) b2 = selfOverlap x y a2) (pos : List (Frame n d K)) (i : ℕ) :
    chi4Inner (pos.map h) b2 i = chi4Inner pos a2 i := by
  funext acc i0
  unfold chi4Inner
  rw [pyGet_mapL _ pos i0, pyGet_mapL _ pos (i0 + i)]
  cases pyGet pos i0 with
  | error e => rfl
  | ok x =>
    cases pyGet pos (i0 + i) with
    | error e => rfl
    | ok y => simp only [Except.map, bind, Except.bind, hk]

theorem chi4OptInner_moved {h : Frame n d K → Frame n d K} {a2 b2 : K}
    (hk : ∀ x y, selfOverlap (h x) (h y) b2 = selfOverlap x y a2) (pos : List (Frame n d K)) (i : ℕ) :
    chi4OptInner (pos.map h) b2 i = chi4OptInner pos a2 i := by
  funext acc i0
  unfold chi4OptInner
  rw [pyGet_mapL _ pos i0, pyGet_mapL _ pos (i0 + i)]
  cases pyGet pos i0 with
  | error e => rfl
  | ok x =>
    cases pyGet pos (i0 + i) with
    | error e => rfl
    | ok y => simp only [Except.map, bind, Except.bind, C29_self_overlap_f90, hk]

theorem chi4Outer_moved {h : Frame n d K → Frame n d K} {a2 b2 : K}
    (hk : ∀ x y, selfOverlap (h x) (h y) b2 = selfOverlap x y a2) (tr : Traj K) (skip : ℕ) (s : Chi4State n d K)
    (g : ℕ × ℕ) : chi4Outer tr skip b2 (chi4Moved h s) g = (chi4Outer tr skip a2 s g).map (chi4Moved h) := by
  unfold chi4Outer
  simp only [chi4Moved, List.length_map, chi4Inner_moved hk]
  rw [pyGet_mapL _ s.pos 0]
  cases pyRange g.1 (s.pos.length - g.2 - skip) skip with
  | error e => rfl
  | ok r =>
    simp only [bind, Except.bind]
    cases r.foldlM (chi4Inner s.pos a2 g.2) ((0, 0, 0) : K × K × ℕ) with
    | error e => rfl
    | ok acc =>
      simp only
      cases pyGet tr.steps (g.1 + g.2) with
      | error e => rfl
      | ok ta =>
        cases pyGet tr.steps g.1 with
        | error e => rfl
        | ok tb => cases pyGet s.pos 0 <;> rfl

theorem chi4OptOuter_moved {h : Frame n d K → Frame n d K} {a2 b2 : K}
    (hk : ∀ x y, selfOverlap (h x) (h y) b2 = selfOverlap x y a2) (tr : Traj K) (skip : ℕ) (s : Chi4State n d K)
    (g : ℕ × ℕ) : chi4OptOuter tr skip b2 (chi4Moved h s) g = (chi4OptOuter tr skip a2 s g).map (chi4Moved h) := by
  unfold chi4OptOuter
  simp only [chi4Moved, List.length_map, chi4OptInner_moved hk]
  rw [pyGet_mapL _ s.pos 0]
  cases pyRange g.1 (s.pos.length - g.2 - skip) skip with
  | error e => rfl
  | ok r =>
    simp only [bind, Except.bind]
    cases r.foldlM (chi4OptInner s.pos a2 g.2) ((0, 0, 0) : K × K × ℕ) with
    | error e => rfl
    | ok acc =>
      simp only
      cases pyGet tr.steps (g.1 + g.2) with
      | error e => rfl
      | ok ta =>
        cases pyGet tr.steps g.1 with
        | error e => rfl
        | ok tb =>
          cases pyDiv acc.1 (acc.2.2 : K) with
          | error e => rfl
          | ok A =>
            cases pyDiv acc.2.1 (acc.2.2 : K) with
            | error e => rfl
            | ok A2 => cases pyGet s.pos 0 <;> rfl

theorem chi4_moved {h : Frame n d K → Frame n d K} {a b : K}
    (hk : ∀ x y, selfOverlap (h x) (h y) (b ^ 2) = selfOverlap x y (a ^ 2)) (tr : Traj K) (frames : List (Frame n d K))
    (skip : ℕ) (dg : List (ℕ × ℕ)) (s : Chi4State n d K) :
    chi4ComputeFull tr (frames.map h) skip b dg (chi4Moved h s)
        = (chi4ComputeFull tr frames skip a dg s).map (chi4Moved h) ∧
      chi4OptComputeFull tr (frames.map h) skip b dg (chi4Moved h s)
        = (chi4OptComputeFull tr frames skip a dg s).map (chi4Moved h) := by
  constructor
  · unfold chi4ComputeFull chi4Compute
    simp only [chi4Moved, ← List.map_append]
    rw [pyGet_mapL _ (s.pos ++ frames) 0]
    cases pyGet (s.pos ++ frames) 0 with
    | error e => rfl
    | ok x =>
      exact foldlM_map_state (chi4Moved h) (fun st g => chi4Outer_moved hk tr skip st g) dg
        ⟨s.pos ++ frames, [], s.value, s.average, s.variance⟩
  · unfold chi4OptComputeFull
    simp only [chi4Moved, ← List.map_append]
    exact foldlM_map_state (chi4Moved h) (fun st g => chi4OptOuter_moved hk tr skip st g) dg
      ⟨s.pos ++ frames, [], s.value, s.average, s.variance⟩

/-- What `compute()` leaves in the attributes that are written: times, values and the two auxiliary correlations. -/
def chi4Out (s : Chi4State n d K) : List K × List K × List K × List K := (s.grid, s.value, s.average, s.variance)

theorem chi4Out_moved (h : Frame n d K → Frame n d K) (r : Py (Chi4State n d K)) :
    (r.map (chi4Moved h)).map chi4Out = r.map chi4Out := by cases r <;> rfl

/-- **C158**, labels: the dynamic susceptibility, with its two auxiliary correlations, does not depend on the order in which
the particles are listed, in the plain and in the optimized version, with the same exceptions. -/
theorem C158_relabel (σ : Equiv.Perm (Fin n)) (tr : Traj K) (frames : List (Frame n d K)) (skip : ℕ) (a : K)
    (dg : List (ℕ × ℕ)) (grid : List K) :
    (chi4ComputeFull tr (frames.map fun x p => x (σ p)) skip a dg (Chi4State.init grid)).map chi4Out
        = (chi4ComputeFull tr frames skip a dg (Chi4State.init grid)).map chi4Out ∧
      (chi4OptComputeFull tr (frames.map fun x p => x (σ p)) skip a dg (Chi4State.init grid)).map chi4Out
        = (chi4OptComputeFull tr frames skip a dg (Chi4State.init grid)).map chi4Out := by
  obtain ⟨h1, h2⟩ := chi4_moved (h := relabel σ) (a := a) (b := a) (fun x y => selfOverlap_relabel σ x y _) tr frames skip dg
    (Chi4State.init grid)
  exact ⟨(congrArg _ h1).trans (chi4Out_moved _ _), (congrArg _ h2).trans (chi4Out_moved _ _)⟩

/-- **C158**, origin, axes and unit of length: it does not change if all the particles are moved by a transformation that
multiplies the distances by `s` and `a` is multiplied by `s`. -/
theorem C158_similarity (s : K) (hs : 0 < s) (h : (Fin d → K) → Fin d → K)
    (hh : ∀ u v, ∑ c, (h u c - h v c) ^ 2 = s ^ 2 * ∑ c, (u c - v c) ^ 2) (tr : Traj K) (frames : List (Frame n d K))
    (skip : ℕ) (a : K) (dg : List (ℕ × ℕ)) (grid : List K) :
    (chi4ComputeFull tr (frames.map fun x p => h (x p)) skip (s * a) dg (Chi4State.init grid)).map chi4Out
        = (chi4ComputeFull tr frames skip a dg (Chi4State.init grid)).map chi4Out ∧
      (chi4OptComputeFull tr (frames.map fun x p => h (x p)) skip (s * a) dg (Chi4State.init grid)).map chi4Out
        = (chi4OptComputeFull tr frames skip a dg (Chi4State.init grid)).map chi4Out := by
  obtain ⟨h1, h2⟩ := chi4_moved (h := moved h) (a := a) (b := s * a) (fun x y => selfOverlap_moved hh hs.ne' x y a) tr
    frames skip dg (Chi4State.init grid)
  exact ⟨(congrArg _ h1).trans (chi4Out_moved _ _), (congrArg _ h2).trans (chi4Out_moved _ _)⟩

theorem chi4Outer_times (c : K) (tr : Traj K) (skip : ℕ) (a2 : K) (s : Chi4State n d K) (g : ℕ × ℕ) :
    chi4Outer (scaleTime c tr) skip a2 (chi4Times c s) g = (chi4Outer tr skip a2 s g).map (chi4Times c) := by
  unfold chi4Outer
  simp only [chi4Times, scaleTime]
  cases pyRange g.1 (s.pos.length - g.2 - skip) skip with
  | error e => rfl
  | ok r =>
    simp only [bind, Except.bind]
    cases r.foldlM (chi4Inner s.pos a2 g.2) ((0, 0, 0) : K × K × ℕ) with
    | error e => rfl
    | ok acc =>
      simp only
      cases pyGet tr.steps (g.1 + g.2) with
      | error e => rfl
      | ok ta =>
        cases pyGet tr.steps g.1 with
        | error e => rfl
        | ok tb =>
          cases pyGet s.pos 0 with
          | error e => rfl
          | ok x =>
            simp only [Except.map, pure, Except.pure, chi4Times, List.map_append, List.map_cons, List.map_nil,
                  mul_left_comm]

theorem chi4OptOuter_times (c : K) (tr : Traj K) (skip : ℕ) (a2 : K) (s : Chi4State n d K) (g : ℕ × ℕ) :
    chi4OptOuter (scaleTime c tr) skip a2 (chi4Times c s) g = (chi4OptOuter tr skip a2 s g).map (chi4Times c) := by
  unfold chi4OptOuter
  simp only [chi4Times, scaleTime]
  cases pyRange g.1 (s.pos.length - g.2 - skip) skip with
  | error e => rfl
  | ok r =>
    simp only [bind, Except.bind]
    cases r.foldlM (chi4OptInner s.pos a2 g.2) ((0, 0, 0) : K × K × ℕ) with
    | error e => rfl
    | ok acc =>
      simp only
      cases pyGet tr.steps (g.1 + g.2) with
      | error e => rfl
      | ok ta =>
        cases pyGet tr.steps g.1 with
        | error e => rfl
        | ok tb =>
          cases pyDiv acc.1 (acc.2.2 : K) with
          | error e => rfl
          | ok A =>
            cases pyDiv acc.2.1 (acc.2.2 : K) with
            | error e => rfl
            | ok A2 =>
              cases pyGet s.pos 0 with
              | error e => rfl
              | ok x =>
                simp only [Except.map, pure, Except.pure, chi4Times, List.map_append, List.map_cons, List.map_nil,
                  mul_left_comm]

/-- **C158**, unit of time: if the timestep and the requested times are multiplied by `c`, the times are multiplied by `c`
and the values do not change. -/
theorem C158_unit_of_time (c : K) (hc : c ≠ 0) (tr : Traj K) (frames : List (Frame n d K)) (skip : ℕ) (a : K)
    (tgrid : List K) (offset : Bool) :
    (do let dg ← setupTGrid tr.steps tr.blockSize (c * tr.timestep) (tgrid.map (c * ·)) offset
        let s ← chi4ComputeFull { tr with timestep := c * tr.timestep, totalTime := c * tr.totalTime } frames skip a dg
          (Chi4State.init (tgrid.map (c * ·)))
        pure (chi4Out s))
      = (do let dg ← setupTGrid tr.steps tr.blockSize tr.timestep tgrid offset
            let s ← chi4ComputeFull tr frames skip a dg (Chi4State.init tgrid)
            pure (s.grid.map (c * ·), s.value, s.average, s.variance)) ∧
    (do let dg ← setupTGrid tr.steps tr.blockSize (c * tr.timestep) (tgrid.map (c * ·)) offset
        let s ← chi4OptComputeFull { tr with timestep := c * tr.timestep, totalTime := c * tr.totalTime } frames skip a dg
          (Chi4State.init (tgrid.map (c * ·)))
        pure (chi4Out s))
      = (do let dg ← setupTGrid tr.steps tr.blockSize tr.timestep tgrid offset
            let s ← chi4OptComputeFull tr frames skip a dg (Chi4State.init tgrid)
            pure (s.grid.map (c * ·), s.value, s.average, s.variance)) := by
  rw [setupTGrid_scale c hc]
  cases setupTGrid tr.steps tr.blockSize tr.timestep tgrid offset with
  | error e => exact ⟨rfl, rfl⟩
  | ok dg =>
    simp only [bind, Except.bind]
    have e1 : chi4ComputeFull (scaleTime c tr) frames skip a dg (Chi4State.init (tgrid.map (c * ·)))
        = (chi4ComputeFull tr frames skip a dg (Chi4State.init tgrid)).map (chi4Times c) := by
      unfold chi4ComputeFull chi4Compute Chi4State.init
      simp only [List.nil_append]
      cases pyGet frames 0 with
      | error e => rfl
      | ok x =>
        exact foldlM_map_state (chi4Times c) (fun st g => chi4Outer_times c tr skip (a ^ 2) st g) dg
          ⟨frames, [], [], [], []⟩
    have e2 : chi4OptComputeFull (scaleTime c tr) frames skip a dg (Chi4State.init (tgrid.map (c * ·)))
        = (chi4OptComputeFull tr frames skip a dg (Chi4State.init tgrid)).map (chi4Times c) := by
      unfold chi4OptComputeFull Chi4State.init
      simp only [List.nil_append]
      exact foldlM_map_state (chi4Times c) (fun st g => chi4OptOuter_times c tr skip (a ^ 2) st g) dg
        ⟨frames, [], [], [], []⟩
    unfold scaleTime at e1 e2
    rw [e1, e2]
    constructor
    · cases chi4ComputeFull tr frames skip a dg (Chi4State.init tgrid) <;> rfl
    · cases chi4OptComputeFull tr frames skip a dg (Chi4State.init tgrid) <;> rfl

/-- Five frames of two particles on a line. -/
def chi4Frames : List (Frame 2 1 ℚ) :=
  [fun p _ => ![0, 1] p, fun p _ => ![0, 3] p, fun p _ => ![1, 3] p, fun p _ => ![5, 3] p, fun p _ => ![5, 3] p]

/-- A case of C158: the first time has overlaps 1, 2, 1, the value is not zero, for the particles in another order, the
positions doubled and reflected, or the times in another unit. -/
example :
    (chi4ComputeFull ⟨[0, 1, 2, 3, 4], (1 : ℚ), 1, 4, [2, 2, 2, 2, 2]⟩ chi4Frames 1 (3 / 2) [(0, 1)]
        (Chi4State.init [])).map chi4Out = .ok ([1], [1 / 9], [4 / 3], [2]) ∧
    (chi4ComputeFull ⟨[0, 1, 2, 3, 4], (1 : ℚ), 1, 4, [2, 2, 2, 2, 2]⟩ (chi4Frames.map fun x p => x (Equiv.swap 0 1 p)) 1
        (3 / 2) [(0, 1)] (Chi4State.init [])).map chi4Out = .ok ([1], [1 / 9], [4 / 3], [2]) ∧
    (chi4OptComputeFull ⟨[0, 1, 2, 3, 4], (1 : ℚ), 1, 4, [2, 2, 2, 2, 2]⟩ (chi4Frames.map fun x p c => 7 - 2 * x p c) 1
        (2 * (3 / 2)) [(0, 1)] (Chi4State.init [])).map chi4Out = .ok ([1], [1 / 9], [4 / 3], [2]) ∧
    (chi4OptComputeFull ⟨[0, 1, 2, 3, 4], (3 : ℚ), 1, 12, [2, 2, 2, 2, 2]⟩ chi4Frames 1 (3 / 2) [(0, 1)]
        (Chi4State.init [])).map chi4Out = .ok ([3], [1 / 9], [4 / 3], [2]) := by
  refine ⟨?_, ?_, ?_, ?_⟩ <;> decide +kernel

end PP.Props
