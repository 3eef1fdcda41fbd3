import Verif.Model.Sk
import Verif.Model.Correlation
import Verif.Model.Dynamics
import Verif.Model.HelpersReal

/-!
# Model of atooms/postprocessing/fkt.py and of the `fskt_kernel` functions of fourierspace.f90

Over the real and complex numbers. Simplifications: `nan` and `inf` are not represented, a division of numpy numbers by
zero gives 0; `lookup_mb = 0`, which gives an `OverflowError`, is a `ValueError`.
-/

namespace PP

variable {d : ℕ}

/-! ### The time grid -/

/-- The time grid set by `IntermediateScatteringBase.__init__`, atooms/postprocessing/fkt.py:66-76. -/
noncomputable def fktGrid (totalTime : ℝ) (tgrid : Option (List ℝ)) (tsamples : ℕ) (normalize : Bool) : Py (List ℝ) :=
  match tgrid with
  | none => logxGrid 0 (totalTime * (3 / 4)) tsamples
  | some g => if normalize then do
      let t0 ← pyGet g 0
      return if t0 > 0 then 0 :: g else g
    else .ok g

/-- The discrete time grid set by `IntermediateScatteringBase.__init__`, atooms/postprocessing/fkt.py:66-80. `offset`
is the value of `norigins != '1' and norigins != 1`. The check of the block size is outside of the package; it does not
change the trajectory. -/
noncomputable def fktInit (tr : Traj ℝ) (tgrid : Option (List ℝ)) (tsamples : ℕ) (normalize offset : Bool) :
    Py (List (ℕ × ℕ)) := do
  let g ← fktGrid tr.totalTime tgrid tsamples normalize
  setupTGrid tr.steps tr.blockSize tr.timestep g offset

/-! ### Loops shared by the three classes -/

/-- `acf[ik][dt] += v; cnt[ik][dt] += n` (atooms/postprocessing/fkt.py:138-151,233-234,344-345). -/
noncomputable def fkAdd (acc : List (Acc ℤ ℝ)) (ik : ℕ) (dt : ℤ) (v : ℝ) (n : ℕ) : Py (List (Acc ℤ ℝ)) :=
  if ik < acc.length then
    .ok (acc.modify ik fun a => (ddAdd 0 (· + ·) a.1 dt v, ddAdd 0 (· + ·) a.2 dt n))
  else .error .indexError

/-- The loops over grid points, wave-vectors, times and time origins (atooms/postprocessing/fkt.py:130-151,224-234,
337-345). `kernel i0 i kvec` is the quantity added to `acf`, and `n` the number added to `cnt`. -/
noncomputable def fkLoops (steps : List ℤ) (nframes skip n : ℕ) (tgrid : List (ℕ × ℕ)) (kernel : ℕ → ℕ → KVec d → Py ℝ)
    (kvectors : List (List (KVec d))) (acc : List (Acc ℤ ℝ)) : Py (List (Acc ℤ ℝ)) :=
  kvectors.zipIdx.foldlM (fun acc kl => kl.1.foldlM (fun acc kvec => tgrid.foldlM (fun acc g => do
    let r ← pyRange g.1 (nframes - g.2) skip
    r.foldlM (fun acc i0 => do
      let ta ← pyGet steps (i0 + g.2)
      let tb ← pyGet steps i0
      let v ← kernel i0 g.2 kvec
      fkAdd acc kl.2 (ta - tb) v n) acc) acc) acc) acc

/-- `tgrid = sorted(acf[0].keys())` and `[[acf[k][t] / cnt[k][t] for t in tgrid] for k in range(len(acf))]`
(atooms/postprocessing/fkt.py:154-157,237-240,348-360). A missing key has count 0. -/
noncomputable def fkValues (acc : List (Acc ℤ ℝ)) : Py (List ℤ × List (List ℝ)) := do
  let a0 ← pyGet acc 0
  let ts := pySorted (dictKeys a0.1)
  let vs ← acc.mapM fun a => ts.mapM fun t => pyDiv (ddGet 0 a.1 t) ((ddGet 0 a.2 t : ℕ) : ℝ)
  return (ts, vs)

/-- `for i in range(len(value[k])): value[k][i] /= value[k][0]`, in place
(atooms/postprocessing/fkt.py:160-163,243-246). -/
noncomputable def normInPlace (v : List ℝ) : List ℝ :=
  (List.range v.length).foldl (fun v i => v.set i (v.getD i 0 / v.getD 0 0)) v

/-! ### Self part -/

/-- What `_compute` of the self intermediate scattering functions reads: steps, timestep, stride, discrete time grid,
positions, wave-vectors, memory limit and whether to normalise (atooms/postprocessing/fkt.py:105-112,187-209). -/
structure FsObj (d : ℕ) where
  steps : List ℤ
  timestep : ℝ
  skip : ℕ
  tgrid : List (ℕ × ℕ)
  pos : List (List (Vec d ℝ))
  ks : KState d ℝ
  lookupMb : ℝ
  normalize : Bool

/-- Number of particles `pos[0].shape[0]` of `pos = numpy.array(self._pos)`: there must be a frame, and all frames must
have as many particles (atooms/postprocessing/fkt.py:110,120,187,212). -/
def fsNumber (pos : List (List (Vec d ℝ))) : Py ℕ :=
  match pos with
  | [] => .error .indexError
  | f :: r => if r.all fun g => decide (g.length = f.length) then .ok f.length else .error .valueError

/-- Number of particles in a block, legacy version (atooms/postprocessing/fkt.py:119-122). -/
def fsBlockLegacy (N : ℕ) : ℕ := min 200 (max 20 (N / 10))

/-- Number of particles in a block, fast version (atooms/postprocessing/fkt.py:207-214). With a limit of zero, `int` of an
infinite number is an `OverflowError`, of nan a `ValueError`; the model does not tell them apart. -/
noncomputable def fsBlockFast (o : FsObj d) (N : ℕ) : Py ℕ :=
  if o.lookupMb = 0 then .error .valueError
  else
    let posSize := o.pos.length * N * d
    let targetSize : ℝ := o.lookupMb * 1000000 / 16
    let nb : ℤ := max 1 (pyInt ((((posSize : ℤ) * (2 * o.ks.koffset + 1) : ℤ) : ℝ) / targetSize))
    .ok (min N (max 1 (N / nb.toNat)))

/-- The quantity added to `acf`, legacy version (atooms/postprocessing/fkt.py:137-151): the products over the
dimensions, in order, are the same in the three branches. -/
noncomputable def fsPairSum (x : List (List (List (List ℂ)))) (i0 i : ℕ) (kvec : KVec d) : Py ℝ := do
  let a ← pyGet x (i0 + i)
  let b ← pyGet x i0
  let terms ← (List.zip a b).mapM fun ab : List (List ℂ) × List (List ℂ) => do
    let es ← (List.finRange d).mapM fun j : Fin d => do
      let ra ← pyGet ab.1 (j : ℕ)
      let rb ← pyGet ab.2 (j : ℕ)
      let ea ← npGet ra (kvec j)
      let eb ← npGet rb (kvec j)
      return ea * star eb
    return es.prod
  return terms.sum.re

/-- `expo(t, ...)` in a Fortran kernel, with indices from 1 (atooms/postprocessing/fourierspace.f90:28-65). -/
def fFrame {α : Type} (x : List α) (t : ℕ) : Py α :=
  if t = 0 then .error .outOfBounds
  else match x[t - 1]? with | some a => .ok a | none => .error .outOfBounds

/-- `fskt_kernel_3d`, `fskt_kernel_2d`, `fskt_kernel_nd`, atooms/postprocessing/fourierspace.f90:28-65. -/
noncomputable def fsktKernel (x : List (List (List (List ℂ)))) (t1 t2 : ℕ) (ik : KVec d) : Py ℂ := do
  let a ← fFrame x t1
  let b ← fFrame x t2
  let terms ← (List.zip a b).mapM fun ab : List (List ℂ) × List (List ℂ) => do
    let es ← (List.finRange d).mapM fun j : Fin d => do
      let ea ← fExpo ab.1 (j : ℕ) (ik j)
      let eb ← fExpo ab.2 (j : ℕ) (ik j)
      return ea * star eb
    return es.prod
  return terms.sum

/-- The quantity added to `acf`, fast version (atooms/postprocessing/fkt.py:232-233). -/
noncomputable def fsPairFast (x : List (List (List (List ℂ)))) (i0 i : ℕ) (kvec : KVec d) : Py ℝ := do
  let res ← fsktKernel x (i0 + 1) (i0 + 1 + i) fun c => kvec c + 1
  return res.re

/-- The part of the two `_compute` after the choice of the block size (atooms/postprocessing/fkt.py:124-163,
217-246). -/
noncomputable def fsCompute (o : FsObj d)
    (kernel : List (List (List (List ℂ))) → ℕ → ℕ → KVec d → Py ℝ) (N block : ℕ) : Py (List ℝ × List (List ℝ)) := do
  let origins ← pyRange 0 N block
  let acc ← origins.foldlM (fun acc j => do
    let x ← expoFrames ccis (fun _ => 0) o.ks.k0 o.ks.koffset.toNat (o.pos.map fun f => (f.drop j).take block)
    fkLoops o.steps o.pos.length o.skip (min block (N - j)) o.tgrid (kernel x) o.ks.kvectors acc)
    (List.replicate o.ks.kgrid.length (([], []) : Acc ℤ ℝ))
  let r ← fkValues acc
  return (r.1.map fun t : ℤ => (t : ℝ) * o.timestep, if o.normalize then r.2.map normInPlace else r.2)

/-- `SelfIntermediateScatteringLegacy._compute`, atooms/postprocessing/fkt.py:108-163: `grid[1]` and `value`. -/
noncomputable def fsLegacy (o : FsObj d) : Py (List ℝ × List (List ℝ)) := do
  let N ← fsNumber o.pos
  fsCompute o fsPairSum N (fsBlockLegacy N)

/-- `SelfIntermediateScatteringFast._compute`, atooms/postprocessing/fkt.py:183-246. -/
noncomputable def fsFast (o : FsObj d) : Py (List ℝ × List (List ℝ)) := do
  let N ← fsNumber o.pos
  let block ← fsBlockFast o N
  fsCompute o fsPairFast N block

/-! ### Coherent part -/

/-- What `IntermediateScattering._compute` reads (atooms/postprocessing/fkt.py:278-295): as above, with two groups of
particles; `same` is `_pos_1 is _pos_0`. -/
structure FkObj (d : ℕ) where
  steps : List ℤ
  timestep : ℝ
  skip : ℕ
  tgrid : List (ℕ × ℕ)
  same : Bool
  pos0 : List (List (Vec d ℝ))
  pos1 : List (List (Vec d ℝ))
  ks : KState d ℝ
  normalize : Bool

/-- One particle in the branch for an arbitrary number of dimensions (atooms/postprocessing/fkt.py:309-312): `tmp` is a
view of the table, which is multiplied in place, so that entry `kvec[0]` of dimension 0 is replaced by the product. -/
noncomputable def fkRowNd (row : List (List ℂ)) (kvec : KVec d) : Py (ℂ × List (List ℂ)) := do
  let x ← expoProd row kvec (List.finRange d)
  return (x, row.modify 0 fun r => r.set (kvec0 kvec r.length) x)
where
  /-- Position of entry `kvec[0]`. -/
  kvec0 (kvec : KVec d) (len : ℕ) : ℕ :=
    match (List.finRange d).head? with
    | none => 0
    | some j => (if 0 ≤ kvec j then kvec j else kvec j + len).toNat

/-- Density of one wave-vector, added to the dictionary of one frame (atooms/postprocessing/fkt.py:300-312,316-328).
With an arbitrary number of dimensions, only the real part is kept and the table is modified. -/
noncomputable def fkDensity (st : List (List (List ℂ)) × List (KVec d × ℂ)) (kvec : KVec d) :
    Py (List (List (List ℂ)) × List (KVec d × ℂ)) :=
  if d = 2 ∨ d = 3 then do
    let r ← rhoSum st.1 (fun _ => 1) kvec (List.finRange d)
    return (st.1, dictSet st.2 kvec r)
  else do
    let rows ← st.1.mapM fun row => fkRowNd row kvec
    return (rows.map Prod.snd, ddAdd 0 (· + ·) st.2 kvec (((rows.map Prod.fst).sum.re : ℝ) : ℂ))

/-- Densities of one frame and one group, the dictionary `rho[it]` (atooms/postprocessing/fkt.py:288-328). The loops
over the two groups are interleaved in the code, but act on different tables and dictionaries. -/
noncomputable def fkFrame (ks : KState d ℝ) (pos : List (Vec d ℝ)) : Py (List (KVec d × ℂ)) := do
  let t ← expoSphere ccis (fun _ => 0) ks.k0 ks.koffset.toNat pos
  let st ← ks.kvectors.foldlM (fun st l => l.foldlM fkDensity st) (t, [])
  return st.2

/-- The quantity added to `acf` (atooms/postprocessing/fkt.py:344). `rho[i0][kvec]` reads a `defaultdict`. -/
noncomputable def fkPair (rho0 rho1 : List (List (KVec d × ℂ))) (i0 i : ℕ) (kvec : KVec d) : Py ℝ := do
  let a ← pyGet rho0 (i0 + i)
  let b ← pyGet rho1 i0
  return (ddGet 0 a kvec * star (ddGet 0 b kvec)).re

/-- The densities of the second group (atooms/postprocessing/fkt.py:290-295,315-332). -/
noncomputable def fkSecond (o : FkObj d) (rho0 : List (List (KVec d × ℂ))) : Py (List (List (KVec d × ℂ))) :=
  if o.same then .ok rho0
  else (List.range o.pos0.length).mapM fun it => do
    let f ← pyGet o.pos1 it
    fkFrame o.ks f

/-- `IntermediateScattering._compute`, atooms/postprocessing/fkt.py:278-366: `grid[1]`, `value` and `value_nonorm`. -/
noncomputable def fkCompute (o : FkObj d) : Py (List ℝ × List (List ℝ) × List (List ℝ)) := do
  let rho0 ← o.pos0.mapM (fkFrame o.ks)
  let rho1 ← fkSecond o rho0
  let acc ← fkLoops o.steps rho0.length o.skip 1 o.tgrid (fkPair rho0 rho1) o.ks.kvectors
    (List.replicate o.ks.kgrid.length (([], []) : Acc ℤ ℝ))
  let r ← fkValues acc
  return (r.1.map fun t : ℤ => (t : ℝ) * o.timestep,
    if o.normalize then r.2.map fun v => v.map fun x => x / v.getD 0 0 else r.2, r.2)

/-! ### Relaxation times -/

/-- `_extract_tau`, atooms/postprocessing/fkt.py:37-49. `e` is `numpy.exp(1.0)`. A missing root is `None`, also when
`feqc` returns `(None, None)`; a zero division in `feqc` gives `nan` or `inf` in numpy and is an exception here. -/
noncomputable def extractTau (e : ℝ) (ks t : List ℝ) (f : List (List ℝ)) : Py (List (ℝ × Option ℝ)) := do
  let t0 ← pyGet t 0
  if t0 > 0 then .error .valueError
  else ks.zipIdx.foldlM (fun tau ki => do
    let fi ← pyGet f ki.2
    let f0 ← pyGet fi 0
    let r ← tauRoot t fi (f0 * (1 / e))
    return dictSet tau ki.1 r) []
where
  /-- `feqc(...)[0]`, with `ValueError` turned into `None` (atooms/postprocessing/fkt.py:45-48). -/
  tauRoot (t f : List ℝ) (fstar : ℝ) : Py (Option ℝ) :=
    match feqc t f fstar with
    | .ok r => .ok (r.map Prod.fst)
    | .error .valueError => .ok none
    | .error e => .error e

end PP
