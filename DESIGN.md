# Formal model of atooms/postprocessing: design

The source under study is `/repo/atooms/postprocessing` (python plus the two
Fortran files `realspace.f90`, `fourierspace.f90`) at the pinned commit. Nothing is run; the
model is a hand translation, function by function, into Lean 4.

## Layout

* `lean/Verif/Model/*.lean`: the model. One file per source file (or group of functions).
  Every definition cites file and lines.
* `lean/Verif/Spec/*.lean`: small specifications in plain mathematics (set-builder style:
  filters over index ranges, sums, nearest elements...). They do not use the model's loops.
* `lean/Verif/Lemmas/*.lean`: helper lemmas.
* `lean/Verif/Props/*.lean`: the property theorems, one section per property `Cnn`, each followed
  by a concrete `example` that meets its hypotheses, in the same file or in `Props/Cases.lean`.

## Conventions

* Python exceptions are values: a function that can raise returns `Py α = Except PyErr α`.
  Dictionaries are insertion-ordered association lists, `defaultdict` update is modelled
  explicitly, `range(a, b, s)` raises `ValueError` for `s = 0`.
* Integers (steps, indices, counts, bins) are exact in python and exact here.
* Floating point numbers are replaced by elements of an ordered field `K` (so the model runs
  over the rationals and the theorems hold over the reals), or by real/complex numbers where
  roots and exponentials occur. Rounding errors and overflow are outside the model. Where a
  theorem is about which terms are summed (C01, C02, C05...), the number type is a completely
  arbitrary type with arbitrary operations, so it also covers IEEE arithmetic.
* `nan` produced by numpy divisions 0/0 is modelled by `none` in `Option K` with strict propagation.
* When the code does not satisfy a property, the model still follows the code. The negation is
  proved with a concrete witness, the positive theorem is restricted to the cases in which the
  property does hold and its name ends in `_partial`.

## Plan per property

| id | modelled | proof |
|----|----------|-------|
| C01 | `gcf_offset` loops and both defaultdicts, arbitrary arithmetic | fold invariant: dict content = ordered filter of visited pairs |
| C02 | same for `acf`, `gcf` | sortedness of sorted keys; counts positive |
| C03 | `acf` over an ordered field | reduction to C01, algebra |
| C04 | `gcf` | refuted by witness (last origin is dropped); exact origin set proved as partial |
| C05 | `gcf_offset` error paths | case analysis on the monadic fold |
| C06, C07 | `linear_grid` | list reasoning, floor |
| C08, C09 | `logx_grid` over the reals (`rpow`) | C09 refuted: ends at x2-1 |
| C10 | `ifabsmm` | strictness of first extremum, algebra of the vertex |
| C11 | `linear_fit` | completing the square, Cauchy-Schwarz |
| C12, C13 | `feqc` | first index; C13 refuted |
| C14-C17 | `adjust_skip` with norigins as None/number/string, small decimal parser | case analysis; C16 partial, C17 refuted |
| C18 | `_templated` | argmin lemma |
| C19 | `setup_t_grid` | dict invariant |
| C20, C21 | `setup_t_grid` composed with `gcf_offset` | arithmetic on offsets modulo the block size |
| C22 | `filter_species` | list filters |
| C23-C25 | MSD kernel, arrays setup with unfolded positions and fix_cm | sums over particles |
| C26, C27 | VACF kernel and constructor | Cauchy-Schwarz; C27 refuted |
| C28 | alpha2 kernel | Cauchy-Schwarz |
| C29, C30 | overlaps | counting |
| C31, C32 | chi4 loops | variance identities; C32 refuted, exact origin set |
| C33 | object state with array set-up appended at every compute | second compute always raises: negation proved for all inputs |
| C34 | `pairs_newton_hist`, `pairs_hist`, `numpy.histogram` | permutation of the list of pairs |
| C35 | `gr_kernel*`, Fortran `pbc` | rounding |
| C36 | Fortran loops with explicit bounds check returning an out-of-bounds error | invariant |
| C37, C38 | both `_compute` | composition |
| C39-C41 | histograms under grouping, swapping, permuting | multiset sums |
| C42-C45 | `LinkedCells` with its neighbour table | integer geometry of cells; C45 refuted |
| C46 | `expo_sphere` recurrences over complex numbers | induction |
| C47-C49 | shell construction | fold invariants, measure for termination |
| C50 | kvectors setter/getter | index arithmetic; partial |
| C51-C57 | S(k), F_s, F, normalisation, Fortran kernels | complex sums |
| C58 | grid object shared by reference | refuted by witness |
| C59 | `is_cell_variable` | partial (last frame only) |
| C60-C62, C67, C68 | object state machines | invariants |
| C63-C66 | write/read/do with a filesystem state and crash points; path clean-up on character lists | list reasoning |
| C69 | api control flow | dispatch table |
| C70, C71 | Fortran neighbour and angle kernels with bounds | loop invariants |
| C72 | `ik.py` | refuted by witness |
| C73 | `susceptibility.py` | variance |

| C74-C79 | ball volumes, linked cells end to end, `Filter` on g(r), surface of open frames, grid checks | composition, mostly refuted |
| C80-C84 | bounds and symmetries of S(k), F_s, F; `_extract_tau` | complex sums |
| C85-C88 | repeated filters, tags, `Partial.do`, slices | state machines |
| C89-C91 | further neighbour routines, default cut-offs | loop invariants |

## What is modelled

| source | model | simplifications |
|--------|-------|-----------------|
| python builtins, dict, range, sorted, int, round | `Model/Py` | numbers are exact |
| correlation.py: `acf`, `gcf`, `gcf_offset` | `Model/Correlation` | kernel and arithmetic arbitrary |
| helpers.py | `Model/Helpers`, `Model/HelpersReal` | `copy_field`, `_dump` not here |
| msd.py, vacf.py, alpha2.py, qt.py, chi4t.py, array set-up | `Model/Dynamics` | atooms' unfolding decorator is given by its result |
| gr.py, realspace.f90 (pbc, histograms, distances) | `Model/Gr`, `Model/GrFull`, `Model/GrPartial` | histogram bins found by the definition of numpy.histogram |
| linkedcells.py | `Model/LinkedCells` | |
| fourierspace.py | `Model/Fourier` | `random.sample` is an arbitrary function |
| sk.py, fourierspace.f90 | `Model/Sk` | one call of the Fortran kernel for each wave-vector |
| fkt.py | `Model/Fkt` | division by zero in numpy gives 0 |
| correlation.py: filters, weights; filter.py; partial.py | `Model/Object` | conditions are predicates with a text |
| correlation.py: output paths | `Model/Text` | |
| correlation.py: `write`, `read`, `do`, `need_update` | `Model/Output` | `%g` is rounding to six digits |
| api.py | `Model/Api` | which objects are run on which file |
| realspace.f90: neighbour lists; ba.py | `Model/Neighbors`, `Model/BondAngle` | |
| ik.py, susceptibility.py | `Model/Ik`, `Model/Susceptibility` | |
| repeated `compute()` of sk.py | `Model/SkAgain` | weights looked up before the exponentials |
| repeated `compute()` of gr.py | `Model/GrAgain` | same simplifications as `Model/GrFull` |
| correlation.py `_setup_arrays` and its one- and two-body parts | `Model/Arrays` | `Unfolded`, `fold`, `distinct_species` of atooms are parameters; frames are read afresh at each pass; zero total mass not represented |
| correlation.py `_output_file` fields, `grid_name`, text of `write`; helpers.py `_dump`; chi4t.py files; partial.py names | `Model/Write` | formatting of numbers outside of the model (rows are strings); the optional package medepy not modelled; `{trajectory.filename}` is the only field of the trajectory; format specifications not modelled |
| api.py signatures, `_compat`, choice of the classes, `kgrid`, `_func_db` | `Model/ApiArgs` | python's binding of arguments to parameters; keywords as a dictionary; numbers in strings as in `pyFloatOfStr`; argh and argparse not modelled |
| s4kt.py | `Model/S4kt` | the values of the exponentials and of W outside of the model, since no statement that uses them is reached; the order of exceptions is that of the statements |
| constructors in msd.py, alpha2.py, qt.py, chi4t.py | `Model/Runs` | the lookup of the file of a path (the trajectory it holds is given); the other attributes set by the constructors; warnings |
| api.py: msd, vacf, alpha2, qst, qt for the whole system | `Model/Commands` | partial functions and output (modelled elsewhere); options of other commands |
| api.py: fkt, fskt, sk for the whole system | `Model/CommandsK` | `fix_cm`, partial functions and output (modelled elsewhere); for fkt and fskt the cell is that of the first frame; sk without weights and with the python implementation |
| api.py: gr for the whole system | `Model/CommandsGr` | filters, partial functions and output (modelled elsewhere); `ndim` and `grandcanonical`, which have no effect |
| api.py: ik with a selection of frames | `Model/CommandsIk` | the frames selected are given by their numbers; the wave-vectors are part of the frames; `trajectory_radius` is in `Model/Api` |
| api.py: ba for a system of one species | `Model/CommandsBa` | several species, filters and output (modelled elsewhere); values of g(r) that are not numbers raise `valueError`; uninitialised memory is a parameter |
| ba.py: the default cut-offs for several species; api.py: the partial functions of ba | `Model/CommandsBaPartial` | the order in which several errors would be raised is that of the pairs of species; values of g(r) that are not numbers raise `valueError`; uninitialised memory is a parameter |
| api.py partial functions of gr; partial.py for two-body functions | `Model/CommandsGrPartial` | a particle is its species and position; the list of species is that of the first frame; `update` not represented |
| api.py partial functions of sk; partial.py for two-body functions; the list `kgrid` shared by the objects | `Model/CommandsSkPartial` | as for gr; no weights; the cell is constant; the order of the dictionary of results is not that of the code |
| api.py partial functions of fskt; partial.py for one-body functions; the list of wave-numbers shared by the objects | `Model/CommandsFsPartial` | a particle is its species and position; the cell is constant; `fix_cm` and `update` not represented |
| api.py partial functions of fkt; partial.py for two-body functions; the list of wave-numbers shared by the objects | `Model/CommandsFkPartial` | as for fskt; the order of the dictionary of results is not that of the code |
| api.py chi4qs for the whole system and the species | `Model/CommandsChi4` | no `fast`; species do not change with time |
| api.py partial functions of msd, vacf, alpha2, qst, qt; partial.py for one-body functions | `Model/CommandsPartial` | species constant in time; the list of species is that of the first frame; `fix_cm` and `update` not represented |
| correlation.py `_setup_arrays_onebody` on frames kept in memory or cached; partial.py `compute`, one-body | `Model/Memory` | the frames after the in-place subtraction of the centre of mass are the only state shared by two objects; frames of the Unfolded decorator do not share particles with the trajectory |
| realspace.f90 `gr_self`, `gr_distinct`, `gr_neighbors_*` by columns, `distances_*`, `on_surface`, `bin_in_cell`; linkedcells.py `on_border` | `Model/Kernels` | arrays of shape (d, n) are functions `Fin d → Fin n → K`; accesses out of bounds are the error `outOfBounds` |
| alpha2.py, chi4t.py, qt.py `analyze`; fkt.py `_write_tau`, `write`; correlation.py `do`, `need_update`, `compute` (value returned) and output path in memory; fourierspace.py `compute` | `Model/Relax` | nan is `none`; files are texts indexed by paths; the format of numbers is a parameter; `read` is in `Model/Output` |
| fourierspace.py `__init__`, `_setup`, `kvectors`, `report` and sk.py `_compute` with the attributes `kgrid`, `kvectors` changed by the user and `_setup` repeated for each frame; api.py `sk`, `fkt`, `fskt` for several files | `Model/KObject` | numbers of the tables are not formatted; legacy version of S(k); random samples as in `Model/Fourier`; each file is given by its cell and the number of objects computed |
| ba.py `_default_rcut` and `do`, partial.py `do`, as far as files are concerned | `Model/BaFiles` | the calculations and the texts of the files are arbitrary |
| helpers.py `copy_field`; correlation.py `add_weight` with a weight trajectory, weights read again from the trajectory | `Model/WeightRead` | particles are dictionaries of properties; no cache of frames; filters left out |
| api.py `sk`, as far as weights and files are concerned | `Model/SkWeight` | a trajectory is its list of steps and its callbacks; opening a file is an arbitrary function of its name; calculations left out |
| ba.py `_compute` called several times on one object | `Model/BaAgain` | as Model/BondAngle; the arrays hold the sides of the cell, which the code reads from the trajectory |
| fkt.py and ik.py `_compute` called several times on one object | `Model/FktAgain` | as Model/Fkt and Model/Ik; wave-vectors are those of the first call |
| gr.py `pairs_newton_hist`, the lists passed to the histogram | `Model/GrBatch` | as Model/Gr |
| partial.py with ba.py: the particles of a pair of species | `Model/BaPartial` | species are their numbers |
| core.py `CustomHelpFormatter` | `Model/Help` | `textwrap.wrap` is a parameter, `splitlines` left out; blanks of one-byte text |
| progress.py | `Model/Progress` | of tqdm only the position, `disable` and `update`; its loop is not modelled |
| correlation.py `show`, `_is_iterable` | `Model/Show` | calls of matplotlib are recorded; plots of lists of numbers only |
| correlation.py `compute`, `do` as templates; bin/pp.py global options | `Model/Session` | clock, setup, calculation, analysis and writing are parameters; texts of the messages left out; of the logger only the level |
| filter.py `eval` of the conditions | `Model/FilterEval` | parser, comparisons, truth values and builtin names are parameters; no calls, arithmetic, subscripts or chained comparisons |
| bin/acf.py | `Model/AcfScript` | names bound by the statements of the script; reading the numbers left out |
| msd.py `analyze`, sacf.py, norigins in vacf.py, sacf.py, qt.py, `Chi4SelfOverlapOptimized` | `Model/Analysis` | masses, interaction stress and velocities are given per frame |

Not modelled: the parser of the command line, logging, comments in the output files, atooms itself
(trajectory reading, decorators), which is represented by the list of frames it yields. Not expressible here:
floating point accuracy, performance, numpy pairwise summation order, randomness quality of `random.sample` (only
quantified over all outcomes).

## Trusted base

* Lean's kernel and the axioms `propext`, `Classical.choice`, `Quot.sound`
  (no other axiom, no `sorry`, no `native_decide`); the list for each theorem is at the end.
* The faithfulness of the hand translation in `Verif/Model`.
* The abstraction of floats by exact numbers described above.

## Outcome per property

Generated from MANIFEST.json. "partial" means that the code violates the property as stated, or that it is proved
only in the cases said; the theorems named `_counterexample` prove the negation.

| id | property | status | note |
|----|----------|--------|------|
| C01 | Time-correlation average is the mean over exactly the sampled frame pairs | proved | For any number type with +, /, and any kernel; sampled pairs described independently of the loop. |
| C02 | Reported lags are strictly increasing and aligned with values | proved | Ordering, alignment, membership and positive counts for gcf_offset and acf; gcf shares corrLoop. |
| C03 | acf is the autocovariance: it ignores a constant offset and gives the variance at lag zero | proved | Over an ordered field; shift by a constant vector of constants, negation, and the variance at lag zero. |
| C04 | gcf averages over all origins allowed by the separation | partial | gcf is the mean over the pairs it samples; the claim that all origins allowed by the separation are used is false (counterexample). |
| C05 | gcf_offset fails exactly when it must | proved | IndexError iff a sampled pair exceeds the time list. |
| C06 | linear_grid with an integer gives n equispaced points including both ends | proved | Over an ordered field. |
| C07 | linear_grid with a spacing covers [a,b] without overshooting | proved | Over an ordered field with floor. |
| C08 | logx_grid from a positive start is geometric and ends at x2 | proved | Over the reals. |
| C09 | logx_grid from zero reaches x2 | partial | The last point is x2-1, not x2; partial theorem gives the actual values. |
| C10 | Peak finding by parabolic interpolation is safe and bracketed | proved | Minimum and maximum, degenerate parabola impossible at a strict first extremum. |
| C11 | linear_fit returns the least squares line with real uncertainties | proved | Least squares optimality over an ordered field; uncertainties are square roots of non-negative numbers. |
| C12 | feqc returns the linearly interpolated first crossing | proved | First strict sign change; no division by zero if x is strictly monotonic. |
| C13 | feqc finds a root whenever the data attains fstar | partial | The claim is false when the data starts on, or touches, fstar; partial theorem under a strict sign change. |
| C14 | The origin stride is always usable | proved | Bounds, exact values for numbers, exact error conditions for numbers and strings; the wrong-skip error is unreachable. |
| C15 | norigins controls the number of time origins | proved | All, single and n origins; the count is between n and 2n-1, not exactly n. |
| C16 | Time origins respect the block structure | partial | False when more origins than blocks are requested (stride 1); true otherwise. |
| C17 | norigins given on the command line means the same as from Python | partial | False for fractional strings (ValueError) and for 1.0; true for integer strings and values outside [0,1]. |
| C18 | Template matching picks nearest entries | proved | Sorted entries, any ordered group; ties go to the smaller entry. |
| C19 | The discrete time grid only contains realisable frame pairs and the closest lags | partial | Soundness, order and nearest match among the scanned pairs; the scan stops at n-2*off instead of n-off, so the full claim is false (counterexample). |
| C20 | No frame pair is counted twice | proved | For the grid returned by setup_t_grid and any number of frames; the stride hypothesis is shown to be needed. |
| C21 | On block-periodic trajectories the reported lags are exactly the selected ones | proved | For any kernel and number type; lags and values aligned with the grid. |
| C22 | Species filter keeps exactly the particles of that species | proved | Filtering as a value, and on a heap model of python references for the unchanged-input part. |
| C23 | Mean square displacement is non-negative, zero at zero lag and blind to the origin of coordinates | proved | All trajectories, masses irrelevant; translation of all frames by one vector. |
| C24 | Uniform motion gives an exactly ballistic MSD | proved | Exact ballistic displacements on any time grid. |
| C25 | fix_cm removes any collective drift | proved | Mass-weighted centre of mass fixed at zero and any drift removed; undefined for zero total mass. |
| C26 | The velocity autocorrelation at lag zero is the mean square velocity and bounds the others on average | proved | Kernel by Cauchy-Schwarz and the value at time zero. |
| C27 | VelocityAutocorrelation works with its default time grid | partial | The default constructor raises TypeError (counterexample); it works with an explicit grid. |
| C28 | Non-Gaussian parameter lower bound | proved | Bound with its equality case for the kernel; lower bound and value at zero for the average. |
| C29 | Self overlap is a fraction | proved | Average of fractions, range, time zero, monotonic in a; Fortran count equal. |
| C30 | Collective overlap counts all pairs and dominates the self overlap | proved | Average of pair counts per particle, range, dominates the self overlap. |
| C31 | chi4 is a normalised variance | proved | Equal to the number of particles times the population variance of the overlap over the origins; non-negative and bounded. |
| C32 | chi4 uses every available time origin | partial | False: the last possible origin is never used (counterexample); the partial theorem gives the origins actually used. |
| C33 | compute() can be repeated | partial | False: a second compute raises IndexError or changes the value (counterexamples); a fresh object is correct. |
| C34 | The pair histogram counts every unordered pair once, independently of batching | proved | Any pair function, bin edges and batch size. |
| C35 | Minimum image distances are correct and both backends agree | proved | Python fold optimal; Fortran fold agrees exactly up to 3L/2. |
| C36 | The Fortran pair histogram never writes out of bounds and counts each pair once | proved | Bounds-checked model of the Fortran loops; no out-of-bounds access and exact counts. |
| C37 | Fast and legacy g(r) agree | proved | Direct kernels on periodic frames with the default grid; the fast table may only lack the last bin. |
| C38 | g(r) sum rule | partial | Both classes: values are non-negative and sum to at most the number of other particles, with equality when all distances are covered; even dimensions and 3 only, false in other odd dimensions (counterexample). |
| C39 | Partial histograms add up to the total | proved | Histograms exactly additive; concentration-weighted sum for both classes when compositions are constant. |
| C40 | g_ab(r) = g_ba(r) | proved | Python and Fortran histograms. |
| C41 | g(r) does not depend on particle order or on the choice of origin | proved | Permutation, translation and refolding together; one and two groups. |
| C42 | Linked cells find every pair within the cut-off | partial | Complete with Newton and for two groups; with newton=False pairs in the same subcell are listed once only (counterexample). |
| C43 | Linked cells list no pair twice | proved | At least three subcells along each periodic direction. |
| C44 | g(r) with linked cells equals g(r) without, up to rmax | proved | Exact real arithmetic with a genuine square root; d = 2, 3 (other dimensions raise an error). |
| C45 | A LinkedCells object can be reused | partial | False when the cell or kind of calculation changes (counterexamples); true otherwise. |
| C46 | The table of exponentials is exact | proved | All frames, particles, dimensions; also expo_sphere_safe; independent of the uninitialised content. nk=0 raises IndexError. |
| C47 | Wave-vector shells are sound, complete and disjoint | proved | Exact real norms; two and three dimensions (others raise ValueError). |
| C48 | Wave-vector setup terminates | proved | Terminates for any non-negative grid, sorted or not. The number of restarts is not bounded uniformly, so a recursion limit can be hit for extremely small dk (C48_depth_unbounded); dk=0 never returns. |
| C49 | At most nk wave-vectors per k, and the reported k is their mean norm, within dk of the requested one | proved | Given and default grids, any outcome of random.sample; selected indices also lie within the table of exponentials. |
| C50 | kvectors can be copied from one correlation object to another | partial | Wave-vectors and norms are copied exactly; computing with them raises IndexError when a positive component exceeds the negative ones by more than 1 (counterexample, any frames), and gives the same values otherwise. |
| C51 | S(k) is real, non-negative, bounded by N, translation and folding invariant | proved | Legacy class, exact arithmetic. The bound needs the same N in all frames. Invariance also for two groups; translations and folding may differ from frame to frame. |
| C52 | Partial structure factors add up | proved | Legacy class in two and three dimensions; the composition may vary with time. |
| C53 | F_s(k,0)=1 and /F_s(k,t)/ <= 1 | proved | Proved for both versions through C54; the constructor theorem shows that zero lag is always sampled with normalize=True. |
| C54 | Fast and legacy F_s(k,t) agree and do not depend on the memory limit | partial | Equality proved for any non-zero memory limit and any block size when there are particles; with an empty group the fast version raises ValueError (counterexample). |
| C55 | Normalisation divides every value by the zero-lag value | proved | The loop alone only divides the first value (C55_loop); since zero lag is sampled and its value is 1, the result is nevertheless the quotient. |
| C56 | F(k,0)=1 when normalised, and partial F_ab(k,t) = F_ba(k,t) | partial | F(k,0)=1 proved in 2 and 3 dimensions unless the zero-lag value vanishes; F_ba differs from F_ab in general (counterexample), they agree at zero lag. |
| C57 | StructureFactorFast agrees with StructureFactorLegacy | partial | False for all inputs (counterexamples): off-by-one indices shift every wave-vector; second group ignored; ValueError in two dimensions. |
| C58 | Partial correlations use the same wave-vectors independently of filters | partial | False for a grid given by the user, which is modified in place (counterexample for every outcome of the random selection); true for the default grid. |
| C59 | is_cell_variable detects a changing cell | partial | False (counterexamples): with tests=1 only the last frame is compared, and every positive number of tests misses some trajectory. True answers are right; exact when tests <= 0 or frames < 2*tests. |
| C60 | At most nbodies filters | partial | False: nbodies+1 filters are accepted (for every nbodies); the one in excess is ignored, or raises NameError if there are weights. Proved: bound nbodies+1, refused calls change nothing. |
| C61 | Partial covers all species pairs and copies only computed ones | proved | The underlying compute is an arbitrary function of the filters and of the number of previous calls on the object. |
| C62 | Filter selects the documented groups | partial | Two-body functions: proved. One-body functions: several conditions make a tuple, always true, so that all particles are used. Refused conditions have already changed the tags. |
| C63 | Output files list the full grid | partial | Layout proved. Reading back: relative error at most 5e-6 and exact for six digits; exact equality is false because of the format %g. |
| C64 | do(update=True) yields the up-to-date correlation function | partial | When compute is called: proved. What is read: proved for two columns and at least two rows, false for functions of two variables (nothing is set), single points (numbers). |
| C65 | An interrupted write is not mistaken for a finished calculation | partial | False at every crash point later than the trajectory: truncated data are used, or ValueError is raised for ever. |
| C66 | Output file names are clean and stay in the requested directory | partial | Directory kept, no hyphens at the ends, no doubled marks without tripled ones: proved. False in general; hidden files collide with visible ones; a slash in the tag changes the directory. |
| C67 | A rejected add_weight leaves the object unchanged | partial | False for every rejected call: the weights are reset, and the callback on the trajectory stays. |
| C68 | Field fluctuations have zero mean | partial | Fields of floats: zero average (frame averages first), zero sum at fixed number of particles, invariance under shifts. False for varying number of particles, integer fields (TypeError), frames without particles (nan). |
| C69 | Every command computes something for every input file | partial | Exceptions raised by the correlation functions are not modelled. gr, sk, msd, vacf, alpha2, qst, qt, ba: proved. ik, chi4qs, fkt, fskt skip files, chi4qs with --fast raises AttributeError; filters are ignored by all but gr, sk, ba. |
| C70 | Bond-angle distribution is normalised and its kernel is memory safe | partial | Values are the fractions of the angles in each bin (angles of Mathlib), >= 0 and normalised if some angle is below the last multiple of dtheta. False otherwise: all values are nan, e.g. for straight angles. The histogram is safe, the neighbour buffer of 50 is overrun as soon as a particle has more than 50 in range (itself included). One- and two-component positions included; the positions are supposed folded. |
| C71 | Fortran neighbour lists are symmetric and complete | partial | Lists, counts and symmetry proved for species ids counted from one; with ids counted from zero, as elsewhere in the package, the cut-offs are read out of bounds. |
| C72 | SpectralDensity uses the norm of the actual wave-vector | partial | False: the argument of the form factor is the norm of the indices in the table of exponentials, offset included. Proved: what is computed (with the transform of a ball as an integral), non-negative, in three dimensions; fewer dimensions raise IndexError. |
| C73 | Susceptibility is a normalised variance | proved | The correlation function is an arbitrary function of the first frame of the sub-trajectory. Functions of one variable. The variance at each point is over the sub-trajectories that have it. |
| C74 | Shell volumes of g(r) are the volumes of spherical shells | partial | Right if and only if d is even or 3; the reference volume is shown to be the Lebesgue measure of the ball. |
| C75 | Every point of g(r) returned with linked cells equals the direct one | partial | False (counterexample): a bin straddling rmax is undercounted; C44 gives the bins below rmax. |
| C76 | A filter satisfied by all particles does not change g(r) | partial | False for every trajectory (counterexample): each particle is paired with itself, in the first bin. |
| C77 | Linked cells accept particles on the faces of the cell | partial | False (counterexamples): KeyError for a particle on an upper face, missed pairs if it is in the second group. |
| C78 | g(r) is reported on the grid given by the user | partial | True for the legacy class; false for the fast one (counterexample), whose distances are always odd multiples of half the spacing. |
| C79 | The spacing dr may be an integer | partial | False: IndexError for dr=1 whatever the trajectory; for larger integers dr is taken as the number of grid points (C79_counterexample_points). |
| C80 | S(k) is the average of the products of density modes | proved | Legacy class; exact arithmetic. |
| C81 | Weighted S(k) of one group is non-negative | proved | Legacy class, one group of particles. |
| C82 | F_s(k,t) is the mean of cos(k.(r(t0+t)-r(t0))) | proved | Legacy version; the fast one is equal by C54. |
| C83 | F(k,t) is the mean of Re rho(t0+t) rho*(t0) | partial | Proved in 2 and 3 dimensions; in one dimension only the real part of the density is used (counterexample for all positions). |
| C84 | Relaxation times are the first crossing of f(0)/e | proved | Over the reals; equal wave-numbers would share a dictionary entry and are excluded. |
| C85 | Filters compose | partial | False: a second Filter is ignored by one-body functions, and raises leaving the new tags for two-body functions. |
| C86 | Different filters write to different files | partial | Conditions on one field that is equal to or different from a value made of plain characters have different tags. False in general: examples of different conditions with the same tag and file. |
| C87 | do() followed by do(update=True) gives the same function without computing | partial | Proved for functions of one variable with at least two points and an output newer than the trajectory; the case of two variables is C64_counterexample_lost. |
| C88 | Slices of trajectories with blocks are whole blocks | partial | Rounding down proved; nothing is left if last is less than the block size. |
| C89 | Neighbour lists between distinct groups are complete | partial | False: the loop stores i also in the list of j, so particles of the other group end up in lists of the first; and it accesses memory out of bounds if the second group is larger. Proved: every neighbour is in the list. |
| C90 | Neighbour lists from candidate lists | partial | Proved for half lists of candidates; with full (symmetric) lists every neighbour is listed twice. |
| C91 | Default cut-offs of bond angles | partial | A cut-off that is returned is the first minimum; for a g(r) that decreases up to the end of the grid there is an IndexError. |
| C92 | Options apply to everything a command computes | partial | False for msd, whose partial functions ignore fix_cm, and chi4qs, which ignores no_partial; true otherwise. |
| C93 | Time grids of the api | partial | Proved except that fkt, fskt, alpha2, qst and qt do not limit the largest time to that of the trajectory (counterexample). |
| C94 | Diffusion coefficient from the mean square displacement | proved | The warning in the log is not modelled. |
| C95 | Stress autocorrelation | partial | Three dimensions without filters: proved. Fewer dimensions: IndexError always. A filter that selects two or more but not all particles: ValueError; a single particle: the kinetic part has the mass of the whole system. If the first frame has one particle its mass is used for all the particles of the others. |
| C96 | The number of time origins applies to all time correlations | partial | Self overlap: proved. False for the velocity and stress autocorrelations, which use the block size as stride: any two accepted values give the same result, the mean over the origins separated by the block size. |
| C97 | Optimized dynamic susceptibility equals the plain one | partial | Same if every time has an origin at which the code looks. Otherwise the optimized version raises ZeroDivisionError where the plain one gives zero, e.g. always for one time origin. |
| C98 | Positions and weights belong to the same particles | partial | Proved for up to two filters. Three filters, which add_filter accepts, use two groups for the positions and raise NameError for the weights. A second compute() of a one-body function appends the weights again. |
| C99 | The structure factor can be computed again | partial | Same result without weights and with a constant cell if the stride divides the number of frames. Otherwise IndexError (weights, variable cell: always) or different values (three frames, stride two). |
| C100 | g(r) can be computed again | partial | Fast: false, each further call loses the last point until IndexError; with linked cells the second call can write outside the histogram. Legacy: same table, except for the last value if a pair is exactly at the upper bound of the last bin (example). |
| C101 | g(r) with linked cells never writes outside the histogram | partial | False if the user's grid ends before the distance of a pair within the cut-off. Proved for uniform grids that cover the cut-off. |
| C102 | Unfolded positions are not folded back | partial | Unfolded and fold of atooms are parameters. Proved if folded positions are not requested, or if the trajectory has unfolded positions. False if both are requested, as in the base class and S4ktOverlap, and the trajectory has no unfolded positions: both arrays are the folded positions. |
| C103 | fix_cm applies to all groups of particles | partial | Proved with at most one filter, for Unfolded that removes the drift or positions in the file. False with two filters, e.g. unlike-species partials: fix_cm is ignored. |
| C104 | The arrays requested in phasespace are filled | partial | Folded positions, velocities, species: proved for one or two groups and any number of filters up to two. False for unfolded positions of two-body functions with at most one filter (empty arrays), and for species missing in the first frame (ValueError). |
| C105 | The collective overlap does not depend on periodic images | partial | An upper bound and equality for particles away from the faces: proved. False in general: for any trajectory there are images for which the function vanishes at all times but zero. |
| C106 | Relabelling the particles does not change the dynamics | proved | Same relabelling in all frames for msd, vacf, alpha2, qst, qt; one per frame for qt. Exchanging two particles in one frame does change the MSD (shown). |
| C107 | Only differences of steps matter | proved | All time correlation functions, including the Fourier-space ones. |
| C108 | The unit of time is arbitrary | proved | msd with given or default grid, vacf, alpha2, overlaps. |
| C109 | Rotations, translations and the unit of length | proved | msd, alpha2, overlaps for any similarity of space; the collective overlap without periodic images, as in the code. vacf for a linear similarity. |
| C110 | Partial one-body functions add up to the total | partial | Proved on a given time grid and for rmax <= 0. False with rmax > 0: the grid depends on the displacement of the group itself. |
| C111 | Reversing the trajectory does not change the dynamics | partial | Proved for block size 1 and stride 1. False with a stride of two (three frames). Fourier-space functions not included. |
| C112 | Default time grid of the mean square displacement | partial | False: the total time is always among the reported times if rmax < 0; for a particle in uniform motion and rmax > 0 the grid stops well before (the time is extrapolated linearly from the first interval). Right if the MSD is proportional to time. |
| C113 | The data of an output file are those written | partial | Proved for comments made of complete lines starting with '#', and names on one line. Comments without newline hide the first row, comments without '#' are read as data. Formatting of numbers not modelled. |
| C114 | The header names one column per variable | proved | Short names without parenthesis (base class, Susceptibility): IndexError in write. |
| C115 | All files of a calculation are at the output path | partial | False: chi4qs writes two further files next to the trajectory, whatever the path. With the default path and clean names the three files are different. |
| C116 | Each partial function has its own file | partial | Proved for the default path, clean names and, for pairs, species without hyphen. False for paths without tag, for species with hyphens and for species ending with a punctuation mark. |
| C117 | Intermediate scattering functions and periodic images | proved | F_s in both versions and F(k,t), for wave-vectors that fit in the cell. For other wave-vectors the images count (shown). |
| C118 | Labels and coordinate axes in the intermediate scattering functions | proved | F_s: one relabelling for all frames; F(k,t): one per frame. Translation and inversion for both. |
| C119 | The self function of all particles is the average of those of two groups | proved | Two groups, without normalization; all pairs of group sizes. |
| C120 | S4ktOverlap computes | partial | False: AttributeError for every trajectory and non-empty list of times; if the user sets the missing attribute there is still an exception, whatever the input. An empty list of times gives no values. |
| C121 | Non-Gaussian parameter of Gaussian displacements | partial | The value is (6-2d)/(5d) at all times but zero: right in three dimensions, not zero in all others. |
| C122 | Non-Gaussian parameter and time origins | partial | False: the code averages the ratio of the moments of each pair of frames; for one particle the result is -2/5 however it moves. Proved if the mean square displacement is the same for all origins. |
| C123 | g(r) of a bounded system is free of surface effects | partial | Proved without linked cells if some frame has an inner particle; the first point repeats the second one's value. With linked cells, proved for bins below rmax if all frames have an inner particle; false otherwise: exception. The legacy version ignores whether the cell is periodic, so it is false there. |
| C124 | Default times of the intermediate scattering functions | partial | The last lag is the one closest to 3/4 of the total time minus one unit of time. False in general: for every trajectory there is a unit of time in which all lags are zero. |
| C125 | A single time origin is the first frame | partial | With norigins='1' every reported value is that of the first frame and a later one. With the number 1 and blocks it is false: times between other frames of the first block are reported. |
| C126 | The path of a trajectory can be given in place of the trajectory | partial | Holds for the mean square displacement, the non-Gaussian parameter, the collective overlap and the dynamic susceptibility, and for the self overlap with a given time grid. With the default grid SelfOverlap.__init__ uses the total_time of its argument and raises AttributeError for a path. |
| C127 | Default times of the non-Gaussian parameter, overlaps and dynamic susceptibility | partial | Exact for the non-Gaussian parameter. The logarithmic grids of the overlaps and the susceptibility end at 3/4 of the total time minus one, in the unit of time; for every trajectory there is a unit in which all the lags are zero. |
| C128 | Calculations on the same trajectory do not affect each other | partial | Proved if no function fixes the centre of mass, and if all of them do (as the partial functions). False otherwise: fixing the centre of mass changes the frames in memory, and the next function reads the changed positions, unless the centre of mass is at the origin in all frames. |
| C129 | Time reversal of the intermediate scattering functions | partial | Proved with all frames as time origins and no blocks: for the self part (both versions) and the coherent part of one group. With two groups the reversed function is that of the exchanged groups, hence false; with a stride of the time origins it is false for the self part. |
| C130 | The metadata of an output file can be read back | proved | Names and results on one line, keys of the analysis without colons (all those of the package), no user comments. With an empty description the title ends with two blanks. |
| C131 | No blanks in the names of the output files | proved | Provided the fields that are inserted as they are, and the rest of the path, have no blanks. |
| C132 | g(r) does not depend on the order of the frames | partial | Proved in a cell that does not change, for both versions (the fast one without linked cells). False for a fluctuating cell: the normalisation uses the volume of the last frame only, so that the whole table is multiplied by the ratio of the volumes of the last frames. |
| C133 | The stride selects the frames of g(r) | partial | Proved for the fast version in all cases, and for the legacy one with a constant number of particles. Otherwise the latter averages the numbers of particles over all frames, also those that are not used: exact factor given. |
| C134 | The structure factor does not depend on the order of the frames, on the labels of the particles and on inversion | proved | With the same wave-vectors in all calculations (they are sampled at random). Legacy version. |
| C135 | The stride selects the frames of S(k) | partial | Proved with a constant number of particles, and for the values before normalisation. False otherwise: the numbers of particles are averaged over all the frames; exact factor given. Legacy version. |
| C136 | The weighted structure factor does not depend on the choice of the coordinates | partial | Proved for periodic images. False for translations, which change the phases of the modes whose mean is subtracted: exact change given for two wave-vectors in one frame. |
| C137 | Weights all equal to one are no weights | partial | False: the squared modulus of the mean mode is subtracted when a weight is set; with one frame and one wave-vector the result is always zero. |
| C138 | Both layouts of the Fortran kernels agree | partial | Proved for all routines but the one for two groups with lists of neighbours, which is proved if no particle has more neighbours than there are particles in its own group. Otherwise it writes beyond the end of its array of distances. The histogram must be as long as the list of bins; if shorter, it is written out of bounds. |
| C139 | Lists of distances | proved | For ranges within the particles. |
| C140 | on_border tells the particles close to the faces | partial | Proved for particles in the cell, the upper faces excluded. False on the upper faces (the corner of the cell is not on the border) and before the first call of compute (AttributeError). |
| C141 | The analysis finds the peak | partial | Proved for increasing times and data without nan. False otherwise: the non-Gaussian parameter is nan at lags with two frames in which no particle has moved; nan as first value, or next to the largest value, makes the peak nan. |
| C142 | The analysis of the self overlap gives the time to decay to 1/e | partial | Proved for grids that start at time zero. False otherwise: if the function has decayed before the first time of the grid, the result is None, or a time at which the function grows above 1/e. |
| C143 | The file of the relaxation times has one line per wave-number | partial | Proved for wave-numbers that are all different. False with two groups of wave-vectors of the same wave-number (fewer lines), and if write() is called without analyze() (KeyError after the header). |
| C144 | do() works for trajectories in memory | partial | Proved for the functions that use Correlation.write. False for the intermediate scattering functions, which always raise an exception: TypeError from None + '.tau'. False with update=True for all functions: TypeError from os.path.exists(None). |
| C145 | do() writes the intermediate scattering function it has computed | partial | Proved if the times start at zero and the functions are positive there. Otherwise, possible without normalisation, do() raises ValueError before writing. |
| C146 | compute() returns the grid and the values | partial | True for Correlation.compute; false for all functions in Fourier space, which return None. |
| C147 | The wave-vectors used are those asked for | partial | Proved for a k grid given to the constructor and for wave-vectors assigned to kvectors, if the cell does not change. False for a grid assigned to kgrid, which raises an exception, or only relabels the values if kvectors was assigned before, and for kvectors in a fluctuating cell: the wave-vectors are replaced by those of the default grid in the second frame, with an exception if there are more of them. |
| C148 | The results for one file do not depend on the other files | partial | Proved for fkt and fskt, for sk without the option kgrid, and for the first file. False for sk with kgrid: the list is modified by each file and the next one finds it changed. |
| C149 | report() describes the wave-vectors of the result | partial | Proved if the cell does not change. False for the partial functions that are copies (no rows), and in a fluctuating cell with the default grid (k of the last frame, grid of the first one). |
| C150 | An explicit linear k grid is the same as kmin, kmax and ksamples | partial | Proved if the cell does not change, and for the intermediate scattering functions. False otherwise: grid has the mean norms in the first frame by default, those in the last frame if the list was given. |
| C151 | g(r) does not depend on the unit of length | partial | Proved for grids given by the user and floating point spacings, including the exceptions; for the fast version without periodic boundaries, twice the differences of coordinates must not exceed the largest floating point number. False for the spacing 1 given as an integer: IndexError in this unit, a table in the others. |
| C152 | Structure factor and intermediate scattering functions do not depend on the unit of length | proved | Proved for all inputs, including the exceptions: the legacy structure factor with its set-up of the wave-vectors in each frame, the fast one with the wave-vectors in force in each frame, F_s (legacy and fast), F, and the wave-vectors assigned to and read from kvectors. Real arithmetic. |
| C153 | g(r) does not depend on the choice of the coordinate axes | partial | Proved for the legacy version and for the fast version without linked cells for all inputs, including the exceptions; with linked cells, for the points whose bins lie below rmax (periodic cell, particles strictly inside). False for the last point with linked cells: a pair beyond rmax but in the last bin is counted or not according to the orientation of the axes. |
| C154 | The bond-angle distribution does not depend on the origin, on the axes and on the unit of length | proved | Proved for all inputs, including the exceptions (the sides of the cell must not be negative for the inversion of axes). |
| C155 | The bond-angle distribution does not depend on the labels of the particles and on the order of the frames | proved | Proved for frames with consistent arrays, the particles in the cell and an increasing grid of angles, including the overflow of the buffer of 50 neighbours. All the frames are used for the order of the frames (stride 1). |
| C156 | The bond-angle distribution does not depend on the periodic images of the particles | partial | Proved if all separations remain below one side and a half and the cut-offs do not exceed half the sides. False otherwise: when the particles of the first group are moved by four sides no neighbour is found and all the values are nan. |
| C157 | Averages over a trajectory are the weighted averages over its parts | partial | Proved for a constant number of particles: g(r) (legacy, and fast without linked cells) in a constant cell, S(k) without weights with the same wave-vectors in all frames. False for g(r) if the cell changes (the values of the first part are multiplied by the ratio of the volumes of the last frames) and for S(k) with weights (each of two frames alone gives zero). |
| C158 | The dynamic susceptibility does not depend on labels, orientation and units | proved | Proved for all inputs, including the exceptions, for the plain and the optimized version. |
| C159 | The results of the analysis carry the units of the data | proved | Proved for all inputs, including the exceptions, in exact arithmetic; the squared uncertainty of the intercept follows only if the origin of the abscissas does not change, as it must. |
| C160 | The intermediate scattering function starts from the structure factor | partial | value_nonorm at zero lag is value_nonorm of the structure factor, that is the structure factor times the square root of the product of the numbers of particles. False for value with normalize=False, which is not divided by the number of particles, unless each group has one particle. |
| C161 | Total, self and distinct parts add up | proved | Proved for trajectories in two or three dimensions with a constant number of particles (in one dimension the coherent function is wrong, see C83). |
| C162 | Fixing the centre of mass splits the mean square displacement | proved | Proved in exact arithmetic for unfolded positions in the file and no filter (a filter acts after the centre of mass has been subtracted). |
| C163 | Self intermediate scattering function and mean square displacement | proved | Proved in exact arithmetic with the same discrete time grid, stride and steps; with normalize=True if zero lag is sampled, as in C53. |
| C164 | Overlap and mean square displacement | proved | Proved in exact arithmetic with the same discrete time grid and stride. |
| C165 | Global options keep the values given | proved | Proved for all dictionaries. |
| C166 | Implementations are fast by default | partial | True for gr and fskt if the compiled modules can be imported. False for sk, legacy by default and whatever --legacy, and for chi4qs, plain by default and AttributeError with --fast. |
| C167 | All the input files given to a function of the api are used | partial | False: the parameters with defaults come before *input_files, so that the second file is taken for the first of them (dr, nk, tmax, ...), and giving that parameter by name raises TypeError. All files are used only if all the optional parameters are given by position. How argh binds the command line is not modelled. |
| C168 | Grids given as strings | proved | Decimal numbers without blanks and exponents, as in the model of float. |
| C169 | The overlap bounds the dynamic susceptibility | proved | Proved in exact arithmetic, for a new object whose grid is sampled. |
| C170 | Upper bound of the non-Gaussian parameter | proved | Proved in exact arithmetic; the three in the bound is the one in the formula of the code, whatever the number of dimensions. |
| C171 | The value at time zero bounds the others | proved | Proved in exact arithmetic; for the intermediate scattering function with all frames as time origins, discrete time grids that start from frame 0, and one group of particles. |
| C172 | The mean square displacement grows at most quadratically | proved | Proved in exact arithmetic with all frames as time origins. |
| C173 | Symmetries of the spectral density | proved | Proved in exact arithmetic for frames in which the calculation succeeds (IkRegular); images are those of the cell that defines the wave-vectors. |
| C174 | Units and bounds of the susceptibility | proved | Proved in exact arithmetic. As in C73 the correlation function is an arbitrary function of the first frame of the sub-trajectory. |
| C175 | Symmetries, units and bound of the stress autocorrelation | proved | Proved in exact arithmetic in three dimensions without filters (other cases: C95). |
| C176 | A calculation writes only its own file | partial | True of do for all functions whose compute writes no file. False for the bond-angle distribution without cut-offs, which computes the partial radial distribution functions with spacing 0.1 and writes them to their files in the default output path. |
| C177 | Weights are those of the weight trajectory | partial | True if the weight trajectory has at least as many particles. If it has fewer, the other particles keep their own value of the property. Filters are left out. |
| C178 | Weights of one object do not change those of another | partial | True if the other weights are from another property which the particles of the weight trajectory have. False for the same property, since the callbacks stay in the trajectory: the last weight trajectory is used by all objects; a weight trajectory without the property makes all frames unreadable. |
| C179 | Different weights write to different files | partial | True of weights from different properties of the same trajectory, with or without fluctuations. False for the same property taken from different weight trajectories (same file), and for the fluctuations of f versus a property called f_fluctuations. |
| C180 | The weights of the command sk apply to all files | partial | True for weights that are properties of the particles of the input files, and for a single file. With a weight trajectory and two files or more TypeError is raised after the first one, because the name of the weight trajectory is replaced by the trajectory itself in the loop. The opening of files is an arbitrary function of their name. |
| C181 | Symmetries and bounds of acf | proved | Proved in exact arithmetic. Closed form, reversal and bound are for skip 1 and an increasing grid of indices smaller than the number of points (other cases: C02). |
| C182 | Species are numbered in the same way in all frames and groups | partial | True if all species are in the first frame, for any way of listing the distinct species. A species that is absent from the first frame raises ValueError as soon as its particles are in one of the groups. |
| C183 | Partial intermediate scattering functions add up | partial | True for the functions of all ordered pairs of species, value_nonorm, in exact arithmetic. Partial computes one order only and copies it to the other: the sum is then wrong wherever F_ab and F_ba differ. |
| C184 | The stride selects frames (bond angles and spectral density) | partial | True for bond angles, for value_nonorm of the spectral density, and for its value if the volume is constant. Otherwise value is divided by the mean volume of all frames, also those that are not used. |
| C185 | Bond-angle distribution of the parts of a trajectory | proved | Proved when both parts have angles below the last point of the grid (otherwise one of them is nan) and at most 50 neighbours per particle (the size of the buffer, C70). |
| C186 | Bond-angle distributions can be computed again | partial | False: _compute replaces the grid by its centres, so each call shifts the grid by half a spacing and loses one bin, while the values remain the fractions of angles between b w and (b+1) w. After 180/w calls it raises IndexError. Proved for all regular trajectories with some particles. |
| C187 | Scattering functions and spectral density can be computed again | partial | False: the arrays of positions grow by the number of frames at each call while the times (for I(k), the radii) are read from the trajectory or stored once. The second and later calls raise IndexError. Proved for all regular inputs with a stride not larger than the number of frames; for I(k) with a constant cell, second call. |
| C188 | Distances are histogrammed in blocks of bounded size | proved | Proved for every pair function and every number of particles; the result is the sum of the histograms of the blocks. |
| C189 | Partial bond-angle distributions add up | partial | False: angles formed by neighbours of different species are in none of the partial distributions. Proved: the sum is the total minus these angles, for all trajectories in which every species is in every frame used; it is smaller than the total as soon as there is one such angle below the last point of the grid. |
| C190 | S(k) as a sum over pairs | proved | Proved over the reals for unweighted groups and cells with positive sides. |
| C191 | g(r) is zero exactly where there are no pairs | proved | Proved. In python and with linked cells a distance equal to the upper edge of the bin may also count: numpy's last bin is closed. |
| C192 | g(r) with a doubled spacing | proved | Proved in exact arithmetic. In python the last point of each table is left out, since numpy's last bin is closed. |
| C193 | Bond-angle distribution with a doubled spacing | proved | Proved in exact arithmetic for trajectories with some angle below the last point of the wider grid (otherwise the distribution is nan). The constant differs from 1 because angles in the last bin of the finer grid are lost if the number of bins is odd. |
| C194 | The value at a time does not depend on the other times requested | partial | True if the steps repeat with the period of a block and the stride is a multiple of the block size. False for irregular steps: with the steps 0, 2, 3, 4 the value at time 2 changes if time 3 is also requested. |
| C195 | Help messages are complete and fit the width | partial | Text and default values: proved. The lines fit the width unless a row starts with a blank, a digit, a dash or a dot: its continuation lines are indented after they have been wrapped to the full width. |
| C196 | The script acf.py prints the autocorrelation function | partial | Proved for the function main if the missing name were defined (C196_main_partial). False for the script: for all data it raises NameError, since import atooms.postprocessing does not define the name postprocessing. |
| C197 | Progress bars do not affect the loops | partial | Loops, exceptions and positions: proved (the loop of tqdm itself is outside of the model). False for update() without argument, which raises TypeError with the fallback bar only. |
| C198 | show() plots the function | partial | True for functions of one variable after compute. For two variables nothing is drawn; before compute ValueError or IndexError is raised; after reading a file of one point IndexError. |
| C199 | Extinctions and Bragg peaks of S(k) | proved | Proved over the reals for unweighted particles, legacy class (equal to the fast class in three dimensions by C57). |
| C200 | Copies of a system | proved | Proved in exact arithmetic. The copies are those of unfolded positions; time origins and time grids are the same. |
| C201 | g(r) of a repeated cell | proved | Proved in exact arithmetic for the python class and the default grid; the fast class gives the same values by C37. |
| C202 | S(k) of a repeated cell | proved | Proved over the reals for unweighted particles, legacy class (equal to the fast class in three dimensions by C57). |
| C203 | The conditions of filters refer to the attributes of the particles | partial | Order, and, or, not: proved for every semantics of python values. Missing attributes raise, unless the name is that of a builtin: `id == 1` compares the builtin function id and selects no particle. |
| C204 | Filters do not modify the particles | partial | Attributes and groups: proved. False for the set of attributes: eval adds __builtins__ to the __dict__ of each particle. |
| C205 | Conditions of two-body functions may contain commas inside brackets or strings | partial | False: the text is split at every comma. Proved: conditions without commas select the first group; conditions with a comma inside brackets or quotes raise, since neither half is an expression. |
| C206 | Values for particles that do not move | proved | Proved in exact arithmetic; F_s before normalisation. |
| C207 | Filters and weights can be given in either order | partial | The calculation is the same in either order. The file is not: Filter replaces the tag set by add_weight, so the results are written to the file of the function without weights. |
| C208 | Dynamic functions of particles in uniform motion | proved | The mean square displacement of the same particles is C24_ballistic. The scattering functions are those of the legacy implementations, before the division by the value at t = 0. |
| C209 | The weighted structure factor is a quadratic form in the weights | proved | About StructureFactorLegacy; the weights are given by frame and particle. That a constant added to the field does not matter with fluctuations is C68_shift. |
| C210 | Bound on partial structure factors | proved | About StructureFactorLegacy. |
| C211 | Scattering functions of a repeated cell | proved | The coherent function is modelled in two and three dimensions (FkRegular); in other dimensions it is wrong, C83_counterexample_1d. |
| C212 | compute() returns what was calculated, whatever the clock | partial | True if the clock shows some time spent. Otherwise the share of time is a division by zero: compute() raises ZeroDivisionError after the calculation and do() writes nothing. |
| C213 | Options of the script for messages and output | partial | False if --verbose is given too: --quiet then has no effect. Output path, messages and bars for the other combinations: proved. |
| C214 | The result at a wave-number does not depend on the other wave-numbers requested | partial | True if the wave-numbers are at least 2*dk apart, there are wave-vectors around each of them and nk is at least the number of wave-vectors around k (the draws then do not matter). False if shells overlap: a wave-vector within dk of two grid points is used for the first one only. The same conditions give equal intermediate scattering functions, self and coherent. |
| C215 | Filters on the species give the partial radial distribution functions | partial | True for distinct species, both implementations. False for the same species given twice: each particle is paired with itself in the first bin. |
| C216 | The weight added last replaces the previous ones | partial | Field, fluctuations, outcome and weight trajectory are those of the last call; with a weight trajectory so are the values (C177_weights_partial). False for the tag, to which all the fields are appended, and for a field taken from another trajectory before. |
| C217 | The commands for time correlations report times up to the largest one requested | partial | Holds if a largest time or a fraction of the total time is given, with at least two samples. The command vacf fails without both. Available times are those of the frames counted from the first one; nearness is up to one step, since requested times are rounded to steps. |
| C218 | The commands fkt and fskt give one curve per wave-number requested, from time zero to the largest time requested | proved | The whole command, from the options to the arrays, for the whole system without fix_cm. The recursion that widens the shells is assumed to be allowed the depth it needs (see C48). The positions are those the object reads, with the same number of particles in all frames for fskt. |
| C219 | With a single time origin the scattering functions are those of the first frame and a later one | proved | Conditions as for C218. In contrast to C125, here the number and the string are equivalent. |
| C220 | The command sk gives the structure factor at the wave-numbers requested | proved | For the whole system and StructureFactorLegacy; the fast version differs, see C57. The recursion that widens the shells is assumed to be allowed the depth it needs (see C48). Wave-numbers requested are not negative. The values without a constant cell are the subject of C147. |
| C221 | The command gr gives the number of pairs per shell relative to an ideal gas | proved | For the whole system in a cell that is periodic in all directions, two or three dimensions, the same number of particles in all frames. With rmax the fast version may use linked cells, hence the restriction to complete shells. The spacing and rmax must be within the diagonal of the cell. |
| C222 | The command ik with a selection of frames uses the radii of these frames | partial | True if the radii in the frames selected are those in the frames at the beginning of the file, e.g. with --last only or if radii do not change. Otherwise false: the radii are read from the beginning of the file, whatever the selection. The value may be four times too small, and nothing is computed if the number of particles changes. |
| C223 | The command ba uses the first minimum of g(r) and gives the distribution of the angles between neighbours | proved | For a system of one species in a cell that is periodic in two or three directions, with the conditions of C221 for g(r) with spacing 0.1. With more than 50 neighbours the kernel writes out of bounds, C70_counterexample_buffer. |
| C224 | For frames saved at regular intervals the commands for time correlations average over time origins | proved | The positions and velocities are those the object reads, without fix_cm. The trajectory has block size 1. That vacf does not use norigins is C96. |
| C225 | The partial functions computed by the commands add up to the function of the whole system | proved | The positions and velocities are those the objects read, without fix_cm, which the command msd does not pass to the partial functions (C92). The times are those of C217. |
| C226 | The command gr computes the partial radial distribution functions of all pairs of species, and they add up to the total one | proved | Conditions on the cell as for C221. The number of particles of each species is the same in all frames. The species are those of the first frame. The species of all particles must be among them for the sum. |
| C227 | The command sk computes the partial structure factors of all pairs of species at the wave-numbers of the total one, and they add up to it | partial | True without the option kgrid. With it the objects share one list of wave-numbers, which each of them modifies: the total and the partial functions use other wave-vectors, are given at other wave-numbers and do not add up (C227_counterexample), and what is written at the end beside a partial function are not the wave-numbers of its calculation (C227_counterexample_written, any random draw). No weights; every species has particles in every frame; the species are those of the first frame. |
| C228 | The command fskt computes the self intermediate scattering functions of the species at the wave-numbers and times of the total one, and they add up to it | partial | True if the command gives the total at the wave-numbers requested (C228_sum_partial), which is so if they are at least 2 dk apart and all the wave-vectors of the cell within dk of one of them have exactly this norm (C228_exact_partial). False otherwise: the objects share one list of wave-numbers, which each of them modifies, and the functions of the species use other wave-vectors; without the option total the wave-number written is not the one at which the first function was calculated (C228_counterexample, both implementations, any random draw). fix_cm is not represented. |
| C229 | The command fkt gives the intermediate scattering functions of all pairs of species at the wave-numbers and times of the total one, and their first values add up | partial | True if the command gives the total at the wave-numbers requested (C229_pairs_partial), which is so if they are at least 2 dk apart and all the wave-vectors of the cell within dk of one of them have exactly this norm (C229_exact_partial). False otherwise: the objects share one list of wave-numbers, which each of them modifies; the total and the functions of the pairs are given at other wave-numbers (C229_counterexample, any random draw). With one species or no_partial only the total is given (C229_total_partial). Every species has particles in every frame; value_nonorm is not copied to the other order; fix_cm is not represented. |
| C230 | The non-Gaussian parameter of a mixture is not below the smallest one of its species | partial | True for a single time origin, and in general for a species that has the smallest value for each time origin (C230_smallest_partial). False for several time origins: the code averages over them a ratio that is not linear, and in the case of C230_counterexample the value of the whole system is below those of both species. Every species moves between any two frames (otherwise the value is nan). |
| C231 | The dynamic susceptibilities of the species given by the command chi4qs bound that of the whole system | proved | The values are the variances of C31, over the time origins that the code uses. The species do not change with time. The option fast is excluded (it raises, C166). |
| C232 | The default cut-offs of the bond-angle distribution are symmetric and at the first minimum of each partial g(r) | proved | Conditions on the cell and on the numbers of particles as for C226, with the default number of time origins. For the failure, each of the other pairs has a point after its first maximum that is not followed by a decrease or decreases to the last point. The calculation of the angles with these cut-offs is C70 and C189. |
| C233 | The functions of the command ba are the distributions of the angles between neighbours at the particles of each species | proved | Conditions of C232: each partial g(r) has a point after its first maximum that is not followed by a decrease. At most 50 particles of each species within the cut-off, including the particle itself (C70_counterexample_buffer). For the whole system (C233_total) at most 50 particles of all species, and the species in all frames are those of the first one. |

## Axioms per theorem

As printed by `#print axioms` for each theorem of `Verif/Props` (698 theorems).

* no axioms (5): C146_counterexample_fourier, C146_returns_partial, C197_counterexample_update, C197_with, C60_counterexample_ignored.

* `propext` (11): C166_counterexample_chi4qs, C166_counterexample_sk, C166_default_fast_partial, C166_without_fortran, C198_counterexample_not_computed, C198_counterexample_one_point, C198_counterexample_two_variables, C198_without_matplotlib, C22_input_unchanged, C60_counterexample_weight, C69_counterexample_ik.

* `propext, Quot.sound` (47): C02_counts_positive, C102_counterexample, C102_present_partial, C102_unfolded_partial, C103_counterexample, C103_counterexample_drift, C103_fix_cm_partial, C104_counterexample, C104_one_body_partial, C10_ifabsmm_empty, C11_linear_fit_degenerate, C128_plain_partial, C12_feqc_empty, C131_no_blanks, C140_bin_in_cell, C140_counterexample_new, C178_counterexample_missing, C181_origin, C182_counterexample_new, C197_loop, C197_position, C212_counterexample_clock, C212_exception, C212_result_partial, C22_filter_partition, C22_filter_species, C33_new_object_partial, C61_one_body, C63_mismatch, C63_one_variable, C68_counterexample_empty, C68_counterexample_int, C69_computed_partial, C69_counterexample_chi4qs, C69_counterexample_filter, C69_counterexample_fkt, C69_filtered_partial, C73_no_tgrid, C88_counterexample_empty, C88_frames_partial, C88_whole_blocks, C92_counterexample_fix_cm, C92_counterexample_no_partial, C92_options_partial, C95_counterexample_single, C98_one_body, C98_one_body_again.

* `propext, Classical.choice, Quot.sound` (635): C01_gcf_offset_mean, C02_acf_mean, C02_gcf_offset_sorted, C03_acf_neg, C03_acf_shift, C03_acf_variance, C04_counterexample, C04_gcf_mean_partial, C05_gcf_offset_errors, C06_linear_grid_count, C07_linear_grid_spacing, C08_logx_grid_pos, C09_counterexample, C09_logx_grid_zero_partial, C100_counterexample_cells, C100_counterexample_fast, C100_counterexample_legacy, C100_legacy_partial, C101_counterexample, C101_safe_partial, C102_counterexample_bounded, C103_present_partial, C104_counterexample_ids, C104_ids_partial, C104_one_filter_partial, C104_two_filters_partial, C105_counterexample, C105_images_partial, C106_collective, C106_each_frame_counts, C106_relabel, C107_first_step, C107_first_step_fkt, C108_unit_of_time, C109_similarity, C109_velocities, C10_ifabsmm, C110_counterexample_rmax, C110_weighted_sum_partial, C111_counterexample_stride, C111_time_reversal_partial, C112_counterexample_half, C112_counterexample_rmax, C112_linear_partial, C113_counterexample_hash, C113_counterexample_newline, C113_rows_partial, C114_columns, C114_no_parenthesis, C115_counterexample_new, C115_counterexample_path, C115_files_partial, C116_counterexample_ion, C116_counterexample_pair, C116_counterexample_template, C116_one_body_partial, C116_two_body_partial, C117_coherent_images, C117_needs_cell, C117_self_images, C118_coherent_origin, C118_coherent_relabel, C118_origin, C118_self_relabel, C119_sum, C11_linear_fit, C11_linear_fit_exact, C120_counterexample, C120_counterexample_selection, C120_partial, C121_counterexample, C121_three_partial, C121_value_partial, C122_counterexample, C122_partial, C123_cells_partial, C123_counterexample_cells, C123_counterexample_legacy, C123_direct_partial, C124_counterexample, C124_partial, C125_alpha2_partial, C125_collective_overlap_partial, C125_counterexample, C125_msd_partial, C125_self_overlap_partial, C126_counterexample, C126_overlap_partial, C126_partial, C127_alpha2, C127_counterexample, C127_partial, C128_counterexample, C128_fixed_partial, C129_coherent_partial, C129_counterexample_groups, C129_counterexample_stride, C129_self_partial, C12_feqc, C130_metadata, C132_counterexample_cell, C132_fast_partial, C132_legacy_partial, C133_counterexample_number, C133_fast_partial, C133_legacy_partial, C134_inversion, C134_labels, C134_order, C135_constant_partial, C135_counterexample_number, C136_counterexample_origin, C136_images_partial, C137_counterexample_ones, C137_counterexample_single, C138_counterexample_short, C138_counterexample_stack, C138_gr_distinct, C138_gr_self, C138_neighbors_distinct_partial, C138_neighbors_self, C138_on_surface, C139_chunks, C139_distinct, C139_pairs, C139_self, C139_single, C13_counterexample, C13_counterexample_touch, C13_feqc_partial, C140_border_partial, C140_counterexample_corner, C140_cutoff_partial, C141_alpha2_partial, C141_chi4, C141_counterexample_first, C141_counterexample_next, C141_never_raises, C142_counterexample_decayed, C142_counterexample_upwards, C142_tau_partial, C143_counterexample_analysis, C143_counterexample_equal, C143_tau_file, C144_counterexample_fkt, C144_counterexample_update, C144_memory_partial, C145_counterexample_time, C145_written_partial, C147_constructor_partial, C147_counterexample_cell, C147_counterexample_kgrid, C147_counterexample_relabelled, C147_counterexample_returned, C147_given_computes_partial, C147_given_grid, C147_given_vectors_partial, C147_wave_vectors_partial, C148_counterexample_kgrid, C148_files_partial, C148_first_partial, C148_linear_partial, C148_own_cell_partial, C149_counterexample_cell, C149_counterexample_copy, C149_nk_partial, C149_report_partial, C14_no_wrong_skip, C14_skip_bounds, C14_skip_none, C14_skip_number, C14_skip_number_errors, C14_skip_string_errors, C150_counterexample_cell, C150_explicit_partial, C151_counterexample_integer, C151_fast_partial, C151_legacy_partial, C152_assigned, C152_fast, C152_scattering, C152_structure_factor, C153_cells_partial, C153_counterexample_cells, C153_fast_partial, C153_legacy_partial, C154_axes, C154_translation, C154_unit, C155_labels, C155_order, C156_counterexample_far, C156_images_partial, C157_counterexample_cell, C157_counterexample_weights, C157_gr_fast_partial, C157_gr_legacy_partial, C157_sk_partial, C158_relabel, C158_similarity, C158_unit_of_time, C159_diffusion, C159_feqc, C159_ifabsmm, C159_ifabsmm_neg, C159_linear_fit, C159_linear_fit_units, C159_msd, C159_overlap_time, C159_peak, C159_relaxation_times, C15_all_origins, C15_n_origins, C15_single_origin, C160_counterexample_number, C160_zero_lag_partial, C161_one_particle, C161_self_distinct, C161_structure_factor, C162_fix_cm_splits, C163_self_msd, C164_overlap_msd, C165_compat, C165_defaults, C167_all_positional_partial, C167_counterexample_keyword, C167_counterexample_positional, C167_no_file, C167_one_file_partial, C168_func, C168_kgrid, C169_chi4_overlap, C16_block_multiple_none, C16_block_multiple_partial, C16_counterexample, C16_counterexample_general, C170_alpha2, C170_alpha2_kernel, C171_fkt, C171_fkt_normalised, C171_vacf, C172_ballistic, C173_images, C173_inversion, C173_labels, C173_order, C173_origin, C174_affine, C174_bound, C174_zero, C175_axes, C175_bound, C175_labels, C175_reversed_velocities, C175_units, C176_bond_angles_partial, C176_counterexample_gr, C176_own_file_partial, C177_counterexample_fewer, C177_own_partial, C177_weights_partial, C178_again_partial, C178_counterexample_same_field, C178_other_field_partial, C179_counterexample_name, C179_counterexample_trajectory, C179_distinct_partial, C179_file_partial, C179_fluctuations_partial, C17_counterexample, C17_counterexample_one, C17_counterexample_readme, C17_string_partial, C180_counterexample_files, C180_one_file_partial, C180_own_partial, C181_bound, C181_reverse, C181_uniform, C181_units, C182_numbers_partial, C183_counterexample_copies, C183_sum_partial, C184_ba_partial, C184_counterexample_volume, C184_ik_partial, C185_parts, C186_counterexample_exhausted, C186_counterexample_shift, C187_counterexample_coherent, C187_counterexample_ik, C187_counterexample_self, C187_ik_first_partial, C188_blocks, C189_counterexample, C189_sum_partial, C18_templated, C18_templated_multiple, C190_pairs, C190_two_groups, C191_fast, C191_legacy, C191_linked_cells, C192_fast, C192_legacy, C193_spacing, C194_counterexample_irregular, C194_subset_partial, C195_counterexample_items, C195_default, C195_help_text, C195_text, C195_width_partial, C196_counterexample, C196_main_partial, C198_one_variable_partial, C199_bragg, C199_extinction, C19_closest_partial, C19_counterexample, C19_t_grid_empty, C19_t_grid_partial, C200_chi4, C200_positions, C200_velocities, C201_repeated, C202_repeated, C203_and_or_partial, C203_compare_partial, C203_counterexample, C203_missing_partial, C203_not_partial, C204_attributes_partial, C204_counterexample, C204_groups_partial, C205_counterexample, C205_no_commas_partial, C205_two_partial, C206_alpha2, C206_chi4, C206_fskt, C206_msd, C206_overlap, C207_calculation_partial, C207_counterexample_order, C207_counterexample_overwritten, C208_alpha2, C208_alpha2_drift, C208_chi4, C208_fkt, C208_fskt, C208_overlap, C208_vacf, C209_linear_first, C209_linear_second, C209_parallelogram, C209_units, C20_no_double_count, C20_stride_needed, C210_bound, C211_repeated, C211_self, C212_report, C213_counterexample_verbose, C213_messages, C213_output, C213_quiet_partial, C214_coherent_partial, C214_counterexample, C214_self_partial, C214_values_partial, C214_wave_vectors_partial, C215_counterexample_same, C215_distinct_partial, C216_counterexample_source, C216_counterexample_tag, C216_last_partial, C217_chi4qs_partial, C217_counterexample_vacf, C217_times_partial, C218_coherent, C218_self, C219_coherent, C219_self, C21_block_periodic, C21_setup_t_grid, C220_definition, C221_definition, C222_counterexample_first, C222_counterexample_number, C222_selection_partial, C223_definition, C223_no_minimum, C224_average, C225_sum, C226_definition, C226_sum, C227_counterexample, C227_counterexample_written, C227_default_partial, C228_counterexample, C228_exact_partial, C228_sum_partial, C228_total_partial, C229_counterexample, C229_exact_partial, C229_pairs_partial, C229_total_partial, C22_filter_twice, C230_counterexample, C230_smallest_partial, C231_species, C232_cutoffs, C232_no_minimum, C233_pairs, C233_total, C23_msd_nonneg, C23_msd_translation, C24_ballistic, C25_defined, C25_drift_removed, C25_msd_drift, C25_zero_cm, C26_vacf, C26_vacf_kernel, C27_counterexample, C27_counterexample_default, C27_vacf_init_partial, C28_alpha2, C28_alpha2_bound, C29_self_overlap, C29_self_overlap_f90, C29_self_overlap_mono, C30_collective_overlap, C30_dominates_self, C31_chi4_variance, C31_run, C32_counterexample_last_origin, C32_counterexample_value, C32_origins_partial, C33_counterexample_chi4, C33_counterexample_index_error, C34_newton, C34_newton_any_batch, C34_two_groups, C35_backends_agree, C35_fortran_fold, C35_minimum_image, C35_square, C36_gr_distinct, C36_gr_self, C37_backends, C38_counterexample_odd, C38_fast_partial, C38_legacy_partial, C39_histograms, C39_sum, C39_sum_fast, C40_symmetric, C40_symmetric_fortran, C41_invariance, C41_invariance_two_groups, C42_complete, C42_counterexample_newton_false, C42_newton_false_partial, C42_two_groups, C43_once, C43_once_two_groups, C44_linked_cells, C45_counterexample_missed_pairs, C45_counterexample_stale, C45_reuse_partial, C46_built, C46_frames, C46_no_room, C46_safe, C46_table, C47_shells, C48_depth_unbounded, C48_terminates, C48_zero_width, C49_default, C49_selection, C50_compute_partial, C50_counterexample_compute, C50_roundtrip_partial, C51_folding, C51_le_number, C51_nonneg, C51_translation, C52_sum, C53_bounded, C53_constructor, C53_zero_lag, C54_block_size, C54_counterexample_empty, C54_counterexample_zero, C54_fast_eq_legacy, C54_memory_limit, C55_divided, C55_loop, C56_counterexample_swap, C56_normalised_partial, C56_swap_zero_lag_partial, C56_zero_lag_nonneg_partial, C57_counterexample_2d, C57_counterexample_cross, C57_counterexample_shift, C57_counterexample_value, C58_counterexample_shared_grid, C58_default_grid_partial, C59_counterexample_default, C59_counterexample_missed, C59_exact_partial, C59_sound_partial, C60_bound_partial, C60_counterexample, C61_two_body, C62_counterexample_one_body, C62_counterexample_tag, C62_one_body_partial, C62_one_condition, C62_too_many, C62_two_conditions, C63_counterexample_precision, C63_read_back_partial, C63_two_variables, C64_computed, C64_counterexample_lost, C64_counterexample_one_point, C64_counterexample_two_variables, C64_do_files, C64_partial_computed, C64_partial_iff, C64_partial_read, C64_read_partial, C64_recompute_iff, C65_counterexample, C65_counterexample_empty, C65_counterexample_truncated, C65_older_partial, C66_clean_partial, C66_counterexample, C66_counterexample_hidden, C66_counterexample_idempotent, C66_counterexample_slash, C66_kept_partial, C67_accepted_partial, C67_counterexample, C67_counterexample_history, C67_nothing, C67_raises_iff, C68_counterexample_grandcanonical, C68_shift, C68_zero_mean, C68_zero_sum, C70_bond_angle_safe, C70_counterexample_buffer, C70_counterexample_dropped, C70_counterexample_wide, C70_normalised_partial, C70_values, C71_counterexample_zero_based_species, C71_neighbors_list, C71_symmetric, C72_counterexample, C72_counterexample_dimensions, C72_counterexample_value, C72_definition_partial, C72_missing_radii, C72_nonneg, C72_nonorm, C73_empty, C73_nonneg, C73_single, C73_variance, C74_ball, C74_shell_volume, C75_counterexample_last_point, C76_counterexample_filter_all, C77_counterexample_key_error, C77_counterexample_missed, C78_counterexample_fast, C78_legacy_partial, C79_counterexample_integer, C79_counterexample_points, C80_definition, C81_weighted_nonneg, C82_definition, C83_counterexample_1d, C83_definition_partial, C84_first_time, C84_relaxation_times, C85_counterexample_one_body, C85_counterexample_two_body, C86_counterexample, C86_counterexample_file, C86_distinct_partial, C86_equal_partial, C86_not_equal_partial, C87_counterexample_same_time, C87_round_trip_partial, C89_contains_partial, C89_counterexample, C89_counterexample_bounds, C90_counterexample_full_lists, C90_subset_counts, C91_counterexample_monotonic, C91_default_rcut_partial, C93_counterexample, C93_time_grid_partial, C93_within, C94_diffusion, C94_exact, C94_nonneg, C94_not_enough, C94_tau, C95_bounds_partial, C95_counterexample_dimensions, C95_counterexample_filter, C95_counterexample_one_mass, C95_value_partial, C96_counterexample_sacf, C96_counterexample_vacf, C96_self_overlap_partial, C96_vacf_partial, C97_counterexample, C97_counterexample_single_origin, C97_same_partial, C98_counterexample, C98_particles_partial, C98_two_body_partial, C99_again_partial, C99_counterexample, C99_counterexample_stride.
