{"id": "C01", "title": "Time-correlation average is the mean over exactly the sampled frame pairs", "statement": "gcf_offset(f, grid, skip, t, x) returns, for every reported lag d, the sum of f(x[i0+i], x[i0]) taken in loop order over exactly those (off,i) in grid and origins i0 = off, off+skip, off+2*skip, ... with i0+i < len(x) whose time difference t[i0+i]-t[i0] is d, divided by the number of such pairs; no sampled pair is lost and none is invented.", "quantifier": "every kernel f, grid of (offset, separation) pairs, skip >= 1, time list t at least as long as the data x, and any number type (no associativity of + is assumed)", "why_tests_cant": "the set of sampled pairs depends on the joint combination of grid, skip, length and time stamps; tests compare a few curves to reference numbers within 4e-2", "anchors": ["atooms/postprocessing/correlation.py: gcf_offset"]}
{"id": "C02", "title": "Reported lags are strictly increasing and aligned with values", "statement": "The lag list returned by gcf_offset, gcf and acf is strictly increasing, has the same length as the value list, contains a lag iff some sampled pair realises it, and every count used as a divisor is at least 1, so no division by zero can occur.", "quantifier": "every input on which the functions return", "why_tests_cant": "ordering and non-emptiness of the buckets must hold for every time stamp pattern, including irregular, repeated and block-periodic ones", "anchors": ["atooms/postprocessing/correlation.py: acf, gcf, gcf_offset"]}
{"id": "C03", "title": "acf is the autocovariance: it ignores a constant offset and gives the variance at lag zero", "statement": "acf(grid, skip, t, x) is unchanged when a constant is added to all samples or when all samples change sign, and with grid=[0] and skip=1 its only value is the population variance of x.", "quantifier": "every sample list, shift, grid, skip and time list", "why_tests_cant": "algebraic identity over all data sets", "anchors": ["atooms/postprocessing/correlation.py: acf"]}
{"id": "C04", "title": "gcf averages over all origins allowed by the separation", "statement": "gcf(f, grid, skip, t, x) visits, for a separation i, every origin i0 = 0, skip, 2*skip, ... for which both x[i0] and x[i0+i] exist.", "quantifier": "every grid, skip, data length", "why_tests_cant": "off-by-one in the origin range is invisible when averaging over many origins", "anchors": ["atooms/postprocessing/correlation.py: gcf"]}
{"id": "C05", "title": "gcf_offset fails exactly when it must", "statement": "gcf_offset raises ValueError iff the grid is non-empty and skip is 0, raises IndexError iff skip >= 1 and some sampled pair needs a time stamp beyond the end of t, and otherwise returns.", "quantifier": "every grid, skip, time list and data list", "why_tests_cant": "the error region is a joint condition on four inputs", "anchors": ["atooms/postprocessing/correlation.py: gcf_offset"]}
{"id": "C06", "title": "linear_grid with an integer gives n equispaced points including both ends", "statement": "linear_grid(a, b, n) with integer n returns exactly n points (none if n <= 0); the first is a, the last is b when n >= 2, and consecutive points differ by (b-a)/(n-1).", "quantifier": "every a, b and integer n", "why_tests_cant": "holds for all sizes", "anchors": ["atooms/postprocessing/helpers.py: linear_grid"]}
{"id": "C07", "title": "linear_grid with a spacing covers [a,b] without overshooting", "statement": "linear_grid(a, b, delta) with float delta > 0 and a <= b starts at a, has spacing delta, never exceeds b, and stops less than delta before b.", "quantifier": "every a <= b, delta > 0", "why_tests_cant": "a floor boundary condition for all reals", "anchors": ["atooms/postprocessing/helpers.py: linear_grid"]}
{"id": "C08", "title": "logx_grid from a positive start is geometric and ends at x2", "statement": "logx_grid(x1, x2, n) with 0 < x1 < x2 and n >= 1 returns n strictly increasing points starting at x1; for n >= 2 the last one is x2.", "quantifier": "all 0 < x1 < x2, n >= 1", "why_tests_cant": "quantifies over all reals and sizes", "anchors": ["atooms/postprocessing/helpers.py: logx_grid"]}
{"id": "C09", "title": "logx_grid from zero reaches x2", "statement": "logx_grid(0, x2, n), the default time grid of the dynamic correlation functions, is a grid \"in logx scale from x1 to x2\": it starts at 0 and ends at x2.", "quantifier": "all x2 > 0, n >= 2", "why_tests_cant": "end point only visible as a property of all x2", "anchors": ["atooms/postprocessing/helpers.py: logx_grid", "atooms/postprocessing/fkt.py: IntermediateScatteringBase.__init__", "atooms/postprocessing/qt.py", "atooms/postprocessing/chi4t.py"]}
{"id": "C10", "title": "Peak finding by parabolic interpolation is safe and bracketed", "statement": "For strictly increasing x and f of the same length >= 1, ifabsmm never divides by zero; if the first largest (smallest) value is at an end it is returned unchanged; otherwise the returned abscissa lies strictly between the neighbouring abscissae and the returned height is at least (at most) every data value; if the three points around an interior extremum lie on a parabola, the exact vertex is returned.", "quantifier": "all finite data sets with increasing abscissae", "why_tests_cant": "data-dependent division and interpolation for all inputs", "anchors": ["atooms/postprocessing/helpers.py: ifabsmm"]}
{"id": "C11", "title": "linear_fit returns the least squares line with real uncertainties", "statement": "When the abscissae are not all equal, linear_fit(x, y) returns (a, b) minimising the sum of (y_i - a x_i - b)^2 over all lines, the quantities under its square roots are non-negative, and data lying exactly on a line are reproduced with zero uncertainty.", "quantifier": "all data sets with at least two distinct abscissae and all competing lines", "why_tests_cant": "optimality over all competing lines", "anchors": ["atooms/postprocessing/helpers.py: linear_fit", "atooms/postprocessing/msd.py: MeanSquareDisplacement.analyze"]}
{"id": "C12", "title": "feqc returns the linearly interpolated first crossing", "statement": "feqc(x, f, fstar) returns (None, None) iff no value of f is strictly on the other side of fstar from f[0]; otherwise it returns the first index i at which this happens, i >= 1, and an abscissa lying between x[i-1] and x[i] at which the chord through points i-1 and i equals fstar.", "quantifier": "all data sets with increasing abscissae and all thresholds", "why_tests_cant": "first crossing over all data", "anchors": ["atooms/postprocessing/helpers.py: feqc", "atooms/postprocessing/fkt.py: _extract_tau", "atooms/postprocessing/msd.py: analyze", "atooms/postprocessing/qt.py: analyze"]}
{"id": "C13", "title": "feqc finds a root whenever the data attains fstar", "statement": "If f[j] = fstar for some j, feqc(x, f, fstar) returns a root (\"returns the value of xstar for which f(xstar)=fstar\").", "quantifier": "all data sets", "why_tests_cant": "touching roots and roots at the first sample are measure-zero in tests", "anchors": ["atooms/postprocessing/helpers.py: feqc"]}
{"id": "C14", "title": "The origin stride is always usable", "statement": "For every trajectory with at least one frame and every norigins value for which construction succeeds, the stride between time origins is at least 1 and at most the number of frames; the internal consistency error \"wrong skip\" can never be raised; construction fails only for norigins equal to zero or for strings that cannot be converted.", "quantifier": "every number of frames, block size >= 1, particle number, and norigins (None, int, float or string)", "why_tests_cant": "three-way case analysis over types and sizes", "anchors": ["atooms/postprocessing/helpers.py: adjust_skip", "atooms/postprocessing/correlation.py: Correlation.__init__"]}
{"id": "C15", "title": "norigins controls the number of time origins", "statement": "With norigins=-1 and block size 1 every frame is an origin; with norigins=1 exactly one origin is used; with an integer n in 2..len and block size 1 the number of origins actually used is at least n and at most 2n-1.", "quantifier": "every trajectory length and n", "why_tests_cant": "integer rounding for all n and lengths", "anchors": ["atooms/postprocessing/helpers.py: adjust_skip", "atooms/postprocessing/correlation.py: Correlation.compute"]}
{"id": "C16", "title": "Time origins respect the block structure", "statement": "Unless a single origin is requested, the stride between origins is a multiple of the trajectory block size.", "quantifier": "every trajectory length, block size and norigins", "why_tests_cant": "only violated in a corner of the parameter space", "anchors": ["atooms/postprocessing/helpers.py: adjust_skip"]}
{"id": "C17", "title": "norigins given on the command line means the same as from Python", "statement": "A fraction such as 0.2 passed to pp.py as a string selects the same stride as the float 0.2 (README: \"pp.py --norigins 0.2 msd ...\").", "quantifier": "every fraction in (0,1)", "why_tests_cant": "the tests only exercise floats", "anchors": ["atooms/postprocessing/helpers.py: adjust_skip", "bin/pp.py", "README.md"]}
{"id": "C18", "title": "Template matching picks nearest entries", "statement": "_templated(entry, template) returns a sorted list without repetitions whose elements are exactly the entries nearest to some template value (the smaller one in case of ties when entry is sorted); with keep_multiple=True one match per template value is kept.", "quantifier": "every sorted non-empty entry list and template", "why_tests_cant": "nearest-neighbour optimality over all lists", "anchors": ["atooms/postprocessing/helpers.py: _templated"]}
{"id": "C19", "title": "The discrete time grid only contains realisable frame pairs and the closest lags", "statement": "Every (offset, separation) pair used for a requested time grid satisfies offset < block size and offset+separation < number of frames; the corresponding step differences are strictly increasing; and for every requested time the realisable lag closest to it is in the grid.", "quantifier": "every step list, block size >= 1, time step and requested times", "why_tests_cant": "joint property of step pattern and request", "anchors": ["atooms/postprocessing/helpers.py: setup_t_grid"]}
{"id": "C20", "title": "No frame pair is counted twice", "statement": "In a time correlation computed over the discrete time grid with a stride that is a multiple of the block size, each (origin frame, separation) pair contributes at most once.", "quantifier": "every step list, block size, requested grid, stride multiple of block size, number of frames", "why_tests_cant": "double counting only changes statistical weights, invisible to reference-value tests", "anchors": ["atooms/postprocessing/helpers.py: setup_t_grid", "atooms/postprocessing/correlation.py: gcf_offset"]}
{"id": "C21", "title": "On block-periodic trajectories the reported lags are exactly the selected ones", "statement": "If the steps repeat with the block period and the stride is a multiple of the block size, the lags reported by the time correlation are exactly the step differences of the discrete time grid, and each value averages only pairs from its own grid entry.", "quantifier": "every block-periodic step list", "why_tests_cant": "holds for all origins and blocks", "anchors": ["atooms/postprocessing/helpers.py: setup_t_grid", "atooms/postprocessing/correlation.py: gcf_offset"]}
{"id": "C22", "title": "Species filter keeps exactly the particles of that species", "statement": "filter_species(system, s) returns a copy whose particles are, in the original order, exactly those of species s (all of them for None); the input system is unchanged; filtering twice is the same as filtering once; and the filters of the distinct species partition the system.", "quantifier": "every system and species", "why_tests_cant": "for all particle lists", "anchors": ["atooms/postprocessing/helpers.py: filter_species"]}
{"id": "C23", "title": "Mean square displacement is non-negative, zero at zero lag and blind to the origin of coordinates", "statement": "Every MSD value is >= 0, it is 0 at zero lag, and it is unchanged if the same vector is added to all positions in all frames.", "quantifier": "every trajectory of unfolded positions, stride and grid", "why_tests_cant": "universally quantified over trajectories", "anchors": ["atooms/postprocessing/msd.py: MeanSquareDisplacement._compute"]}
{"id": "C24", "title": "Uniform motion gives an exactly ballistic MSD", "statement": "If every particle moves with constant velocity, the MSD at lag t equals t^2 times the mean square velocity, whatever grid, stride and block structure are used.", "quantifier": "every set of velocities, positions, step list, grid, stride", "why_tests_cant": "all trajectories", "anchors": ["atooms/postprocessing/msd.py", "atooms/postprocessing/correlation.py: gcf_offset"]}
{"id": "C25", "title": "fix_cm removes any collective drift", "statement": "With fix_cm=True and unfolded positions available, the analysed positions have zero centre of mass in every frame and the MSD does not change if an arbitrary time-dependent vector is added to all particles of each frame.", "quantifier": "every trajectory, masses with positive total, and drift history", "why_tests_cant": "all drift histories", "anchors": ["atooms/postprocessing/correlation.py: _setup_arrays_onebody", "atooms/postprocessing/msd.py"]}
{"id": "C26", "title": "The velocity autocorrelation at lag zero is the mean square velocity and bounds the others on average", "statement": "The zero-lag value is >= 0 and equals the mean of v^2 over sampled frames and particles; for each pair of frames the kernel is bounded by Cauchy-Schwarz.", "quantifier": "every velocity history", "why_tests_cant": "all inputs", "anchors": ["atooms/postprocessing/vacf.py"]}
{"id": "C27", "title": "VelocityAutocorrelation works with its default time grid", "statement": "VelocityAutocorrelation(trajectory) with tgrid left to its default builds the documented default grid and can be computed.", "quantifier": "every trajectory", "why_tests_cant": "the api always passes an explicit grid so tests miss it", "anchors": ["atooms/postprocessing/vacf.py: VelocityAutocorrelation.__init__"]}
{"id": "C28", "title": "Non-Gaussian parameter lower bound", "statement": "Whenever defined, the non-Gaussian parameter between two frames is >= -2/5, with equality when all particles have displacements of the same length; it is 0 at zero lag.", "quantifier": "every pair of configurations of the same particles", "why_tests_cant": "inequality over all displacements", "anchors": ["atooms/postprocessing/alpha2.py: NonGaussianParameter._compute"]}
{"id": "C29", "title": "Self overlap is a fraction", "statement": "The self overlap lies in [0,1], is 1 at zero lag for a > 0, does not decrease when the cut-off a increases, and equals the fraction of particles displaced by strictly less than a.", "quantifier": "every trajectory and a", "why_tests_cant": "all inputs", "anchors": ["atooms/postprocessing/qt.py: SelfOverlap, self_overlap"]}
{"id": "C30", "title": "Collective overlap counts all pairs and dominates the self overlap", "statement": "The collective overlap of two configurations is the number of ordered pairs closer than a divided by N; it is at least the self overlap of the same configurations and at most N.", "quantifier": "every pair of configurations", "why_tests_cant": "all inputs", "anchors": ["atooms/postprocessing/qt.py: CollectiveOverlap, collective_overlap"]}
{"id": "C31", "title": "chi4 is a normalised variance", "statement": "Every chi4 value is the population variance of the unnormalised self overlap over the sampled origins divided by N; hence it is >= 0, at most N/4 and 0 at zero lag (for a > 0).", "quantifier": "every trajectory, a, grid and stride", "why_tests_cant": "inequalities over all trajectories", "anchors": ["atooms/postprocessing/chi4t.py: Chi4SelfOverlap._compute"]}
{"id": "C32", "title": "chi4 uses every available time origin", "statement": "For each lag the average runs over all origins i0 = off, off+skip, ... with i0+i inside the trajectory, as in the self overlap function itself.", "quantifier": "every trajectory, grid and stride", "why_tests_cant": "one missing origin is within statistical noise of tests", "anchors": ["atooms/postprocessing/chi4t.py: Chi4SelfOverlap._compute"]}
{"id": "C33", "title": "compute() can be repeated", "statement": "Calling compute() a second time on the same correlation object gives the same grid and values.", "quantifier": "every trajectory and every history of calls on the object", "why_tests_cant": "tests build a new object for each calculation", "anchors": ["atooms/postprocessing/correlation.py: Correlation.compute, _setup_arrays", "atooms/postprocessing/chi4t.py"]}
{"id": "C34", "title": "The pair histogram counts every unordered pair once, independently of batching", "statement": "The all-particle distance histogram of the legacy g(r) equals the histogram of the distances of all pairs i<j, whatever the batch size; with two groups it counts all ordered pairs (i in group 0, j in group 1).", "quantifier": "every particle number, batch size, bins and kernel", "why_tests_cant": "batch boundaries over all sizes", "anchors": ["atooms/postprocessing/gr.py: pairs_newton_hist, pairs_hist"]}
{"id": "C35", "title": "Minimum image distances are correct and both backends agree", "statement": "The folded separation used for g(r) differs from the raw one by a lattice vector and has every component of magnitude at most L/2, so it is the shortest image; the Fortran fold gives the same square distance whenever the raw separation is at most 3L/2 per component, in particular for positions inside the cell.", "quantifier": "all positions and cell sides", "why_tests_cant": "ties and boundary values for all reals", "anchors": ["atooms/postprocessing/gr.py: gr_kernel, gr_kernel_square", "atooms/postprocessing/realspace.f90: pbc, gr_self_c, gr_distinct_c"]}
{"id": "C36", "title": "The Fortran pair histogram never writes out of bounds and counts each pair once", "statement": "gr_self_c/gr_distinct_c increment, for each pair closer than dr*size(hist), exactly the bin [b*dr,(b+1)*dr) containing its distance, and touch no other memory; previous contents of the histogram are discarded.", "quantifier": "all configurations, boxes, dr > 0, histogram sizes", "why_tests_cant": "memory safety for all inputs", "anchors": ["atooms/postprocessing/realspace.f90: gr_self_c, gr_distinct_c"]}
{"id": "C37", "title": "Fast and legacy g(r) agree", "statement": "For a periodic cell with all particles inside it, at fixed particle number and default grid, the fast and legacy backends return the same g(r) on their common grid, when the fast one does not use linked cells (see C44 for those).", "quantifier": "every trajectory with constant particle number, dr > 0", "why_tests_cant": "equality of two independent implementations for all inputs; tests compare each to 4 numbers", "anchors": ["atooms/postprocessing/gr.py: RadialDistributionFunctionLegacy, RadialDistributionFunctionFast", "atooms/postprocessing/realspace.f90"]}
{"id": "C38", "title": "g(r) sum rule", "statement": "The g(r) values are >= 0 and, weighted by density times shell volume, add up to at most N-1 neighbours per particle, with equality when the grid covers all pair distances.", "quantifier": "every configuration and grid", "why_tests_cant": "normalisation for all inputs", "anchors": ["atooms/postprocessing/gr.py"]}
{"id": "C39", "title": "Partial histograms add up to the total", "statement": "The pair histogram of the whole system is the sum over species of the like-species histograms plus the sum over unordered species pairs of the unlike-species histograms; hence g(r) = sum_ab x_a x_b g_ab(r).", "quantifier": "every multi-component configuration, any number of species", "why_tests_cant": "tests check one mixture within 0.04", "anchors": ["atooms/postprocessing/gr.py", "atooms/postprocessing/partial.py", "atooms/postprocessing/helpers.py: filter_species"]}
{"id": "C40", "title": "g_ab(r) = g_ba(r)", "statement": "Swapping the two groups of particles does not change the distance histogram, so copying the (b,a) partial from (a,b) is exact.", "quantifier": "every pair of groups", "why_tests_cant": "all inputs", "anchors": ["atooms/postprocessing/partial.py: Partial.compute", "atooms/postprocessing/gr.py: pairs_hist", "atooms/postprocessing/realspace.f90: gr_distinct_c"]}
{"id": "C41", "title": "g(r) does not depend on particle order or on the choice of origin", "statement": "The pair histogram is invariant under any permutation of the particles, under a common translation of all particles and under refolding particles by whole cell sides.", "quantifier": "every configuration, permutation and translation", "why_tests_cant": "symmetries over all inputs", "anchors": ["atooms/postprocessing/gr.py: pairs_newton_hist, gr_kernel"]}
{"id": "C42", "title": "Linked cells find every pair within the cut-off", "statement": "For a periodic cell with at least 3 subcells per side (2d or 3d) and particles inside the cell, for every two distinct particles closer than rcut one is listed among the neighbours of the other; with a second group (or newton=False) each is listed for the other.", "quantifier": "every configuration, cell sides, rcut", "why_tests_cant": "geometric completeness over all positions; the test has 4 particles", "anchors": ["atooms/postprocessing/linkedcells.py: LinkedCells.compute"]}
{"id": "C43", "title": "Linked cells list no pair twice", "statement": "Under the same conditions and with Newton third law no unordered pair is listed more than once and no particle is its own neighbour; with a second group no particle of it is listed twice for the same particle.", "quantifier": "every configuration", "why_tests_cant": "double counting would bias g(r) silently", "anchors": ["atooms/postprocessing/linkedcells.py"]}
{"id": "C44", "title": "g(r) with linked cells equals g(r) without, up to rmax", "statement": "When linked cells are enabled by rmax > 0, every histogram bin entirely below rmax has the same count as the direct calculation and, with the default grid, no bin index exceeds the histogram size.", "quantifier": "every periodic trajectory with a constant cell and particles inside it for which the code enables linked cells", "why_tests_cant": "equality of two algorithms", "anchors": ["atooms/postprocessing/gr.py: RadialDistributionFunctionFast._compute", "atooms/postprocessing/linkedcells.py", "atooms/postprocessing/realspace.f90: gr_neighbors_self_c"]}
{"id": "C45", "title": "A LinkedCells object can be reused", "statement": "Calling compute() on the same LinkedCells object with another box or another newton flag gives the neighbours for the new arguments.", "quantifier": "every sequence of calls", "why_tests_cant": "history dependence", "anchors": ["atooms/postprocessing/linkedcells.py: LinkedCells.compute, adjust"]}
{"id": "C46", "title": "The table of exponentials is exact", "statement": "expo_sphere(k0, nk, pos)[..., j, nk+m] = exp(i m k0_j x_j) for all -nk <= m <= nk, nk >= 1, all particles and dimensions.", "quantifier": "all positions, k0, nk", "why_tests_cant": "recurrence over all m", "anchors": ["atooms/postprocessing/fourierspace.py: expo_sphere, expo_sphere_safe"]}
{"id": "C47", "title": "Wave-vector shells are sound, complete and disjoint", "statement": "Each wave-vector assigned to grid point k_i has norm within the (final) width dk_i of k_i and is assigned to no other grid point; every allowed wave-vector fitting some shell and not exceeding kmax is assigned to the first such shell; no returned shell is empty.", "quantifier": "all grids, widths, cell sides", "why_tests_cant": "completeness over an infinite lattice", "anchors": ["atooms/postprocessing/fourierspace.py: FourierSpaceCorrelation._setup_grid_sphere"]}
{"id": "C48", "title": "Wave-vector setup terminates", "statement": "For positive dk and a sorted non-negative k grid the search for wave-vectors, which widens empty shells by 20% and restarts, terminates.", "quantifier": "all grids, widths > 0, cell sides > 0", "why_tests_cant": "termination", "anchors": ["atooms/postprocessing/fourierspace.py: _setup_grid_sphere"]}
{"id": "C49", "title": "At most nk wave-vectors per k, and the reported k is their mean norm, within dk of the requested one", "statement": "After setup each grid point uses min(nk, available) distinct wave-vectors of its shell and the reported k value is the mean of their norms and lies within the final shell width of the requested value.", "quantifier": "all grids and every outcome of the random selection", "why_tests_cant": "random selection quantified over all outcomes", "anchors": ["atooms/postprocessing/fourierspace.py: FourierSpaceCorrelation._setup"]}
{"id": "C50", "title": "kvectors can be copied from one correlation object to another", "statement": "Assigning q.kvectors = p.kvectors for objects over the same cell makes q use the same wave-vectors and norms, and compute() then works on them.", "quantifier": "all lists of allowed wave-vectors", "why_tests_cant": "index arithmetic for all vectors", "anchors": ["atooms/postprocessing/fourierspace.py: FourierSpaceCorrelation.kvectors"]}
{"id": "C51", "title": "S(k) is real, non-negative, bounded by N, translation and folding invariant", "statement": "The structure factor of one group of particles is >= 0, at most N, and does not change when all particles of a frame are translated by the same vector or folded by whole cell sides.", "quantifier": "every configuration and allowed wave-vector", "why_tests_cant": "all inputs", "anchors": ["atooms/postprocessing/sk.py: StructureFactorLegacy._compute"]}
{"id": "C52", "title": "Partial structure factors add up", "statement": "N S(k) = sum_ab sqrt(N_a N_b) S_ab(k), and S_ab = S_ba, when the same wave-vectors are used.", "quantifier": "every mixture", "why_tests_cant": "all inputs", "anchors": ["atooms/postprocessing/sk.py", "atooms/postprocessing/partial.py"]}
{"id": "C53", "title": "F_s(k,0)=1 and |F_s(k,t)| <= 1", "statement": "The self intermediate scattering function is 1 at zero lag and bounded by 1 in absolute value at every lag, whatever the particle blocking.", "quantifier": "every trajectory, k, grid", "why_tests_cant": "all inputs", "anchors": ["atooms/postprocessing/fkt.py: SelfIntermediateScatteringLegacy._compute"]}
{"id": "C54", "title": "Fast and legacy F_s(k,t) agree and do not depend on the memory limit", "statement": "The two backends return the same values, for any lookup_mb > 0 and any particle block size.", "quantifier": "every trajectory and block size", "why_tests_cant": "equality of two implementations", "anchors": ["atooms/postprocessing/fkt.py", "atooms/postprocessing/fourierspace.f90: fskt_kernel_2d, fskt_kernel_3d, fskt_kernel_nd"]}
{"id": "C55", "title": "Normalisation divides every value by the zero-lag value", "statement": "With normalize=True each F_s(k,t) is divided by F_s(k,0).", "quantifier": "all values", "why_tests_cant": "in-place update order", "anchors": ["atooms/postprocessing/fkt.py: SelfIntermediateScatteringLegacy._compute"]}
{"id": "C56", "title": "F(k,0)=1 when normalised, and partial F_ab(k,t) = F_ba(k,t)", "statement": "The coherent intermediate scattering function is 1 at zero lag; the (b,a) partial, which is copied from (a,b), is what a direct calculation would give.", "quantifier": "every trajectory", "why_tests_cant": "all inputs", "anchors": ["atooms/postprocessing/fkt.py: IntermediateScattering._compute", "atooms/postprocessing/partial.py: Partial.compute"]}
{"id": "C57", "title": "StructureFactorFast agrees with StructureFactorLegacy", "statement": "The Fortran structure factor equals the python one for the same wave-vectors.", "quantifier": "every configuration", "why_tests_cant": "index convention; the test tolerance is of the order of the values", "anchors": ["atooms/postprocessing/sk.py: StructureFactorFast._compute", "atooms/postprocessing/fourierspace.f90: sk_bare"]}
{"id": "C58", "title": "Partial correlations use the same wave-vectors independently of filters", "statement": "All partials of a Partial(...) over the same trajectory and kgrid use the same wave-vectors (\"so as to get the same set independent of filters\").", "quantifier": "every kgrid, dk, nk", "why_tests_cant": "aliasing of a caller-owned list", "anchors": ["atooms/postprocessing/fourierspace.py: _setup", "atooms/postprocessing/partial.py", "atooms/postprocessing/api.py: sk, fkt, fskt"]}
{"id": "C59", "title": "is_cell_variable detects a changing cell", "statement": "is_cell_variable(trajectory, tests) is True iff the cell of some frame differs from that of the first frame.", "quantifier": "every trajectory", "why_tests_cant": "all frame patterns", "anchors": ["atooms/postprocessing/sk.py: is_cell_variable"]}
{"id": "C60", "title": "At most nbodies filters", "statement": "add_filter refuses a filter that would exceed the number of bodies of the correlation function.", "quantifier": "every sequence of add_filter calls", "why_tests_cant": "history", "anchors": ["atooms/postprocessing/correlation.py: Correlation.add_filter"]}
{"id": "C61", "title": "Partial covers all species pairs and copies only computed ones", "statement": "After Partial.compute every species (or ordered pair of species) has grid, value equal to those obtained by computing that pair with its own filters, or, for a symmetric function, those of the exchanged pair; nothing is read before it is computed.", "quantifier": "every list of distinct species", "why_tests_cant": "all sizes", "anchors": ["atooms/postprocessing/partial.py: Partial"]}
{"id": "C62", "title": "Filter selects the documented groups", "statement": "Filter(corr, condition): with one condition a two-body function uses (selected, all) and with two conditions separated by a comma (selected by first, selected by second); a one-body function uses the selected particles; more than two conditions are refused.", "quantifier": "every condition and system", "why_tests_cant": "all inputs", "anchors": ["atooms/postprocessing/filter.py: Filter"]}
{"id": "C63", "title": "Output files list the full grid", "statement": "The file written for A(x,y) has one row (x_i, y_j, A_ij) for every i, j in row-major order; for A(x) one row per grid point; reading back a two-column file gives the same grid and values.", "quantifier": "all grid sizes and values", "why_tests_cant": "layout for all shapes", "anchors": ["atooms/postprocessing/correlation.py: Correlation.write, read"]}
{"id": "C64", "title": "do(update=True) yields the up-to-date correlation function", "statement": "do(update=True) recomputes iff the output file is missing or not newer than the trajectory; otherwise grid and value are those stored in the file.", "quantifier": "every filesystem state, every kind of correlation function", "why_tests_cant": "mtimes, file shapes and call history", "anchors": ["atooms/postprocessing/correlation.py: Correlation.do, need_update, read", "atooms/postprocessing/partial.py: Partial.do"]}
{"id": "C65", "title": "An interrupted write is not mistaken for a finished calculation", "statement": "If the program is interrupted while writing the output file, a later do(update=True) recomputes.", "quantifier": "every crash point during write", "why_tests_cant": "crash points cannot be enumerated by unit tests", "anchors": ["atooms/postprocessing/correlation.py: write, do, need_update"]}
{"id": "C66", "title": "Output file names are clean and stay in the requested directory", "statement": "Interpolated output paths keep the directory part, and the file name neither starts nor ends with, nor contains doubled, punctuation (\".\", \"_\", \"-\").", "quantifier": "every path and tag", "why_tests_cant": "all strings", "anchors": ["atooms/postprocessing/correlation.py: Correlation._output_file"]}
{"id": "C67", "title": "A rejected add_weight leaves the object unchanged", "statement": "If add_weight raises, the object behaves as if it had not been called; with neither trajectory nor field it does nothing.", "quantifier": "every argument combination and history", "why_tests_cant": "exception paths", "anchors": ["atooms/postprocessing/correlation.py: Correlation.add_weight"]}
{"id": "C68", "title": "Field fluctuations have zero mean", "statement": "With fluctuations=True the weights used have zero ensemble average, and adding a constant to the field changes nothing.", "quantifier": "every field history", "why_tests_cant": "all inputs", "anchors": ["atooms/postprocessing/correlation.py: _subtract_mean"]}
{"id": "C69", "title": "Every command computes something for every input file", "statement": "For each input file given to an api function at least one correlation function is computed and written, and filters requested by the user are applied to it.", "quantifier": "every number of files, number of species, option combination", "why_tests_cant": "option combinations", "anchors": ["atooms/postprocessing/api.py"]}
{"id": "C70", "title": "Bond-angle distribution is normalised and its kernel is memory safe", "statement": "The distribution is >= 0 and its values times dtheta add up to 1 when there is at least one angle; the Fortran kernels never write beyond the histogram or the neighbour buffer.", "quantifier": "every configuration, cut-offs and dtheta", "why_tests_cant": "all inputs", "anchors": ["atooms/postprocessing/ba.py: BondAngleDistribution._compute", "atooms/postprocessing/realspace.f90: bond_angle, neighbors"]}
{"id": "C71", "title": "Fortran neighbour lists are symmetric and complete", "statement": "neighbors_list lists j for i iff their minimum image distance is below the cut-off of their species pair, j is listed for i iff i is listed for j, each exactly once.", "quantifier": "every configuration with symmetric cut-offs", "why_tests_cant": "all inputs", "anchors": ["atooms/postprocessing/realspace.f90: neighbors_list, neighbors_full"]}
{"id": "C72", "title": "SpectralDensity uses the norm of the actual wave-vector", "statement": "The form factor entering I(k) is evaluated at the norm of the wave-vector whose exponential is summed.", "quantifier": "every wave-vector", "why_tests_cant": "no reference value test", "anchors": ["atooms/postprocessing/ik.py: SpectralDensity._compute"]}
{"id": "C73", "title": "Susceptibility is a normalised variance", "statement": "Every value returned by Susceptibility is >= 0 and equals N times the population variance, over the sub-trajectories, of the underlying correlation function.", "quantifier": "every correlation class and trajectory", "why_tests_cant": "all inputs", "anchors": ["atooms/postprocessing/susceptibility.py: Susceptibility.compute"]}
{"id": "C74", "title": "Shell volumes of g(r) are the volumes of spherical shells", "statement": "The ideal-gas normalisation of both g(r) classes divides by the volume of the spherical shell of the bin, i.e. the difference of the volumes of two balls, in the dimension of the system.", "quantifier": "every dimension d >= 1 and every pair of radii 0 <= a < b", "why_tests_cant": "tests use d = 2 and d = 3 only", "anchors": ["atooms/postprocessing/gr.py: RadialDistributionFunctionLegacy._compute", "atooms/postprocessing/gr.py: RadialDistributionFunctionFast._compute"]}
{"id": "C75", "title": "Every point of g(r) returned with linked cells equals the direct one", "statement": "With rmax > 0 and linked cells, every entry of the returned table, including the last one, equals that of the direct calculation.", "quantifier": "every periodic trajectory", "why_tests_cant": "needs two particles just beyond rmax", "anchors": ["atooms/postprocessing/gr.py: RadialDistributionFunctionFast._compute", "atooms/postprocessing/linkedcells.py"]}
{"id": "C76", "title": "A filter satisfied by all particles does not change g(r)", "statement": "Decorating g(r) with Filter and a condition that every particle satisfies leaves its table unchanged.", "quantifier": "every trajectory and condition satisfied by all particles", "why_tests_cant": "tests compare only filters with two conditions", "anchors": ["atooms/postprocessing/filter.py: Filter", "atooms/postprocessing/gr.py: RadialDistributionFunctionLegacy._compute"]}
{"id": "C77", "title": "Linked cells accept particles on the faces of the cell", "statement": "LinkedCells.compute returns for particles anywhere in the closed cell [-L/2, L/2], and lists the pairs within the cut-off.", "quantifier": "every configuration in the closed cell", "why_tests_cant": "probability zero in random configurations", "anchors": ["atooms/postprocessing/linkedcells.py: LinkedCells.compute"]}
{"id": "C78", "title": "g(r) is reported on the grid given by the user", "statement": "When rgrid is given, the distances in the returned table are entries of it.", "quantifier": "every equally spaced rgrid", "why_tests_cant": "tests use the default grid", "anchors": ["atooms/postprocessing/gr.py: RadialDistributionFunctionFast._compute", "atooms/postprocessing/gr.py: RadialDistributionFunctionLegacy._compute"]}
{"id": "C79", "title": "The spacing dr may be an integer", "statement": "g(r) computed with dr given as a python integer is that with the equal float.", "quantifier": "every trajectory and integer dr", "why_tests_cant": "tests use fractional dr", "anchors": ["atooms/postprocessing/gr.py: _setup_grid", "atooms/postprocessing/helpers.py: linear_grid"]}
{"id": "C80", "title": "S(k) is the average of the products of density modes", "statement": "StructureFactor.value[n] is the mean over the analysed frames and the wave-vectors of grid point n of Re(rho_k^a conj(rho_k^b)), with rho_k = sum_p exp(i k.x_p), divided by sqrt(<N_a><N_b>); value_nonorm is the same without the last division.", "quantifier": "every trajectory, one or two groups of particles, every set of wave-vectors reachable from _setup, constant or variable cell", "why_tests_cant": "tests compare a few numbers on fixed samples; they cannot cover all numbers of particles, strides, cells and wave-vectors", "anchors": ["atooms/postprocessing/sk.py:60-163", "atooms/postprocessing/fourierspace.py:21-51"]}
{"id": "C81", "title": "Weighted S(k) of one group is non-negative", "statement": "With add_weight(), the structure factor of one group of particles, from which the square modulus of the mean density mode is subtracted, is >= 0 at every grid point.", "quantifier": "every trajectory, weights and wave-vectors", "why_tests_cant": "it is an inequality over all weights and configurations", "anchors": ["atooms/postprocessing/sk.py:87-163"]}
{"id": "C82", "title": "F_s(k,t) is the mean of cos(k.(r(t0+t)-r(t0)))", "statement": "Each unnormalised value of the self intermediate scattering function is the mean over the wave-vectors of the grid point, the sampled pairs of frames at that lag and the particles of the cosine of the phase of the displacement; the time grid lists exactly the sampled lags in increasing order.", "quantifier": "every trajectory, grid and set of wave-vectors", "why_tests_cant": "all inputs", "anchors": ["atooms/postprocessing/fkt.py: SelfIntermediateScatteringLegacy._compute", "atooms/postprocessing/fourierspace.py: expo_sphere"]}
{"id": "C83", "title": "F(k,t) is the mean of Re rho(t0+t) rho*(t0)", "statement": "Each value of value_nonorm of the coherent intermediate scattering function is the mean over the wave-vectors of the grid point and the sampled pairs of frames of the real part of the product of density modes, in any number of dimensions.", "quantifier": "every trajectory, grid and set of wave-vectors", "why_tests_cant": "all inputs, and a branch that the library itself does not test", "anchors": ["atooms/postprocessing/fkt.py: IntermediateScattering._compute"]}
{"id": "C84", "title": "Relaxation times are the first crossing of f(0)/e", "statement": "The analysis of F(k,t) and F_s(k,t) gives for each wave-number the first time where the piecewise linear function through the samples equals 1/e of the initial value, or None if no sample is below; a time grid that does not start at zero is refused.", "quantifier": "every set of samples with positive initial values", "why_tests_cant": "all inputs", "anchors": ["atooms/postprocessing/fkt.py: _extract_tau", "atooms/postprocessing/helpers.py: feqc"]}
{"id": "C85", "title": "Filters compose", "statement": "Filter(Filter(corr, c1), c2) computes the correlation function of the particles satisfying both conditions, or is refused leaving the object as it was.", "quantifier": "every pair of conditions, one-body and two-body functions", "why_tests_cant": "the error shows only for repeated filters and the output is well formed", "anchors": ["atooms/postprocessing/filter.py: Filter", "atooms/postprocessing/correlation.py: Correlation.add_filter"]}
{"id": "C86", "title": "Different filters write to different files", "statement": "Two conditions that are different as text (up to blanks and quotes) give different output files for the same trajectory and correlation function.", "quantifier": "every pair of conditions", "why_tests_cant": "collisions are rare pairs of conditions", "anchors": ["atooms/postprocessing/filter.py: Filter", "atooms/postprocessing/correlation.py: Correlation._output_file"]}
{"id": "C87", "title": "do() followed by do(update=True) gives the same function without computing", "statement": "After do(), another object with the same parameters and do(update=True) has the same grid and values, to the precision of the output format, and compute is not called.", "quantifier": "every grid, values and modification times", "why_tests_cant": "needs control of the file times and all grids", "anchors": ["atooms/postprocessing/correlation.py: Correlation.do, read, write, need_update"]}
{"id": "C88", "title": "Slices of trajectories with blocks are whole blocks", "statement": "With a block size larger than one, the frames selected with first and last are whole blocks of the trajectory, at least one if last is positive.", "quantifier": "every block size and limits", "why_tests_cant": "all limits", "anchors": ["atooms/postprocessing/api.py: _get_trajectories"]}
{"id": "C89", "title": "Neighbour lists between distinct groups are complete", "statement": "neighbors_list_distinct lists, for every particle of the first group, exactly the particles of the second one closer than the cut-off, each once, and nothing else.", "quantifier": "every pair of groups", "why_tests_cant": "all inputs; the kernel is not called by any test", "anchors": ["atooms/postprocessing/realspace.f90: neighbors_list_distinct"]}
{"id": "C90", "title": "Neighbour lists from candidate lists", "statement": "neighbors_subset, given candidate lists that contain every neighbour, lists every neighbour of every particle exactly once.", "quantifier": "every configuration and candidate lists", "why_tests_cant": "all inputs; the kernel is not called by any test", "anchors": ["atooms/postprocessing/realspace.f90: neighbors_subset"]}
{"id": "C91", "title": "Default cut-offs of bond angles", "statement": "The default cut-off is the first local minimum of the partial g(r) after its absolute maximum, and exists for every g(r).", "quantifier": "every g(r)", "why_tests_cant": "all inputs", "anchors": ["atooms/postprocessing/ba.py: _default_rcut"]}
{"id": "C92", "title": "Options apply to everything a command computes", "statement": "All correlation functions, total or partial, that an api function computes are created with the options given by the user: fix_cm is passed to all of them, and no partial functions are computed with no_partial.", "quantifier": "every command, number of files, number of species and option combination", "why_tests_cant": "option combinations; the partial results look plausible without the correction", "anchors": ["atooms/postprocessing/api.py: msd, fkt, fskt, chi4qs"]}
{"id": "C93", "title": "Time grids of the api", "statement": "The time grids built by the api functions start with zero and the time step, increase strictly, end at the largest time requested, and never extend beyond the trajectory.", "quantifier": "every command, time step, total time, largest time or fraction, number of samples, linear or logarithmic", "why_tests_cant": "real-valued parameters", "anchors": ["atooms/postprocessing/api.py: t_grid"]}
{"id": "C94", "title": "Diffusion coefficient from the mean square displacement", "statement": "The analysis of the mean square displacement gives a diffusion coefficient equal to the slope of the least squares line through the points above sigma squared, divided by twice the number of dimensions; it is exact for linear data, not negative for growing data, and missing if there are fewer than two such points. The diffusive time is where the interpolated curve first reaches sigma squared.", "quantifier": "every grid and mean square displacement of equal length, increasing times, any sigma and number of dimensions", "why_tests_cant": "least squares over arbitrary data; the selection of the points depends on real values", "anchors": ["atooms/postprocessing/msd.py: analyze", "atooms/postprocessing/helpers.py: linear_fit, feqc"]}
{"id": "C95", "title": "Stress autocorrelation", "statement": "The stress autocorrelation at each time is the mean over pairs of frames of the products of the off-diagonal components of the stress of the selected particles, divided by three volumes, in any dimension and with any filter; it is not negative at time zero and is bounded by the mean square stress.", "quantifier": "every trajectory, time grid, filter and number of dimensions", "why_tests_cant": "numpy broadcasting hides shape errors when a single particle is selected; two dimensions and filters are not covered by tests", "anchors": ["atooms/postprocessing/sacf.py: StressAutocorrelation._compute"]}
{"id": "C96", "title": "The number of time origins applies to all time correlations", "statement": "The number of time origins averaged over by a time-dependent correlation function is the one requested with norigins.", "quantifier": "every trajectory, norigins and time grid", "why_tests_cant": "results with more time origins than requested look plausible", "anchors": ["atooms/postprocessing/vacf.py", "atooms/postprocessing/sacf.py", "atooms/postprocessing/qt.py", "atooms/postprocessing/helpers.py: adjust_skip"]}
{"id": "C97", "title": "Optimized dynamic susceptibility equals the plain one", "statement": "Chi4SelfOverlapOptimized gives the same results as Chi4SelfOverlap.", "quantifier": "every trajectory, cut-off, number of time origins and time grid", "why_tests_cant": "equality for all trajectories; the failing inputs are at the end of the trajectory", "anchors": ["atooms/postprocessing/chi4t.py: Chi4SelfOverlap, Chi4SelfOverlapOptimized"]}
{"id": "C98", "title": "Positions and weights belong to the same particles", "statement": "With any number of accepted filters, the positions and the weights that a correlation function uses for each group in each frame are those of the same particles in the same order, and each group is selected by its own filter.", "quantifier": "every trajectory, filter and field; one- and two-body functions", "why_tests_cant": "a permutation or a wrong group gives plausible numbers", "anchors": ["atooms/postprocessing/correlation.py: _setup_arrays_onebody, _setup_arrays_twobody, _setup_weight_onebody, _setup_weight_twobody"]}
{"id": "C99", "title": "The structure factor can be computed again", "statement": "Calling compute() again on the same structure factor object gives the same result.", "quantifier": "every trajectory, stride, weights and cell", "why_tests_cant": "the failure depends on divisibility and on the presence of weights", "anchors": ["atooms/postprocessing/sk.py: StructureFactorLegacy._compute", "atooms/postprocessing/correlation.py: _setup_arrays"]}
{"id": "C100", "title": "g(r) can be computed again", "statement": "Calling compute() again on the same radial distribution function, fast or legacy, gives the same table as the first call.", "quantifier": "every trajectory, stride, bin width and number of calls", "why_tests_cant": "each call loses or changes only the last point", "anchors": ["atooms/postprocessing/gr.py: RadialDistributionFunctionLegacy._compute, RadialDistributionFunctionFast._compute", "atooms/postprocessing/correlation.py: _setup_arrays_twobody"]}
{"id": "C101", "title": "g(r) with linked cells never writes outside the histogram", "statement": "On any grid of distances given by the user, the fast radial distribution function with linked cells writes only to existing bins of the histogram.", "quantifier": "every user grid, trajectory and cell for which linked cells are used", "why_tests_cant": "an out-of-bounds write in Fortran need not crash", "anchors": ["atooms/postprocessing/gr.py: RadialDistributionFunctionFast._compute", "atooms/postprocessing/realspace.f90: gr_neighbors_self_c, gr_neighbors_distinct_c"]}
{"id": "C102", "title": "Unfolded positions are not folded back", "statement": "When a correlation function requests unfolded positions, those it analyses are the unfolded positions found in the trajectory or, if there are none, those of the unfolded trajectory, whatever else it requests.", "quantifier": "every trajectory, filter and list of requested variables", "why_tests_cant": "folded and unfolded positions agree on short trajectories", "anchors": ["atooms/postprocessing/correlation.py: _setup_arrays_onebody, phasespace", "atooms/postprocessing/s4kt.py: phasespace"]}
{"id": "C103", "title": "fix_cm applies to all groups of particles", "statement": "With fix_cm=True, the positions analysed by any correlation function do not change when the frames are displaced by arbitrary vectors.", "quantifier": "every trajectory, drift, filters and number of bodies", "why_tests_cant": "the drift is small in most trajectories", "anchors": ["atooms/postprocessing/correlation.py: _setup_arrays_onebody, _setup_arrays_twobody", "atooms/postprocessing/fkt.py: IntermediateScattering"]}
{"id": "C104", "title": "The arrays requested in phasespace are filled", "statement": "For each variable listed in phasespace the arrays documented in the class are available, with one entry per frame and the data of the selected particles.", "quantifier": "every trajectory, filter, number of bodies and list of requested variables", "why_tests_cant": "no existing subclass requests unfolded positions of two groups", "anchors": ["atooms/postprocessing/correlation.py: _setup_arrays, _setup_arrays_onebody, _setup_arrays_twobody", "atooms/postprocessing/ba.py: phasespace"]}
{"id": "C105", "title": "The collective overlap does not depend on periodic images", "statement": "The collective overlap counts the pairs of particles that have periodic images closer than the cut-off, and does not depend on which images are stored in the trajectory.", "quantifier": "every trajectory, cell, cut-off and choice of images", "why_tests_cant": "only the particles near the faces of the cell matter", "anchors": ["atooms/postprocessing/qt.py: collective_overlap, CollectiveOverlap"]}
{"id": "C106", "title": "Relabelling the particles does not change the dynamics", "statement": "Exchanging the particles in the same way in all the frames does not change the MSD, the VACF, the non-Gaussian parameter and the overlaps. The collective overlap does not change even if each frame has its own order.", "quantifier": "every trajectory, permutation of the particles, time grid and number of origins", "why_tests_cant": "a test uses one trajectory file with one order of particles", "anchors": ["atooms/postprocessing/msd.py: MeanSquareDisplacement", "atooms/postprocessing/vacf.py: VelocityAutocorrelation", "atooms/postprocessing/alpha2.py: NonGaussianParameter", "atooms/postprocessing/qt.py: SelfOverlap, CollectiveOverlap", "atooms/postprocessing/correlation.py: gcf_offset"]}
{"id": "C107", "title": "Only differences of steps matter", "statement": "Adding the same number to all the steps of a trajectory does not change any of the time correlation functions.", "quantifier": "every trajectory, shift, time grid and number of origins", "why_tests_cant": "trajectories in the tests start at step 0", "anchors": ["atooms/postprocessing/msd.py: MeanSquareDisplacement", "atooms/postprocessing/vacf.py: VelocityAutocorrelation", "atooms/postprocessing/alpha2.py: NonGaussianParameter", "atooms/postprocessing/qt.py: SelfOverlap, CollectiveOverlap", "atooms/postprocessing/correlation.py: gcf_offset", "atooms/postprocessing/sacf.py: StressAutocorrelation", "atooms/postprocessing/chi4t.py: Chi4SelfOverlap", "atooms/postprocessing/fkt.py: IntermediateScattering, SelfIntermediateScattering", "atooms/postprocessing/helpers.py: setup_t_grid"]}
{"id": "C108", "title": "The unit of time is arbitrary", "statement": "Multiplying the timestep, the total time and the requested times by the same positive factor multiplies the reported times by that factor and leaves the values unchanged.", "quantifier": "every trajectory, positive factor and time grid", "why_tests_cant": "a test uses one timestep", "anchors": ["atooms/postprocessing/msd.py: MeanSquareDisplacement", "atooms/postprocessing/vacf.py: VelocityAutocorrelation", "atooms/postprocessing/alpha2.py: NonGaussianParameter", "atooms/postprocessing/qt.py: SelfOverlap, CollectiveOverlap", "atooms/postprocessing/correlation.py: gcf_offset", "atooms/postprocessing/helpers.py: setup_t_grid, linear_grid"]}
{"id": "C109", "title": "Rotations, translations and the unit of length", "statement": "A map of space that multiplies all distances by s (e.g. a rotation, reflection, translation, or change of unit) multiplies the MSD by s^2, does not change the non-Gaussian parameter, and does not change the overlaps when the cut-off is multiplied by s; the VACF gets the square of the factor on velocities.", "quantifier": "every trajectory, similarity of space and time grid", "why_tests_cant": "a test uses one orientation and one unit of length", "anchors": ["atooms/postprocessing/msd.py: MeanSquareDisplacement", "atooms/postprocessing/vacf.py: VelocityAutocorrelation", "atooms/postprocessing/alpha2.py: NonGaussianParameter", "atooms/postprocessing/qt.py: SelfOverlap, CollectiveOverlap", "atooms/postprocessing/correlation.py: gcf_offset"]}
{"id": "C110", "title": "Partial one-body functions add up to the total", "statement": "For any division of the particles into groups, the MSD, the VACF and the self overlap of the whole system are the averages of those of the groups, weighted with the number of particles of each group.", "quantifier": "every trajectory, division of the particles in non-empty groups and time grid", "why_tests_cant": "tests compare totals and partials with stored values, not with each other", "anchors": ["atooms/postprocessing/msd.py: MeanSquareDisplacement", "atooms/postprocessing/vacf.py: VelocityAutocorrelation", "atooms/postprocessing/qt.py: SelfOverlap", "atooms/postprocessing/partial.py: Partial"]}
{"id": "C111", "title": "Reversing the trajectory does not change the dynamics", "statement": "Reading the frames from the last to the first, at the same steps, does not change the MSD, the non-Gaussian parameter and the overlaps, nor the VACF if the velocities change sign.", "quantifier": "every trajectory with uniform steps, time grid and number of origins", "why_tests_cant": "a test uses one trajectory, forward", "anchors": ["atooms/postprocessing/msd.py: MeanSquareDisplacement", "atooms/postprocessing/vacf.py: VelocityAutocorrelation", "atooms/postprocessing/alpha2.py: NonGaussianParameter", "atooms/postprocessing/qt.py: SelfOverlap, CollectiveOverlap", "atooms/postprocessing/correlation.py: gcf_offset"]}
{"id": "C112", "title": "Default time grid of the mean square displacement", "statement": "As documented, with rmax < 0 the default grid is linear up to half of the largest time, and with rmax > 0 up to the time at which the root mean square displacement reaches rmax.", "quantifier": "every trajectory and rmax", "why_tests_cant": "tests compare with stored values on one trajectory", "anchors": ["atooms/postprocessing/msd.py: MeanSquareDisplacement.__init__, _compute"]}
{"id": "C113", "title": "The data of an output file are those written", "statement": "Reading an output file as numpy.loadtxt does, i.e. without what follows a '#' and without blank lines, gives exactly the rows written, whatever the comments set by the user and the results of the analysis.", "quantifier": "every name, tag, comment, analysis and table", "why_tests_cant": "needs comments and names of any form", "anchors": ["atooms/postprocessing/correlation.py: Correlation.write", "atooms/postprocessing/helpers.py: _dump"]}
{"id": "C114", "title": "The header names one column per variable", "statement": "For a short name of the form name(v1,...,vn), grid_name is the list of the n variables and the header names n+1 columns; other short names cannot be written.", "quantifier": "every name and list of variables", "why_tests_cant": "tests do not look at the headers", "anchors": ["atooms/postprocessing/correlation.py: Correlation.grid_name, write"]}
{"id": "C115", "title": "All files of a calculation are at the output path", "statement": "The files written by a correlation function are at the output path that was set on it, and they are different.", "quantifier": "every output path, trajectory name and tag", "why_tests_cant": "tests only use default paths", "anchors": ["atooms/postprocessing/chi4t.py: Chi4SelfOverlap", "atooms/postprocessing/partial.py: Partial.output_path", "atooms/postprocessing/correlation.py: Correlation._output_file"]}
{"id": "C116", "title": "Each partial function has its own file", "statement": "The files of the partial functions of Partial, one for each species or ordered pair of species, are all different.", "quantifier": "every list of different species, trajectory name and output path", "why_tests_cant": "needs names and paths of any form", "anchors": ["atooms/postprocessing/partial.py: Partial", "atooms/postprocessing/correlation.py: Correlation._output_file"]}
{"id": "C117", "title": "Intermediate scattering functions and periodic images", "statement": "Moving the particles by whole cells, differently in each frame, does not change the self and coherent intermediate scattering functions, since the wave-vectors fit in the cell.", "quantifier": "every trajectory, cell, wave-vectors and images", "why_tests_cant": "tests use one set of images", "anchors": ["atooms/postprocessing/fkt.py: SelfIntermediateScattering, SelfIntermediateScatteringLegacy", "atooms/postprocessing/fkt.py: IntermediateScattering"]}
{"id": "C118", "title": "Labels and coordinate axes in the intermediate scattering functions", "statement": "The intermediate scattering functions do not change if the particles are relabelled, the origin is moved or the axes are inverted.", "quantifier": "every trajectory, permutation and translation", "why_tests_cant": "tests use the order and the origin of the file", "anchors": ["atooms/postprocessing/fkt.py: SelfIntermediateScattering, SelfIntermediateScatteringLegacy", "atooms/postprocessing/fkt.py: IntermediateScattering"]}
{"id": "C119", "title": "The self function of all particles is the average of those of two groups", "statement": "Without normalization, each value of F_s(k,t) of all particles is the average of the values of two groups weighted with the numbers of particles, at the same times and wave-vectors.", "quantifier": "every trajectory split into two groups, wave-vectors and time grid", "why_tests_cant": "tests do not compare partial and total values", "anchors": ["atooms/postprocessing/fkt.py: SelfIntermediateScattering, SelfIntermediateScatteringLegacy", "atooms/postprocessing/fkt.py: IntermediateScattering", "atooms/postprocessing/partial.py: Partial"]}
{"id": "C120", "title": "S4ktOverlap computes", "statement": "For a trajectory with at least one frame and a list of times, S4ktOverlap.compute() ends without exceptions and reports one list of values, one per wave-number, for each time.", "quantifier": "every trajectory, wave-vectors and time grid", "why_tests_cant": "the class has no tests; a test would show one failure, not that no input works", "anchors": ["atooms/postprocessing/s4kt.py: S4ktOverlap._compute, _tabulate_W"]}
{"id": "C121", "title": "Non-Gaussian parameter of Gaussian displacements", "statement": "If the second and fourth moments of the displacements between any two frames are those of a Gaussian, NonGaussianParameter is zero at all times, in any number of spatial dimensions.", "quantifier": "every trajectory with Gaussian moments, any number of dimensions", "why_tests_cant": "the factor 3/5 depends on the dimension; tests use three", "anchors": ["atooms/postprocessing/alpha2.py: NonGaussianParameter._compute"]}
{"id": "C122", "title": "Non-Gaussian parameter and time origins", "statement": "The value at a time is 3<r^4>/(5<r^2>^2)-1 with both averages over particles and time origins.", "quantifier": "every trajectory, stride and time grid", "why_tests_cant": "the two averages agree for large systems", "anchors": ["atooms/postprocessing/alpha2.py: NonGaussianParameter._compute", "atooms/postprocessing/correlation.py: gcf_offset"]}
{"id": "C123", "title": "g(r) of a bounded system is free of surface effects", "statement": "In a cell without periodic boundaries and with rmax > 0, the value of g(r) is the mean number of pairs at that straight-line distance made of a particle of the first group whose ball of radius rmax lies in the cell and a particle of the second group, divided by the density of the second group, the volume of the shell and the mean number of such inner particles. It is computed for every such trajectory.", "quantifier": "every non-periodic trajectory, rmax, spacing, sizes of the groups", "why_tests_cant": "tests use one cluster and compare with stored numbers; they do not have frames without inner particles", "anchors": ["atooms/postprocessing/gr.py: RadialDistributionFunctionFast._compute", "atooms/postprocessing/realspace.f90: on_surface_c", "atooms/postprocessing/linkedcells.py: LinkedCells.compute"]}
{"id": "C124", "title": "Default times of the intermediate scattering functions", "statement": "If the user gives no time grid, the times of F(k,t) and F_s(k,t) run from zero to the available time closest to 3/4 of the total time of the trajectory, in any unit of time.", "quantifier": "every trajectory, number of samples and unit of time", "why_tests_cant": "tests give time grids or trajectories that are long in the unit of time used", "anchors": ["atooms/postprocessing/fkt.py: IntermediateScatteringBase.__init__", "atooms/postprocessing/helpers.py: logx_grid"]}
{"id": "C125", "title": "A single time origin is the first frame", "statement": "If a single time origin is requested, the mean square displacement, the non-Gaussian parameter and the overlaps at every reported time are those between the first frame and the frame at that time after it, without averages.", "quantifier": "every trajectory, with or without blocks, time grid and kind of request (number 1 or string '1')", "why_tests_cant": "tests request one origin on trajectories without blocks, where number and string give the same result", "anchors": ["atooms/postprocessing/msd.py: MeanSquareDisplacement.__init__", "atooms/postprocessing/alpha2.py: NonGaussianParameter.__init__", "atooms/postprocessing/qt.py: CollectiveOverlap.__init__, SelfOverlap.__init__", "atooms/postprocessing/helpers.py: adjust_skip"]}
{"id": "C126", "title": "The path of a trajectory can be given in place of the trajectory", "statement": "A time correlation function constructed from the path of a file gives the same result as if constructed from the trajectory object, with any arguments.", "quantifier": "every trajectory, time grid, number of origins and samples", "why_tests_cant": "tests always pass trajectory objects, or paths together with time grids", "anchors": ["atooms/postprocessing/correlation.py: Correlation.__init__", "atooms/postprocessing/qt.py: SelfOverlap.__init__"]}
{"id": "C127", "title": "Default times of the non-Gaussian parameter, overlaps and dynamic susceptibility", "statement": "If the user gives no time grid, the times run from zero to the available time closest to 3/4 of the total time of the trajectory, in any unit of time.", "quantifier": "every trajectory, number of samples, number of origins and unit of time", "why_tests_cant": "tests use trajectories that are long in the unit of time used", "anchors": ["atooms/postprocessing/alpha2.py: NonGaussianParameter.__init__", "atooms/postprocessing/qt.py: CollectiveOverlap.__init__, SelfOverlap.__init__", "atooms/postprocessing/chi4t.py: Chi4SelfOverlap.__init__", "atooms/postprocessing/helpers.py: logx_grid"]}
{"id": "C128", "title": "Calculations on the same trajectory do not affect each other", "statement": "Several one-body functions calculated one after the other on the same trajectory, whose frames are in memory or cached, read the same arrays as each of them alone.", "quantifier": "every trajectory, every list of functions, with or without fixed centre of mass, with or without filters", "why_tests_cant": "tests open the trajectory anew for every calculation, or use files without unfolded positions", "anchors": ["atooms/postprocessing/correlation.py: Correlation._setup_arrays_onebody", "atooms/postprocessing/partial.py: Partial.compute"]}
{"id": "C129", "title": "Time reversal of the intermediate scattering functions", "statement": "The self and coherent intermediate scattering functions of a trajectory of equally spaced frames read backwards are the same as forwards.", "quantifier": "every trajectory, cell, wave-vectors, time grid, stride of the time origins, and pair of groups of particles", "why_tests_cant": "tests compare with reference values of one trajectory, read forwards", "anchors": ["atooms/postprocessing/fkt.py: SelfIntermediateScatteringLegacy._compute, SelfIntermediateScatteringFast._compute, IntermediateScattering._compute"]}
{"id": "C130", "title": "The metadata of an output file can be read back", "statement": "Splitting the comment lines of an output file in key and value gives the title with the name of the function and of the tag, the columns, the date, the program and its version, the trajectory file, and the results of the analysis that are not None, in this order, and nothing else.", "quantifier": "every function with a short name of the form name(v1,...,vn), tag, trajectory, analysis and table of data", "why_tests_cant": "tests read only the data of the files", "anchors": ["atooms/postprocessing/correlation.py: Correlation.write", "atooms/postprocessing/helpers.py: _dump"]}
{"id": "C131", "title": "No blanks in the names of the output files", "statement": "The long name and the description of the tag are inserted in the output path with underscores in place of blanks, and the clean-up of the path adds no blanks.", "quantifier": "every output path and names", "why_tests_cant": "tests use the default output path, without these fields", "anchors": ["atooms/postprocessing/correlation.py: Correlation._output_file"]}
{"id": "C132", "title": "g(r) does not depend on the order of the frames", "statement": "Exchanging the frames of a trajectory, all of which are time origins, does not change the radial distribution function, also if the cell fluctuates.", "quantifier": "every trajectory, permutation of its frames, grid and cut-off", "why_tests_cant": "tests use trajectories in a fixed cell and in one order", "anchors": ["atooms/postprocessing/gr.py: RadialDistributionFunctionLegacy._compute", "atooms/postprocessing/gr.py: RadialDistributionFunctionFast._compute"]}
{"id": "C133", "title": "The stride selects the frames of g(r)", "statement": "The radial distribution function computed with stride s is that of the trajectory made of the frames 0, s, 2s, ... with stride one, also if the number of particles fluctuates.", "quantifier": "every trajectory, stride, grid and cut-off", "why_tests_cant": "tests use all the frames or a constant number of particles", "anchors": ["atooms/postprocessing/gr.py: RadialDistributionFunctionLegacy._compute", "atooms/postprocessing/gr.py: RadialDistributionFunctionFast._compute"]}
{"id": "C134", "title": "The structure factor does not depend on the order of the frames, on the labels of the particles and on inversion", "statement": "Exchanging the frames (all of them time origins), exchanging the labels of the particles of a group together with their weights, differently in each frame, or changing the sign of all the coordinates does not change S(k), weighted or not, nor its value before the normalisation.", "quantifier": "every trajectory, one or two groups, weights and wave-vectors", "why_tests_cant": "tests compute one order, labelling and orientation", "anchors": ["atooms/postprocessing/sk.py: StructureFactorLegacy._compute"]}
{"id": "C135", "title": "The stride selects the frames of S(k)", "statement": "The structure factor computed with stride s is that of the trajectory made of the frames 0, s, 2s, ... with stride one, also if the number of particles fluctuates.", "quantifier": "every trajectory and stride", "why_tests_cant": "tests use a constant number of particles", "anchors": ["atooms/postprocessing/sk.py: StructureFactorLegacy._compute"]}
{"id": "C136", "title": "The weighted structure factor does not depend on the choice of the coordinates", "statement": "Moving the origin of the coordinates, or some particles by whole sides of the cell, does not change the weighted structure factor.", "quantifier": "every trajectory, weights, translation and periodic images", "why_tests_cant": "tests with weights use one trajectory and one origin", "anchors": ["atooms/postprocessing/sk.py: StructureFactorLegacy._compute", "atooms/postprocessing/correlation.py: Correlation.add_weight"]}
{"id": "C137", "title": "Weights all equal to one are no weights", "statement": "The structure factor weighted with ones is the one without weights.", "quantifier": "every trajectory and wave-vectors", "why_tests_cant": "tests compare weighted functions with reference files only", "anchors": ["atooms/postprocessing/sk.py: StructureFactorLegacy._compute", "atooms/postprocessing/correlation.py: Correlation.add_weight"]}
{"id": "C138", "title": "Both layouts of the Fortran kernels agree", "statement": "The kernels that take the positions by columns give the same histograms, masks and bins as those that take them by rows, with or without lists of neighbours, in either convention for the indices, and access no memory out of bounds.", "quantifier": "all positions, lists of neighbours, boxes, bin widths and histograms", "why_tests_cant": "the package calls one layout only; f2py does not check the bounds inside the routines", "anchors": ["atooms/postprocessing/realspace.f90: gr_self", "atooms/postprocessing/realspace.f90: gr_distinct", "atooms/postprocessing/realspace.f90: gr_neighbors_self", "atooms/postprocessing/realspace.f90: gr_neighbors_distinct", "atooms/postprocessing/realspace.f90: on_surface"]}
{"id": "C139", "title": "Lists of distances", "statement": "distances_self, distances_distinct and distances_single store each pair of particles of the requested range once, from the beginning of the array, and return their number; consecutive ranges give the consecutive parts of the list. They write beyond the end of the array if and only if it is shorter than the number of pairs.", "quantifier": "all positions, ranges of particles and arrays", "why_tests_cant": "the routines are not called by any test", "anchors": ["atooms/postprocessing/realspace.f90: distances_self", "atooms/postprocessing/realspace.f90: distances_distinct", "atooms/postprocessing/realspace.f90: distances_single"]}
{"id": "C140", "title": "on_border tells the particles close to the faces", "statement": "LinkedCells.on_border is true for a particle in the cell if and only if it lies in one of the outermost subcells, and is true for all the particles closer to a face than the cut-off. The Fortran routine bin_in_cell gives the same subcells.", "quantifier": "all cells, cut-offs and positions", "why_tests_cant": "on_border is not tested", "anchors": ["atooms/postprocessing/linkedcells.py: LinkedCells.on_border", "atooms/postprocessing/realspace.f90: bin_in_cell"]}
{"id": "C141", "title": "The analysis finds the peak", "statement": "The analysis of the non-Gaussian parameter and of the dynamic susceptibility gives the time and the height of the peak: the top of the parabola through the largest value and its neighbours, or the end point; the height is not below any value of the function.", "quantifier": "all trajectories, time grids and strides", "why_tests_cant": "tests do not check the results of these analyses", "anchors": ["atooms/postprocessing/alpha2.py: NonGaussianParameter.analyze", "atooms/postprocessing/chi4t.py: Chi4SelfOverlap.analyze", "atooms/postprocessing/helpers.py: ifabsmm"]}
{"id": "C142", "title": "The analysis of the self overlap gives the time to decay to 1/e", "statement": "analysis['tau'] of the self overlap is the first time at which the function is below 1/e, interpolated linearly, and None if and only if the function is never below 1/e.", "quantifier": "all trajectories, time grids and thresholds", "why_tests_cant": "tests do not check the relaxation time", "anchors": ["atooms/postprocessing/qt.py: SelfOverlap.analyze", "atooms/postprocessing/helpers.py: feqc"]}
{"id": "C143", "title": "The file of the relaxation times has one line per wave-number", "statement": "do() of an intermediate scattering function writes the file with suffix .tau, with one line per wave-number of the grid, in its order, followed by the time at which the function has decayed to 1/e, if it has; no other file changes than this and the file of the function.", "quantifier": "all grids and values, formats and files", "why_tests_cant": "tests do not read the .tau file", "anchors": ["atooms/postprocessing/fkt.py: _write_tau", "atooms/postprocessing/fkt.py: _extract_tau", "atooms/postprocessing/fkt.py: IntermediateScatteringLegacy.write", "atooms/postprocessing/fkt.py: SelfIntermediateScatteringLegacy.write"]}
{"id": "C144", "title": "do() works for trajectories in memory", "statement": "For a trajectory without a file, do() computes and analyses any correlation function and writes no file; with update=True it computes it again.", "quantifier": "all correlation functions and trajectories without a file name", "why_tests_cant": "tests in memory call compute() only", "anchors": ["atooms/postprocessing/correlation.py: Correlation.__init__", "atooms/postprocessing/correlation.py: Correlation.do", "atooms/postprocessing/correlation.py: Correlation.need_update", "atooms/postprocessing/fkt.py: SelfIntermediateScatteringLegacy.write"]}
{"id": "C145", "title": "do() writes the intermediate scattering function it has computed", "statement": "Once an intermediate scattering function has been computed, do() writes it, whatever the analysis of its relaxation times finds.", "quantifier": "all grids of wave-numbers and times, normalised or not", "why_tests_cant": "tests use time grids that start at zero or normalise the function", "anchors": ["atooms/postprocessing/fkt.py: _extract_tau", "atooms/postprocessing/correlation.py: Correlation.do"]}
{"id": "C146", "title": "compute() returns the grid and the values", "statement": "compute() returns the grid and the values that it has set, as stated in its documentation.", "quantifier": "all correlation functions", "why_tests_cant": "tests use the attributes of the object", "anchors": ["atooms/postprocessing/correlation.py: Correlation.compute", "atooms/postprocessing/fourierspace.py: FourierSpaceCorrelation.compute"]}
{"id": "C147", "title": "The wave-vectors used are those asked for", "statement": "The structure factor is computed with the wave-vectors that the user asked for: a k grid given to the constructor, a grid assigned to kgrid or wave-vectors assigned to kvectors after construction; kvectors returns them afterwards and grid is made of their mean norms.", "quantifier": "all cells, k grids and wave-vectors of the cell, trajectories with and without a fluctuating cell", "why_tests_cant": "tests do not assign kgrid, nor kvectors in a fluctuating cell", "anchors": ["atooms/postprocessing/fourierspace.py: FourierSpaceCorrelation.__init__", "atooms/postprocessing/fourierspace.py: FourierSpaceCorrelation._setup", "atooms/postprocessing/fourierspace.py: FourierSpaceCorrelation.kvectors", "atooms/postprocessing/sk.py: StructureFactorLegacy._compute"]}
{"id": "C148", "title": "The results for one file do not depend on the other files", "statement": "The commands sk, fkt and fskt give for each input file the result that they give for this file alone.", "quantifier": "all lists of input files, cells and k grids", "why_tests_cant": "tests give one file to each command", "anchors": ["atooms/postprocessing/api.py: sk", "atooms/postprocessing/api.py: fkt", "atooms/postprocessing/api.py: fskt", "atooms/postprocessing/fourierspace.py: FourierSpaceCorrelation._setup"]}
{"id": "C149", "title": "report() describes the wave-vectors of the result", "statement": "After compute(), report() prints one row per value of grid, with this value, the mean and the standard deviation of the norms, and the number of wave-vectors used, between one and nk.", "quantifier": "all cells, k grids and wave-vectors", "why_tests_cant": "tests do not check the table", "anchors": ["atooms/postprocessing/fourierspace.py: FourierSpaceCorrelation.report", "atooms/postprocessing/fourierspace.py: FourierSpaceCorrelation._setup", "atooms/postprocessing/partial.py: Partial.compute"]}
{"id": "C150", "title": "An explicit linear k grid is the same as kmin, kmax and ksamples", "statement": "A k grid given as the linear grid from kmin to kmax with ksamples points gives the same grid and values as the parameters kmin, kmax and ksamples.", "quantifier": "all positive kmin <= kmax, numbers of points, cells and trajectories", "why_tests_cant": "tests use one or the other", "anchors": ["atooms/postprocessing/fourierspace.py: FourierSpaceCorrelation._setup", "atooms/postprocessing/helpers.py: linear_grid", "atooms/postprocessing/sk.py: StructureFactorLegacy._compute"]}
{"id": "C151", "title": "g(r) does not depend on the unit of length", "statement": "If positions, cell, grid, dr and rmax are expressed in another unit of length, the distances of the table change by the same factor and the values of g(r) do not, for both implementations, with and without linked cells.", "quantifier": "all trajectories, grids, cut-offs and positive factors", "why_tests_cant": "tests use one unit", "anchors": ["atooms/postprocessing/gr.py: RadialDistributionFunctionLegacy._compute", "atooms/postprocessing/gr.py: RadialDistributionFunctionFast._compute", "atooms/postprocessing/linkedcells.py: LinkedCells.compute", "atooms/postprocessing/realspace.f90: gr_self"]}
{"id": "C152", "title": "Structure factor and intermediate scattering functions do not depend on the unit of length", "statement": "If positions and cell are expressed in another unit of length and the wave-numbers (kgrid, dk, kmin, kmax, wave-vectors assigned by the user) in the inverse unit, the wave-numbers of the result change by the inverse factor and the values of S(k), F_s(k,t) and F(k,t) do not, with the same exceptions.", "quantifier": "all trajectories (also with a cell that changes), weights, grids, wave-vectors and positive factors", "why_tests_cant": "tests use one unit", "anchors": ["atooms/postprocessing/fourierspace.py: FourierSpaceCorrelation._setup", "atooms/postprocessing/fourierspace.py: FourierSpaceCorrelation._setup_grid_sphere", "atooms/postprocessing/fourierspace.py: FourierSpaceCorrelation.kvectors", "atooms/postprocessing/sk.py: StructureFactorLegacy._compute", "atooms/postprocessing/sk.py: StructureFactorFast._compute", "atooms/postprocessing/fkt.py: SelfIntermediateScatteringLegacy._compute", "atooms/postprocessing/fkt.py: IntermediateScattering._compute"]}
{"id": "C153", "title": "g(r) does not depend on the choice of the coordinate axes", "statement": "If the coordinate axes are permuted, and some of them inverted, the table of g(r) does not change, for both implementations, with and without linked cells, periodic or not, with the same exceptions.", "quantifier": "all trajectories, cells, grids, cut-offs, permutations and inversions of the axes", "why_tests_cant": "tests use cubic cells and one choice of the axes", "anchors": ["atooms/postprocessing/gr.py: RadialDistributionFunctionLegacy._compute", "atooms/postprocessing/gr.py: RadialDistributionFunctionFast._compute", "atooms/postprocessing/linkedcells.py: LinkedCells.compute", "atooms/postprocessing/realspace.f90: gr_self", "atooms/postprocessing/realspace.f90: gr_neighbors_self"]}
{"id": "C154", "title": "The bond-angle distribution does not depend on the origin, on the axes and on the unit of length", "statement": "If all the particles are translated, if the coordinate axes are permuted and some of them inverted, or if positions, cell and cut-offs are expressed in another unit of length, the bond-angle distribution does not change, with the same exceptions.", "quantifier": "all trajectories, cut-offs, grids of angles, translations, permutations and inversions of the axes, positive factors", "why_tests_cant": "tests use one choice of the coordinates", "anchors": ["atooms/postprocessing/ba.py: BondAngleDistribution._compute", "atooms/postprocessing/realspace.f90: bond_angle", "atooms/postprocessing/realspace.f90: neighbors"]}
{"id": "C155", "title": "The bond-angle distribution does not depend on the labels of the particles and on the order of the frames", "statement": "If the particles of each frame, with their species, are listed in another order, the bond-angle distribution does not change, also if a neighbour list overflows. If all the frames are used, their order does not matter.", "quantifier": "all trajectories with the particles in the cell, cut-offs, grids of angles and permutations", "why_tests_cant": "tests use one order", "anchors": ["atooms/postprocessing/ba.py: BondAngleDistribution._compute", "atooms/postprocessing/realspace.f90: bond_angle", "atooms/postprocessing/realspace.f90: neighbors"]}
{"id": "C156", "title": "The bond-angle distribution does not depend on the periodic images of the particles", "statement": "If each particle is replaced by one of its periodic images, the bond-angle distribution does not change.", "quantifier": "all trajectories, cut-offs, grids of angles and shifts by whole cell sides", "why_tests_cant": "tests use particles in the cell", "anchors": ["atooms/postprocessing/ba.py: BondAngleDistribution._compute", "atooms/postprocessing/realspace.f90: bond_angle", "atooms/postprocessing/realspace.f90: neighbors"]}
{"id": "C157", "title": "Averages over a trajectory are the weighted averages over its parts", "statement": "If a trajectory is cut in two parts, the structure factor and the radial distribution function of the whole are the averages of those of the parts, weighted by their numbers of frames (all frames used as time origins).", "quantifier": "all trajectories, all positions of the cut, all grids", "why_tests_cant": "tests compute the functions of whole trajectories only", "anchors": ["atooms/postprocessing/sk.py: StructureFactorLegacy._compute", "atooms/postprocessing/gr.py: RadialDistributionFunctionLegacy._compute", "atooms/postprocessing/gr.py: RadialDistributionFunctionFast._compute"]}
{"id": "C158", "title": "The dynamic susceptibility does not depend on labels, orientation and units", "statement": "If the particles are listed in another order, if they are translated, rotated or reflected, or if positions and the cut-off a are expressed in another unit of length, the dynamic susceptibility and its two auxiliary correlations do not change; if the unit of time changes, the times are multiplied by the factor and the values do not change. Plain and optimized version, with the same exceptions.", "quantifier": "all trajectories, permutations, similarities, positive factors, time grids", "why_tests_cant": "tests use one choice of labels and units", "anchors": ["atooms/postprocessing/chi4t.py: Chi4SelfOverlap._compute", "atooms/postprocessing/chi4t.py: Chi4SelfOverlapOptimized._compute"]}
{"id": "C159", "title": "The results of the analysis carry the units of the data", "statement": "If the unit or the origin of the abscissas and of the values of a correlation function change, roots, extrema and slopes found by the analysis change accordingly: diffusive and relaxation times are multiplied by the factor of the unit of time, the diffusion coefficient by the square of the factor of length over that of time, positions and heights of the peaks by the factors of abscissas and values; the opposite sign of the values exchanges minimum and maximum.", "quantifier": "all data, factors and shifts, including data for which an exception is raised", "why_tests_cant": "tests use one choice of units", "anchors": ["atooms/postprocessing/helpers.py: feqc", "atooms/postprocessing/helpers.py: ifabsmm", "atooms/postprocessing/helpers.py: linear_fit", "atooms/postprocessing/msd.py: MeanSquareDisplacement.analyze", "atooms/postprocessing/qt.py: SelfOverlap.analyze", "atooms/postprocessing/fkt.py: _extract_tau", "atooms/postprocessing/chi4t.py: Chi4SelfOverlap.analyze"]}
{"id": "C160", "title": "The intermediate scattering function starts from the structure factor", "statement": "With normalize=False, the values of IntermediateScattering at time zero are those of StructureFactor for the same frames, wave-vectors and groups of particles.", "quantifier": "all regular trajectories with increasing steps, whose time grid has one entry at zero lag without offset", "why_tests_cant": "the two quantities are tested separately, on data with their own wave-vectors", "anchors": ["atooms/postprocessing/fkt.py: IntermediateScattering._compute", "atooms/postprocessing/sk.py: StructureFactorLegacy._compute"]}
{"id": "C161", "title": "Total, self and distinct parts add up", "statement": "For one group of N particles, value_nonorm of the coherent intermediate scattering function is N times the self part without normalisation plus the mean over wave-vectors and pairs of frames of the cosines of pairs of distinct particles; for one particle the two functions are the same. The structure factor is 1 plus the mean of these terms over N.", "quantifier": "all regular trajectories in two or three dimensions with a constant number of particles, all grids", "why_tests_cant": "needs an independent double sum over particles for each trajectory", "anchors": ["atooms/postprocessing/fkt.py: IntermediateScattering._compute", "atooms/postprocessing/fkt.py: SelfIntermediateScatteringLegacy._compute", "atooms/postprocessing/sk.py: StructureFactorLegacy._compute"]}
{"id": "C162", "title": "Fixing the centre of mass splits the mean square displacement", "statement": "For particles of equal masses, the mean square displacement with fix_cm=True plus the mean square displacement of the centre of mass is the mean square displacement with fix_cm=False, at every time; fix_cm never makes it larger.", "quantifier": "all trajectories of unfolded positions with N > 0 particles of the same non-zero mass, all grids and strides", "why_tests_cant": "one trajectory gives numbers that agree up to rounding; the identity holds for all", "anchors": ["atooms/postprocessing/msd.py: MeanSquareDisplacement._compute", "atooms/postprocessing/correlation.py: _setup_arrays_onebody (fix_cm)"]}
{"id": "C163", "title": "Self intermediate scattering function and mean square displacement", "statement": "For the same frames and pairs of frames, 1 - k^2 MSD(t)/2 <= F_s(k,t) <= 1 at every time and grid point, where k is the largest norm of the wave-vectors of the grid point.", "quantifier": "all regular trajectories, grids and sets of wave-vectors", "why_tests_cant": "the classes are tested separately on their own grids", "anchors": ["atooms/postprocessing/fkt.py: SelfIntermediateScatteringLegacy._compute", "atooms/postprocessing/msd.py: MeanSquareDisplacement._compute"]}
{"id": "C164", "title": "Overlap and mean square displacement", "statement": "For the same frames and pairs of frames, 1 - Q_s(t) <= MSD(t)/a^2 at every time, for the self overlap, and the same for the collective overlap.", "quantifier": "all trajectories with N > 0 particles, all a different from 0, grids and strides", "why_tests_cant": "the classes are tested separately on their own grids", "anchors": ["atooms/postprocessing/qt.py: SelfOverlap._compute, CollectiveOverlap._compute", "atooms/postprocessing/msd.py: MeanSquareDisplacement._compute"]}
{"id": "C165", "title": "Global options keep the values given", "statement": "Whatever keywords a function of the api receives, an option that is given keeps its value and one that is missing has its documented default; the only exception is that a filter switches off the partial functions. Filling in the defaults twice is the same as once.", "quantifier": "all dictionaries of options, with any keys and values", "why_tests_cant": "there are infinitely many dictionaries; tests use the defaults", "anchors": ["atooms/postprocessing/api.py: _compat"]}
{"id": "C166", "title": "Implementations are fast by default", "statement": "As the help of pp.py says, all commands with several implementations use the fast one by default and the legacy one with --legacy.", "quantifier": "all commands, all combinations of fast, legacy and of availability of the compiled modules", "why_tests_cant": "tests of the api use the default options only and compare no values", "anchors": ["atooms/postprocessing/api.py: gr, sk, fskt, chi4qs", "atooms/postprocessing/gr.py: RadialDistributionFunction", "bin/pp.py: --fast, --legacy"]}
{"id": "C167", "title": "All the input files given to a function of the api are used", "statement": "A call to a function of the api with several files computes the correlation function for each of them.", "quantifier": "all functions of the api, all numbers of files, all keywords", "why_tests_cant": "tests pass one file", "anchors": ["atooms/postprocessing/api.py: gr, sk, ik, msd, vacf, fkt, fskt, chi4qs, alpha2, qst, qt, ba (signatures)"]}
{"id": "C168", "title": "Grids given as strings", "statement": "A grid of wave-numbers given as a string consists of the numbers between the commas, in order, and anything else raises ValueError; the time grid is linear for 'linear' and 'linear_grid', logarithmic for 'logx' and 'logx_grid', and any other name raises KeyError.", "quantifier": "all non-empty lists of strings without commas; all names", "why_tests_cant": "infinitely many strings", "anchors": ["atooms/postprocessing/api.py: _func_db", "atooms/postprocessing/api.py: sk, ik, fkt, fskt (kgrid)"]}
{"id": "C169", "title": "The overlap bounds the dynamic susceptibility", "statement": "With A the average number of particles that moved less than a and N the number of particles, the dynamic susceptibility computed by a new object is between 0 and A (N - A) / N at every time of the grid; it vanishes if no particle, or every particle, moves less than a.", "quantifier": "all trajectories, parameters a, grids and strides", "why_tests_cant": "the bound must hold for every configuration; tests compare one trajectory with reference values", "anchors": ["atooms/postprocessing/chi4t.py: Chi4SelfOverlap._compute"]}
{"id": "C170", "title": "Upper bound of the non-Gaussian parameter", "statement": "Every value of the non-Gaussian parameter of N particles at a non-zero time is at most 3N/5 - 1, and between two frames the bound is reached if and only if only one particle moved.", "quantifier": "all trajectories and grids", "why_tests_cant": "the bound must hold for every configuration", "anchors": ["atooms/postprocessing/alpha2.py: NonGaussianParameter._compute"]}
{"id": "C171", "title": "The value at time zero bounds the others", "statement": "On a trajectory of N frames with uniform steps, the value C(m) of the velocity autocorrelation function m frames apart satisfies (N - m) |C(m)| <= N C(0), and so does the intermediate scattering function for every wave-number; normalised to its value at time zero it satisfies (N - m) |F(m)| <= N.", "quantifier": "all trajectories with uniform steps, all grids and wave-vectors", "why_tests_cant": "the bound must hold for every configuration", "anchors": ["atooms/postprocessing/vacf.py: VelocityAutocorrelation._compute", "atooms/postprocessing/fkt.py: IntermediateScattering._compute", "atooms/postprocessing/correlation.py: gcf_offset"]}
{"id": "C172", "title": "The mean square displacement grows at most quadratically", "statement": "On a trajectory of N frames with uniform steps, (N - m) MSD(m) <= m^2 (N - 1) MSD(1) where MSD(m) is the mean square displacement m frames apart.", "quantifier": "all trajectories with uniform steps, all grids", "why_tests_cant": "the bound must hold for every configuration", "anchors": ["atooms/postprocessing/msd.py: MeanSquareDisplacement._compute", "atooms/postprocessing/correlation.py: gcf_offset"]}
{"id": "C173", "title": "Symmetries of the spectral density", "statement": "Both arrays of the spectral density stay the same if the origin of the coordinates is moved (by different vectors in different frames), if the coordinates are inverted, if the particles are listed in another order together with their radii, if particles are replaced by periodic images, and, if all frames are used, if the frames are in another order.", "quantifier": "all frames, shifts, permutations, images and wave-vectors", "why_tests_cant": "infinitely many transformations", "anchors": ["atooms/postprocessing/ik.py: SpectralDensity._compute"]}
{"id": "C174", "title": "Units and bounds of the susceptibility", "statement": "If the values y of the correlation function are replaced by a y + b, the susceptibility is multiplied by a^2 at all grid points (and raises the same exceptions); if the values are between lo and hi, the susceptibility is between 0 and N (hi - lo)^2 / 4; it is zero at a grid point if and only if all sub-trajectories have the same value there.", "quantifier": "all correlation functions (including those that raise), grids, strides, a and b", "why_tests_cant": "infinitely many functions; the class has no tests", "anchors": ["atooms/postprocessing/susceptibility.py: Susceptibility.compute"]}
{"id": "C175", "title": "Symmetries, units and bound of the stress autocorrelation", "statement": "The stress autocorrelation stays the same if the velocities of some frames are reversed, if the particles are listed in another order together with their masses, and, for symmetric stresses, if the axes are permuted and inverted; in other units of mass, velocity and volume the values are multiplied by the square of the unit of stress times volume divided by that of volume; on a trajectory of N frames with uniform steps, (N - m) |C(m)| <= N C(0) where C(m) is the value m frames apart.", "quantifier": "all trajectories in three dimensions without filters, masses, permutations, units and grids", "why_tests_cant": "infinitely many transformations; the class has no tests", "anchors": ["atooms/postprocessing/sacf.py: StressAutocorrelation._get_stress, _compute"]}
{"id": "C176", "title": "A calculation writes only its own file", "statement": "Calling do() on a correlation function changes no other file than the one that this function writes, whatever files of other functions of the same trajectory exist.", "quantifier": "all files, output paths, species, results and exceptions of the calculations", "why_tests_cant": "existing tests look at the file that is expected, not at all the others; the files depend on names and on the order of calculations", "anchors": ["atooms/postprocessing/correlation.py: do, write", "atooms/postprocessing/ba.py: _default_rcut", "atooms/postprocessing/partial.py: Partial.do"]}
{"id": "C177", "title": "Weights are those of the weight trajectory", "statement": "After add_weight(trajectory, field), the weights used in each frame are the values of the field of the particles of the weight trajectory in the same frame, one for each particle, in order.", "quantifier": "all trajectories, weight trajectories, fields and frames, and weights added before", "why_tests_cant": "the numbers of particles may differ, and properties are dynamic attributes", "anchors": ["atooms/postprocessing/correlation.py: add_weight, weight_onebody, weight_twobody", "atooms/postprocessing/helpers.py: copy_field"]}
{"id": "C178", "title": "Weights of one object do not change those of another", "statement": "Adding weights to a correlation function of a trajectory does not change the weights that are used by another correlation function of the same trajectory.", "quantifier": "all trajectories, weight trajectories, fields and frames", "why_tests_cant": "the state is in the callbacks of the shared trajectory, tests use one object at a time", "anchors": ["atooms/postprocessing/correlation.py: add_weight", "atooms/postprocessing/helpers.py: copy_field", "atooms/postprocessing/partial.py: add_weight"]}
{"id": "C179", "title": "Different weights write to different files", "statement": "Correlation functions of the same trajectory with different weights (property, fluctuations or not, weight trajectory) are written to different files, also different from the file of the function without weights.", "quantifier": "all names of trajectories, properties, symbols and tags without special characters, all weight trajectories", "why_tests_cant": "names are strings made by templates and regular substitutions, tests look at one or two of them", "anchors": ["atooms/postprocessing/correlation.py: add_weight, _output_file", "atooms/postprocessing/core.py: pp_output_path"]}
{"id": "C180", "title": "The weights of the command sk apply to all files", "statement": "With the options weight and weight_trajectory, the command sk computes for each of the input files the total and partial structure factors with the weights asked for.", "quantifier": "all lists of files, steps, numbers of species, properties", "why_tests_cant": "tests use a single file; the failure depends on a variable that is bound again inside a loop", "anchors": ["atooms/postprocessing/api.py: sk", "atooms/postprocessing/partial.py: Partial.add_weight", "atooms/postprocessing/correlation.py: add_weight"]}
{"id": "C181", "title": "Symmetries and bounds of acf", "statement": "acf() multiplies its result by c**2 if the data are multiplied by c and shifted by any constant; it does not depend on the origin of the times; for equally spaced times its lags are those of the grid times the spacing, each value is the average over the N-m pairs of points m apart of the products of the deviations from the mean, it is the same for the series read backwards, and it is bounded by N/(N-m) times the variance.", "quantifier": "all series, grids, times, spacings and constants", "why_tests_cant": "statements about all series and constants in exact arithmetic", "anchors": ["atooms/postprocessing/correlation.py: acf"]}
{"id": "C182", "title": "Species are numbered in the same way in all frames and groups", "statement": "The bond-angle calculation gives each species the same integer in all frames and in both groups of particles; different species have different integers, smaller than the number of rows of the table of cut-offs, listed in the order of the positions.", "quantifier": "all trajectories, filters and sets of species", "why_tests_cant": "tests use trajectories whose frames have all the same species", "anchors": ["atooms/postprocessing/correlation.py: _setup_arrays_onebody, _setup_arrays_twobody", "atooms/postprocessing/ba.py: BondAngleDistribution"]}
{"id": "C183", "title": "Partial intermediate scattering functions add up", "statement": "At each wave-number and time the coherent intermediate scattering functions of all pairs of species computed by Partial, before the normalisation, add up to the function of the whole system.", "quantifier": "all mixtures, trajectories, wave-vectors and time grids", "why_tests_cant": "identity over all trajectories in exact arithmetic; it needs several species and correlations that are not symmetric in time", "anchors": ["atooms/postprocessing/fkt.py: IntermediateScattering._compute", "atooms/postprocessing/partial.py: Partial.compute"]}
{"id": "C184", "title": "The stride selects frames (bond angles and spectral density)", "statement": "Bond-angle distributions and spectral densities computed with a stride are those of the trajectory that has only the frames 0, skip, 2 skip, ....", "quantifier": "all trajectories, strides, grids, cut-offs and wave-vectors", "why_tests_cant": "all strides and trajectories; the failure needs a cell that changes in frames which are not used", "anchors": ["atooms/postprocessing/ba.py: BondAngleDistribution._compute", "atooms/postprocessing/ik.py: SpectralDensity._compute"]}
{"id": "C185", "title": "Bond-angle distribution of the parts of a trajectory", "statement": "The bond-angle distribution of a trajectory cut in two parts is the average of those of the two parts, weighted by their numbers of angles below the last point of the grid.", "quantifier": "all trajectories, cut-offs and spacings", "why_tests_cant": "exact identity between three runs, for all trajectories", "anchors": ["atooms/postprocessing/ba.py: BondAngleDistribution._compute"]}
{"id": "C186", "title": "Bond-angle distributions can be computed again", "statement": "Calling compute twice on the same bond-angle object gives the same grid of angles and the same distribution.", "quantifier": "all trajectories, cut-offs, strides and spacings of the grid, any number of calls", "why_tests_cant": "tests call compute once per object; after the second call the arrays still look like a distribution", "anchors": ["atooms/postprocessing/ba.py: BondAngleDistribution._compute", "atooms/postprocessing/correlation.py: compute, _setup_arrays_twobody"]}
{"id": "C187", "title": "Scattering functions and spectral density can be computed again", "statement": "Calling compute twice on the same object of a self or coherent intermediate scattering function or of a spectral density gives the same result.", "quantifier": "all trajectories, wave-vectors, time grids and strides, any number of calls", "why_tests_cant": "tests call compute once per object; the failure depends on arrays that grow at each call", "anchors": ["atooms/postprocessing/fkt.py: _compute", "atooms/postprocessing/ik.py: SpectralDensity._compute", "atooms/postprocessing/correlation.py: compute, _setup_arrays_onebody, _setup_arrays_twobody"]}
{"id": "C188", "title": "Distances are histogrammed in blocks of bounded size", "statement": "In the calculation of g(r) in python the distances between the n particles of a group are passed to the histogram in blocks: each pair is in one block, once, no block has more than 100000 distances (n-1 if this is larger), and there is only one block if n(n-1) is at most 100000.", "quantifier": "all numbers of particles and all positions", "why_tests_cant": "the limit only matters for systems larger than those of the tests", "anchors": ["atooms/postprocessing/gr.py: pairs_newton_hist"]}
{"id": "C189", "title": "Partial bond-angle distributions add up", "statement": "The bond-angle distributions of all pairs of species (centre, neighbours), weighted by their numbers of angles, add up to the distribution of all particles.", "quantifier": "all mixtures, trajectories, cut-offs, strides and spacings", "why_tests_cant": "tests compute total and partial distributions separately; each looks right alone", "anchors": ["atooms/postprocessing/ba.py: BondAngleDistribution._compute", "atooms/postprocessing/partial.py: Partial.compute", "atooms/postprocessing/helpers.py: filter_species"]}
{"id": "C190", "title": "S(k) as a sum over pairs", "statement": "S(k) of one group of N particles is one plus 2/N times the average, over the frames used and the wave-vectors of the shell, of the sum over pairs of the cosine of k times the distance vector of the pair, whatever periodic image is used for each pair. For two groups of N and M particles it is the average of the sum over all pairs (one particle per group), divided by the square root of NM.", "quantifier": "all trajectories with a constant number of particles, all shells of wave-vectors and all choices of periodic images", "why_tests_cant": "the code never computes a distance vector; tests compare stored numbers", "anchors": ["atooms/postprocessing/sk.py: StructureFactorLegacy._compute", "atooms/postprocessing/fourierspace.py: FourierSpaceCorrelation", "atooms/postprocessing/fourierspace.py: expo_sphere"]}
{"id": "C191", "title": "g(r) is zero exactly where there are no pairs", "statement": "The value of g(r) at a point of the grid is different from zero if and only if in some used frame some pair of particles has its distance in the bin of this point.", "quantifier": "all trajectories, groups, strides and spacings; the methods in python, in fortran and with linked cells", "why_tests_cant": "tests check sums or a few values, which lost or doubled pairs in other bins do not change", "anchors": ["atooms/postprocessing/gr.py: RadialDistributionFunctionLegacy._compute", "atooms/postprocessing/gr.py: RadialDistributionFunctionFast._compute", "atooms/postprocessing/linkedcells.py: LinkedCells.compute"]}
{"id": "C192", "title": "g(r) with a doubled spacing", "statement": "The value of g(r) computed with a spacing 2w is the average of the two values with the spacing w in the same bin, weighted by the volumes of their shells.", "quantifier": "all trajectories, groups, strides and spacings, in any dimension", "why_tests_cant": "tests use one spacing only", "anchors": ["atooms/postprocessing/gr.py: RadialDistributionFunctionLegacy._compute", "atooms/postprocessing/gr.py: RadialDistributionFunctionFast._compute", "atooms/postprocessing/gr.py: RadialDistributionFunctionLegacy._setup_grid"]}
{"id": "C193", "title": "Bond-angle distribution with a doubled spacing", "statement": "The bond-angle distribution computed with a spacing 2w is the mean of the two values with the spacing w in the same bin, up to a constant at least 1, which is 1 if the number of bins of width w is even.", "quantifier": "all trajectories, cut-offs, strides and spacings up to 90 degrees", "why_tests_cant": "tests use one spacing only", "anchors": ["atooms/postprocessing/ba.py: BondAngleDistribution._compute", "atooms/postprocessing/ba.py: BondAngleDistribution.__init__"]}
{"id": "C194", "title": "The value at a time does not depend on the other times requested", "statement": "The times reported for a time grid, and the values of a correlation function at these times, do not change if further times are added to the grid.", "quantifier": "all trajectories, correlation functions, strides and grids", "why_tests_cant": "tests compute each function on one grid", "anchors": ["atooms/postprocessing/helpers.py: setup_t_grid", "atooms/postprocessing/correlation.py: gcf_offset"]}
{"id": "C195", "title": "Help messages are complete and fit the width", "statement": "The help of an argument keeps its text, adds the default value exactly for options and optional arguments with a default that do not show it yet, and its lines have all the text in order and fit the width.", "quantifier": "all arguments, texts, widths and ways of wrapping lines", "why_tests_cant": "the help is never tested", "anchors": ["atooms/postprocessing/core.py: CustomHelpFormatter._get_help_string", "atooms/postprocessing/core.py: CustomHelpFormatter._split_lines"]}
{"id": "C196", "title": "The script acf.py prints the autocorrelation function", "statement": "The script acf.py prints one line per lag with the autocorrelation function of the numbers read.", "quantifier": "all input data", "why_tests_cant": "scripts are not run by the tests", "anchors": ["bin/acf.py: main", "atooms/postprocessing/correlation.py: acf"]}
{"id": "C197", "title": "Progress bars do not affect the loops", "statement": "A loop over a progress bar goes through all the objects once and in order, updates set the position to the value given if the bar is active, exceptions pass through, and the fallback bar can replace the one of tqdm.", "quantifier": "all loops, sequences of updates and options", "why_tests_cant": "bars are disabled in the tests", "anchors": ["atooms/postprocessing/progress.py: NoProgressBar", "atooms/postprocessing/progress.py: CustomProgressBar"]}
{"id": "C198", "title": "show() plots the function", "statement": "show() plots the values against the grid, with the names of the function and of the variable on the axes.", "quantifier": "all functions, grids and values", "why_tests_cant": "plots are not tested", "anchors": ["atooms/postprocessing/correlation.py: Correlation.show", "atooms/postprocessing/correlation.py: _is_iterable", "atooms/postprocessing/correlation.py: Correlation.grid_name"]}
{"id": "C199", "title": "Extinctions and Bragg peaks of S(k)", "statement": "The structure factor is zero at a wave number if each of its wave-vectors k has a translation t that repeats the particles, up to order and periodic images, with k.t not a multiple of 2 pi; it is the number of particles if k.(x-y) is a multiple of 2 pi for all pairs of particles and all its wave-vectors.", "quantifier": "all crystals, cells, dimensions, frames, strides and wave-vectors", "why_tests_cant": "no test uses a crystal, and rounding errors hide exact zeros", "anchors": ["atooms/postprocessing/sk.py: StructureFactorLegacy._compute", "atooms/postprocessing/fourierspace.py: expo_sphere"]}
{"id": "C200", "title": "Copies of a system", "statement": "The mean square displacement, the velocity autocorrelation function, the non-Gaussian parameter and the self overlap of k copies of a system, each displaced by any vector, are those of one copy; its dynamic susceptibility and average overlap are k times larger, the mean square of the overlap k squared times.", "quantifier": "all systems, numbers of copies, displacements, orders of the particles, trajectories and time origins", "why_tests_cant": "tests run on single systems", "anchors": ["atooms/postprocessing/msd.py: MeanSquareDisplacement._compute", "atooms/postprocessing/vacf.py: VelocityAutocorrelation._compute", "atooms/postprocessing/alpha2.py: NonGaussianParameter._compute", "atooms/postprocessing/qt.py: SelfOverlap._compute", "atooms/postprocessing/chi4t.py: Chi4SelfOverlap._compute", "atooms/postprocessing/chi4t.py: Chi4SelfOverlapOptimized._compute"]}
{"id": "C201", "title": "g(r) of a repeated cell", "statement": "If the cell and its particles are repeated any number of times along the axes, the values of g(r) up to half the smallest side of the single cell do not change.", "quantifier": "all systems, numbers of copies along each axis, orders of the particles, periodic images, groups of particles, strides and spacings", "why_tests_cant": "tests use one system size, and statistical errors hide differences between sizes", "anchors": ["atooms/postprocessing/gr.py: RadialDistributionFunctionLegacy._compute", "atooms/postprocessing/gr.py: gr_kernel", "atooms/postprocessing/gr.py: pairs_newton_hist", "atooms/postprocessing/gr.py: pairs_hist"]}
{"id": "C202", "title": "S(k) of a repeated cell", "statement": "If the cell and its particles are repeated m_c times along each axis, S(k) at a grid point with the same wave-vectors is multiplied by the number of copies, and S(k) is zero at a grid point none of whose wave-vectors is a wave-vector of the single cell.", "quantifier": "all systems, numbers of copies, orders and periodic images of the particles, groups, strides and wave-vector grids", "why_tests_cant": "tests use one small system and compare a few values with a tolerance", "anchors": ["atooms/postprocessing/sk.py: StructureFactorLegacy._compute", "atooms/postprocessing/fourierspace.py: FourierSpaceCorrelation"]}
{"id": "C203", "title": "The conditions of filters refer to the attributes of the particles", "statement": "A filter selects, in order and once each, the particles whose attributes meet the condition; conditions joined by and, or, not select intersections, unions and complements; a condition on an attribute that some particle does not have raises an exception.", "quantifier": "all particles with arbitrary attributes, all expressions, all semantics of comparisons", "why_tests_cant": "tests filter by species only, with attributes that exist", "anchors": ["atooms/postprocessing/filter.py: Filter"]}
{"id": "C204", "title": "Filters do not modify the particles", "statement": "Evaluating a filter does not change the particles of the system: their number, the values of their attributes and their sets of attributes; other filters select the same groups afterwards.", "quantifier": "all particles with arbitrary attributes, all conditions", "why_tests_cant": "tests look at the values of the correlation functions, not at the particles afterwards", "anchors": ["atooms/postprocessing/filter.py: Filter"]}
{"id": "C205", "title": "Conditions of two-body functions may contain commas inside brackets or strings", "statement": "For a function of pairs a condition is split at the commas between the two groups only: commas inside brackets or strings belong to the expression.", "quantifier": "all conditions and all particles", "why_tests_cant": "tests use one pair of conditions without other commas", "anchors": ["atooms/postprocessing/filter.py: Filter"]}
{"id": "C206", "title": "Values for particles that do not move", "statement": "The mean square displacement at a time is zero exactly if no particle has moved in the pairs of frames used; the self overlap is one exactly if all have moved by less than the threshold and zero exactly if none has; the dynamic susceptibility is zero exactly if the overlap is the same for all origins; the non-Gaussian parameter is nan exactly if two distinct frames used coincide; F_s(k,t) is one exactly if all displacements are commensurate with all the wave-vectors.", "quantifier": "all trajectories, time grids, numbers of origins, thresholds and wave-vectors", "why_tests_cant": "tests use trajectories in which particles move generically", "anchors": ["atooms/postprocessing/msd.py: MeanSquareDisplacement._compute", "atooms/postprocessing/qt.py: SelfOverlap._compute", "atooms/postprocessing/chi4t.py: Chi4SelfOverlap._compute", "atooms/postprocessing/alpha2.py: NonGaussianParameter._compute", "atooms/postprocessing/fkt.py: SelfIntermediateScatteringLegacy._compute"]}
{"id": "C207", "title": "Filters and weights can be given in either order", "statement": "Filter followed by add_weight and add_weight followed by Filter give the same calculation, and write the results to the same file with the same description, which is not the file of the function without weights.", "quantifier": "all objects, conditions, weight fields, weight trajectories and options", "why_tests_cant": "tests never combine a filter with a weight", "anchors": ["atooms/postprocessing/filter.py: Filter", "atooms/postprocessing/correlation.py: Correlation.add_weight", "atooms/postprocessing/correlation.py: Correlation._output_file"]}
{"id": "C208", "title": "Dynamic functions of particles in uniform motion", "statement": "If every particle p of a trajectory moves with a constant velocity v_p, at whatever steps the frames were written, then at time t: the self overlap computed by SelfOverlap is the fraction of particles with |v_p| t < a; the velocity autocorrelation function is the mean of v_p^2; the non-Gaussian parameter is 3<v^4>/(5<v^2>^2) - 1 at every time other than zero, where it is 0, and -2/5 if all speeds are equal; the dynamic susceptibility chi_4 is zero if the frames are evenly spaced; the self intermediate scattering function before normalisation is the mean over the particles and the wave-vectors of cos(k.v_p t); and the intermediate scattering function before normalisation of a system that drifts as a whole is the mean over the wave-vectors of cos(k.v t) |rho_k|^2.", "quantifier": "all numbers of frames, particles and dimensions, all steps, time steps, skips, time grids, starting positions and velocities, all sets of wave-vectors allowed by the object", "why_tests_cant": "a test looks at a few velocities and steps; that the value depends on the time only, and not on the time origin or on the starting positions, has to hold for all", "anchors": ["atooms/postprocessing/qt.py", "atooms/postprocessing/vacf.py", "atooms/postprocessing/alpha2.py", "atooms/postprocessing/chi4t.py", "atooms/postprocessing/fkt.py"]}
{"id": "C209", "title": "The weighted structure factor is a quadratic form in the weights", "statement": "With weights given for the particles of two groups, the structure factor at each grid point is linear in the weights of the first group and linear in those of the second one, before and after normalisation. So a field given in other units (multiplied by a and b in the two groups) multiplies the structure factor by a b, and the structure factors of u, u', u + u' and u - u' obey the parallelogram law.", "quantifier": "all numbers of frames, particles and wave-vectors, all strides, positions and weights, all factors", "why_tests_cant": "a test compares a few fields; linearity for all weights shows that averages of the modes are subtracted in the same way as products are accumulated", "anchors": ["atooms/postprocessing/sk.py:60-160", "atooms/postprocessing/correlation.py:242-289"]}
{"id": "C210", "title": "Bound on partial structure factors", "statement": "At each grid point, the square of the structure factor of two groups of particles is at most the product of the structure factors of the two groups, with and without weights, before and after normalisation.", "quantifier": "all numbers of frames and wave-vectors, all strides, positions, weights and groups, also with numbers of particles that change from frame to frame", "why_tests_cant": "the inequality couples three calculations over the same frames and wave-vectors; random tests are unlikely to come near to equality", "anchors": ["atooms/postprocessing/sk.py:60-160"]}
{"id": "C211", "title": "Scattering functions of a repeated cell", "statement": "If a periodic system is repeated m_c times along each axis, its intermediate scattering function before normalisation is multiplied by the square of the number of copies and the normalised one is the same, for every grid point that has the same wave-vectors, and it is zero for the grid points none of whose wave-vectors belongs to the small cell. The self intermediate scattering function of copies of the particles, displaced by vectors that do not depend on time, is the same for all wave-vectors, in both implementations.", "quantifier": "all numbers of copies, frames, particles and wave-vectors, all orders of the particles and images of the large cell", "why_tests_cant": "tests use one system size; that results do not depend on the number of copies has to hold for all of them", "anchors": ["atooms/postprocessing/fkt.py:108-163", "atooms/postprocessing/fkt.py:183-246", "atooms/postprocessing/fkt.py:258-375"]}
{"id": "C212", "title": "compute() returns what was calculated, whatever the clock", "statement": "compute() runs the setup of the arrays and the calculation in this order, reports the number of time origins and the time spent, and returns the grid and the values, whatever the readings of the clock; do() then analyses and writes them, also if the analysis lacks a module. Exceptions of the setup or of the calculation are passed on and nothing is written. The shares of time reported add up to 100 percent.", "quantifier": "all calculations and readings of the clock, all strides and lengths of trajectories", "why_tests_cant": "the readings of the clock cannot be controlled in a test; a coarse clock shows no time spent on small systems", "anchors": ["atooms/postprocessing/correlation.py:493-523", "atooms/postprocessing/correlation.py:644-661"]}
{"id": "C213", "title": "Options of the script for messages and output", "statement": "With --quiet the script displays no messages of the calculations and no progress bars; otherwise it displays all the messages. The path given with --output is that of the files of all the functions, whatever the verbosity.", "quantifier": "all combinations of options, all functions and paths", "why_tests_cant": "combinations of options are not tested; the script is run by hand", "anchors": ["bin/pp.py:27-32", "bin/pp.py:45-66", "atooms/postprocessing/progress.py:54-62"]}
{"id": "C214", "title": "The result at a wave-number does not depend on the other wave-numbers requested", "statement": "If a wave-number k belongs to two k grids passed to the constructor, the wave-vectors used for k, the wave-number reported for it, the structure factor at k and the intermediate scattering functions at k are the same with both grids.", "quantifier": "all trajectories of a constant cell, all pairs of k grids with a common point, all random draws", "why_tests_cant": "tests use one k grid; the random draws and the shells of vectors depend on the cell", "anchors": ["atooms/postprocessing/fourierspace.py:189-240", "atooms/postprocessing/fourierspace.py:242-296", "atooms/postprocessing/sk.py:17-130", "atooms/postprocessing/fkt.py:108-366"]}
{"id": "C215", "title": "Filters on the species give the partial radial distribution functions", "statement": "Filter(corr, \"species=='a',species=='b'\") gives the same g(r) as Partial(corr, ...) for the pair (a, b), for any two species a and b, equal or not.", "quantifier": "every trajectory, every assignment of species, every pair of species", "why_tests_cant": "tests compare the two ways for distinct species on one trajectory", "anchors": ["atooms/postprocessing/filter.py:24-67", "atooms/postprocessing/partial.py:21-84", "atooms/postprocessing/gr.py:125-185"]}
{"id": "C216", "title": "The weight added last replaces the previous ones", "statement": "If add_weight is called several times on the same object, the result, its tag and its file are those of an object on which only the last call has been made.", "quantifier": "all sequences of calls, fields and weight trajectories", "why_tests_cant": "tests call add_weight once per object", "anchors": ["atooms/postprocessing/correlation.py:242-289", "atooms/postprocessing/correlation.py:400-420", "atooms/postprocessing/helpers.py:130-142"]}
{"id": "C217", "title": "The commands for time correlations report times up to the largest one requested", "statement": "With any limit of the time, the commands msd, vacf, alpha2, chi4qs, qst and qt succeed for every trajectory. The times in the output increase from zero, are times between frames of the trajectory, and include the available one closest to the largest time requested.", "quantifier": "all trajectories, limits of the time, names of the grid, numbers of samples of at least two and numbers of origins", "why_tests_cant": "tests run the commands on a few trajectories with the default options", "anchors": ["atooms/postprocessing/api.py:146-186", "atooms/postprocessing/api.py:252-329", "atooms/postprocessing/helpers.py:210-228", "atooms/postprocessing/correlation.py:77-99"]}
{"id": "C218", "title": "The commands fkt and fskt give one curve per wave-number requested, from time zero to the largest time requested", "statement": "Given a limit of the time, at least two times, wave-numbers that are not negative and frames that are not empty in two or three dimensions, the commands fkt and fskt succeed. They give as many wave-numbers and curves as there are wave-numbers requested; if the latter are at least 2*dk apart with wave-vectors around each, those given, in order, are within dk of those requested, sorted. The times increase from zero, are times between frames and include one that is as near to the largest time requested as any frame counted from the first one, up to one step. The curves of fskt start from one and remain between minus one and one, in both implementations (lookup_mb not zero); those of fkt are the unnormalised ones divided by their first values, which are not negative, and start from one unless this value is zero.", "quantifier": "all trajectories of a constant cell with increasing steps, limits of the time, k grids, names of the time grid, numbers of origins, random draws", "why_tests_cant": "tests run the commands on one trajectory with default options and compare a few values", "anchors": ["atooms/postprocessing/api.py:188-250", "atooms/postprocessing/fkt.py:54-80", "atooms/postprocessing/fkt.py:108-246", "atooms/postprocessing/fkt.py:256-366", "atooms/postprocessing/fourierspace.py:189-336"]}
{"id": "C219", "title": "With a single time origin the scattering functions are those of the first frame and a later one", "statement": "If a single time origin is asked for, as the number 1 or as the string '1', the commands fskt and fkt give at each time, without averages over frames, the function between the first frame and the one at that time after it: for fskt the mean of cos(k.(r(t)-r(0))) over particles and wave-vectors, for fkt (before its normalisation) the mean over wave-vectors of the real part of the product of the density modes. There are between one and nk different wave-vectors for each wave-number, all compatible with the cell, and the wave-number given is the mean of their norms.", "quantifier": "all trajectories with or without blocks of a constant cell with increasing steps, limits of the time, k grids and random draws", "why_tests_cant": "tests ask for one origin on trajectories without blocks", "anchors": ["atooms/postprocessing/api.py:188-250", "atooms/postprocessing/fkt.py:80", "atooms/postprocessing/fkt.py:108-246", "atooms/postprocessing/fkt.py:256-366", "atooms/postprocessing/helpers.py:145-186"]}
{"id": "C220", "title": "The command sk gives the structure factor at the wave-numbers requested", "statement": "For a trajectory in a cell that does not change, in two or three dimensions, the command sk with the python implementation and no weights succeeds and gives one wave-number and one value for each wave-number requested, in increasing order of the numbers of --kgrid, or for ksamples equally spaced ones from kmin (from the smallest wave-vector of the cell if kmin is not positive) to kmax. Each value is the mean of the squared modulus of the density modes over the frames used and over between one and nk different wave-vectors compatible with the cell, divided by the mean number of particles; the wave-number is the mean norm of these wave-vectors, and it is within dk of the one requested if those requested are at least 2*dk apart and have wave-vectors around them. The values are not negative and not larger than the number of particles if it is the same in all frames.", "quantifier": "all trajectories with a constant cell, positions, options nk, dk, kmin, kmax, ksamples, kgrid, numbers of time origins that give a stride, and random draws", "why_tests_cant": "tests compare the structure factor with reference values for one trajectory and do not go through the options of the command", "anchors": ["atooms/postprocessing/api.py:93-129", "atooms/postprocessing/fourierspace.py:189-240", "atooms/postprocessing/sk.py:60-163", "atooms/postprocessing/helpers.py:145-186"]}
{"id": "C221", "title": "The command gr gives the number of pairs per shell relative to an ideal gas", "statement": "For a trajectory with the same number N of particles in all frames, inside a cell that does not change and is periodic in all of its two or three directions, the command gr succeeds, with and without --legacy. Its points are at distances (j+1/2)*dr, in increasing order, none beyond rmax, or half of the smallest side if rmax is not positive. There is one for each such distance, except that with rmax and without --legacy only those whose shell does not extend beyond rmax are certain to be there, with their values. The value at a point is the mean over the frames used of the number of pairs of particles with distance at least j*dr and less than (j+1)*dr, divided by N/2 times the number density times the volume of the shell, where the distance is the smallest one over the periodic images. It is assumed that rmax, or half of the smallest side, plus 3/2*dr is not larger than the square root of the number of dimensions times the largest side.", "quantifier": "all such trajectories, positions inside the cell, spacings dr, values of rmax, numbers of time origins that give a stride, and both implementations", "why_tests_cant": "tests compare the radial distribution function with reference values for a few trajectories and do not relate it to the numbers of pairs", "anchors": ["atooms/postprocessing/api.py:70-85", "atooms/postprocessing/gr.py:91-185", "atooms/postprocessing/gr.py:211-371", "atooms/postprocessing/helpers.py:145-186"]}
{"id": "C222", "title": "The command ik with a selection of frames uses the radii of these frames", "statement": "The command ik with --first, --last or --skip gives the same spectral density as for a file that contains only the frames selected.", "quantifier": "all trajectories, positions, radii, wave-vectors, selections of frames and strides", "why_tests_cant": "there is no test of the spectral density with a selection of frames and radii that change", "anchors": ["atooms/postprocessing/api.py:17-41", "atooms/postprocessing/api.py:131-144", "atooms/postprocessing/ik.py:31-66"]}
{"id": "C223", "title": "The command ba uses the first minimum of g(r) and gives the distribution of the angles between neighbours", "statement": "For a trajectory of one species with a constant number of particles inside a constant periodic cell, in two or three dimensions, consider g(r) with spacing 0.1 up to half of the smallest side, over the default time origins. If some point after its first maximum is not followed by a decrease, the cut-off of the command ba is the centre of a bin at or after the maximum that is not followed by a decrease, and g(r) decreases at all the points between the maximum and it. If no particle has more than 50 particles within the cut-off, itself included, the command succeeds; its points are the centres of the bins of width dtheta, and each value is the number of angles between pairs of neighbours in the bin, over the frames used, divided by the number of those below the last multiple of dtheta up to 180 and by dtheta (nan if there is none). If g(r) decreases from its first maximum to its last point, the command raises IndexError.", "quantifier": "all such trajectories, dtheta not larger than 180, numbers of time origins that give a stride", "why_tests_cant": "tests compare the distribution with reference values for one trajectory with given cut-offs", "anchors": ["atooms/postprocessing/api.py:331-345", "atooms/postprocessing/ba.py:20-46", "atooms/postprocessing/ba.py:60-117", "atooms/postprocessing/realspace.f90: bond_angle", "atooms/postprocessing/realspace.f90: neighbors"]}
{"id": "C224", "title": "For frames saved at regular intervals the commands for time correlations average over time origins", "statement": "For N frames saved every m steps, each time reported by the commands msd, vacf, alpha2, qst and qt for the whole system is m*j*dt for a number of frames j < N, starting with j = 0, and the value is the average over the time origins i = 0, s, 2s, ... with i + j < N of, respectively, the squared displacement per particle, the scalar product of the velocities per particle, 3<r^4>/(5<r^2>^2) - 1 (0 for i = i + j), the fraction of particles displaced by less than 0.3 and the number of pairs of particles within 0.3 per particle, between frames i and i + j. The distance s between origins is 1 if norigins is negative, N if it is 1, the integer part of N/k if it is an integer k between 2 and N, given as a number or a string, and by default the integer part of the number of coordinate sets N*n divided by 40000, but at least 1 and at most N; it is always 1 for vacf.", "quantifier": "all numbers of frames and of particles, intervals, time steps, grids of at least two times with a limit of time, positions and velocities (for alpha2: frames that are all different)", "why_tests_cant": "tests compare single values for one trajectory, mostly with the default options", "anchors": ["atooms/postprocessing/api.py:146-186", "atooms/postprocessing/api.py:277-329", "atooms/postprocessing/helpers.py:145-228", "atooms/postprocessing/correlation.py:77-99", "atooms/postprocessing/msd.py:54-79", "atooms/postprocessing/vacf.py:23-36", "atooms/postprocessing/alpha2.py:24-41", "atooms/postprocessing/qt.py:47-93"]}
{"id": "C225", "title": "The partial functions computed by the commands add up to the function of the whole system", "statement": "For a system of several species that do not change with time, the commands msd, vacf, qst and qt compute, besides the function of the whole system, one function for each species of the first frame, at the same times. At each time the mean square displacement, the velocity autocorrelation and the self overlap of the whole system are the averages of those of the species, weighted with the numbers of particles. The collective overlap of the whole system is at least this average.", "quantifier": "all numbers and assignments of species, trajectories with frames at increasing steps, positions and velocities, grids of at least two times with a limit of time, numbers of origins", "why_tests_cant": "tests compare single partial functions with reference values for one trajectory", "anchors": ["atooms/postprocessing/api.py:146-186", "atooms/postprocessing/api.py:295-329", "atooms/postprocessing/partial.py:30-36", "atooms/postprocessing/partial.py:73-77", "atooms/postprocessing/helpers.py:117-127", "atooms/postprocessing/correlation.py:352-398"]}
{"id": "C226", "title": "The command gr computes the partial radial distribution functions of all pairs of species, and they add up to the total one", "statement": "For a system of several species the command gr computes one function for each ordered pair of species a, b, at the distances of the total function. Its values are the mean over the frames used of the number of pairs of particles, one of species a and the other of species b, at distances within the shell, divided by that of an ideal gas: the number of particles a times the number density of b times the volume of the shell, halved if the two species are the same. At each distance the squared number of particles times the total function is the sum over the ordered pairs of species of the product of their numbers of particles times their partial function. With rmax, the fast implementation is bound to do so for the shells within rmax only.", "quantifier": "all positions inside a periodic cell in two or three dimensions, numbers of particles and of species, spacings, rmax, numbers of origins, both implementations", "why_tests_cant": "tests compare single partial functions with reference values for one or two files; the copy for exchanged species, the normalization and the selection of frames are general statements", "anchors": ["atooms/postprocessing/api.py:70-91", "atooms/postprocessing/partial.py:38-49", "atooms/postprocessing/partial.py:79-90", "atooms/postprocessing/correlation.py:454-479", "atooms/postprocessing/gr.py:91-98"]}
{"id": "C227", "title": "The command sk computes the partial structure factors of all pairs of species at the wave-numbers of the total one, and they add up to it", "statement": "For a system of several species the command sk computes one structure factor for each ordered pair of species a, b, at the wave-numbers of the total one and with the same wave-vectors: the mean over the frames used and the wave-vectors of the real part of the density mode of a times the conjugate of that of b, divided by the square root of the product of their mean numbers of particles. At each wave-number the mean number of particles times the total is the sum over the ordered pairs of species of the square root of the product of their mean numbers of particles times their structure factor.", "quantifier": "all positions in a cell in two or three dimensions, numbers of particles and of species, wave-numbers, dk, nk, numbers of origins, random draws of wave-vectors", "why_tests_cant": "tests compare single partial functions with reference values for one or two files; that the wave-vectors are those of the total depends on a list shared and modified by all the objects", "anchors": ["atooms/postprocessing/api.py:93-129", "atooms/postprocessing/partial.py:38-49", "atooms/postprocessing/partial.py:79-90", "atooms/postprocessing/fourierspace.py:204-219", "atooms/postprocessing/fourierspace.py:237-238"]}
{"id": "C228", "title": "The command fskt computes the self intermediate scattering functions of the species at the wave-numbers and times of the total one, and they add up to it", "statement": "For a system of several species whose species do not change with time the command fskt computes one function for each species, at the same wave-numbers and times as the function of the whole system, with or without the option total. Each of them is the function that the command gives for a file that contains the particles of this species only. At each wave-number and time the number of particles times the total is the sum over the species of their number of particles times their function.", "quantifier": "all positions in a cell in two or three dimensions, numbers of particles and of species, wave-numbers, times, dk, nk, numbers of origins, random draws of wave-vectors, both implementations", "why_tests_cant": "tests compare single functions with reference values for one or two files; that the wave-vectors are those of the total depends on a list shared and modified by all the objects, and on how the wave-numbers requested fit in the cell", "anchors": ["atooms/postprocessing/api.py:220-250", "atooms/postprocessing/partial.py:73-77", "atooms/postprocessing/partial.py:99-111", "atooms/postprocessing/fourierspace.py:200-219", "atooms/postprocessing/fourierspace.py:237-238"]}
{"id": "C229", "title": "The command fkt gives the intermediate scattering functions of all pairs of species at the wave-numbers and times of the total one, and their first values add up", "statement": "For a system of several species the command fkt gives one function for each ordered pair of species, at the same wave-numbers and times as the function of the whole system, with or without the option total. Of two different species the function calculated is the mean over the wave-vectors and the pairs of frames of the real part of the density of the species listed first at the later time and the conjugate of that of the other species at the earlier time, divided by its value at time zero; the function of the two species in the other order is a copy of it. Before this division the values at time zero of the functions of all ordered pairs add up to that of the whole system.", "quantifier": "all positions in a cell in two or three dimensions, numbers of particles and of species, also varying with time, wave-numbers, times, dk, nk, numbers of origins, random draws of wave-vectors", "why_tests_cant": "tests compare single functions with reference values for one or two files; that the wave-vectors are those of the total depends on a list shared and modified by all the objects, and on how the wave-numbers requested fit in the cell", "anchors": ["atooms/postprocessing/api.py:188-218", "atooms/postprocessing/partial.py:38-49", "atooms/postprocessing/partial.py:79-90", "atooms/postprocessing/fkt.py:278-364", "atooms/postprocessing/fourierspace.py:200-219", "atooms/postprocessing/fourierspace.py:237-238"]}
{"id": "C230", "title": "The non-Gaussian parameter of a mixture is not below the smallest one of its species", "statement": "For a system of several species the command alpha2 gives the non-Gaussian parameter of the whole system and one for each species, at the same times. At each time the value of the whole system is at least the smallest of those of the species.", "quantifier": "all numbers and assignments of species that do not change with time, frames saved at regular intervals between which some particle of each species moves, positions, grids of times, numbers of origins", "why_tests_cant": "tests compare single functions with reference values for one trajectory; the inequality must hold for all displacements and all sets of time origins", "anchors": ["atooms/postprocessing/api.py:277-293", "atooms/postprocessing/alpha2.py:30-41", "atooms/postprocessing/partial.py:30-36", "atooms/postprocessing/partial.py:73-77", "atooms/postprocessing/correlation.py:77-99"]}
{"id": "C231", "title": "The dynamic susceptibilities of the species given by the command chi4qs bound that of the whole system", "statement": "For a system of several species the command chi4qs gives, with the option total, the dynamic susceptibility of the whole system only, and without it one function for each species only, at the same times. The values are the variances over the time origins of the number of particles displaced by less than a, divided by the number of particles. At each time the average overlap of the whole system is the sum of those of the species, and the square root of the number of particles times the susceptibility of the whole system is at most the sum over the species of the square root of the number of particles times the susceptibility of the species.", "quantifier": "all numbers and assignments of species that do not change with time, trajectories, positions, distances a, grids of at least two times with a limit of time, numbers of origins", "why_tests_cant": "tests compute the total or single partial functions for one trajectory; the inequality must hold for all displacements", "anchors": ["atooms/postprocessing/api.py:252-275", "atooms/postprocessing/chi4t.py:37-77", "atooms/postprocessing/partial.py:30-36", "atooms/postprocessing/partial.py:73-77"]}
{"id": "C232", "title": "The default cut-offs of the bond-angle distribution are symmetric and at the first minimum of each partial g(r)", "statement": "For a system of several species and without given cut-offs, the bond-angle distribution uses one cut-off for each ordered pair of species. If each partial g(r), computed with spacing 0.1 up to half of the smallest side, has a point after its first maximum that is not followed by a decrease, all the cut-offs are found. The cut-off of a pair of species equals that of the swapped pair. It is a point of the partial g(r) at or after the first maximum that is not followed by a decrease, and up to it the function decreases from the point after the maximum on. If the g(r) of one pair of species decreases from its maximum to the last point, the calculation fails with an IndexError, even if the other pairs have a minimum.", "quantifier": "all cells periodic in two or three dimensions, positions in the cell, species with fixed numbers of particles, numbers of frames, values left in memory", "why_tests_cant": "tests use one mixture, in which all the partial functions have a minimum; the symmetry and the failure depend on the shape of each function", "anchors": ["atooms/postprocessing/ba.py:20-46", "atooms/postprocessing/ba.py:77-86", "atooms/postprocessing/partial.py:38-49", "atooms/postprocessing/partial.py:79-90"]}
{"id": "C233", "title": "The functions of the command ba are the distributions of the angles between neighbours at the particles of each species", "statement": "For a system of several species, without the option no_partial, the command ba computes one partial function for each ordered pair of species. Each of them finds the cut-offs of C232 from the whole trajectory, not from the filtered one. Its points are the centres of the bins of width dtheta, and each value is the number of angles in the bin at particles of the first species, between ordered pairs of distinct neighbours of the second species that are closer than the cut-off of the pair, divided by the number of such angles below the last multiple of dtheta up to 180 degrees and by dtheta. It is not a number if there are no such angles. The function of the whole system is the same distribution for the angles at all the particles between all the neighbours, each of which is closer than the cut-off of its species with that of the particle.", "quantifier": "all cells periodic in two or three dimensions, positions in the cell, species with fixed numbers of particles and at most 50 of each species (at most 50 in all for the whole system) within the cut-off, numbers of frames and origins, spacings up to 180 degrees, values left in memory", "why_tests_cant": "tests compare one mixture with stored values; the species, order of the pair and cut-off of each object cannot be told apart there", "anchors": ["atooms/postprocessing/api.py:331-345", "atooms/postprocessing/ba.py:20-46", "atooms/postprocessing/ba.py:58-117", "atooms/postprocessing/partial.py:38-49", "atooms/postprocessing/partial.py:79-90", "atooms/postprocessing/correlation.py:454-483"]}
