{
 "claims": [
  {
   "property": "C01",
   "status": "proved",
   "theorems": [
    "PP.Props.C01_gcf_offset_mean"
   ],
   "note": "For any number type with +, /, and any kernel; sampled pairs described independently of the loop."
  },
  {
   "property": "C02",
   "status": "proved",
   "theorems": [
    "PP.Props.C02_gcf_offset_sorted",
    "PP.Props.C02_counts_positive",
    "PP.Props.C02_acf_mean"
   ],
   "note": "Ordering, alignment, membership and positive counts for gcf_offset and acf; gcf shares corrLoop."
  },
  {
   "property": "C03",
   "status": "proved",
   "theorems": [
    "PP.Props.C03_acf_shift",
    "PP.Props.C03_acf_neg",
    "PP.Props.C03_acf_variance"
   ],
   "note": "Over an ordered field; shift by a constant vector of constants, negation, and the variance at lag zero."
  },
  {
   "property": "C04",
   "status": "partial",
   "theorems": [
    "PP.Props.C04_gcf_mean_partial",
    "PP.Props.C04_counterexample"
   ],
   "note": "gcf is the mean over the pairs it samples; the claim that all origins allowed by the separation are used is false (counterexample)."
  },
  {
   "property": "C05",
   "status": "proved",
   "theorems": [
    "PP.Props.C05_gcf_offset_errors"
   ],
   "note": "IndexError iff a sampled pair exceeds the time list."
  },
  {
   "property": "C06",
   "status": "proved",
   "theorems": [
    "PP.Props.C06_linear_grid_count"
   ],
   "note": "Over an ordered field."
  },
  {
   "property": "C07",
   "status": "proved",
   "theorems": [
    "PP.Props.C07_linear_grid_spacing"
   ],
   "note": "Over an ordered field with floor."
  },
  {
   "property": "C08",
   "status": "proved",
   "theorems": [
    "PP.Props.C08_logx_grid_pos"
   ],
   "note": "Over the reals."
  },
  {
   "property": "C09",
   "status": "partial",
   "theorems": [
    "PP.Props.C09_logx_grid_zero_partial",
    "PP.Props.C09_counterexample"
   ],
   "note": "The last point is x2-1, not x2; partial theorem gives the actual values."
  },
  {
   "property": "C10",
   "status": "proved",
   "theorems": [
    "PP.Props.C10_ifabsmm",
    "PP.Props.C10_ifabsmm_empty"
   ],
   "note": "Minimum and maximum, degenerate parabola impossible at a strict first extremum."
  },
  {
   "property": "C11",
   "status": "proved",
   "theorems": [
    "PP.Props.C11_linear_fit",
    "PP.Props.C11_linear_fit_exact",
    "PP.Props.C11_linear_fit_degenerate"
   ],
   "note": "Least squares optimality over an ordered field; uncertainties are square roots of non-negative numbers."
  },
  {
   "property": "C12",
   "status": "proved",
   "theorems": [
    "PP.Props.C12_feqc",
    "PP.Props.C12_feqc_empty"
   ],
   "note": "First strict sign change; no division by zero if x is strictly monotonic."
  },
  {
   "property": "C13",
   "status": "partial",
   "theorems": [
    "PP.Props.C13_feqc_partial",
    "PP.Props.C13_counterexample",
    "PP.Props.C13_counterexample_touch"
   ],
   "note": "The claim is false when the data starts on, or touches, fstar; partial theorem under a strict sign change."
  },
  {
   "property": "C14",
   "status": "proved",
   "theorems": [
    "PP.Props.C14_no_wrong_skip",
    "PP.Props.C14_skip_bounds",
    "PP.Props.C14_skip_number",
    "PP.Props.C14_skip_none",
    "PP.Props.C14_skip_number_errors",
    "PP.Props.C14_skip_string_errors"
   ],
   "note": "Bounds, exact values for numbers, exact error conditions for numbers and strings; the wrong-skip error is unreachable."
  },
  {
   "property": "C15",
   "status": "proved",
   "theorems": [
    "PP.Props.C15_all_origins",
    "PP.Props.C15_single_origin",
    "PP.Props.C15_n_origins"
   ],
   "note": "All, single and n origins; the count is between n and 2n-1, not exactly n."
  },
  {
   "property": "C16",
   "status": "partial",
   "theorems": [
    "PP.Props.C16_block_multiple_partial",
    "PP.Props.C16_block_multiple_none",
    "PP.Props.C16_counterexample",
    "PP.Props.C16_counterexample_general"
   ],
   "note": "False when more origins than blocks are requested (stride 1); true otherwise."
  },
  {
   "property": "C17",
   "status": "partial",
   "theorems": [
    "PP.Props.C17_string_partial",
    "PP.Props.C17_counterexample",
    "PP.Props.C17_counterexample_readme",
    "PP.Props.C17_counterexample_one"
   ],
   "note": "False for fractional strings (ValueError) and for 1.0; true for integer strings and values outside [0,1]."
  },
  {
   "property": "C18",
   "status": "proved",
   "theorems": [
    "PP.Props.C18_templated",
    "PP.Props.C18_templated_multiple"
   ],
   "note": "Sorted entries, any ordered group; ties go to the smaller entry."
  },
  {
   "property": "C19",
   "status": "partial",
   "theorems": [
    "PP.Props.C19_t_grid_partial",
    "PP.Props.C19_closest_partial",
    "PP.Props.C19_t_grid_empty",
    "PP.Props.C19_counterexample"
   ],
   "note": "Soundness, order and nearest match among the scanned pairs; the scan stops at n-2*off instead of n-off, so the full claim is false (counterexample)."
  },
  {
   "property": "C20",
   "status": "proved",
   "theorems": [
    "PP.Props.C20_no_double_count",
    "PP.Props.C20_stride_needed"
   ],
   "note": "For the grid returned by setup_t_grid and any number of frames; the stride hypothesis is shown to be needed."
  },
  {
   "property": "C21",
   "status": "proved",
   "theorems": [
    "PP.Props.C21_block_periodic",
    "PP.Props.C21_setup_t_grid"
   ],
   "note": "For any kernel and number type; lags and values aligned with the grid."
  },
  {
   "property": "C22",
   "status": "proved",
   "theorems": [
    "PP.Props.C22_filter_species",
    "PP.Props.C22_filter_twice",
    "PP.Props.C22_filter_partition",
    "PP.Props.C22_input_unchanged"
   ],
   "note": "Filtering as a value, and on a heap model of python references for the unchanged-input part."
  },
  {
   "property": "C23",
   "status": "proved",
   "theorems": [
    "PP.Props.C23_msd_nonneg",
    "PP.Props.C23_msd_translation"
   ],
   "note": "All trajectories, masses irrelevant; translation of all frames by one vector."
  },
  {
   "property": "C24",
   "status": "proved",
   "theorems": [
    "PP.Props.C24_ballistic"
   ],
   "note": "Exact ballistic displacements on any time grid."
  },
  {
   "property": "C25",
   "status": "proved",
   "theorems": [
    "PP.Props.C25_zero_cm",
    "PP.Props.C25_defined",
    "PP.Props.C25_drift_removed",
    "PP.Props.C25_msd_drift"
   ],
   "note": "Mass-weighted centre of mass fixed at zero and any drift removed; undefined for zero total mass."
  },
  {
   "property": "C26",
   "status": "proved",
   "theorems": [
    "PP.Props.C26_vacf_kernel",
    "PP.Props.C26_vacf"
   ],
   "note": "Kernel by Cauchy-Schwarz and the value at time zero."
  },
  {
   "property": "C27",
   "status": "partial",
   "theorems": [
    "PP.Props.C27_counterexample",
    "PP.Props.C27_counterexample_default",
    "PP.Props.C27_vacf_init_partial"
   ],
   "note": "The default constructor raises TypeError (counterexample); it works with an explicit grid."
  },
  {
   "property": "C28",
   "status": "proved",
   "theorems": [
    "PP.Props.C28_alpha2_bound",
    "PP.Props.C28_alpha2"
   ],
   "note": "Bound with its equality case for the kernel; lower bound and value at zero for the average."
  },
  {
   "property": "C29",
   "status": "proved",
   "theorems": [
    "PP.Props.C29_self_overlap_f90",
    "PP.Props.C29_self_overlap",
    "PP.Props.C29_self_overlap_mono"
   ],
   "note": "Average of fractions, range, time zero, monotonic in a; Fortran count equal."
  },
  {
   "property": "C30",
   "status": "proved",
   "theorems": [
    "PP.Props.C30_collective_overlap",
    "PP.Props.C30_dominates_self"
   ],
   "note": "Average of pair counts per particle, range, dominates the self overlap."
  },
  {
   "property": "C31",
   "status": "proved",
   "theorems": [
    "PP.Props.C31_chi4_variance",
    "PP.Props.C31_run"
   ],
   "note": "Equal to the number of particles times the population variance of the overlap over the origins; non-negative and bounded."
  },
  {
   "property": "C32",
   "status": "partial",
   "theorems": [
    "PP.Props.C32_counterexample_last_origin",
    "PP.Props.C32_counterexample_value",
    "PP.Props.C32_origins_partial"
   ],
   "note": "False: the last possible origin is never used (counterexample); the partial theorem gives the origins actually used."
  },
  {
   "property": "C33",
   "status": "partial",
   "theorems": [
    "PP.Props.C33_counterexample_index_error",
    "PP.Props.C33_counterexample_chi4",
    "PP.Props.C33_new_object_partial"
   ],
   "note": "False: a second compute raises IndexError or changes the value (counterexamples); a fresh object is correct."
  },
  {
   "property": "C34",
   "status": "proved",
   "theorems": [
    "PP.Props.C34_newton_any_batch",
    "PP.Props.C34_newton",
    "PP.Props.C34_two_groups"
   ],
   "note": "Any pair function, bin edges and batch size."
  },
  {
   "property": "C35",
   "status": "proved",
   "theorems": [
    "PP.Props.C35_minimum_image",
    "PP.Props.C35_square",
    "PP.Props.C35_fortran_fold",
    "PP.Props.C35_backends_agree"
   ],
   "note": "Python fold optimal; Fortran fold agrees exactly up to 3L/2."
  },
  {
   "property": "C36",
   "status": "proved",
   "theorems": [
    "PP.Props.C36_gr_self",
    "PP.Props.C36_gr_distinct"
   ],
   "note": "Bounds-checked model of the Fortran loops; no out-of-bounds access and exact counts."
  },
  {
   "property": "C37",
   "status": "proved",
   "theorems": [
    "PP.Props.C37_backends"
   ],
   "note": "Direct kernels on periodic frames with the default grid; the fast table may only lack the last bin."
  },
  {
   "property": "C38",
   "status": "partial",
   "theorems": [
    "PP.Props.C38_legacy_partial",
    "PP.Props.C38_fast_partial",
    "PP.Props.C38_counterexample_odd"
   ],
   "note": "Both classes: values are non-negative and sum to at most the number of other particles, with equality when all distances are covered; even dimensions and 3 only, false in other odd dimensions (counterexample)."
  },
  {
   "property": "C39",
   "status": "proved",
   "theorems": [
    "PP.Props.C39_histograms",
    "PP.Props.C39_sum",
    "PP.Props.C39_sum_fast"
   ],
   "note": "Histograms exactly additive; concentration-weighted sum for both classes when compositions are constant."
  },
  {
   "property": "C40",
   "status": "proved",
   "theorems": [
    "PP.Props.C40_symmetric",
    "PP.Props.C40_symmetric_fortran"
   ],
   "note": "Python and Fortran histograms."
  },
  {
   "property": "C41",
   "status": "proved",
   "theorems": [
    "PP.Props.C41_invariance",
    "PP.Props.C41_invariance_two_groups"
   ],
   "note": "Permutation, translation and refolding together; one and two groups."
  },
  {
   "property": "C42",
   "status": "partial",
   "theorems": [
    "PP.Props.C42_complete",
    "PP.Props.C42_two_groups",
    "PP.Props.C42_counterexample_newton_false",
    "PP.Props.C42_newton_false_partial"
   ],
   "note": "Complete with Newton and for two groups; with newton=False pairs in the same subcell are listed once only (counterexample)."
  },
  {
   "property": "C43",
   "status": "proved",
   "theorems": [
    "PP.Props.C43_once",
    "PP.Props.C43_once_two_groups"
   ],
   "note": "At least three subcells along each periodic direction."
  },
  {
   "property": "C44",
   "status": "proved",
   "theorems": [
    "PP.Props.C44_linked_cells"
   ],
   "note": "Exact real arithmetic with a genuine square root; d = 2, 3 (other dimensions raise an error)."
  },
  {
   "property": "C45",
   "status": "partial",
   "theorems": [
    "PP.Props.C45_counterexample_stale",
    "PP.Props.C45_counterexample_missed_pairs",
    "PP.Props.C45_reuse_partial"
   ],
   "note": "False when the cell or kind of calculation changes (counterexamples); true otherwise."
  },
  {
   "property": "C46",
   "status": "proved",
   "theorems": [
    "PP.Props.C46_table",
    "PP.Props.C46_frames",
    "PP.Props.C46_safe",
    "PP.Props.C46_built",
    "PP.Props.C46_no_room"
   ],
   "note": "All frames, particles, dimensions; also expo_sphere_safe; independent of the uninitialised content. nk=0 raises IndexError."
  },
  {
   "property": "C47",
   "status": "proved",
   "theorems": [
    "PP.Props.C47_shells"
   ],
   "note": "Exact real norms; two and three dimensions (others raise ValueError)."
  },
  {
   "property": "C48",
   "status": "proved",
   "theorems": [
    "PP.Props.C48_terminates",
    "PP.Props.C48_depth_unbounded",
    "PP.Props.C48_zero_width"
   ],
   "note": "Terminates for any non-negative grid, sorted or not. The number of restarts is not bounded uniformly, so a recursion limit can be hit for extremely small dk (C48_depth_unbounded); dk=0 never returns."
  },
  {
   "property": "C49",
   "status": "proved",
   "theorems": [
    "PP.Props.C49_selection",
    "PP.Props.C49_default"
   ],
   "note": "Given and default grids, any outcome of random.sample; selected indices also lie within the table of exponentials."
  },
  {
   "property": "C50",
   "status": "partial",
   "theorems": [
    "PP.Props.C50_roundtrip_partial",
    "PP.Props.C50_compute_partial",
    "PP.Props.C50_counterexample_compute"
   ],
   "note": "Wave-vectors and norms are copied exactly; computing with them raises IndexError when a positive component exceeds the negative ones by more than 1 (counterexample, any frames), and gives the same values otherwise."
  },
  {
   "property": "C51",
   "status": "proved",
   "theorems": [
    "PP.Props.C51_nonneg",
    "PP.Props.C51_le_number",
    "PP.Props.C51_translation",
    "PP.Props.C51_folding"
   ],
   "note": "Legacy class, exact arithmetic. The bound needs the same N in all frames. Invariance also for two groups; translations and folding may differ from frame to frame."
  },
  {
   "property": "C52",
   "status": "proved",
   "theorems": [
    "PP.Props.C52_sum"
   ],
   "note": "Legacy class in two and three dimensions; the composition may vary with time."
  },
  {
   "property": "C53",
   "status": "proved",
   "theorems": [
    "PP.Props.C53_bounded",
    "PP.Props.C53_zero_lag",
    "PP.Props.C53_constructor"
   ],
   "note": "Proved for both versions through C54; the constructor theorem shows that zero lag is always sampled with normalize=True."
  },
  {
   "property": "C54",
   "status": "partial",
   "theorems": [
    "PP.Props.C54_fast_eq_legacy",
    "PP.Props.C54_memory_limit",
    "PP.Props.C54_block_size",
    "PP.Props.C54_counterexample_zero",
    "PP.Props.C54_counterexample_empty"
   ],
   "note": "Equality proved for any non-zero memory limit and any block size when there are particles; with an empty group the fast version raises ValueError (counterexample)."
  },
  {
   "property": "C55",
   "status": "proved",
   "theorems": [
    "PP.Props.C55_loop",
    "PP.Props.C55_divided"
   ],
   "note": "The loop alone only divides the first value (C55_loop); since zero lag is sampled and its value is 1, the result is nevertheless the quotient."
  },
  {
   "property": "C56",
   "status": "partial",
   "theorems": [
    "PP.Props.C56_normalised_partial",
    "PP.Props.C56_zero_lag_nonneg_partial",
    "PP.Props.C56_swap_zero_lag_partial",
    "PP.Props.C56_counterexample_swap"
   ],
   "note": "F(k,0)=1 proved in 2 and 3 dimensions unless the zero-lag value vanishes; F_ba differs from F_ab in general (counterexample), they agree at zero lag."
  },
  {
   "property": "C57",
   "status": "partial",
   "theorems": [
    "PP.Props.C57_counterexample_shift",
    "PP.Props.C57_counterexample_cross",
    "PP.Props.C57_counterexample_2d",
    "PP.Props.C57_counterexample_value"
   ],
   "note": "False for all inputs (counterexamples): off-by-one indices shift every wave-vector; second group ignored; ValueError in two dimensions."
  },
  {
   "property": "C58",
   "status": "partial",
   "theorems": [
    "PP.Props.C58_counterexample_shared_grid",
    "PP.Props.C58_default_grid_partial"
   ],
   "note": "False for a grid given by the user, which is modified in place (counterexample for every outcome of the random selection); true for the default grid."
  },
  {
   "property": "C59",
   "status": "partial",
   "theorems": [
    "PP.Props.C59_sound_partial",
    "PP.Props.C59_exact_partial",
    "PP.Props.C59_counterexample_default",
    "PP.Props.C59_counterexample_missed"
   ],
   "note": "False (counterexamples): with tests=1 only the last frame is compared, and every positive number of tests misses some trajectory. True answers are right; exact when tests <= 0 or frames < 2*tests."
  },
  {
   "property": "C60",
   "status": "partial",
   "theorems": [
    "PP.Props.C60_counterexample",
    "PP.Props.C60_bound_partial",
    "PP.Props.C60_counterexample_ignored",
    "PP.Props.C60_counterexample_weight"
   ],
   "note": "False: nbodies+1 filters are accepted (for every nbodies); the one in excess is ignored, or raises NameError if there are weights. Proved: bound nbodies+1, refused calls change nothing."
  },
  {
   "property": "C61",
   "status": "proved",
   "theorems": [
    "PP.Props.C61_one_body",
    "PP.Props.C61_two_body"
   ],
   "note": "The underlying compute is an arbitrary function of the filters and of the number of previous calls on the object."
  },
  {
   "property": "C62",
   "status": "partial",
   "theorems": [
    "PP.Props.C62_one_condition",
    "PP.Props.C62_two_conditions",
    "PP.Props.C62_too_many",
    "PP.Props.C62_one_body_partial",
    "PP.Props.C62_counterexample_one_body",
    "PP.Props.C62_counterexample_tag"
   ],
   "note": "Two-body functions: proved. One-body functions: several conditions make a tuple, always true, so that all particles are used. Refused conditions have already changed the tags."
  },
  {
   "property": "C63",
   "status": "partial",
   "theorems": [
    "PP.Props.C63_two_variables",
    "PP.Props.C63_one_variable",
    "PP.Props.C63_mismatch",
    "PP.Props.C63_counterexample_precision",
    "PP.Props.C63_read_back_partial"
   ],
   "note": "Layout proved. Reading back: relative error at most 5e-6 and exact for six digits; exact equality is false because of the format %g."
  },
  {
   "property": "C64",
   "status": "partial",
   "theorems": [
    "PP.Props.C64_recompute_iff",
    "PP.Props.C64_read_partial",
    "PP.Props.C64_computed",
    "PP.Props.C64_counterexample_two_variables",
    "PP.Props.C64_counterexample_one_point",
    "PP.Props.C64_counterexample_lost",
    "PP.Props.C64_partial_iff",
    "PP.Props.C64_partial_computed",
    "PP.Props.C64_partial_read",
    "PP.Props.C64_do_files"
   ],
   "note": "When compute is called: proved. What is read: proved for two columns and at least two rows, false for functions of two variables (nothing is set), single points (numbers)."
  },
  {
   "property": "C65",
   "status": "partial",
   "theorems": [
    "PP.Props.C65_counterexample",
    "PP.Props.C65_counterexample_truncated",
    "PP.Props.C65_counterexample_empty",
    "PP.Props.C65_older_partial"
   ],
   "note": "False at every crash point later than the trajectory: truncated data are used, or ValueError is raised for ever."
  },
  {
   "property": "C66",
   "status": "partial",
   "theorems": [
    "PP.Props.C66_clean_partial",
    "PP.Props.C66_counterexample",
    "PP.Props.C66_counterexample_idempotent",
    "PP.Props.C66_counterexample_hidden",
    "PP.Props.C66_counterexample_slash",
    "PP.Props.C66_kept_partial"
   ],
   "note": "Directory kept, no hyphens at the ends, no doubled marks without tripled ones: proved. False in general; hidden files collide with visible ones; a slash in the tag changes the directory."
  },
  {
   "property": "C67",
   "status": "partial",
   "theorems": [
    "PP.Props.C67_nothing",
    "PP.Props.C67_raises_iff",
    "PP.Props.C67_counterexample",
    "PP.Props.C67_counterexample_history",
    "PP.Props.C67_accepted_partial"
   ],
   "note": "False for every rejected call: the weights are reset, and the callback on the trajectory stays."
  },
  {
   "property": "C68",
   "status": "partial",
   "theorems": [
    "PP.Props.C68_zero_mean",
    "PP.Props.C68_zero_sum",
    "PP.Props.C68_shift",
    "PP.Props.C68_counterexample_grandcanonical",
    "PP.Props.C68_counterexample_int",
    "PP.Props.C68_counterexample_empty"
   ],
   "note": "Fields of floats: zero average (frame averages first), zero sum at fixed number of particles, invariance under shifts. False for varying number of particles, integer fields (TypeError), frames without particles (nan)."
  },
  {
   "property": "C69",
   "status": "partial",
   "theorems": [
    "PP.Props.C69_computed_partial",
    "PP.Props.C69_filtered_partial",
    "PP.Props.C69_counterexample_filter",
    "PP.Props.C69_counterexample_ik",
    "PP.Props.C69_counterexample_chi4qs",
    "PP.Props.C69_counterexample_fkt"
   ],
   "note": "Exceptions raised by the correlation functions are not modelled. gr, sk, msd, vacf, alpha2, qst, qt, ba: proved. ik, chi4qs, fkt, fskt skip files, chi4qs with --fast raises AttributeError; filters are ignored by all but gr, sk, ba."
  },
  {
   "property": "C70",
   "status": "partial",
   "theorems": [
    "PP.Props.C70_values",
    "PP.Props.C70_normalised_partial",
    "PP.Props.C70_counterexample_dropped",
    "PP.Props.C70_counterexample_buffer",
    "PP.Props.C70_counterexample_wide",
    "PP.Props.C70_bond_angle_safe"
   ],
   "note": "Values are the fractions of the angles in each bin (angles of Mathlib), >= 0 and normalised if some angle is below the last multiple of dtheta. False otherwise: all values are nan, e.g. for straight angles. The histogram is safe, the neighbour buffer of 50 is overrun as soon as a particle has more than 50 in range (itself included). One- and two-component positions included; the positions are supposed folded."
  },
  {
   "property": "C71",
   "status": "partial",
   "theorems": [
    "PP.Props.C71_neighbors_list",
    "PP.Props.C71_symmetric",
    "PP.Props.C71_counterexample_zero_based_species"
   ],
   "note": "Lists, counts and symmetry proved for species ids counted from one; with ids counted from zero, as elsewhere in the package, the cut-offs are read out of bounds."
  },
  {
   "property": "C72",
   "status": "partial",
   "theorems": [
    "PP.Props.C72_definition_partial",
    "PP.Props.C72_nonorm",
    "PP.Props.C72_nonneg",
    "PP.Props.C72_counterexample",
    "PP.Props.C72_counterexample_value",
    "PP.Props.C72_counterexample_dimensions",
    "PP.Props.C72_missing_radii"
   ],
   "note": "False: the argument of the form factor is the norm of the indices in the table of exponentials, offset included. Proved: what is computed (with the transform of a ball as an integral), non-negative, in three dimensions; fewer dimensions raise IndexError."
  },
  {
   "property": "C73",
   "status": "proved",
   "theorems": [
    "PP.Props.C73_variance",
    "PP.Props.C73_nonneg",
    "PP.Props.C73_empty",
    "PP.Props.C73_single",
    "PP.Props.C73_no_tgrid"
   ],
   "note": "The correlation function is an arbitrary function of the first frame of the sub-trajectory. Functions of one variable. The variance at each point is over the sub-trajectories that have it."
  },
  {
   "property": "C74",
   "status": "partial",
   "theorems": [
    "PP.Props.C74_shell_volume",
    "PP.Props.C74_ball"
   ],
   "note": "Right if and only if d is even or 3; the reference volume is shown to be the Lebesgue measure of the ball."
  },
  {
   "property": "C75",
   "status": "partial",
   "theorems": [
    "PP.Props.C75_counterexample_last_point"
   ],
   "note": "False (counterexample): a bin straddling rmax is undercounted; C44 gives the bins below rmax."
  },
  {
   "property": "C76",
   "status": "partial",
   "theorems": [
    "PP.Props.C76_counterexample_filter_all"
   ],
   "note": "False for every trajectory (counterexample): each particle is paired with itself, in the first bin."
  },
  {
   "property": "C77",
   "status": "partial",
   "theorems": [
    "PP.Props.C77_counterexample_key_error",
    "PP.Props.C77_counterexample_missed"
   ],
   "note": "False (counterexamples): KeyError for a particle on an upper face, missed pairs if it is in the second group."
  },
  {
   "property": "C78",
   "status": "partial",
   "theorems": [
    "PP.Props.C78_counterexample_fast",
    "PP.Props.C78_legacy_partial"
   ],
   "note": "True for the legacy class; false for the fast one (counterexample), whose distances are always odd multiples of half the spacing."
  },
  {
   "property": "C79",
   "status": "partial",
   "theorems": [
    "PP.Props.C79_counterexample_integer",
    "PP.Props.C79_counterexample_points"
   ],
   "note": "False: IndexError for dr=1 whatever the trajectory; for larger integers dr is taken as the number of grid points (C79_counterexample_points)."
  },
  {
   "property": "C80",
   "status": "proved",
   "theorems": [
    "PP.Props.C80_definition"
   ],
   "note": "Legacy class; exact arithmetic."
  },
  {
   "property": "C81",
   "status": "proved",
   "theorems": [
    "PP.Props.C81_weighted_nonneg"
   ],
   "note": "Legacy class, one group of particles."
  },
  {
   "property": "C82",
   "status": "proved",
   "theorems": [
    "PP.Props.C82_definition"
   ],
   "note": "Legacy version; the fast one is equal by C54."
  },
  {
   "property": "C83",
   "status": "partial",
   "theorems": [
    "PP.Props.C83_definition_partial",
    "PP.Props.C83_counterexample_1d"
   ],
   "note": "Proved in 2 and 3 dimensions; in one dimension only the real part of the density is used (counterexample for all positions)."
  },
  {
   "property": "C84",
   "status": "proved",
   "theorems": [
    "PP.Props.C84_relaxation_times",
    "PP.Props.C84_first_time"
   ],
   "note": "Over the reals; equal wave-numbers would share a dictionary entry and are excluded."
  },
  {
   "property": "C85",
   "status": "partial",
   "theorems": [
    "PP.Props.C85_counterexample_one_body",
    "PP.Props.C85_counterexample_two_body"
   ],
   "note": "False: a second Filter is ignored by one-body functions, and raises leaving the new tags for two-body functions."
  },
  {
   "property": "C86",
   "status": "partial",
   "theorems": [
    "PP.Props.C86_equal_partial",
    "PP.Props.C86_not_equal_partial",
    "PP.Props.C86_distinct_partial",
    "PP.Props.C86_counterexample",
    "PP.Props.C86_counterexample_file"
   ],
   "note": "Conditions on one field that is equal to or different from a value made of plain characters have different tags. False in general: examples of different conditions with the same tag and file."
  },
  {
   "property": "C87",
   "status": "partial",
   "theorems": [
    "PP.Props.C87_round_trip_partial",
    "PP.Props.C87_counterexample_same_time"
   ],
   "note": "Proved for functions of one variable with at least two points and an output newer than the trajectory; the case of two variables is C64_counterexample_lost."
  },
  {
   "property": "C88",
   "status": "partial",
   "theorems": [
    "PP.Props.C88_whole_blocks",
    "PP.Props.C88_counterexample_empty",
    "PP.Props.C88_frames_partial"
   ],
   "note": "Rounding down proved; nothing is left if last is less than the block size."
  },
  {
   "property": "C89",
   "status": "partial",
   "theorems": [
    "PP.Props.C89_counterexample",
    "PP.Props.C89_counterexample_bounds",
    "PP.Props.C89_contains_partial"
   ],
   "note": "False: the loop stores i also in the list of j, so particles of the other group end up in lists of the first; and it accesses memory out of bounds if the second group is larger. Proved: every neighbour is in the list."
  },
  {
   "property": "C90",
   "status": "partial",
   "theorems": [
    "PP.Props.C90_subset_counts",
    "PP.Props.C90_counterexample_full_lists"
   ],
   "note": "Proved for half lists of candidates; with full (symmetric) lists every neighbour is listed twice."
  },
  {
   "property": "C91",
   "status": "partial",
   "theorems": [
    "PP.Props.C91_default_rcut_partial",
    "PP.Props.C91_counterexample_monotonic"
   ],
   "note": "A cut-off that is returned is the first minimum; for a g(r) that decreases up to the end of the grid there is an IndexError."
  },
  {
   "property": "C92",
   "status": "partial",
   "theorems": [
    "PP.Props.C92_options_partial",
    "PP.Props.C92_counterexample_fix_cm",
    "PP.Props.C92_counterexample_no_partial"
   ],
   "note": "False for msd, whose partial functions ignore fix_cm, and chi4qs, which ignores no_partial; true otherwise."
  },
  {
   "property": "C93",
   "status": "partial",
   "theorems": [
    "PP.Props.C93_time_grid_partial",
    "PP.Props.C93_counterexample",
    "PP.Props.C93_within"
   ],
   "note": "Proved except that fkt, fskt, alpha2, qst and qt do not limit the largest time to that of the trajectory (counterexample)."
  },
  {
   "property": "C94",
   "status": "proved",
   "theorems": [
    "PP.Props.C94_diffusion",
    "PP.Props.C94_exact",
    "PP.Props.C94_nonneg",
    "PP.Props.C94_not_enough",
    "PP.Props.C94_tau"
   ],
   "note": "The warning in the log is not modelled."
  },
  {
   "property": "C95",
   "status": "partial",
   "theorems": [
    "PP.Props.C95_value_partial",
    "PP.Props.C95_bounds_partial",
    "PP.Props.C95_counterexample_dimensions",
    "PP.Props.C95_counterexample_filter",
    "PP.Props.C95_counterexample_single",
    "PP.Props.C95_counterexample_one_mass"
   ],
   "note": "Three dimensions without filters: proved. Fewer dimensions: IndexError always. A filter that selects two or more but not all particles: ValueError; a single particle: the kinetic part has the mass of the whole system. If the first frame has one particle its mass is used for all the particles of the others."
  },
  {
   "property": "C96",
   "status": "partial",
   "theorems": [
    "PP.Props.C96_vacf_partial",
    "PP.Props.C96_counterexample_vacf",
    "PP.Props.C96_counterexample_sacf",
    "PP.Props.C96_self_overlap_partial"
   ],
   "note": "Self overlap: proved. False for the velocity and stress autocorrelations, which use the block size as stride: any two accepted values give the same result, the mean over the origins separated by the block size."
  },
  {
   "property": "C97",
   "status": "partial",
   "theorems": [
    "PP.Props.C97_same_partial",
    "PP.Props.C97_counterexample",
    "PP.Props.C97_counterexample_single_origin"
   ],
   "note": "Same if every time has an origin at which the code looks. Otherwise the optimized version raises ZeroDivisionError where the plain one gives zero, e.g. always for one time origin."
  },
  {
   "property": "C98",
   "status": "partial",
   "theorems": [
    "PP.Props.C98_one_body",
    "PP.Props.C98_two_body_partial",
    "PP.Props.C98_particles_partial",
    "PP.Props.C98_counterexample",
    "PP.Props.C98_one_body_again"
   ],
   "note": "Proved for up to two filters. Three filters, which add_filter accepts, use two groups for the positions and raise NameError for the weights. A second compute() of a one-body function appends the weights again."
  },
  {
   "property": "C99",
   "status": "partial",
   "theorems": [
    "PP.Props.C99_again_partial",
    "PP.Props.C99_counterexample",
    "PP.Props.C99_counterexample_stride"
   ],
   "note": "Same result without weights and with a constant cell if the stride divides the number of frames. Otherwise IndexError (weights, variable cell: always) or different values (three frames, stride two)."
  },
  {
   "property": "C100",
   "status": "partial",
   "theorems": [
    "PP.Props.C100_counterexample_fast",
    "PP.Props.C100_legacy_partial",
    "PP.Props.C100_counterexample_cells",
    "PP.Props.C100_counterexample_legacy"
   ],
   "note": "Fast: false, each further call loses the last point until IndexError; with linked cells the second call can write outside the histogram. Legacy: same table, except for the last value if a pair is exactly at the upper bound of the last bin (example)."
  },
  {
   "property": "C101",
   "status": "partial",
   "theorems": [
    "PP.Props.C101_counterexample",
    "PP.Props.C101_safe_partial"
   ],
   "note": "False if the user's grid ends before the distance of a pair within the cut-off. Proved for uniform grids that cover the cut-off."
  },
  {
   "property": "C102",
   "status": "partial",
   "theorems": [
    "PP.Props.C102_unfolded_partial",
    "PP.Props.C102_counterexample",
    "PP.Props.C102_counterexample_bounded",
    "PP.Props.C102_present_partial"
   ],
   "note": "Unfolded and fold of atooms are parameters. Proved if folded positions are not requested, or if the trajectory has unfolded positions. False if both are requested, as in the base class and S4ktOverlap, and the trajectory has no unfolded positions: both arrays are the folded positions."
  },
  {
   "property": "C103",
   "status": "partial",
   "theorems": [
    "PP.Props.C103_counterexample",
    "PP.Props.C103_counterexample_drift",
    "PP.Props.C103_fix_cm_partial",
    "PP.Props.C103_present_partial"
   ],
   "note": "Proved with at most one filter, for Unfolded that removes the drift or positions in the file. False with two filters, e.g. unlike-species partials: fix_cm is ignored."
  },
  {
   "property": "C104",
   "status": "partial",
   "theorems": [
    "PP.Props.C104_counterexample",
    "PP.Props.C104_one_body_partial",
    "PP.Props.C104_ids_partial",
    "PP.Props.C104_counterexample_ids",
    "PP.Props.C104_one_filter_partial",
    "PP.Props.C104_two_filters_partial"
   ],
   "note": "Folded positions, velocities, species: proved for one or two groups and any number of filters up to two. False for unfolded positions of two-body functions with at most one filter (empty arrays), and for species missing in the first frame (ValueError)."
  },
  {
   "property": "C105",
   "status": "partial",
   "theorems": [
    "PP.Props.C105_images_partial",
    "PP.Props.C105_counterexample"
   ],
   "note": "An upper bound and equality for particles away from the faces: proved. False in general: for any trajectory there are images for which the function vanishes at all times but zero."
  },
  {
   "property": "C106",
   "status": "proved",
   "theorems": [
    "PP.Props.C106_relabel",
    "PP.Props.C106_collective",
    "PP.Props.C106_each_frame_counts"
   ],
   "note": "Same relabelling in all frames for msd, vacf, alpha2, qst, qt; one per frame for qt. Exchanging two particles in one frame does change the MSD (shown)."
  },
  {
   "property": "C107",
   "status": "proved",
   "theorems": [
    "PP.Props.C107_first_step",
    "PP.Props.C107_first_step_fkt"
   ],
   "note": "All time correlation functions, including the Fourier-space ones."
  },
  {
   "property": "C108",
   "status": "proved",
   "theorems": [
    "PP.Props.C108_unit_of_time"
   ],
   "note": "msd with given or default grid, vacf, alpha2, overlaps."
  },
  {
   "property": "C109",
   "status": "proved",
   "theorems": [
    "PP.Props.C109_similarity",
    "PP.Props.C109_velocities"
   ],
   "note": "msd, alpha2, overlaps for any similarity of space; the collective overlap without periodic images, as in the code. vacf for a linear similarity."
  },
  {
   "property": "C110",
   "status": "partial",
   "theorems": [
    "PP.Props.C110_weighted_sum_partial",
    "PP.Props.C110_counterexample_rmax"
   ],
   "note": "Proved on a given time grid and for rmax <= 0. False with rmax > 0: the grid depends on the displacement of the group itself."
  },
  {
   "property": "C111",
   "status": "partial",
   "theorems": [
    "PP.Props.C111_time_reversal_partial",
    "PP.Props.C111_counterexample_stride"
   ],
   "note": "Proved for block size 1 and stride 1. False with a stride of two (three frames). Fourier-space functions not included."
  },
  {
   "property": "C112",
   "status": "partial",
   "theorems": [
    "PP.Props.C112_counterexample_half",
    "PP.Props.C112_counterexample_rmax",
    "PP.Props.C112_linear_partial"
   ],
   "note": "False: the total time is always among the reported times if rmax < 0; for a particle in uniform motion and rmax > 0 the grid stops well before (the time is extrapolated linearly from the first interval). Right if the MSD is proportional to time."
  },
  {
   "property": "C113",
   "status": "partial",
   "theorems": [
    "PP.Props.C113_rows_partial",
    "PP.Props.C113_counterexample_newline",
    "PP.Props.C113_counterexample_hash"
   ],
   "note": "Proved for comments made of complete lines starting with '#', and names on one line. Comments without newline hide the first row, comments without '#' are read as data. Formatting of numbers not modelled."
  },
  {
   "property": "C114",
   "status": "proved",
   "theorems": [
    "PP.Props.C114_columns",
    "PP.Props.C114_no_parenthesis"
   ],
   "note": "Short names without parenthesis (base class, Susceptibility): IndexError in write."
  },
  {
   "property": "C115",
   "status": "partial",
   "theorems": [
    "PP.Props.C115_counterexample_path",
    "PP.Props.C115_counterexample_new",
    "PP.Props.C115_files_partial"
   ],
   "note": "False: chi4qs writes two further files next to the trajectory, whatever the path. With the default path and clean names the three files are different."
  },
  {
   "property": "C116",
   "status": "partial",
   "theorems": [
    "PP.Props.C116_one_body_partial",
    "PP.Props.C116_two_body_partial",
    "PP.Props.C116_counterexample_template",
    "PP.Props.C116_counterexample_pair",
    "PP.Props.C116_counterexample_ion"
   ],
   "note": "Proved for the default path, clean names and, for pairs, species without hyphen. False for paths without tag, for species with hyphens and for species ending with a punctuation mark."
  },
  {
   "property": "C117",
   "status": "proved",
   "theorems": [
    "PP.Props.C117_self_images",
    "PP.Props.C117_coherent_images",
    "PP.Props.C117_needs_cell"
   ],
   "note": "F_s in both versions and F(k,t), for wave-vectors that fit in the cell. For other wave-vectors the images count (shown)."
  },
  {
   "property": "C118",
   "status": "proved",
   "theorems": [
    "PP.Props.C118_self_relabel",
    "PP.Props.C118_coherent_relabel",
    "PP.Props.C118_origin",
    "PP.Props.C118_coherent_origin"
   ],
   "note": "F_s: one relabelling for all frames; F(k,t): one per frame. Translation and inversion for both."
  },
  {
   "property": "C119",
   "status": "proved",
   "theorems": [
    "PP.Props.C119_sum"
   ],
   "note": "Two groups, without normalization; all pairs of group sizes."
  },
  {
   "property": "C120",
   "status": "partial",
   "theorems": [
    "PP.Props.C120_counterexample",
    "PP.Props.C120_counterexample_selection",
    "PP.Props.C120_partial"
   ],
   "note": "False: AttributeError for every trajectory and non-empty list of times; if the user sets the missing attribute there is still an exception, whatever the input. An empty list of times gives no values."
  },
  {
   "property": "C121",
   "status": "partial",
   "theorems": [
    "PP.Props.C121_value_partial",
    "PP.Props.C121_three_partial",
    "PP.Props.C121_counterexample"
   ],
   "note": "The value is (6-2d)/(5d) at all times but zero: right in three dimensions, not zero in all others."
  },
  {
   "property": "C122",
   "status": "partial",
   "theorems": [
    "PP.Props.C122_partial",
    "PP.Props.C122_counterexample"
   ],
   "note": "False: the code averages the ratio of the moments of each pair of frames; for one particle the result is -2/5 however it moves. Proved if the mean square displacement is the same for all origins."
  },
  {
   "property": "C123",
   "status": "partial",
   "theorems": [
    "PP.Props.C123_direct_partial",
    "PP.Props.C123_cells_partial",
    "PP.Props.C123_counterexample_cells",
    "PP.Props.C123_counterexample_legacy"
   ],
   "note": "Proved without linked cells if some frame has an inner particle; the first point repeats the second one's value. With linked cells, proved for bins below rmax if all frames have an inner particle; false otherwise: exception. The legacy version ignores whether the cell is periodic, so it is false there."
  },
  {
   "property": "C124",
   "status": "partial",
   "theorems": [
    "PP.Props.C124_partial",
    "PP.Props.C124_counterexample"
   ],
   "note": "The last lag is the one closest to 3/4 of the total time minus one unit of time. False in general: for every trajectory there is a unit of time in which all lags are zero."
  },
  {
   "property": "C125",
   "status": "partial",
   "theorems": [
    "PP.Props.C125_msd_partial",
    "PP.Props.C125_alpha2_partial",
    "PP.Props.C125_counterexample",
    "PP.Props.C125_self_overlap_partial",
    "PP.Props.C125_collective_overlap_partial"
   ],
   "note": "With norigins='1' every reported value is that of the first frame and a later one. With the number 1 and blocks it is false: times between other frames of the first block are reported."
  },
  {
   "property": "C126",
   "status": "partial",
   "theorems": [
    "PP.Props.C126_partial",
    "PP.Props.C126_overlap_partial",
    "PP.Props.C126_counterexample"
   ],
   "note": "Holds for the mean square displacement, the non-Gaussian parameter, the collective overlap and the dynamic susceptibility, and for the self overlap with a given time grid. With the default grid SelfOverlap.__init__ uses the total_time of its argument and raises AttributeError for a path."
  },
  {
   "property": "C127",
   "status": "partial",
   "theorems": [
    "PP.Props.C127_alpha2",
    "PP.Props.C127_partial",
    "PP.Props.C127_counterexample"
   ],
   "note": "Exact for the non-Gaussian parameter. The logarithmic grids of the overlaps and the susceptibility end at 3/4 of the total time minus one, in the unit of time; for every trajectory there is a unit in which all the lags are zero."
  },
  {
   "property": "C128",
   "status": "partial",
   "theorems": [
    "PP.Props.C128_plain_partial",
    "PP.Props.C128_fixed_partial",
    "PP.Props.C128_counterexample"
   ],
   "note": "Proved if no function fixes the centre of mass, and if all of them do (as the partial functions). False otherwise: fixing the centre of mass changes the frames in memory, and the next function reads the changed positions, unless the centre of mass is at the origin in all frames."
  },
  {
   "property": "C129",
   "status": "partial",
   "theorems": [
    "PP.Props.C129_self_partial",
    "PP.Props.C129_coherent_partial",
    "PP.Props.C129_counterexample_stride",
    "PP.Props.C129_counterexample_groups"
   ],
   "note": "Proved with all frames as time origins and no blocks: for the self part (both versions) and the coherent part of one group. With two groups the reversed function is that of the exchanged groups, hence false; with a stride of the time origins it is false for the self part."
  },
  {
   "property": "C130",
   "status": "proved",
   "theorems": [
    "PP.Props.C130_metadata"
   ],
   "note": "Names and results on one line, keys of the analysis without colons (all those of the package), no user comments. With an empty description the title ends with two blanks."
  },
  {
   "property": "C131",
   "status": "proved",
   "theorems": [
    "PP.Props.C131_no_blanks"
   ],
   "note": "Provided the fields that are inserted as they are, and the rest of the path, have no blanks."
  },
  {
   "property": "C132",
   "status": "partial",
   "theorems": [
    "PP.Props.C132_legacy_partial",
    "PP.Props.C132_fast_partial",
    "PP.Props.C132_counterexample_cell"
   ],
   "note": "Proved in a cell that does not change, for both versions (the fast one without linked cells). False for a fluctuating cell: the normalisation uses the volume of the last frame only, so that the whole table is multiplied by the ratio of the volumes of the last frames."
  },
  {
   "property": "C133",
   "status": "partial",
   "theorems": [
    "PP.Props.C133_fast_partial",
    "PP.Props.C133_legacy_partial",
    "PP.Props.C133_counterexample_number"
   ],
   "note": "Proved for the fast version in all cases, and for the legacy one with a constant number of particles. Otherwise the latter averages the numbers of particles over all frames, also those that are not used: exact factor given."
  },
  {
   "property": "C134",
   "status": "proved",
   "theorems": [
    "PP.Props.C134_order",
    "PP.Props.C134_labels",
    "PP.Props.C134_inversion"
   ],
   "note": "With the same wave-vectors in all calculations (they are sampled at random). Legacy version."
  },
  {
   "property": "C135",
   "status": "partial",
   "theorems": [
    "PP.Props.C135_counterexample_number",
    "PP.Props.C135_constant_partial"
   ],
   "note": "Proved with a constant number of particles, and for the values before normalisation. False otherwise: the numbers of particles are averaged over all the frames; exact factor given. Legacy version."
  },
  {
   "property": "C136",
   "status": "partial",
   "theorems": [
    "PP.Props.C136_counterexample_origin",
    "PP.Props.C136_images_partial"
   ],
   "note": "Proved for periodic images. False for translations, which change the phases of the modes whose mean is subtracted: exact change given for two wave-vectors in one frame."
  },
  {
   "property": "C137",
   "status": "partial",
   "theorems": [
    "PP.Props.C137_counterexample_ones",
    "PP.Props.C137_counterexample_single"
   ],
   "note": "False: the squared modulus of the mean mode is subtracted when a weight is set; with one frame and one wave-vector the result is always zero."
  },
  {
   "property": "C138",
   "status": "partial",
   "theorems": [
    "PP.Props.C138_gr_self",
    "PP.Props.C138_gr_distinct",
    "PP.Props.C138_neighbors_self",
    "PP.Props.C138_neighbors_distinct_partial",
    "PP.Props.C138_counterexample_stack",
    "PP.Props.C138_counterexample_short",
    "PP.Props.C138_on_surface"
   ],
   "note": "Proved for all routines but the one for two groups with lists of neighbours, which is proved if no particle has more neighbours than there are particles in its own group. Otherwise it writes beyond the end of its array of distances. The histogram must be as long as the list of bins; if shorter, it is written out of bounds."
  },
  {
   "property": "C139",
   "status": "proved",
   "theorems": [
    "PP.Props.C139_self",
    "PP.Props.C139_distinct",
    "PP.Props.C139_single",
    "PP.Props.C139_pairs",
    "PP.Props.C139_chunks"
   ],
   "note": "For ranges within the particles."
  },
  {
   "property": "C140",
   "status": "partial",
   "theorems": [
    "PP.Props.C140_border_partial",
    "PP.Props.C140_cutoff_partial",
    "PP.Props.C140_counterexample_corner",
    "PP.Props.C140_counterexample_new",
    "PP.Props.C140_bin_in_cell"
   ],
   "note": "Proved for particles in the cell, the upper faces excluded. False on the upper faces (the corner of the cell is not on the border) and before the first call of compute (AttributeError)."
  },
  {
   "property": "C141",
   "status": "partial",
   "theorems": [
    "PP.Props.C141_alpha2_partial",
    "PP.Props.C141_chi4",
    "PP.Props.C141_never_raises",
    "PP.Props.C141_counterexample_first",
    "PP.Props.C141_counterexample_next"
   ],
   "note": "Proved for increasing times and data without nan. False otherwise: the non-Gaussian parameter is nan at lags with two frames in which no particle has moved; nan as first value, or next to the largest value, makes the peak nan."
  },
  {
   "property": "C142",
   "status": "partial",
   "theorems": [
    "PP.Props.C142_tau_partial",
    "PP.Props.C142_counterexample_decayed",
    "PP.Props.C142_counterexample_upwards"
   ],
   "note": "Proved for grids that start at time zero. False otherwise: if the function has decayed before the first time of the grid, the result is None, or a time at which the function grows above 1/e."
  },
  {
   "property": "C143",
   "status": "partial",
   "theorems": [
    "PP.Props.C143_tau_file",
    "PP.Props.C143_counterexample_equal",
    "PP.Props.C143_counterexample_analysis"
   ],
   "note": "Proved for wave-numbers that are all different. False with two groups of wave-vectors of the same wave-number (fewer lines), and if write() is called without analyze() (KeyError after the header)."
  },
  {
   "property": "C144",
   "status": "partial",
   "theorems": [
    "PP.Props.C144_memory_partial",
    "PP.Props.C144_counterexample_fkt",
    "PP.Props.C144_counterexample_update"
   ],
   "note": "Proved for the functions that use Correlation.write. False for the intermediate scattering functions, which always raise an exception: TypeError from None + '.tau'. False with update=True for all functions: TypeError from os.path.exists(None)."
  },
  {
   "property": "C145",
   "status": "partial",
   "theorems": [
    "PP.Props.C145_written_partial",
    "PP.Props.C145_counterexample_time"
   ],
   "note": "Proved if the times start at zero and the functions are positive there. Otherwise, possible without normalisation, do() raises ValueError before writing."
  },
  {
   "property": "C146",
   "status": "partial",
   "theorems": [
    "PP.Props.C146_returns_partial",
    "PP.Props.C146_counterexample_fourier"
   ],
   "note": "True for Correlation.compute; false for all functions in Fourier space, which return None."
  },
  {
   "property": "C147",
   "status": "partial",
   "theorems": [
    "PP.Props.C147_counterexample_returned",
    "PP.Props.C147_counterexample_relabelled",
    "PP.Props.C147_wave_vectors_partial",
    "PP.Props.C147_given_vectors_partial",
    "PP.Props.C147_given_grid",
    "PP.Props.C147_given_computes_partial",
    "PP.Props.C147_constructor_partial",
    "PP.Props.C147_counterexample_kgrid",
    "PP.Props.C147_counterexample_cell"
   ],
   "note": "Proved for a k grid given to the constructor and for wave-vectors assigned to kvectors, if the cell does not change. False for a grid assigned to kgrid, which raises an exception, or only relabels the values if kvectors was assigned before, and for kvectors in a fluctuating cell: the wave-vectors are replaced by those of the default grid in the second frame, with an exception if there are more of them."
  },
  {
   "property": "C148",
   "status": "partial",
   "theorems": [
    "PP.Props.C148_files_partial",
    "PP.Props.C148_own_cell_partial",
    "PP.Props.C148_linear_partial",
    "PP.Props.C148_first_partial",
    "PP.Props.C148_counterexample_kgrid"
   ],
   "note": "Proved for fkt and fskt, for sk without the option kgrid, and for the first file. False for sk with kgrid: the list is modified by each file and the next one finds it changed."
  },
  {
   "property": "C149",
   "status": "partial",
   "theorems": [
    "PP.Props.C149_report_partial",
    "PP.Props.C149_nk_partial",
    "PP.Props.C149_counterexample_copy",
    "PP.Props.C149_counterexample_cell"
   ],
   "note": "Proved if the cell does not change. False for the partial functions that are copies (no rows), and in a fluctuating cell with the default grid (k of the last frame, grid of the first one)."
  },
  {
   "property": "C150",
   "status": "partial",
   "theorems": [
    "PP.Props.C150_explicit_partial",
    "PP.Props.C150_counterexample_cell"
   ],
   "note": "Proved if the cell does not change, and for the intermediate scattering functions. False otherwise: grid has the mean norms in the first frame by default, those in the last frame if the list was given."
  },
  {
   "property": "C151",
   "status": "partial",
   "theorems": [
    "PP.Props.C151_legacy_partial",
    "PP.Props.C151_fast_partial",
    "PP.Props.C151_counterexample_integer"
   ],
   "note": "Proved for grids given by the user and floating point spacings, including the exceptions; for the fast version without periodic boundaries, twice the differences of coordinates must not exceed the largest floating point number. False for the spacing 1 given as an integer: IndexError in this unit, a table in the others."
  },
  {
   "property": "C152",
   "status": "proved",
   "theorems": [
    "PP.Props.C152_structure_factor",
    "PP.Props.C152_fast",
    "PP.Props.C152_scattering",
    "PP.Props.C152_assigned"
   ],
   "note": "Proved for all inputs, including the exceptions: the legacy structure factor with its set-up of the wave-vectors in each frame, the fast one with the wave-vectors in force in each frame, F_s (legacy and fast), F, and the wave-vectors assigned to and read from kvectors. Real arithmetic."
  },
  {
   "property": "C153",
   "status": "partial",
   "theorems": [
    "PP.Props.C153_legacy_partial",
    "PP.Props.C153_fast_partial",
    "PP.Props.C153_cells_partial",
    "PP.Props.C153_counterexample_cells"
   ],
   "note": "Proved for the legacy version and for the fast version without linked cells for all inputs, including the exceptions; with linked cells, for the points whose bins lie below rmax (periodic cell, particles strictly inside). False for the last point with linked cells: a pair beyond rmax but in the last bin is counted or not according to the orientation of the axes."
  },
  {
   "property": "C154",
   "status": "proved",
   "theorems": [
    "PP.Props.C154_translation",
    "PP.Props.C154_axes",
    "PP.Props.C154_unit"
   ],
   "note": "Proved for all inputs, including the exceptions (the sides of the cell must not be negative for the inversion of axes)."
  },
  {
   "property": "C155",
   "status": "proved",
   "theorems": [
    "PP.Props.C155_labels",
    "PP.Props.C155_order"
   ],
   "note": "Proved for frames with consistent arrays, the particles in the cell and an increasing grid of angles, including the overflow of the buffer of 50 neighbours. All the frames are used for the order of the frames (stride 1)."
  },
  {
   "property": "C156",
   "status": "partial",
   "theorems": [
    "PP.Props.C156_images_partial",
    "PP.Props.C156_counterexample_far"
   ],
   "note": "Proved if all separations remain below one side and a half and the cut-offs do not exceed half the sides. False otherwise: when the particles of the first group are moved by four sides no neighbour is found and all the values are nan."
  },
  {
   "property": "C157",
   "status": "partial",
   "theorems": [
    "PP.Props.C157_gr_legacy_partial",
    "PP.Props.C157_gr_fast_partial",
    "PP.Props.C157_counterexample_cell",
    "PP.Props.C157_sk_partial",
    "PP.Props.C157_counterexample_weights"
   ],
   "note": "Proved for a constant number of particles: g(r) (legacy, and fast without linked cells) in a constant cell, S(k) without weights with the same wave-vectors in all frames. False for g(r) if the cell changes (the values of the first part are multiplied by the ratio of the volumes of the last frames) and for S(k) with weights (each of two frames alone gives zero)."
  },
  {
   "property": "C158",
   "status": "proved",
   "theorems": [
    "PP.Props.C158_relabel",
    "PP.Props.C158_similarity",
    "PP.Props.C158_unit_of_time"
   ],
   "note": "Proved for all inputs, including the exceptions, for the plain and the optimized version."
  },
  {
   "property": "C159",
   "status": "proved",
   "theorems": [
    "PP.Props.C159_feqc",
    "PP.Props.C159_ifabsmm",
    "PP.Props.C159_ifabsmm_neg",
    "PP.Props.C159_linear_fit",
    "PP.Props.C159_linear_fit_units",
    "PP.Props.C159_diffusion",
    "PP.Props.C159_overlap_time",
    "PP.Props.C159_peak",
    "PP.Props.C159_relaxation_times",
    "PP.Props.C159_msd"
   ],
   "note": "Proved for all inputs, including the exceptions, in exact arithmetic; the squared uncertainty of the intercept follows only if the origin of the abscissas does not change, as it must."
  },
  {
   "property": "C160",
   "status": "partial",
   "theorems": [
    "PP.Props.C160_zero_lag_partial",
    "PP.Props.C160_counterexample_number"
   ],
   "note": "value_nonorm at zero lag is value_nonorm of the structure factor, that is the structure factor times the square root of the product of the numbers of particles. False for value with normalize=False, which is not divided by the number of particles, unless each group has one particle."
  },
  {
   "property": "C161",
   "status": "proved",
   "theorems": [
    "PP.Props.C161_self_distinct",
    "PP.Props.C161_one_particle",
    "PP.Props.C161_structure_factor"
   ],
   "note": "Proved for trajectories in two or three dimensions with a constant number of particles (in one dimension the coherent function is wrong, see C83)."
  },
  {
   "property": "C162",
   "status": "proved",
   "theorems": [
    "PP.Props.C162_fix_cm_splits"
   ],
   "note": "Proved in exact arithmetic for unfolded positions in the file and no filter (a filter acts after the centre of mass has been subtracted)."
  },
  {
   "property": "C163",
   "status": "proved",
   "theorems": [
    "PP.Props.C163_self_msd"
   ],
   "note": "Proved in exact arithmetic with the same discrete time grid, stride and steps; with normalize=True if zero lag is sampled, as in C53."
  },
  {
   "property": "C164",
   "status": "proved",
   "theorems": [
    "PP.Props.C164_overlap_msd"
   ],
   "note": "Proved in exact arithmetic with the same discrete time grid and stride."
  },
  {
   "property": "C165",
   "status": "proved",
   "theorems": [
    "PP.Props.C165_compat",
    "PP.Props.C165_defaults"
   ],
   "note": "Proved for all dictionaries."
  },
  {
   "property": "C166",
   "status": "partial",
   "theorems": [
    "PP.Props.C166_default_fast_partial",
    "PP.Props.C166_without_fortran",
    "PP.Props.C166_counterexample_sk",
    "PP.Props.C166_counterexample_chi4qs"
   ],
   "note": "True for gr and fskt if the compiled modules can be imported. False for sk, legacy by default and whatever --legacy, and for chi4qs, plain by default and AttributeError with --fast."
  },
  {
   "property": "C167",
   "status": "partial",
   "theorems": [
    "PP.Props.C167_counterexample_positional",
    "PP.Props.C167_counterexample_keyword",
    "PP.Props.C167_all_positional_partial",
    "PP.Props.C167_one_file_partial",
    "PP.Props.C167_no_file"
   ],
   "note": "False: the parameters with defaults come before *input_files, so that the second file is taken for the first of them (dr, nk, tmax, ...), and giving that parameter by name raises TypeError. All files are used only if all the optional parameters are given by position. How argh binds the command line is not modelled."
  },
  {
   "property": "C168",
   "status": "proved",
   "theorems": [
    "PP.Props.C168_kgrid",
    "PP.Props.C168_func"
   ],
   "note": "Decimal numbers without blanks and exponents, as in the model of float."
  },
  {
   "property": "C169",
   "status": "proved",
   "theorems": [
    "PP.Props.C169_chi4_overlap"
   ],
   "note": "Proved in exact arithmetic, for a new object whose grid is sampled."
  },
  {
   "property": "C170",
   "status": "proved",
   "theorems": [
    "PP.Props.C170_alpha2_kernel",
    "PP.Props.C170_alpha2"
   ],
   "note": "Proved in exact arithmetic; the three in the bound is the one in the formula of the code, whatever the number of dimensions."
  },
  {
   "property": "C171",
   "status": "proved",
   "theorems": [
    "PP.Props.C171_vacf",
    "PP.Props.C171_fkt",
    "PP.Props.C171_fkt_normalised"
   ],
   "note": "Proved in exact arithmetic; for the intermediate scattering function with all frames as time origins, discrete time grids that start from frame 0, and one group of particles."
  },
  {
   "property": "C172",
   "status": "proved",
   "theorems": [
    "PP.Props.C172_ballistic"
   ],
   "note": "Proved in exact arithmetic with all frames as time origins."
  },
  {
   "property": "C173",
   "status": "proved",
   "theorems": [
    "PP.Props.C173_origin",
    "PP.Props.C173_inversion",
    "PP.Props.C173_labels",
    "PP.Props.C173_images",
    "PP.Props.C173_order"
   ],
   "note": "Proved in exact arithmetic for frames in which the calculation succeeds (IkRegular); images are those of the cell that defines the wave-vectors."
  },
  {
   "property": "C174",
   "status": "proved",
   "theorems": [
    "PP.Props.C174_affine",
    "PP.Props.C174_bound",
    "PP.Props.C174_zero"
   ],
   "note": "Proved in exact arithmetic. As in C73 the correlation function is an arbitrary function of the first frame of the sub-trajectory."
  },
  {
   "property": "C175",
   "status": "proved",
   "theorems": [
    "PP.Props.C175_reversed_velocities",
    "PP.Props.C175_labels",
    "PP.Props.C175_axes",
    "PP.Props.C175_units",
    "PP.Props.C175_bound"
   ],
   "note": "Proved in exact arithmetic in three dimensions without filters (other cases: C95)."
  },
  {
   "property": "C176",
   "status": "partial",
   "theorems": [
    "PP.Props.C176_own_file_partial",
    "PP.Props.C176_bond_angles_partial",
    "PP.Props.C176_counterexample_gr"
   ],
   "note": "True of do for all functions whose compute writes no file. False for the bond-angle distribution without cut-offs, which computes the partial radial distribution functions with spacing 0.1 and writes them to their files in the default output path."
  },
  {
   "property": "C177",
   "status": "partial",
   "theorems": [
    "PP.Props.C177_weights_partial",
    "PP.Props.C177_own_partial",
    "PP.Props.C177_counterexample_fewer"
   ],
   "note": "True if the weight trajectory has at least as many particles. If it has fewer, the other particles keep their own value of the property. Filters are left out."
  },
  {
   "property": "C178",
   "status": "partial",
   "theorems": [
    "PP.Props.C178_other_field_partial",
    "PP.Props.C178_again_partial",
    "PP.Props.C178_counterexample_same_field",
    "PP.Props.C178_counterexample_missing"
   ],
   "note": "True if the other weights are from another property which the particles of the weight trajectory have. False for the same property, since the callbacks stay in the trajectory: the last weight trajectory is used by all objects; a weight trajectory without the property makes all frames unreadable."
  },
  {
   "property": "C179",
   "status": "partial",
   "theorems": [
    "PP.Props.C179_file_partial",
    "PP.Props.C179_distinct_partial",
    "PP.Props.C179_fluctuations_partial",
    "PP.Props.C179_counterexample_trajectory",
    "PP.Props.C179_counterexample_name"
   ],
   "note": "True of weights from different properties of the same trajectory, with or without fluctuations. False for the same property taken from different weight trajectories (same file), and for the fluctuations of f versus a property called f_fluctuations."
  },
  {
   "property": "C180",
   "status": "partial",
   "theorems": [
    "PP.Props.C180_own_partial",
    "PP.Props.C180_one_file_partial",
    "PP.Props.C180_counterexample_files"
   ],
   "note": "True for weights that are properties of the particles of the input files, and for a single file. With a weight trajectory and two files or more TypeError is raised after the first one, because the name of the weight trajectory is replaced by the trajectory itself in the loop. The opening of files is an arbitrary function of their name."
  },
  {
   "property": "C181",
   "status": "proved",
   "theorems": [
    "PP.Props.C181_units",
    "PP.Props.C181_origin",
    "PP.Props.C181_uniform",
    "PP.Props.C181_reverse",
    "PP.Props.C181_bound"
   ],
   "note": "Proved in exact arithmetic. Closed form, reversal and bound are for skip 1 and an increasing grid of indices smaller than the number of points (other cases: C02)."
  },
  {
   "property": "C182",
   "status": "partial",
   "theorems": [
    "PP.Props.C182_numbers_partial",
    "PP.Props.C182_counterexample_new"
   ],
   "note": "True if all species are in the first frame, for any way of listing the distinct species. A species that is absent from the first frame raises ValueError as soon as its particles are in one of the groups."
  },
  {
   "property": "C183",
   "status": "partial",
   "theorems": [
    "PP.Props.C183_sum_partial",
    "PP.Props.C183_counterexample_copies"
   ],
   "note": "True for the functions of all ordered pairs of species, value_nonorm, in exact arithmetic. Partial computes one order only and copies it to the other: the sum is then wrong wherever F_ab and F_ba differ."
  },
  {
   "property": "C184",
   "status": "partial",
   "theorems": [
    "PP.Props.C184_ba_partial",
    "PP.Props.C184_ik_partial",
    "PP.Props.C184_counterexample_volume"
   ],
   "note": "True for bond angles, for value_nonorm of the spectral density, and for its value if the volume is constant. Otherwise value is divided by the mean volume of all frames, also those that are not used."
  },
  {
   "property": "C185",
   "status": "proved",
   "theorems": [
    "PP.Props.C185_parts"
   ],
   "note": "Proved when both parts have angles below the last point of the grid (otherwise one of them is nan) and at most 50 neighbours per particle (the size of the buffer, C70)."
  },
  {
   "property": "C186",
   "status": "partial",
   "theorems": [
    "PP.Props.C186_counterexample_shift",
    "PP.Props.C186_counterexample_exhausted"
   ],
   "note": "False: _compute replaces the grid by its centres, so each call shifts the grid by half a spacing and loses one bin, while the values remain the fractions of angles between b w and (b+1) w. After 180/w calls it raises IndexError. Proved for all regular trajectories with some particles."
  },
  {
   "property": "C187",
   "status": "partial",
   "theorems": [
    "PP.Props.C187_counterexample_self",
    "PP.Props.C187_counterexample_coherent",
    "PP.Props.C187_ik_first_partial",
    "PP.Props.C187_counterexample_ik"
   ],
   "note": "False: the arrays of positions grow by the number of frames at each call while the times (for I(k), the radii) are read from the trajectory or stored once. The second and later calls raise IndexError. Proved for all regular inputs with a stride not larger than the number of frames; for I(k) with a constant cell, second call."
  },
  {
   "property": "C188",
   "status": "proved",
   "theorems": [
    "PP.Props.C188_blocks"
   ],
   "note": "Proved for every pair function and every number of particles; the result is the sum of the histograms of the blocks."
  },
  {
   "property": "C189",
   "status": "partial",
   "theorems": [
    "PP.Props.C189_sum_partial",
    "PP.Props.C189_counterexample"
   ],
   "note": "False: angles formed by neighbours of different species are in none of the partial distributions. Proved: the sum is the total minus these angles, for all trajectories in which every species is in every frame used; it is smaller than the total as soon as there is one such angle below the last point of the grid."
  },
  {
   "property": "C190",
   "status": "proved",
   "theorems": [
    "PP.Props.C190_pairs",
    "PP.Props.C190_two_groups"
   ],
   "note": "Proved over the reals for unweighted groups and cells with positive sides."
  },
  {
   "property": "C191",
   "status": "proved",
   "theorems": [
    "PP.Props.C191_legacy",
    "PP.Props.C191_fast",
    "PP.Props.C191_linked_cells"
   ],
   "note": "Proved. In python and with linked cells a distance equal to the upper edge of the bin may also count: numpy's last bin is closed."
  },
  {
   "property": "C192",
   "status": "proved",
   "theorems": [
    "PP.Props.C192_fast",
    "PP.Props.C192_legacy"
   ],
   "note": "Proved in exact arithmetic. In python the last point of each table is left out, since numpy's last bin is closed."
  },
  {
   "property": "C193",
   "status": "proved",
   "theorems": [
    "PP.Props.C193_spacing"
   ],
   "note": "Proved in exact arithmetic for trajectories with some angle below the last point of the wider grid (otherwise the distribution is nan). The constant differs from 1 because angles in the last bin of the finer grid are lost if the number of bins is odd."
  },
  {
   "property": "C194",
   "status": "partial",
   "theorems": [
    "PP.Props.C194_subset_partial",
    "PP.Props.C194_counterexample_irregular"
   ],
   "note": "True if the steps repeat with the period of a block and the stride is a multiple of the block size. False for irregular steps: with the steps 0, 2, 3, 4 the value at time 2 changes if time 3 is also requested."
  },
  {
   "property": "C195",
   "status": "partial",
   "theorems": [
    "PP.Props.C195_default",
    "PP.Props.C195_help_text",
    "PP.Props.C195_text",
    "PP.Props.C195_width_partial",
    "PP.Props.C195_counterexample_items"
   ],
   "note": "Text and default values: proved. The lines fit the width unless a row starts with a blank, a digit, a dash or a dot: its continuation lines are indented after they have been wrapped to the full width."
  },
  {
   "property": "C196",
   "status": "partial",
   "theorems": [
    "PP.Props.C196_counterexample",
    "PP.Props.C196_main_partial"
   ],
   "note": "Proved for the function main if the missing name were defined (C196_main_partial). False for the script: for all data it raises NameError, since import atooms.postprocessing does not define the name postprocessing."
  },
  {
   "property": "C197",
   "status": "partial",
   "theorems": [
    "PP.Props.C197_loop",
    "PP.Props.C197_with",
    "PP.Props.C197_position",
    "PP.Props.C197_counterexample_update"
   ],
   "note": "Loops, exceptions and positions: proved (the loop of tqdm itself is outside of the model). False for update() without argument, which raises TypeError with the fallback bar only."
  },
  {
   "property": "C198",
   "status": "partial",
   "theorems": [
    "PP.Props.C198_one_variable_partial",
    "PP.Props.C198_without_matplotlib",
    "PP.Props.C198_counterexample_two_variables",
    "PP.Props.C198_counterexample_not_computed",
    "PP.Props.C198_counterexample_one_point"
   ],
   "note": "True for functions of one variable after compute. For two variables nothing is drawn; before compute ValueError or IndexError is raised; after reading a file of one point IndexError."
  },
  {
   "property": "C199",
   "status": "proved",
   "theorems": [
    "PP.Props.C199_extinction",
    "PP.Props.C199_bragg"
   ],
   "note": "Proved over the reals for unweighted particles, legacy class (equal to the fast class in three dimensions by C57)."
  },
  {
   "property": "C200",
   "status": "proved",
   "theorems": [
    "PP.Props.C200_positions",
    "PP.Props.C200_velocities",
    "PP.Props.C200_chi4"
   ],
   "note": "Proved in exact arithmetic. The copies are those of unfolded positions; time origins and time grids are the same."
  },
  {
   "property": "C201",
   "status": "proved",
   "theorems": [
    "PP.Props.C201_repeated"
   ],
   "note": "Proved in exact arithmetic for the python class and the default grid; the fast class gives the same values by C37."
  },
  {
   "property": "C202",
   "status": "proved",
   "theorems": [
    "PP.Props.C202_repeated"
   ],
   "note": "Proved over the reals for unweighted particles, legacy class (equal to the fast class in three dimensions by C57)."
  },
  {
   "property": "C203",
   "status": "partial",
   "theorems": [
    "PP.Props.C203_and_or_partial",
    "PP.Props.C203_compare_partial",
    "PP.Props.C203_not_partial",
    "PP.Props.C203_missing_partial",
    "PP.Props.C203_counterexample"
   ],
   "note": "Order, and, or, not: proved for every semantics of python values. Missing attributes raise, unless the name is that of a builtin: `id == 1` compares the builtin function id and selects no particle."
  },
  {
   "property": "C204",
   "status": "partial",
   "theorems": [
    "PP.Props.C204_attributes_partial",
    "PP.Props.C204_groups_partial",
    "PP.Props.C204_counterexample"
   ],
   "note": "Attributes and groups: proved. False for the set of attributes: eval adds __builtins__ to the __dict__ of each particle."
  },
  {
   "property": "C205",
   "status": "partial",
   "theorems": [
    "PP.Props.C205_no_commas_partial",
    "PP.Props.C205_two_partial",
    "PP.Props.C205_counterexample"
   ],
   "note": "False: the text is split at every comma. Proved: conditions without commas select the first group; conditions with a comma inside brackets or quotes raise, since neither half is an expression."
  },
  {
   "property": "C206",
   "status": "proved",
   "theorems": [
    "PP.Props.C206_msd",
    "PP.Props.C206_overlap",
    "PP.Props.C206_chi4",
    "PP.Props.C206_alpha2",
    "PP.Props.C206_fskt"
   ],
   "note": "Proved in exact arithmetic; F_s before normalisation."
  },
  {
   "property": "C207",
   "status": "partial",
   "theorems": [
    "PP.Props.C207_calculation_partial",
    "PP.Props.C207_counterexample_overwritten",
    "PP.Props.C207_counterexample_order"
   ],
   "note": "The calculation is the same in either order. The file is not: Filter replaces the tag set by add_weight, so the results are written to the file of the function without weights."
  },
  {
   "property": "C208",
   "status": "proved",
   "theorems": [
    "PP.Props.C208_overlap",
    "PP.Props.C208_vacf",
    "PP.Props.C208_alpha2",
    "PP.Props.C208_alpha2_drift",
    "PP.Props.C208_chi4",
    "PP.Props.C208_fskt",
    "PP.Props.C208_fkt"
   ],
   "note": "The mean square displacement of the same particles is C24_ballistic. The scattering functions are those of the legacy implementations, before the division by the value at t = 0."
  },
  {
   "property": "C209",
   "status": "proved",
   "theorems": [
    "PP.Props.C209_linear_first",
    "PP.Props.C209_linear_second",
    "PP.Props.C209_units",
    "PP.Props.C209_parallelogram"
   ],
   "note": "About StructureFactorLegacy; the weights are given by frame and particle. That a constant added to the field does not matter with fluctuations is C68_shift."
  },
  {
   "property": "C210",
   "status": "proved",
   "theorems": [
    "PP.Props.C210_bound"
   ],
   "note": "About StructureFactorLegacy."
  },
  {
   "property": "C211",
   "status": "proved",
   "theorems": [
    "PP.Props.C211_repeated",
    "PP.Props.C211_self"
   ],
   "note": "The coherent function is modelled in two and three dimensions (FkRegular); in other dimensions it is wrong, C83_counterexample_1d."
  },
  {
   "property": "C212",
   "status": "partial",
   "theorems": [
    "PP.Props.C212_counterexample_clock",
    "PP.Props.C212_result_partial",
    "PP.Props.C212_exception",
    "PP.Props.C212_report"
   ],
   "note": "True if the clock shows some time spent. Otherwise the share of time is a division by zero: compute() raises ZeroDivisionError after the calculation and do() writes nothing."
  },
  {
   "property": "C213",
   "status": "partial",
   "theorems": [
    "PP.Props.C213_quiet_partial",
    "PP.Props.C213_messages",
    "PP.Props.C213_counterexample_verbose",
    "PP.Props.C213_output"
   ],
   "note": "False if --verbose is given too: --quiet then has no effect. Output path, messages and bars for the other combinations: proved."
  },
  {
   "property": "C214",
   "status": "partial",
   "theorems": [
    "PP.Props.C214_self_partial",
    "PP.Props.C214_coherent_partial",
    "PP.Props.C214_wave_vectors_partial",
    "PP.Props.C214_values_partial",
    "PP.Props.C214_counterexample"
   ],
   "note": "True if the wave-numbers are at least 2*dk apart, there are wave-vectors around each of them and nk is at least the number of wave-vectors around k (the draws then do not matter). False if shells overlap: a wave-vector within dk of two grid points is used for the first one only. The same conditions give equal intermediate scattering functions, self and coherent."
  },
  {
   "property": "C215",
   "status": "partial",
   "theorems": [
    "PP.Props.C215_distinct_partial",
    "PP.Props.C215_counterexample_same"
   ],
   "note": "True for distinct species, both implementations. False for the same species given twice: each particle is paired with itself in the first bin."
  },
  {
   "property": "C216",
   "status": "partial",
   "theorems": [
    "PP.Props.C216_last_partial",
    "PP.Props.C216_counterexample_tag",
    "PP.Props.C216_counterexample_source"
   ],
   "note": "Field, fluctuations, outcome and weight trajectory are those of the last call; with a weight trajectory so are the values (C177_weights_partial). False for the tag, to which all the fields are appended, and for a field taken from another trajectory before."
  },
  {
   "property": "C217",
   "status": "partial",
   "theorems": [
    "PP.Props.C217_times_partial",
    "PP.Props.C217_chi4qs_partial",
    "PP.Props.C217_counterexample_vacf"
   ],
   "note": "Holds if a largest time or a fraction of the total time is given, with at least two samples. The command vacf fails without both. Available times are those of the frames counted from the first one; nearness is up to one step, since requested times are rounded to steps."
  },
  {
   "property": "C218",
   "status": "proved",
   "theorems": [
    "PP.Props.C218_self",
    "PP.Props.C218_coherent"
   ],
   "note": "The whole command, from the options to the arrays, for the whole system without fix_cm. The recursion that widens the shells is assumed to be allowed the depth it needs (see C48). The positions are those the object reads, with the same number of particles in all frames for fskt."
  },
  {
   "property": "C219",
   "status": "proved",
   "theorems": [
    "PP.Props.C219_self",
    "PP.Props.C219_coherent"
   ],
   "note": "Conditions as for C218. In contrast to C125, here the number and the string are equivalent."
  },
  {
   "property": "C220",
   "status": "proved",
   "theorems": [
    "PP.Props.C220_definition"
   ],
   "note": "For the whole system and StructureFactorLegacy; the fast version differs, see C57. The recursion that widens the shells is assumed to be allowed the depth it needs (see C48). Wave-numbers requested are not negative. The values without a constant cell are the subject of C147."
  },
  {
   "property": "C221",
   "status": "proved",
   "theorems": [
    "PP.Props.C221_definition"
   ],
   "note": "For the whole system in a cell that is periodic in all directions, two or three dimensions, the same number of particles in all frames. With rmax the fast version may use linked cells, hence the restriction to complete shells. The spacing and rmax must be within the diagonal of the cell."
  },
  {
   "property": "C222",
   "status": "partial",
   "theorems": [
    "PP.Props.C222_selection_partial",
    "PP.Props.C222_counterexample_first",
    "PP.Props.C222_counterexample_number"
   ],
   "note": "True if the radii in the frames selected are those in the frames at the beginning of the file, e.g. with --last only or if radii do not change. Otherwise false: the radii are read from the beginning of the file, whatever the selection. The value may be four times too small, and nothing is computed if the number of particles changes."
  },
  {
   "property": "C223",
   "status": "proved",
   "theorems": [
    "PP.Props.C223_definition",
    "PP.Props.C223_no_minimum"
   ],
   "note": "For a system of one species in a cell that is periodic in two or three directions, with the conditions of C221 for g(r) with spacing 0.1. With more than 50 neighbours the kernel writes out of bounds, C70_counterexample_buffer."
  },
  {
   "property": "C224",
   "status": "proved",
   "theorems": [
    "PP.Props.C224_average"
   ],
   "note": "The positions and velocities are those the object reads, without fix_cm. The trajectory has block size 1. That vacf does not use norigins is C96."
  },
  {
   "property": "C225",
   "status": "proved",
   "theorems": [
    "PP.Props.C225_sum"
   ],
   "note": "The positions and velocities are those the objects read, without fix_cm, which the command msd does not pass to the partial functions (C92). The times are those of C217."
  },
  {
   "property": "C226",
   "status": "proved",
   "theorems": [
    "PP.Props.C226_definition",
    "PP.Props.C226_sum"
   ],
   "note": "Conditions on the cell as for C221. The number of particles of each species is the same in all frames. The species are those of the first frame. The species of all particles must be among them for the sum."
  },
  {
   "property": "C227",
   "status": "partial",
   "theorems": [
    "PP.Props.C227_default_partial",
    "PP.Props.C227_counterexample",
    "PP.Props.C227_counterexample_written"
   ],
   "note": "True without the option kgrid. With it the objects share one list of wave-numbers, which each of them modifies: the total and the partial functions use other wave-vectors, are given at other wave-numbers and do not add up (C227_counterexample), and what is written at the end beside a partial function are not the wave-numbers of its calculation (C227_counterexample_written, any random draw). No weights; every species has particles in every frame; the species are those of the first frame."
  },
  {
   "property": "C228",
   "status": "partial",
   "theorems": [
    "PP.Props.C228_sum_partial",
    "PP.Props.C228_exact_partial",
    "PP.Props.C228_total_partial",
    "PP.Props.C228_counterexample"
   ],
   "note": "True if the command gives the total at the wave-numbers requested (C228_sum_partial), which is so if they are at least 2 dk apart and all the wave-vectors of the cell within dk of one of them have exactly this norm (C228_exact_partial). False otherwise: the objects share one list of wave-numbers, which each of them modifies, and the functions of the species use other wave-vectors; without the option total the wave-number written is not the one at which the first function was calculated (C228_counterexample, both implementations, any random draw). fix_cm is not represented."
  },
  {
   "property": "C229",
   "status": "partial",
   "theorems": [
    "PP.Props.C229_pairs_partial",
    "PP.Props.C229_exact_partial",
    "PP.Props.C229_total_partial",
    "PP.Props.C229_counterexample"
   ],
   "note": "True if the command gives the total at the wave-numbers requested (C229_pairs_partial), which is so if they are at least 2 dk apart and all the wave-vectors of the cell within dk of one of them have exactly this norm (C229_exact_partial). False otherwise: the objects share one list of wave-numbers, which each of them modifies; the total and the functions of the pairs are given at other wave-numbers (C229_counterexample, any random draw). With one species or no_partial only the total is given (C229_total_partial). Every species has particles in every frame; value_nonorm is not copied to the other order; fix_cm is not represented."
  },
  {
   "property": "C230",
   "status": "partial",
   "theorems": [
    "PP.Props.C230_smallest_partial",
    "PP.Props.C230_counterexample"
   ],
   "note": "True for a single time origin, and in general for a species that has the smallest value for each time origin (C230_smallest_partial). False for several time origins: the code averages over them a ratio that is not linear, and in the case of C230_counterexample the value of the whole system is below those of both species. Every species moves between any two frames (otherwise the value is nan)."
  },
  {
   "property": "C231",
   "status": "proved",
   "theorems": [
    "PP.Props.C231_species"
   ],
   "note": "The values are the variances of C31, over the time origins that the code uses. The species do not change with time. The option fast is excluded (it raises, C166)."
  },
  {
   "property": "C232",
   "status": "proved",
   "theorems": [
    "PP.Props.C232_cutoffs",
    "PP.Props.C232_no_minimum"
   ],
   "note": "Conditions on the cell and on the numbers of particles as for C226, with the default number of time origins. For the failure, each of the other pairs has a point after its first maximum that is not followed by a decrease or decreases to the last point. The calculation of the angles with these cut-offs is C70 and C189."
  },
  {
   "property": "C233",
   "status": "proved",
   "theorems": [
    "PP.Props.C233_pairs",
    "PP.Props.C233_total"
   ],
   "note": "Conditions of C232: each partial g(r) has a point after its first maximum that is not followed by a decrease. At most 50 particles of each species within the cut-off, including the particle itself (C70_counterexample_buffer). For the whole system (C233_total) at most 50 particles of all species, and the species in all frames are those of the first one."
  }
 ]
}