{
 "claims": [
  {
   "property": "C01",
   "status": "proved",
   "theorems": [
    "Verif.Props.C01_step",
    "Verif.Props.C01_wellformed",
    "Verif.Props.C01_any_step",
    "Verif.Props.C01_all_operations"
   ],
   "note": "C01_wellformed for any element type and the operations of Model/History; C01_all_operations adds nonsingular, coorientplane, interpolate and smooth on floating point values. For curves with NaN or infinite values the array an interpolator computes is left open."
  },
  {
   "property": "C02",
   "status": "proved",
   "theorems": [
    "Verif.Props.C02_coords",
    "Verif.Props.C02_ragged"
   ],
   "note": ""
  },
  {
   "property": "C03",
   "status": "partial",
   "theorems": [
    "Verif.Props.C03_as2d",
    "Verif.Props.C03_reject",
    "Verif.Props.C03_negative_axis_accepted",
    "Verif.Props.C03_negative_axis_partial"
   ],
   "note": "The code accepts axes -2*rank..-rank-1 (C03_negative_axis_accepted); all other axes are proved."
  },
  {
   "property": "C04",
   "status": "proved",
   "theorems": [
    "Verif.Props.C04_lengths",
    "Verif.Props.C04_lengths_any",
    "Verif.Props.C04_reject",
    "Verif.Props.C04_ndmin",
    "Verif.Props.C04_any"
   ],
   "note": ""
  },
  {
   "property": "C05",
   "status": "partial",
   "theorems": [
    "Verif.Props.C05_copy_partial",
    "Verif.Props.C05_copy_content",
    "Verif.Props.C05_copy_loses_dimension"
   ],
   "note": "False as stated: an empty curve of dimension > 2 loses its dimension (C05_copy_loses_dimension). Proved for the others."
  },
  {
   "property": "C06",
   "status": "partial",
   "theorems": [
    "Verif.Props.C06_index_partial",
    "Verif.Props.C06_getitem",
    "Verif.Props.C06_below_range_accepted"
   ],
   "note": "False as stated: indices -2*size..-size-1 are accepted (C06_below_range_accepted). Proved for all other indices."
  },
  {
   "property": "C07",
   "status": "proved",
   "theorems": [
    "Verif.Props.C07_slice",
    "Verif.Props.C07_zero_step",
    "Verif.Props.C07_plain"
   ],
   "note": ""
  },
  {
   "property": "C08",
   "status": "proved",
   "theorems": [
    "Verif.Props.C08_list",
    "Verif.Props.C08_list_reject",
    "Verif.Props.C08_empty_list",
    "Verif.Props.C08_mask"
   ],
   "note": "An empty python list raises IndexError (C08_empty_list)."
  },
  {
   "property": "C09",
   "status": "partial",
   "theorems": [
    "Verif.Props.C09_add",
    "Verif.Props.C09_assoc_partial",
    "Verif.Props.C09_split_partial",
    "Verif.Props.C09_split_fails",
    "Verif.Props.C09_empty_parts"
   ],
   "note": "False as stated for empty parts of curves of dimension > 2 (C09_split_fails, C09_empty_parts)."
  },
  {
   "property": "C10",
   "status": "partial",
   "theorems": [
    "Verif.Props.C10_reverse",
    "Verif.Props.C10_involution_partial",
    "Verif.Props.C10_reverse_loses_dimension",
    "Verif.Props.C10_distrib_partial"
   ],
   "note": "Involution is false for an empty curve of dimension > 2 (C10_reverse_loses_dimension)."
  },
  {
   "property": "C11",
   "status": "proved",
   "theorems": [
    "Verif.Props.C11_insert",
    "Verif.Props.C11_insert_exact",
    "Verif.Props.C11_reject",
    "Verif.Props.C11_append",
    "Verif.Props.C11_insert_list"
   ],
   "note": ""
  },
  {
   "property": "C12",
   "status": "proved",
   "theorems": [
    "Verif.Props.C12_delete_insert",
    "Verif.Props.C12_delete",
    "Verif.Props.C12_delete_when"
   ],
   "note": ""
  },
  {
   "property": "C13",
   "status": "proved",
   "theorems": [
    "Verif.Props.C13_partition",
    "Verif.Props.C13_partition_mask"
   ],
   "note": ""
  },
  {
   "property": "C14",
   "status": "partial",
   "theorems": [
    "Verif.Props.C14_appenddim",
    "Verif.Props.C14_deletedim",
    "Verif.Props.C14_insertdim",
    "Verif.Props.C14_deletedim_insertdim",
    "Verif.Props.C14_deletedim_2d",
    "Verif.Props.C14_deletedim_size_partial",
    "Verif.Props.C14_deletedim_all"
   ],
   "note": "The last claim is false: deletedim(slice(None)) removes all points (C14_deletedim_all). The rest is proved."
  },
  {
   "property": "C15",
   "status": "proved",
   "theorems": [
    "Verif.Props.C15_unique",
    "Verif.Props.C15_idempotent"
   ],
   "note": ""
  },
  {
   "property": "C16",
   "status": "proved",
   "theorems": [
    "Verif.Props.C16_drop_bool",
    "Verif.Props.C16_drop_matrix",
    "Verif.Props.C16_drop_indices",
    "Verif.Props.C16_drop_reject"
   ],
   "note": ""
  },
  {
   "property": "C17",
   "status": "partial",
   "theorems": [
    "Verif.Props.C17_kept_partial",
    "Verif.Props.C17_unchanged",
    "Verif.Props.C17_separated_partial",
    "Verif.Props.C17_empty_fails",
    "Verif.Props.C17_nan_fails",
    "Verif.Props.C17_drift_fails"
   ],
   "note": "Near-zero segments can remain (C17_nan_fails, C17_drift_fails) and an empty curve is a ValueError (C17_empty_fails). Proved: what is kept, finiteness, unchanged when nothing is singular, separation when neighbours coincide or are apart."
  },
  {
   "property": "C18",
   "status": "partial",
   "theorems": [
    "Verif.Props.C18_shape",
    "Verif.Props.C18_int",
    "Verif.Props.C18_refl",
    "Verif.Props.C18_refl_point",
    "Verif.Props.C18_nan",
    "Verif.Props.C18_point",
    "Verif.Props.C18_not_symmetric",
    "Verif.Props.C18_not_transitive",
    "Verif.Props.C18_segment"
   ],
   "note": "False as stated: float equality is neither symmetric (C18_not_symmetric) nor transitive (C18_not_transitive). Proved: reflexivity, shape, NaN, integer data. Segments of finite float coordinates: C18_segment."
  },
  {
   "property": "C19",
   "status": "partial",
   "theorems": [
    "Verif.Props.C19_agree",
    "Verif.Props.C19_count",
    "Verif.Props.C19_other_dim",
    "Verif.Props.C19_count_add_partial",
    "Verif.Props.C19_count_mixed"
   ],
   "note": "Additivity of count is false for mixed dtypes (C19_count_mixed); all else proved."
  },
  {
   "property": "C20",
   "status": "partial",
   "theorems": [
    "Verif.Props.C20_index_partial",
    "Verif.Props.C20_start_below_range"
   ],
   "note": "False for start < -size (C20_start_below_range); a start in -size..-1 gives a negative index. Proved for start >= -size."
  },
  {
   "property": "C21",
   "status": "partial",
   "theorems": [
    "Verif.Props.C21_contains",
    "Verif.Props.C21_slice_partial",
    "Verif.Props.C21_empty_slice"
   ],
   "note": "An empty slice of a curve of dimension > 2 is not contained (C21_empty_slice); all else proved."
  },
  {
   "property": "C22",
   "status": "partial",
   "theorems": [
    "Verif.Props.C22_reads_partial",
    "Verif.Props.C22_write_fails",
    "Verif.Props.C22_write_spreads",
    "Verif.Props.C22_parameters"
   ],
   "note": "Proved for all histories of reads: every read returns the value computed from scratch and leaves earlier arrays unchanged. Violated for user writes: computed arrays are writeable and shared (C22_write_fails). C22_write_spreads: what a write into the tangent array changes and what not."
  },
  {
   "property": "C23",
   "status": "proved",
   "theorems": [
    "Verif.Props.C23_points",
    "Verif.Props.C23_number",
    "Verif.Props.C23_laws",
    "Verif.Props.C23_matmul"
   ],
   "note": ""
  },
  {
   "property": "C24",
   "status": "partial",
   "theorems": [
    "Verif.Props.C24_copy_partial",
    "Verif.Props.C24_copy_changes_dtype"
   ],
   "note": "False: the dtype becomes float64 (C24_copy_changes_dtype); the coordinates are kept."
  },
  {
   "property": "C25",
   "status": "proved",
   "theorems": [
    "Verif.Props.C25_affine",
    "Verif.Props.C25_length"
   ],
   "note": ""
  },
  {
   "property": "C26",
   "status": "partial",
   "theorems": [
    "Verif.Props.C26_point",
    "Verif.Props.C26_inverse_partial",
    "Verif.Props.C26_ends",
    "Verif.Props.C26_off_line",
    "Verif.Props.C26_sequence_partial",
    "Verif.Props.C26_single_point_list",
    "Verif.Props.C26_nan_on_line"
   ],
   "note": "False for lines not through the origin (C26_nan_on_line) and for a list of one non-collinear point (C26_single_point_list). Proved otherwise."
  },
  {
   "property": "C27",
   "status": "partial",
   "theorems": [
    "Verif.Props.C27_sound_partial",
    "Verif.Props.C27_complete_partial",
    "Verif.Props.C27_exact_behaviour",
    "Verif.Props.C27_misses",
    "Verif.Props.C27_close_accepted"
   ],
   "note": "False: lines not through the origin are missed (C27_misses), points close to an end point are accepted (C27_close_accepted). C27_exact_behaviour gives what the test decides."
  },
  {
   "property": "C28",
   "status": "partial",
   "theorems": [
    "Verif.Props.C28_parallel",
    "Verif.Props.C28_nonparallel_partial",
    "Verif.Props.C28_short_segments"
   ],
   "note": "False for short segments (C28_short_segments); proved when a 2x2 minor of the directions is large enough. The rest is proved."
  },
  {
   "property": "C29",
   "status": "partial",
   "theorems": [
    "Verif.Props.C29_coplanar_partial",
    "Verif.Props.C29_segment",
    "Verif.Props.C29_few_fails",
    "Verif.Props.C29_translate",
    "Verif.Props.C29_isplane_partial",
    "Verif.Props.C29_isplane_fails"
   ],
   "note": "In dimension 3 and more a single point raises ValueError and no point IndexError (C29_few_fails, C29_isplane_fails); proved for all other cases, for points, segments and curves."
  },
  {
   "property": "C30",
   "status": "proved",
   "theorems": [
    "Verif.Props.C30_range",
    "Verif.Props.C30_geometric",
    "Verif.Props.C30_symm",
    "Verif.Props.C30_self",
    "Verif.Props.C30_reverse",
    "Verif.Props.C30_scale"
   ],
   "note": ""
  },
  {
   "property": "C31",
   "status": "partial",
   "theorems": [
    "Verif.Props.C31_none_iff",
    "Verif.Props.C31_common_partial",
    "Verif.Props.C31_check",
    "Verif.Props.C31_mixed_signs"
   ],
   "note": "False for directions of mixed sign (C31_mixed_signs); proved for directions without opposite signs. None-iff-disjoint and the midpoint are proved for all lines."
  },
  {
   "property": "C32",
   "status": "partial",
   "theorems": [
    "Verif.Props.C32_distance_partial",
    "Verif.Props.C32_exact",
    "Verif.Props.C32_short"
   ],
   "note": "Not exact in the tolerance zone (C32_short); proved: foot on the segment, explicit error bound, exactness outside the zone."
  },
  {
   "property": "C33",
   "status": "proved",
   "theorems": [
    "Verif.Props.C33_range",
    "Verif.Props.C33_endpoints"
   ],
   "note": ""
  },
  {
   "property": "C34",
   "status": "partial",
   "theorems": [
    "Verif.Props.C34_bound_partial",
    "Verif.Props.C34_exact_partial",
    "Verif.Props.C34_singular_second"
   ],
   "note": "False for a one-point second segment (C34_singular_second). Proved: explicit error bound for all others, exact minimum for coordinates on a grid of size at least 2^-13."
  },
  {
   "property": "C35",
   "status": "partial",
   "theorems": [
    "Verif.Props.C35_symm_partial",
    "Verif.Props.C35_zero_partial"
   ],
   "note": "False for one-point segments (C34_singular_second). Proved exactly on grids, up to the error bound otherwise; distance 0 always means contact."
  },
  {
   "property": "C36",
   "status": "partial",
   "theorems": [
    "Verif.Props.C36_entries_partial",
    "Verif.Props.C36_int_data"
   ],
   "note": "False for integer data (C36_int_data); proved for float data."
  },
  {
   "property": "C37",
   "status": "proved",
   "theorems": [
    "Verif.Props.C37_on_both"
   ],
   "note": "The tolerance is 1e-8 below 0 and 1e-8 + 1e-5 above 1."
  },
  {
   "property": "C38",
   "status": "partial",
   "theorems": [
    "Verif.Props.C38_crossing_partial",
    "Verif.Props.C38_short_missed",
    "Verif.Props.C38_far_missed"
   ],
   "note": "False for short segments (C38_short_missed) and far from the origin (C38_far_missed); proved with explicit size conditions."
  },
  {
   "property": "C39",
   "status": "partial",
   "theorems": [
    "Verif.Props.C39_overlap_partial",
    "Verif.Props.C39_sound",
    "Verif.Props.C39_missed"
   ],
   "note": "False for lines not through the origin (C39_missed); proved for lines through the origin."
  },
  {
   "property": "C40",
   "status": "proved",
   "theorems": [
    "Verif.Props.C40_pruning"
   ],
   "note": ""
  },
  {
   "property": "C41",
   "status": "proved",
   "theorems": [
    "Verif.Props.C41_row_major"
   ],
   "note": ""
  },
  {
   "property": "C42",
   "status": "proved",
   "theorems": [
    "Verif.Props.C42_self",
    "Verif.Props.C42_copy"
   ],
   "note": ""
  },
  {
   "property": "C43",
   "status": "partial",
   "theorems": [
    "Verif.Props.C43_pairs_partial",
    "Verif.Props.C43_int_curves"
   ],
   "note": "False for two integer curves (C43_int_curves); proved otherwise."
  },
  {
   "property": "C44",
   "status": "proved",
   "theorems": [
    "Verif.Props.C44_representatives",
    "Verif.Props.C44_idempotent",
    "Verif.Props.C44_enumeration"
   ],
   "note": "The component enumeration of networkx is an arbitrary function meeting IsComponents."
  },
  {
   "property": "C45",
   "status": "proved",
   "theorems": [
    "Verif.Props.C45_almost",
    "Verif.Props.C45_curve_segment",
    "Verif.Props.C45_segment_curve"
   ],
   "note": ""
  },
  {
   "property": "C46",
   "status": "proved",
   "theorems": [
    "Verif.Props.C46_results",
    "Verif.Props.C46_accessors"
   ],
   "note": ""
  },
  {
   "property": "C47",
   "status": "partial",
   "theorems": [
    "Verif.Props.C47_errors_partial",
    "Verif.Props.C47_other_errors"
   ],
   "note": "Other errors exist: constructor errors and objects without ndim (C47_other_errors); proved otherwise."
  },
  {
   "property": "C48",
   "status": "partial",
   "theorems": [
    "Verif.Props.C48_call_partial",
    "Verif.Props.C48_none_fails"
   ],
   "note": "False for NONE (C48_none_fails); the other types are proved."
  },
  {
   "property": "C49",
   "status": "partial",
   "theorems": [
    "Verif.Props.C49_intersect_history",
    "Verif.Props.C49_default",
    "Verif.Props.C49_interp_history",
    "Verif.Props.C49_smooth_history_partial",
    "Verif.Props.C49_smooth_no_check"
   ],
   "note": "The smoothing registry does not refuse non-methods (C49_smooth_no_check); all else proved."
  },
  {
   "property": "C50",
   "status": "partial",
   "theorems": [
    "Verif.Props.C50_chordlen_partial",
    "Verif.Props.C50_cumarclen_partial",
    "Verif.Props.C50_monotone_rounded",
    "Verif.Props.C50_monotone",
    "Verif.Props.C50_empty_fails",
    "Verif.Props.C50_t"
   ],
   "note": "False for empty curves (C50_empty_fails): chordlen is an uninitialised 0-d array. Proved for curves with points; monotonicity also with rounded additions."
  },
  {
   "property": "C51",
   "status": "partial",
   "theorems": [
    "Verif.Props.C51_reverse_partial",
    "Verif.Props.C51_add_partial",
    "Verif.Props.C51_add_empty",
    "Verif.Props.C51_ends",
    "Verif.Props.C51_similar_partial"
   ],
   "note": "Proved for curves with points; the arc length of an empty curve is garbage (C50_empty_fails)."
  },
  {
   "property": "C52",
   "status": "partial",
   "theorems": [
    "Verif.Props.C52_delete_partial",
    "Verif.Props.C52_select_partial",
    "Verif.Props.C52_unique_partial",
    "Verif.Props.C52_insert_partial"
   ],
   "note": "Proved whenever both curves have points; the arc length of an empty curve is garbage (C50_empty_fails)."
  },
  {
   "property": "C53",
   "status": "proved",
   "theorems": [
    "Verif.Props.C53_insertdim",
    "Verif.Props.C53_default"
   ],
   "note": "For curves with points (an empty curve has no chords)."
  },
  {
   "property": "C54",
   "status": "partial",
   "theorems": [
    "Verif.Props.C54_shape_partial",
    "Verif.Props.C54_single_point_fails",
    "Verif.Props.C54_linear",
    "Verif.Props.C54_translation",
    "Verif.Props.C54_quadratic",
    "Verif.Props.C54_line"
   ],
   "note": "Linearity, translation invariance, exactness for quadratics and lines proved for all curves; the shape claim fails for single points (C54_single_point_fails)."
  },
  {
   "property": "C55",
   "status": "proved",
   "theorems": [
    "Verif.Props.C55_unit",
    "Verif.Props.C55_orthogonal"
   ],
   "note": "Exact real arithmetic, tolerance 1e-8 of np.isclose."
  },
  {
   "property": "C56",
   "status": "partial",
   "theorems": [
    "Verif.Props.C56_torsion_plane",
    "Verif.Props.C56_torsion",
    "Verif.Props.C56_line",
    "Verif.Props.C56_reverse",
    "Verif.Props.C56_single_point_fails"
   ],
   "note": "Torsion of plane curves (in any dimension), curvature of lines with at least two points, sign change under reversal proved; a single point of the plane raises IndexError (C56_single_point_fails)."
  },
  {
   "property": "C57",
   "status": "partial",
   "theorems": [
    "Verif.Props.C57_choice",
    "Verif.Props.C57_canonical_partial",
    "Verif.Props.C57_det_zero_fails",
    "Verif.Props.C57_closed",
    "Verif.Props.C57_axis_range",
    "Verif.Props.C57_nonfinite"
   ],
   "note": "False when the determinant of the end points is 0, e.g. for closed curves (C57_det_zero_fails). NaN and infinities: C57_nonfinite."
  },
  {
   "property": "C58",
   "status": "partial",
   "theorems": [
    "Verif.Props.C58_shape_partial",
    "Verif.Props.C58_agree",
    "Verif.Props.C58_single_point_fails"
   ],
   "note": "Agreement proved for all curves and indices in range; the shape clause for curves of at least two points; it fails for single points (C58_single_point_fails)."
  },
  {
   "property": "C59",
   "status": "proved",
   "theorems": [
    "Verif.Props.C59_uniform",
    "Verif.Props.C59_errors"
   ],
   "note": "Exact real arithmetic; rounding of linspace is not modelled."
  },
  {
   "property": "C60",
   "status": "partial",
   "theorems": [
    "Verif.Props.C60_length_partial",
    "Verif.Props.C60_short_fails",
    "Verif.Props.C60_reject"
   ],
   "note": "Proved when round(L/f) >= 1; a curve shorter than f/2 gives a grid of one value and no step (C60_short_fails)."
  },
  {
   "property": "C61",
   "status": "partial",
   "theorems": [
    "Verif.Props.C61_extrapolate_partial",
    "Verif.Props.C61_length",
    "Verif.Props.C61_single_fails",
    "Verif.Props.C61_negative",
    "Verif.Props.C61_reject",
    "Verif.Props.C61_length_reject"
   ],
   "note": "Proved for grids of at least two values and non-negative counts; a grid of one value gives NaN (C61_single_fails), negative counts raise ValueError (C61_negative)."
  },
  {
   "property": "C62",
   "status": "proved",
   "theorems": [
    "Verif.Props.C62_speed",
    "Verif.Props.C62_parametric"
   ],
   "note": "Non-parametric curves of positive length; C62_parametric says what a parametric curve gets."
  },
  {
   "property": "C63",
   "status": "partial",
   "theorems": [
    "Verif.Props.C63_grid_partial",
    "Verif.Props.C63_reject",
    "Verif.Props.C63_nan_fails",
    "Verif.Props.C63_inf_fails"
   ],
   "note": "Proved for finite grids; NaN passes the test (C63_nan_fails), as do repeated infinities (C63_inf_fails)."
  },
  {
   "property": "C64",
   "status": "partial",
   "theorems": [
    "Verif.Props.C64_between_partial",
    "Verif.Props.C64_nodes_partial",
    "Verif.Props.C64_reproduce_partial",
    "Verif.Props.C64_extrapolate",
    "Verif.Props.C64_out_of_range",
    "Verif.Props.C64_int_fails"
   ],
   "note": "Proved for dtypes that are not integer ones; integer curves truncate (C64_int_fails, C134_linear). Reproduction needs parameter gaps over 1e-8, else the grid is rejected (C63)."
  },
  {
   "property": "C65",
   "status": "partial",
   "theorems": [
    "Verif.Props.C65_length_partial",
    "Verif.Props.C65_int_fails"
   ],
   "note": "Proved for dtypes that are not integer ones and strictly increasing parameters; integer curves can get longer (C65_int_fails)."
  },
  {
   "property": "C66",
   "status": "partial",
   "theorems": [
    "Verif.Props.C66_method_errors",
    "Verif.Props.C66_grid_errors",
    "Verif.Props.C66_result_partial",
    "Verif.Props.C66_small_partial",
    "Verif.Props.C66_empty_parametric_fails",
    "Verif.Props.C66_linear_fails"
   ],
   "note": "Proved: error kinds, size, parametrization, dtype for any interpolator. False for the linear interpolator on empty and single-point curves (C66_linear_fails) and for empty parametric curves (C66_empty_parametric_fails)."
  },
  {
   "property": "C67",
   "status": "partial",
   "theorems": [
    "Verif.Props.C67_errors",
    "Verif.Props.C67_result_partial",
    "Verif.Props.C67_curve_fails",
    "Verif.Props.C67_window_errors"
   ],
   "note": "Error kinds and sizes proved for all methods; a method that returns a parametric Curve gives a parametric result (C67_curve_fails)."
  },
  {
   "property": "C68",
   "status": "partial",
   "theorems": [
    "Verif.Props.C68_averaging",
    "Verif.Props.C68_window_partial",
    "Verif.Props.C68_int",
    "Verif.Props.C68_hann_partial",
    "Verif.Props.C68_hann2_fails",
    "Verif.Props.C68_int_linear_fails"
   ],
   "note": "Proved for curves of float dtype and any non-negative window of positive sum (integer curves keep the bounds, C68_int). Not linear for integer curves (C68_int_linear_fails); the default window of size 2 gives NaN (C68_hann2_fails)."
  },
  {
   "property": "C69",
   "status": "proved",
   "theorems": [
    "Verif.Props.C69_count",
    "Verif.Props.C69_arc",
    "Verif.Props.C69_arc_closed",
    "Verif.Props.C69_lemniscate",
    "Verif.Props.C69_spiral",
    "Verif.Props.C69_lissajous",
    "Verif.Props.C69_lissajous_shape",
    "Verif.Props.C69_helix",
    "Verif.Props.C69_irregular_helix"
   ],
   "note": "Exact real arithmetic."
  },
  {
   "property": "C70",
   "status": "proved",
   "theorems": [
    "Verif.Props.C70_metric",
    "Verif.Props.C70_dimensions",
    "Verif.Props.C70_agree",
    "Verif.Props.C70_geom",
    "Verif.Props.C70_errors"
   ],
   "note": "Finite coordinates, exact real arithmetic. C70_dimensions says what points of different dimension get."
  },
  {
   "property": "C71",
   "status": "proved",
   "theorems": [
    "Verif.Props.C71_linrescale",
    "Verif.Props.C71_default",
    "Verif.Props.C71_range"
   ],
   "note": "Finite data with two different values."
  },
  {
   "property": "C72",
   "status": "proved",
   "theorems": [
    "Verif.Props.C72_arclen",
    "Verif.Props.C72_subcurve",
    "Verif.Props.C72_step"
   ],
   "note": ""
  },
  {
   "property": "C73",
   "status": "partial",
   "theorems": [
    "Verif.Props.C73_segments",
    "Verif.Props.C73_sum",
    "Verif.Props.C73_index_partial",
    "Verif.Props.C73_below_range_accepted"
   ],
   "note": "Indices below -(size-1) are accepted and wrap around (C73_below_range_accepted)."
  },
  {
   "property": "C74",
   "status": "partial",
   "theorems": [
    "Verif.Props.C74_partial",
    "Verif.Props.C74_truncates",
    "Verif.Props.C74_interpolate_fails"
   ],
   "note": "False for integer curves (C74_truncates, C74_interpolate_fails); proved for float curves and integral values."
  },
  {
   "property": "C75",
   "status": "partial",
   "theorems": [
    "Verif.Props.C75_nonnumeric_dtype_accepted",
    "Verif.Props.C75_numeric_partial"
   ],
   "note": "False as stated: the code builds the ValueError but does not raise it; C75_nonnumeric_dtype_accepted shows the acceptance. Proved: a given dtype changes nothing but the conversion of the coordinates (same errors, same shape and parameter)."
  },
  {
   "property": "C76",
   "status": "partial",
   "theorems": [
    "Verif.Props.C76_dtype_partial",
    "Verif.Props.C76_int_fails"
   ],
   "note": "Proved for the Savitzky-Golay filter and for float curves; window smoothing of an integer curve gives an integer curve (C76_int_fails)."
  },
  {
   "property": "C77",
   "status": "partial",
   "theorems": [
    "Verif.Props.C77_result_partial",
    "Verif.Props.C77_window_fails"
   ],
   "note": "The second result equals the first, but the array is changed in place (C77_window_fails)."
  },
  {
   "property": "C78",
   "status": "proved",
   "theorems": [
    "Verif.Props.C78_line"
   ],
   "note": "Modes that repeat points; the default window is symmetric (hann_symmetric)."
  },
  {
   "property": "C79",
   "status": "partial",
   "theorems": [
    "Verif.Props.C79_interp",
    "Verif.Props.C79_interior",
    "Verif.Props.C79_errors",
    "Verif.Props.C79_negative_order_fails"
   ],
   "note": "Proved for odd window lengths: all points with mode interp, interior points otherwise; errors. A negative order is accepted by the other modes and gives zeros (C79_negative_order_fails); even lengths, where scipy accepts them, shift by half a step (C79_interior)."
  },
  {
   "property": "C80",
   "status": "partial",
   "theorems": [
    "Verif.Props.C80_named_partial",
    "Verif.Props.C80_name_fails",
    "Verif.Props.C80_callable_fails"
   ],
   "note": "Proved for metrics given by name; a callable metric never gets the keyword arguments (C80_callable_fails)."
  },
  {
   "property": "C81",
   "status": "proved",
   "theorems": [
    "Verif.Props.C81_cityblock",
    "Verif.Props.C81_chebyshev",
    "Verif.Props.C81_order"
   ],
   "note": "Finite coordinates, exact real arithmetic, no keyword arguments."
  },
  {
   "property": "C82",
   "status": "proved",
   "theorems": [
    "Verif.Props.C82_chords",
    "Verif.Props.C82_symmetric"
   ],
   "note": "fresnel is the pair of Fresnel integrals."
  },
  {
   "property": "C83",
   "status": "partial",
   "theorems": [
    "Verif.Props.C83_reproduce_partial",
    "Verif.Props.C83_periodic_fails"
   ],
   "note": "Integer dtypes: C134_reproduce; false for periodic continuation (C83_periodic_fails)."
  },
  {
   "property": "C84",
   "status": "proved",
   "theorems": [
    "Verif.Props.C84_hermite_tangent"
   ],
   "note": ""
  },
  {
   "property": "C85",
   "status": "proved",
   "theorems": [
    "Verif.Props.C85_pchip_monotone"
   ],
   "note": "Exact arithmetic."
  },
  {
   "property": "C86",
   "status": "proved",
   "theorems": [
    "Verif.Props.C86_natural"
   ],
   "note": "Assumes that the solver of scipy solves its tridiagonal system (NaturalOk, shown to be satisfiable with a unique solution)."
  },
  {
   "property": "C87",
   "status": "partial",
   "theorems": [
    "Verif.Props.C87_line",
    "Verif.Props.C87_hermite_partial",
    "Verif.Props.C87_collinear",
    "Verif.Props.C87_spacing_fails",
    "Verif.Props.C87_speed_fails"
   ],
   "note": "Proved for pchip, cubic, akima. False for hermite with uneven spacing (C87_spacing_fails) or a parameter that does not measure length (C87_speed_fails); proved for hermite under explicit spacing conditions."
  },
  {
   "property": "C88",
   "status": "proved",
   "theorems": [
    "Verif.Props.C88_outside"
   ],
   "note": ""
  },
  {
   "property": "C89",
   "status": "proved",
   "theorems": [
    "Verif.Props.C89_translation"
   ],
   "note": "cubic under NaturalOk as in C86."
  },
  {
   "property": "C90",
   "status": "proved",
   "theorems": [
    "Verif.Props.C90_lengths",
    "Verif.Props.C90_vectors",
    "Verif.Props.C90_scalars",
    "Verif.Props.C90_plane"
   ],
   "note": "Exact real arithmetic."
  },
  {
   "property": "C91",
   "status": "partial",
   "theorems": [
    "Verif.Props.C91_plane",
    "Verif.Props.C91_lengths",
    "Verif.Props.C91_derivatives",
    "Verif.Props.C91_spatial_partial",
    "Verif.Props.C91_small_fails"
   ],
   "note": "Lengths, derivatives, speed and the curvature of plane curves proved for all r; spatial curvature, torsion and Frenet vectors when the vectors exceed 1e-8, else false (C91_small_fails)."
  },
  {
   "property": "C92",
   "status": "partial",
   "theorems": [
    "Verif.Props.C92_shows",
    "Verif.Props.C92_chain",
    "Verif.Props.C92_errors_partial",
    "Verif.Props.C92_normals_fails"
   ],
   "note": "Proved except that normals of a 3-d curve fail after the curve has been drawn (C92_normals_fails). matplotlib functions are taken to succeed; styles and colour bars are not modelled."
  },
  {
   "property": "C93",
   "status": "partial",
   "theorems": [
    "Verif.Props.C93_monotone",
    "Verif.Props.C93_sound",
    "Verif.Props.C93_complete_partial"
   ],
   "note": "Soundness and monotonicity for all curves and parameters; completeness up to the error bound of the distance, exact on grids; missing: two integer curves (C43_int_curves), single-point second segments (C34_singular_second), pairs within the error bound."
  },
  {
   "property": "C94",
   "status": "partial",
   "theorems": [
    "Verif.Props.C94_swap_partial",
    "Verif.Props.C94_curves_partial",
    "Verif.Props.C94_reverse_partial",
    "Verif.Props.C94_direction_fails",
    "Verif.Props.C94_order_fails"
   ],
   "note": "Proved for segments that are not equal up to the tolerances and points on the segments; false for nearly equal segments (C94_order_fails) and for points just beyond an end (C94_direction_fails)."
  },
  {
   "property": "C95",
   "status": "proved",
   "theorems": [
    "Verif.Props.C95_arc",
    "Verif.Props.C95_arc_limit",
    "Verif.Props.C95_helix"
   ],
   "note": "Exact real arithmetic."
  },
  {
   "property": "C96",
   "status": "partial",
   "theorems": [
    "Verif.Props.C96_circle_partial",
    "Verif.Props.C96_ends_fail"
   ],
   "note": "Exact for all points except two at each end, where the one-sided differences give other values (C96_ends_fail)."
  },
  {
   "property": "C97",
   "status": "partial",
   "theorems": [
    "Verif.Props.C97_curvature_partial",
    "Verif.Props.C97_torsion_partial",
    "Verif.Props.C97_coarse_partial",
    "Verif.Props.C97_fine_sampling_fails",
    "Verif.Props.C97_handedness_fails"
   ],
   "note": "Closed forms and bounds away from the ends and above the threshold 1e-8; false for fine sampling, where the torsion comes out as nearly 0 (C97_fine_sampling_fails), and for the sign of the torsion (C97_handedness_fails)."
  },
  {
   "property": "C98",
   "status": "partial",
   "theorems": [
    "Verif.Props.C98_segments",
    "Verif.Props.C98_coplanar",
    "Verif.Props.C98_almost_segments",
    "Verif.Props.C98_almost_curves",
    "Verif.Props.C98_exact_partial",
    "Verif.Props.C98_exact_fails"
   ],
   "note": "Segments and the almost method (without correct_overlap, not two integer curves) fully; the exact method for segments that are neither nearly parallel, nearly equal nor nearly degenerate in both positions; false for collinear segments (C98_exact_fails)."
  },
  {
   "property": "C99",
   "status": "partial",
   "theorems": [
    "Verif.Props.C99_window",
    "Verif.Props.C99_savgol",
    "Verif.Props.C99_smooth",
    "Verif.Props.C99_cubic",
    "Verif.Props.C99_linear",
    "Verif.Props.C99_isometry",
    "Verif.Props.C99_pchip_fails"
   ],
   "note": "Window filter (float curves, repeating modes), Savitzky-Golay (all modes but constant), linear and natural cubic interpolation for all affine maps; Hermite interpolation for isometries. False for pchip (C99_pchip_fails). Dtypes that are not integer ones for interpolation."
  },
  {
   "property": "C100",
   "status": "proved",
   "theorems": [
    "Verif.Props.C100_continuation",
    "Verif.Props.C100_window",
    "Verif.Props.C100_savgol"
   ],
   "note": "Integer and float curves with finite values (integer results truncated); Savitzky-Golay with odd window lengths and scipy modes other than interp, given least squares by the library. The continuation is specified by its symmetries (Continues) and shown to exist and to be unique."
  },
  {
   "property": "C101",
   "status": "proved",
   "theorems": [
    "Verif.Props.C101_best",
    "Verif.Props.C101_modes",
    "Verif.Props.C101_interp"
   ],
   "note": "Odd window lengths. Assumes that lstsq returns the shortest least squares solution and polyfit a least squares polynomial, as documented (MinNormOk, shown satisfiable). Exact real arithmetic."
  },
  {
   "property": "C102",
   "status": "partial",
   "theorems": [
    "Verif.Props.C102_window",
    "Verif.Props.C102_savgol",
    "Verif.Props.C102_even_fails"
   ],
   "note": "Symmetric windows with an odd number of entries, Savitzky-Golay with odd window length, all modes. False for an even number of entries (C102_even_fails)."
  },
  {
   "property": "C103",
   "status": "partial",
   "theorems": [
    "Verif.Props.C103_splines",
    "Verif.Props.C103_linear",
    "Verif.Props.C103_reverse_partial",
    "Verif.Props.C103_reverse_linear_partial",
    "Verif.Props.C103_parametric_fails",
    "Verif.Props.C103_sorted_fails"
   ],
   "note": "Curves without parameter values (dtypes that are not integer ones), and any two curves with mirrored parameter values. False for Curve.reverse of a curve with parameter values: splines raise (C103_parametric_fails), linear interpolation undoes the reversal (C103_sorted_fails)."
  },
  {
   "property": "C104",
   "status": "partial",
   "theorems": [
    "Verif.Props.C104_splines",
    "Verif.Props.C104_linear",
    "Verif.Props.C104_scaling",
    "Verif.Props.C104_hermite_fails"
   ],
   "note": "Linear, pchip, natural cubic, akima (three or more points, in the range) for all factors; hermite for a = s when point differences exceed 1e-8. False for hermite when only the parameter is rescaled (C104_hermite_fails). Dtypes that are not integer ones."
  },
  {
   "property": "C105",
   "status": "partial",
   "theorems": [
    "Verif.Props.C105_splines",
    "Verif.Props.C105_linear",
    "Verif.Props.C105_akima_partial",
    "Verif.Props.C105_univariate",
    "Verif.Props.C105_univariate_raise",
    "Verif.Props.C105_univariate_error",
    "Verif.Props.C105_hermite_fails",
    "Verif.Props.C105_akima_fails"
   ],
   "note": "Proved for linear, pchip, natural cubic (any solver of the system) and spline (any univariate spline routine). Violated by hermite and akima: witnesses C105_hermite_fails and C105_akima_fails; for akima the claim is proved for curves that have all coordinates in common, in any order and number."
  },
  {
   "property": "C106",
   "status": "partial",
   "theorems": [
    "Verif.Props.C106_splines",
    "Verif.Props.C106_linear",
    "Verif.Props.C106_slice",
    "Verif.Props.C106_slice_linear",
    "Verif.Props.C106_cubic_fails",
    "Verif.Props.C106_akima_fails"
   ],
   "note": "Proved for linear, pchip and hermite, and for slices. Violated by natural cubic splines (C106_cubic_fails, for any three or more parameter values) and by akima (C106_akima_fails: a threshold over the whole curve)."
  },
  {
   "property": "C107",
   "status": "proved",
   "theorems": [
    "Verif.Props.C107_pieces",
    "Verif.Props.C107_akima",
    "Verif.Props.C107_pchip"
   ],
   "note": "C107_pieces, C107_akima and C107_pchip. For akima the weights of the second pieces from the ends use the extrapolated slopes, stated as the turn of the next inner point."
  },
  {
   "property": "C108",
   "status": "partial",
   "theorems": [
    "Verif.Props.C108_methods",
    "Verif.Props.C108_unknown",
    "Verif.Props.C108_order",
    "Verif.Props.C108_defaults",
    "Verif.Props.C108_spline",
    "Verif.Props.C108_csaps",
    "Verif.Props.C108_boundary",
    "Verif.Props.C108_linear",
    "Verif.Props.C108_truth",
    "Verif.Props.C108_none_fails"
   ],
   "note": "Proved, except that extrapolate=None turns extrapolation off for linear, while it means the default (on) for the other methods (C108_none_fails). Pairs of boundary conditions (bc_type) are the subject of C133."
  },
  {
   "property": "C109",
   "status": "proved",
   "theorems": [
    "Verif.Props.C109_vectors",
    "Verif.Props.C109_numbers"
   ],
   "note": "The signed curvature of a single point is an error and needs no statement."
  },
  {
   "property": "C110",
   "status": "proved",
   "theorems": [
    "Verif.Props.C110_local",
    "Verif.Props.C110_slice",
    "Verif.Props.C110_ends_fails"
   ],
   "note": "C110_ends_fails shows that the ends of a slice are rightly left out."
  },
  {
   "property": "C111",
   "status": "partial",
   "theorems": [
    "Verif.Props.C111_curve",
    "Verif.Props.C111_rebuild",
    "Verif.Props.C111_slice",
    "Verif.Props.C111_pick",
    "Verif.Props.C111_pick_errors",
    "Verif.Props.C111_iteration_errors",
    "Verif.Props.C111_point",
    "Verif.Props.C111_contains",
    "Verif.Props.C111_index",
    "Verif.Props.C111_copy_partial",
    "Verif.Props.C111_copy_fails",
    "Verif.Props.C111_scalar_fails",
    "Verif.Props.C111_part_fails"
   ],
   "note": "Holds with the exceptions C111_scalar_fails (a point from a single number has length one but no readable coordinate), C111_part_fails (a slice with one coordinate is an array, integers become floats, a wrong index type is an IndexError instead of the documented TypeError) and C111_copy_fails (copy of a point taken with an index far below zero)."
  },
  {
   "property": "C112",
   "status": "partial",
   "theorems": [
    "Verif.Props.C112_init",
    "Verif.Props.C112_reverse",
    "Verif.Props.C112_toCurve",
    "Verif.Props.C112_curveSegment",
    "Verif.Props.C112_geometry",
    "Verif.Props.C112_points",
    "Verif.Props.C112_objects",
    "Verif.Props.C112_errors_partial",
    "Verif.Props.C112_errors_real_partial",
    "Verif.Props.C112_angle_fails",
    "Verif.Props.C112_overlap_fails",
    "Verif.Props.C112_attribute_fails",
    "Verif.Props.C112_parameter_fails",
    "Verif.Props.C112_kinds"
   ],
   "note": "Holds with the exceptions C112_angle_fails (angle with a point-like segment of another dimension is NaN), C112_overlap_fails (coordinates of a one-dimensional segment are broadcast), C112_attribute_fails (parallel and overlap raise AttributeError), C112_parameter_fails (point of a 0-d array). to_curve in dimension 1 is a ValueError."
  },
  {
   "property": "C113",
   "status": "partial",
   "theorems": [
    "Verif.Props.C113_parts",
    "Verif.Props.C113_self",
    "Verif.Props.C113_apart",
    "Verif.Props.C113_graph_partial",
    "Verif.Props.C113_graph_fails",
    "Verif.Props.C113_almost_partial",
    "Verif.Props.C113_almost_apart",
    "Verif.Props.C113_extra_fails"
   ],
   "note": "Exact method: holds for parts of any two curves and of a curve with itself; graphs only if the steps exceed the tolerance of isclose (C113_graph_fails). Almost method: holds without remove_extra; with remove_extra violated (C113_extra_fails)."
  },
  {
   "property": "C114",
   "status": "partial",
   "theorems": [
    "Verif.Props.C114_algorithms",
    "Verif.Props.C114_total",
    "Verif.Props.C114_arguments",
    "Verif.Props.C114_exact",
    "Verif.Props.C114_almost",
    "Verif.Props.C114_defaults",
    "Verif.Props.C114_named",
    "Verif.Props.C114_slices",
    "Verif.Props.C114_empty_fails",
    "Verif.Props.C114_class_fails"
   ],
   "note": "Holds except: empty slices of curves with more than two dimensions change the dimension (C114_empty_fails); the names of registered classes are bound to None (C114_class_fails). Values of keyword arguments that are neither numbers nor truth values are not modelled."
  },
  {
   "property": "C115",
   "status": "partial",
   "theorems": [
    "Verif.Props.C115_first",
    "Verif.Props.C115_second",
    "Verif.Props.C115_speed",
    "Verif.Props.C115_third_partial",
    "Verif.Props.C115_third_fails"
   ],
   "note": "First and second derivative and speed hold at every point with explicit bounds; the third derivative holds except at the three points at each end, where it does not converge (C115_third_fails: 9/4, 15/4, 21/4 instead of 6 for x^3). Exact arithmetic, no rounding."
  },
  {
   "property": "C116",
   "status": "partial",
   "theorems": [
    "Verif.Props.C116_plane",
    "Verif.Props.C116_space_partial",
    "Verif.Props.C116_space_fails",
    "Verif.Props.C116_formula"
   ],
   "note": "Holds in the plane. In other dimensions an explicit bound holds while every speed is above 1e-8; below that the unit vectors are zeroed and the curvature tends to 0 instead (C116_space_fails). In space the limit is |d x e| / |d|^3 (C116_formula). Exact arithmetic, no rounding."
  },
  {
   "property": "C117",
   "status": "proved",
   "theorems": [
    "Verif.Props.C117_first",
    "Verif.Props.C117_second",
    "Verif.Props.C117_arclen"
   ],
   "note": "Exact arithmetic, no rounding."
  },
  {
   "property": "C118",
   "status": "partial",
   "theorems": [
    "Verif.Props.C118_linear_partial",
    "Verif.Props.C118_near_partial"
   ],
   "note": "Integer dtypes: the same points without the fractional parts of the coordinates (C134_interpolate), so that the bounds hold up to 1 per coordinate only. Exact arithmetic, no rounding."
  },
  {
   "property": "C119",
   "status": "proved",
   "theorems": [
    "Verif.Props.C119_chord",
    "Verif.Props.C119_swap",
    "Verif.Props.C119_arclen",
    "Verif.Props.C119_cumarclen",
    "Verif.Props.C119_exact"
   ],
   "note": "Rounding without underflow and overflow (unbounded exponent), float dtype."
  },
  {
   "property": "C120",
   "status": "partial",
   "theorems": [
    "Verif.Props.C120_grid",
    "Verif.Props.C120_accepted_partial",
    "Verif.Props.C120_exact",
    "Verif.Props.C120_accepted_fails"
   ],
   "note": "The grid is refused for steps below the rounding of the ends: C120_accepted_fails. No underflow or overflow."
  },
  {
   "property": "C121",
   "status": "partial",
   "theorems": [
    "Verif.Props.C121_point",
    "Verif.Props.C121_end_fails",
    "Verif.Props.C121_linear",
    "Verif.Props.C121_node_fails",
    "Verif.Props.C121_exact"
   ],
   "note": "point(1) and the right node are not exact: C121_end_fails, C121_node_fails. No underflow or overflow."
  },
  {
   "property": "C122",
   "status": "proved",
   "theorems": [
    "Verif.Props.C122_shorter",
    "Verif.Props.C122_default",
    "Verif.Props.C122_lengthened"
   ],
   "note": "Exact arithmetic, float dtype; the Hann window of size 2 has the sum 0 and is excluded (see C68)."
  },
  {
   "property": "C123",
   "status": "partial",
   "theorems": [
    "Verif.Props.C123_points_partial",
    "Verif.Props.C123_parts_partial",
    "Verif.Props.C123_repeated_fails"
   ],
   "note": "Refused with a ValueError for curves with repeated points: C123_repeated_fails. Integer dtypes: C64_int_fails. Steps of the grid above 1e-8 are assumed."
  },
  {
   "property": "C124",
   "status": "proved",
   "theorems": [
    "Verif.Props.C124_clamped",
    "Verif.Props.C124_not_a_knot",
    "Verif.Props.C124_periodic"
   ],
   "note": "The linear systems of scipy are a contract (BoundaryOk); libraries that meet it are shown to exist (exists_boundaryOk)."
  },
  {
   "property": "C125",
   "status": "proved",
   "theorems": [
    "Verif.Props.C125_natural",
    "Verif.Props.C125_clamped"
   ],
   "note": "Contracts NaturalOk and BoundaryOk for the solver of scipy."
  },
  {
   "property": "C126",
   "status": "proved",
   "theorems": [
    "Verif.Props.C126_exact",
    "Verif.Props.C126_collinear",
    "Verif.Props.C126_collinear_near",
    "Verif.Props.C126_collinear_default",
    "Verif.Props.C126_coplanar",
    "Verif.Props.C126_coplanar_near",
    "Verif.Props.C126_complete",
    "Verif.Props.C126_scale",
    "Verif.Props.C126_negative",
    "Verif.Props.C126_isplane",
    "Verif.Props.C126_t",
    "Verif.Props.C126_default_fails"
   ],
   "note": "Exact singular values of real matrices; C126_default_fails shows that without tol also points off a line pass, C126_negative what a negative tol does."
  },
  {
   "property": "C127",
   "status": "proved",
   "theorems": [
    "Verif.Props.C127_minkowski",
    "Verif.Props.C127_weighted",
    "Verif.Props.C127_orders",
    "Verif.Props.C127_wminkowski",
    "Verif.Props.C127_wminkowski_inf_fails",
    "Verif.Props.C127_zero_weight_fails",
    "Verif.Props.C127_seuclidean",
    "Verif.Props.C127_canberra",
    "Verif.Props.C127_braycurtis",
    "Verif.Props.C127_braycurtis_fails",
    "Verif.Props.C127_cosine",
    "Verif.Props.C127_correlation",
    "Verif.Props.C127_cosine_fails",
    "Verif.Props.C127_mahalanobis",
    "Verif.Props.C127_mahalanobis_fails",
    "Verif.Props.C127_jensenshannon",
    "Verif.Props.C127_chebyshev",
    "Verif.Props.C127_arguments",
    "Verif.Props.C127_abs"
   ],
   "note": "Formulas of scipy 1.7, all thirteen metrics. Further metric axioms do not hold: C127_braycurtis_fails, C127_cosine_fails, C127_zero_weight_fails, C127_wminkowski_inf_fails, C127_mahalanobis_fails. The triangle inequality of jensenshannon is neither claimed nor proved."
  },
  {
   "property": "C128",
   "status": "proved",
   "theorems": [
    "Verif.Props.C128_minimal",
    "Verif.Props.C128_natural",
    "Verif.Props.C128_interpolates",
    "Verif.Props.C128_reproduce",
    "Verif.Props.C128_moments",
    "Verif.Props.C128_regression",
    "Verif.Props.C128_line",
    "Verif.Props.C128_tradeoff",
    "Verif.Props.C128_auto",
    "Verif.Props.C128_errors"
   ],
   "note": "Formulas of csaps 0.9 to 0.11 in exact arithmetic; the regularity of its linear system is proved. Values at infinite grid values, parameters outside [0, 1] and weights that are not positive are left open."
  },
  {
   "property": "C129",
   "status": "proved",
   "theorems": [
    "Verif.Props.C129_cubic",
    "Verif.Props.C129_linear",
    "Verif.Props.C129_errors"
   ],
   "note": "Under the contract UnivariateOk of scipy (degree 1 and 3, s=0), which some library meets (exists_univariateOk); BoundaryOk for the comparison with cubic. Smoothing (s > 0) and other degrees are not covered."
  },
  {
   "property": "C130",
   "status": "partial",
   "theorems": [
    "Verif.Props.C130_exact",
    "Verif.Props.C130_derivs",
    "Verif.Props.C130_inside",
    "Verif.Props.C130_speed",
    "Verif.Props.C130_unit",
    "Verif.Props.C130_sampled",
    "Verif.Props.C130_edge_fails"
   ],
   "note": "Overflow and underflow are not modelled. That the derivative of a constant coordinate is zero is violated at the ends (C130_edge_fails: coordinate 1+2^-52 everywhere gives -2^-53 at the first point in binary64)."
  },
  {
   "property": "C131",
   "status": "partial",
   "theorems": [
    "Verif.Props.C131_window",
    "Verif.Props.C131_const_fails"
   ],
   "note": "Window coefficients are taken as given; overflow and underflow are not modelled. That constant curves stay constant is violated (C131_const_fails: ten equal weights on the constant 1 give 1-2^-53 in binary64)."
  },
  {
   "property": "C132",
   "status": "partial",
   "theorems": [
    "Verif.Props.C132_exact",
    "Verif.Props.C132_parallel",
    "Verif.Props.C132_angle",
    "Verif.Props.C132_nearest",
    "Verif.Props.C132_distance",
    "Verif.Props.C132_parallel_fails",
    "Verif.Props.C132_angle_fails"
   ],
   "note": "Overflow and underflow are not modelled. In binary64 segments with proportional directions need not be parallel (C132_parallel_fails: (0.2, 0.4) and (1.4, 2.8)), and the angle of a segment with itself need not be 0 (C132_angle_fails: (0, 0)-(1, 1))."
  },
  {
   "property": "C133",
   "status": "proved",
   "theorems": [
    "Verif.Props.C133_ends",
    "Verif.Props.C133_same",
    "Verif.Props.C133_rejected",
    "Verif.Props.C133_bending"
   ],
   "note": "The linear systems of scipy are a contract (EndsOk); libraries that meet it are shown to exist (exists_endsOk). The validation of bc_type by scipy is modelled. Dtypes that are not integer ones; entries of bc_type as in the model (BcEnd)."
  },
  {
   "property": "C134",
   "status": "proved",
   "theorems": [
    "Verif.Props.C134_interpolate",
    "Verif.Props.C134_values",
    "Verif.Props.C134_reproduce",
    "Verif.Props.C134_linear",
    "Verif.Props.C134_outside"
   ],
   "note": "Exact arithmetic: with rounding a value just below an integer loses one. The conversion of NaN to -2^63 is what numpy does on x86-64; it is undefined in C."
  },
  {
   "property": "C135",
   "status": "partial",
   "theorems": [
    "Verif.Props.C135_spread",
    "Verif.Props.C135_reject",
    "Verif.Props.C135_indexers",
    "Verif.Props.C135_negative_fails",
    "Verif.Props.C135_mask_fails",
    "Verif.Props.C135_insertdim"
   ],
   "note": "False for positions before the start in a list of several (C135_negative_fails) and for masks, which numpy 1.19-1.23 casts to the positions 0 and 1 (C135_mask_fails); the rest is proved. The algorithm of np.insert is modelled, see the trusted base."
  },
  {
   "property": "C136",
   "status": "partial",
   "theorems": [
    "Verif.Props.C136_order",
    "Verif.Props.C136_chord",
    "Verif.Props.C136_chordlen",
    "Verif.Props.C136_box",
    "Verif.Props.C136_dot",
    "Verif.Props.C136_nonsingular",
    "Verif.Props.C136_overflow_fails"
   ],
   "note": "Proved for squared distances below 2^63; false beyond (C136_overflow_fails: points 2^32 apart have chord length 0 and one of them is removed by nonsingular). The conversion of int64 to float64 and the square root are exact in the model."
  },
  {
   "property": "C137",
   "status": "proved",
   "theorems": [
    "Verif.Props.C137_natural",
    "Verif.Props.C137_ends",
    "Verif.Props.C137_pchip"
   ],
   "note": "Under the contracts for the linear solver of scipy (NaturalOk, EndsOk). For dtypes that are not integer ones; those convert to integers (C134)."
  },
  {
   "property": "C138",
   "status": "proved",
   "theorems": [
    "Verif.Props.C138_natural",
    "Verif.Props.C138_ends",
    "Verif.Props.C138_linear",
    "Verif.Props.C138_pchip_fails",
    "Verif.Props.C138_plain_fails"
   ],
   "note": "As stated, under the contracts NaturalOk, EndsOk for cubic interpolation. The same is not true for PCHIP, which estimates the slopes anew (C138_pchip_fails), and for cubic interpolation of curves without parameter, whose parameter changes (C138_plain_fails). Not-a-knot conditions are left out."
  },
  {
   "property": "C139",
   "status": "proved",
   "theorems": [
    "Verif.Props.C139_chord",
    "Verif.Props.C139_arclen",
    "Verif.Props.C139_overflow_fails",
    "Verif.Props.C139_underflow_fails"
   ],
   "note": "As stated. Without the bound on distances and without the absolute error it would fail: the squares overflow for points 2^512 apart, and points 2^-600 apart get distance 0 (C139_overflow_fails, C139_underflow_fails)."
  },
  {
   "property": "C140",
   "status": "proved",
   "theorems": [
    "Verif.Props.C140_affine",
    "Verif.Props.C140_units",
    "Verif.Props.C140_units_auto",
    "Verif.Props.C140_backwards",
    "Verif.Props.C140_backwards_auto",
    "Verif.Props.C140_scaling",
    "Verif.Props.C140_reverse",
    "Verif.Props.C140_units_fails"
   ],
   "note": "Proved for curves whose dtype is not int. C140_units_fails is the last clause: a given smooth depends on the unit of the parameter."
  },
  {
   "property": "C141",
   "status": "proved",
   "theorems": [
    "Verif.Props.C141_affine",
    "Verif.Props.C141_reverse",
    "Verif.Props.C141_periodic",
    "Verif.Props.C141_periodic_reverse",
    "Verif.Props.C141_strings",
    "Verif.Props.C141_scaling",
    "Verif.Props.C141_reversed",
    "Verif.Props.C141_unconverted_fails"
   ],
   "note": "Proved for curves whose dtype is not int. C141_unconverted_fails shows that the conversion of derivatives is needed. Curve.reverse is covered for curves without parameter values (with parameter values the result is rejected, C103_parametric_fails)."
  },
  {
   "property": "C142",
   "status": "partial",
   "theorems": [
    "Verif.Props.C142_differences",
    "Verif.Props.C142_strict_partial",
    "Verif.Props.C142_usual",
    "Verif.Props.C142_equal_fails",
    "Verif.Props.C142_refused_fails"
   ],
   "note": "Violated: (0,0), (2^53,0), (2^53,1) get the parameter 0, 2^53, 2^53 in binary64 (C142_equal_fails) and all spline methods refuse such a curve (C142_refused_fails). Proved if every step exceeds 5 eps times the length so far, in particular for curves of length at most 1e7 with steps of at least 1e-8 (C142_usual). Underflow and overflow: C139."
  },
  {
   "property": "C143",
   "status": "proved",
   "theorems": [
    "Verif.Props.C143_affine",
    "Verif.Props.C143_reverse",
    "Verif.Props.C143_reversed",
    "Verif.Props.C143_scaled"
   ],
   "note": "Under the contract UnivariateOk for scipy (exists_univariateOk). Other degrees and smoothing are not covered."
  },
  {
   "property": "C144",
   "status": "proved",
   "theorems": [
    "Verif.Props.C144_arc",
    "Verif.Props.C144_spiral",
    "Verif.Props.C144_euler",
    "Verif.Props.C144_euler_length",
    "Verif.Props.C144_lemniscate"
   ],
   "note": "Exact real arithmetic; fresnel is the pair of Fresnel integrals. For helix see C97."
  },
  {
   "property": "C145",
   "status": "partial",
   "theorems": [
    "Verif.Props.C145_warning_partial",
    "Verif.Props.C145_nan",
    "Verif.Props.C145_nan_fails",
    "Verif.Props.C145_int",
    "Verif.Props.C145_extrapolate",
    "Verif.Props.C145_speed",
    "Verif.Props.C145_call"
   ],
   "note": "Proved for grids of finite values, however specified. Violated by grids with NaN: they are accepted and never warned about (C145_nan, C145_nan_fails)."
  },
  {
   "property": "C146",
   "status": "proved",
   "theorems": [
    "Verif.Props.C146_moved",
    "Verif.Props.C146_second",
    "Verif.Props.C146_arc"
   ],
   "note": "Exact real arithmetic; float curves (integer curves are truncated, C68)."
  },
  {
   "property": "C147",
   "status": "proved",
   "theorems": [
    "Verif.Props.C147_interp",
    "Verif.Props.C147_modes",
    "Verif.Props.C147_derivative"
   ],
   "note": "Exact real arithmetic; lstsq returns the shortest least squares solution and polyfit a least squares polynomial (MinNormOk). Odd window lengths."
  },
  {
   "property": "C148",
   "status": "partial",
   "theorems": [
    "Verif.Props.C148_select_twice",
    "Verif.Props.C148_slice_slice",
    "Verif.Props.C148_delete_mask",
    "Verif.Props.C148_reverse_slice",
    "Verif.Props.C148_insert_join",
    "Verif.Props.C148_join_parts",
    "Verif.Props.C148_insertdim_select",
    "Verif.Props.C148_deletedim_select",
    "Verif.Props.C148_insertdim_twice",
    "Verif.Props.C148_insertdim_join",
    "Verif.Props.C148_unique_join",
    "Verif.Props.C148_unique_self",
    "Verif.Props.C148_nonsingular_partial",
    "Verif.Props.C148_nonsingular_fails"
   ],
   "note": "Proved with the conditions named in the theorems (same dtype, parts with points: empty parts of curves of dimension > 2 become 2-dimensional, C09_split_fails). False for nonsingular (C148_nonsingular_fails)."
  },
  {
   "property": "C149",
   "status": "proved",
   "theorems": [
    "Verif.Props.C149_pchip",
    "Verif.Props.C149_akima",
    "Verif.Props.C149_hermite",
    "Verif.Props.C149_sampled"
   ],
   "note": "For dtypes that are not integer ones; those convert to integers (C134). Exact arithmetic, no rounding."
  },
  {
   "property": "C150",
   "status": "proved",
   "theorems": [
    "Verif.Props.C150_exact",
    "Verif.Props.C150_self",
    "Verif.Props.C150_almost",
    "Verif.Props.C150_found",
    "Verif.Props.C150_graphs",
    "Verif.Props.C150_graphs_only"
   ],
   "note": "Exact arithmetic, no rounding. The almost method with remove_extra and correct_overlap off; for these see C43, C44."
  },
  {
   "property": "C151",
   "status": "proved",
   "theorems": [
    "Verif.Props.C151_tangent",
    "Verif.Props.C151_normal",
    "Verif.Props.C151_normal_inside",
    "Verif.Props.C151_binormal",
    "Verif.Props.C151_threshold",
    "Verif.Props.C151_torsion",
    "Verif.Props.C151_fine",
    "Verif.Props.C151_fine_fails",
    "Verif.Props.C151_formula"
   ],
   "note": "Exact arithmetic. The limit of validity (absolute threshold 1e-8 of the normalisation) is part of the statement, C151_fine and C151_fine_fails show what happens below it. Nothing is claimed about binormals and torsion of the three points at each end."
  },
  {
   "property": "C152",
   "status": "proved",
   "theorems": [
    "Verif.Props.C152_options",
    "Verif.Props.C152_shown",
    "Verif.Props.C152_curve",
    "Verif.Props.C152_curve_tells",
    "Verif.Props.C152_point",
    "Verif.Props.C152_point_tells",
    "Verif.Props.C152_segment_tells",
    "Verif.Props.C152_hidden_fails",
    "Verif.Props.C152_intersection"
   ],
   "note": "How numpy writes numbers is left open; which entries are shown follows np.array2string. Texts of curves are assumed to consist of lines that are not blank, texts of the end points of segments not to contain commas (true for numbers). C152_hidden_fails: different curves with the same text."
  },
  {
   "property": "C153",
   "status": "partial",
   "theorems": [
    "Verif.Props.C153_length",
    "Verif.Props.C153_derivatives",
    "Verif.Props.C153_speed",
    "Verif.Props.C153_tangent",
    "Verif.Props.C153_curvature",
    "Verif.Props.C153_linear",
    "Verif.Props.C153_window",
    "Verif.Props.C153_distance_point",
    "Verif.Props.C153_distance_segment",
    "Verif.Props.C153_crossing_partial",
    "Verif.Props.C153_curves_partial",
    "Verif.Props.C153_space_fails",
    "Verif.Props.C153_pchip",
    "Verif.Props.C153_resample",
    "Verif.Props.C153_cubic",
    "Verif.Props.C153_hermite",
    "Verif.Props.C153_savgol",
    "Verif.Props.C153_akima_fails"
   ],
   "note": "Crossings in space are not stable (C153_space_fails) and neither is Akima interpolation (C153_akima_fails); crossings in the plane with the size conditions of C38; integer dtypes are left out; resampling by arc length for the linear method."
  },
  {
   "property": "C154",
   "status": "partial",
   "theorems": [
    "Verif.Props.C154_segments",
    "Verif.Props.C154_point",
    "Verif.Props.C154_distance",
    "Verif.Props.C154_distance_grid",
    "Verif.Props.C154_exact_partial",
    "Verif.Props.C154_almost",
    "Verif.Props.C154_exact_fails",
    "Verif.Props.C154_angle_fails"
   ],
   "note": "The exact method only if the tests against absolute tolerances turn out alike in both units: perpendicular segments of length 1e-4 count as parallel (C154_exact_fails); the angle is NaN for short segments (C154_angle_fails); the almost method for coordinates on grids."
  },
  {
   "property": "C155",
   "status": "partial",
   "theorems": [
    "Verif.Props.C155_crossing_partial",
    "Verif.Props.C155_sound",
    "Verif.Props.C155_solver",
    "Verif.Props.C155_exact",
    "Verif.Props.C155_far_fails"
   ],
   "note": "In the plane and after the test of collinearity; explicit conditions on the size and the angle: the segment from (-2^27, 0) to (48 2^27, 0) and the one from (0, -1) to (0, 1) cross at the origin and the crossing is missed (C155_far_fails). np.linalg.solve by its backward error, shown for elimination with pivoting (C155_solver)."
  },
  {
   "property": "C156",
   "status": "partial",
   "theorems": [
    "Verif.Props.C156_sound",
    "Verif.Props.C156_distance_partial",
    "Verif.Props.C156_almost_partial",
    "Verif.Props.C156_exact",
    "Verif.Props.C156_usual",
    "Verif.Props.C156_parallel_fails"
   ],
   "note": "Soundness for all segments; the upper bound under conditions on the angle. Without them it is false: the segments from (0, 0) and from (4044, 4825) to the common end point (8699, 10379) get a distance of more than 3000 in binary64 (C156_parallel_fails)."
  },
  {
   "property": "C157",
   "status": "partial",
   "theorems": [
    "Verif.Props.C157_pairs",
    "Verif.Props.C157_sound",
    "Verif.Props.C157_complete_partial",
    "Verif.Props.C157_exact",
    "Verif.Props.C157_usual",
    "Verif.Props.C157_parallel_fails"
   ],
   "note": "Agreement with the computation for single pairs and soundness for all curves that do not both have integer data, without remove_extra and correct_overlap; completeness under the conditions of C156 on the angle, false without (C157_parallel_fails)."
  },
  {
   "property": "C158",
   "status": "partial",
   "theorems": [
    "Verif.Props.C158_exact",
    "Verif.Props.C158_plane",
    "Verif.Props.C158_inside",
    "Verif.Props.C158_sampled",
    "Verif.Props.C158_values",
    "Verif.Props.C158_space",
    "Verif.Props.C158_line_fails"
   ],
   "note": "Error bounds for all curves; relative accuracy fails, a straight line may have a huge computed curvature (C158_line_fails). For other than plane curves only points two steps away from the ends."
  },
  {
   "property": "C159",
   "status": "partial",
   "theorems": [
    "Verif.Props.C159_sign",
    "Verif.Props.C159_choice",
    "Verif.Props.C159_agrees",
    "Verif.Props.C159_twice",
    "Verif.Props.C159_exact",
    "Verif.Props.C159_closed_fails"
   ],
   "note": "Right sign above 5 eps times the larger product; for closed curves the outcome depends on rounding (C159_closed_fails). No underflow of the determinant."
  },
  {
   "property": "C160",
   "status": "partial",
   "theorems": [
    "Verif.Props.C160_collinear",
    "Verif.Props.C160_line",
    "Verif.Props.C160_sound",
    "Verif.Props.C160_coplanar",
    "Verif.Props.C160_plane",
    "Verif.Props.C160_coplanar_near",
    "Verif.Props.C160_exact",
    "Verif.Props.C160_tolerance",
    "Verif.Props.C160_off_origin_fails"
   ],
   "note": "Lines not through the origin are not found collinear (C160_off_origin_fails), as with exact arithmetic. Singular values by the error bound of LAPACK."
  },
  {
   "property": "C161",
   "status": "partial",
   "theorems": [
    "Verif.Props.C161_crossing_partial",
    "Verif.Props.C161_sound",
    "Verif.Props.C161_pairs",
    "Verif.Props.C161_usual",
    "Verif.Props.C161_entries",
    "Verif.Props.C161_far_fails",
    "Verif.Props.C161_exact"
   ],
   "note": "Crossings at flat angles or far from the origin are missing (C161_crossing_partial); diagonals of a square near (2^20, 2^20) are reported as an overlap (C161_far_fails). Plane only."
  },
  {
   "property": "C162",
   "status": "partial",
   "theorems": [
    "Verif.Props.C162_values",
    "Verif.Props.C162_curvature",
    "Verif.Props.C162_missing",
    "Verif.Props.C162_missing_curvature",
    "Verif.Props.C162_reach",
    "Verif.Props.C162_chord",
    "Verif.Props.C162_length",
    "Verif.Props.C162_nonsingular",
    "Verif.Props.C162_infinite_fails",
    "Verif.Props.C162_smooth",
    "Verif.Props.C162_pairs",
    "Verif.Props.C162_exact"
   ],
   "note": "The curvature in space next to a point with an infinite coordinate is the number 0 (C162_infinite_fails). Intersections are treated for curves without infinite coordinates."
  },
  {
   "property": "C163",
   "status": "partial",
   "theorems": [
    "Verif.Props.C163_points",
    "Verif.Props.C163_accepted",
    "Verif.Props.C163_exists",
    "Verif.Props.C163_usual",
    "Verif.Props.C163_end_fails",
    "Verif.Props.C163_exact"
   ],
   "note": "The last point of the result need not be the last point of the curve (C163_end_fails), and results with points between 5e-9 and 3e-8 apart may be accepted or refused."
  },
  {
   "property": "C164",
   "status": "partial",
   "theorems": [
    "Verif.Props.C164_kept",
    "Verif.Props.C164_exists",
    "Verif.Props.C164_agree",
    "Verif.Props.C164_exact",
    "Verif.Props.C164_usual",
    "Verif.Props.C164_threshold_fails",
    "Verif.Props.C164_singular"
   ],
   "note": "At the threshold rounding decides: two points 1e-8 apart (the binary64 number, which exceeds 1 / 10^8) lose the second one in binary64 only (C164_threshold_fails)."
  },
  {
   "property": "C165",
   "status": "partial",
   "theorems": [
    "Verif.Props.C165_count",
    "Verif.Props.C165_speed",
    "Verif.Props.C165_exists",
    "Verif.Props.C165_usual",
    "Verif.Props.C165_exact",
    "Verif.Props.C165_count_fails",
    "Verif.Props.C165_range_fails"
   ],
   "note": "The last claim fails: np.sum and np.cumsum add in different orders, so the last value of a grid by speed may lie beyond the parameter range (C165_range_fails). Next to a tie the number of points may differ from that of exact arithmetic (C165_count_fails)."
  },
  {
   "property": "C166",
   "status": "partial",
   "theorems": [
    "Verif.Props.C166_relative",
    "Verif.Props.C166_chebyshev",
    "Verif.Props.C166_braycurtis",
    "Verif.Props.C166_zero",
    "Verif.Props.C166_swap",
    "Verif.Props.C166_triangle",
    "Verif.Props.C166_cosine",
    "Verif.Props.C166_triangle_fails",
    "Verif.Props.C166_cosine_fails",
    "Verif.Props.C166_usual"
   ],
   "note": "The last sentence fails in binary64: a detour can be shorter by one digit (C166_triangle_fails), and the cosine distance of parallel points can be 2^-52 (C166_cosine_fails). Weights, correlation, seuclidean, mahalanobis, jensenshannon and other orders of minkowski are treated in exact arithmetic only (C127)."
  },
  {
   "property": "C167",
   "status": "partial",
   "theorems": [
    "Verif.Props.C167_reads",
    "Verif.Props.C167_stable",
    "Verif.Props.C167_ends",
    "Verif.Props.C167_alone",
    "Verif.Props.C167_identity_fails",
    "Verif.Props.C167_identity"
   ],
   "note": "Values, stability and progress as stated. The last sentence fails: two threads may both find nothing stored and get different arrays (C167_identity_fails); it holds for reads one after another (C167_identity). Steps are those atomic under the global interpreter lock; nobody writes into the arrays (C22_write_fails)."
  },
  {
   "property": "C168",
   "status": "partial",
   "theorems": [
    "Verif.Props.C168_safe_partial",
    "Verif.Props.C168_ends",
    "Verif.Props.C168_register",
    "Verif.Props.C168_default",
    "Verif.Props.C168_race_fails"
   ],
   "note": "The last sentence fails: both of two threads registering one name may succeed, and the first class is lost (C168_race_fails). With one registration per name it is as stated (C168_register). One call per thread."
  },
  {
   "property": "C169",
   "status": "proved",
   "theorems": [
    "Verif.Props.C169_issued",
    "Verif.Props.C169_lazy",
    "Verif.Props.C169_once",
    "Verif.Props.C169_same",
    "Verif.Props.C169_silent"
   ],
   "note": "Which warnings, for which property, not their order nor their text. Warnings of numpy and filters that turn warnings into errors are not modelled."
  },
  {
   "property": "C170",
   "status": "partial",
   "theorems": [
    "Verif.Props.C170_t",
    "Verif.Props.C170_t_silent",
    "Verif.Props.C170_t_fails",
    "Verif.Props.C170_degenerate_fails",
    "Verif.Props.C170_ts",
    "Verif.Props.C170_order_fails",
    "Verif.Props.C170_exact",
    "Verif.Props.C170_exact_curves",
    "Verif.Props.C170_angle",
    "Verif.Props.C170_angle_fails",
    "Verif.Props.C170_params",
    "Verif.Props.C170_interpolator",
    "Verif.Props.C170_construct",
    "Verif.Props.C170_feps_fails"
   ],
   "note": "Fails in five ways, each with a witness: a point of the line may be reported as not collinear (C170_t_fails); on a degenerate segment every point gets 0 without warning (C170_degenerate_fails); the residuals of only the first of several points are looked at (C170_order_fails); short segments are called degenerate (C170_angle_fails); a negative feps gives a warning for a correct crossing (C170_feps_fails). Otherwise as stated. Exact arithmetic; texts and numpy warnings are not modelled."
  },
  {
   "property": "C171",
   "status": "partial",
   "theorems": [
    "Verif.Props.C171_linear",
    "Verif.Props.C171_not_a_knot",
    "Verif.Props.C171_spline",
    "Verif.Props.C171_spacing",
    "Verif.Props.C171_uniform",
    "Verif.Props.C171_points",
    "Verif.Props.C171_fill",
    "Verif.Props.C171_extrapolate",
    "Verif.Props.C171_extrapolate_length",
    "Verif.Props.C171_methods",
    "Verif.Props.C171_hermite_partial",
    "Verif.Props.C171_hermite_fails"
   ],
   "note": "Fails for hermite when the second step at an end is about three times the first or more (C171_hermite_fails); proved for hermite otherwise and for all other methods. Splines of scipy as in section 3 of DESIGN.md; exact arithmetic; not integer dtypes."
  },
  {
   "property": "C172",
   "status": "partial",
   "theorems": [
    "Verif.Props.C172_window",
    "Verif.Props.C172_region",
    "Verif.Props.C172_segments",
    "Verif.Props.C172_linear",
    "Verif.Props.C172_constant_fails"
   ],
   "note": "Proved for the modes reflect, mirror, nearest and wrap (segments: not wrap). Fails for the mode constant (C172_constant_fails). Linear interpolation for dtypes that are not integer ones. Exact arithmetic."
  },
  {
   "property": "C173",
   "status": "partial",
   "theorems": [
    "Verif.Props.C173_part",
    "Verif.Props.C173_lengths",
    "Verif.Props.C173_parameter",
    "Verif.Props.C173_first_partial",
    "Verif.Props.C173_second_partial",
    "Verif.Props.C173_third_partial",
    "Verif.Props.C173_ends_fails"
   ],
   "note": "Lengths and parameter for all parts; derivatives for points at least one (two, three) points away from the ends of the part, nearer to the ends they differ in general (C173_ends_fails). Exact arithmetic."
  }
 ]
}
