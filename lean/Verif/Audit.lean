import Verif.Props.Accuracy
import Verif.Props.AccuracyCross
import Verif.Props.AccuracyCurv
import Verif.Props.AccuracyFrenet
import Verif.Props.AccuracyLen
import Verif.Props.AccuracyPieces
import Verif.Props.AccuracySavgol
import Verif.Props.AccuracySmooth
import Verif.Props.AccuracySpline
import Verif.Props.Affine
import Verif.Props.AffineInterp
import Verif.Props.Almost
import Verif.Props.ArcLen
import Verif.Props.Bending
import Verif.Props.BestFit
import Verif.Props.Boundary
import Verif.Props.Cache
import Verif.Props.Columns
import Verif.Props.Construct
import Verif.Props.Csaps
import Verif.Props.Csaps2
import Verif.Props.CsapsSym
import Verif.Props.CurveSeg
import Verif.Props.Curves
import Verif.Props.DiffGeom
import Verif.Props.Dims
import Verif.Props.Distance
import Verif.Props.Edit
import Verif.Props.Equality
import Verif.Props.FrenetFormula
import Verif.Props.Grid
import Verif.Props.GridWarn
import Verif.Props.History
import Verif.Props.Hull
import Verif.Props.InsertMore
import Verif.Props.Int64
import Verif.Props.IntInterp
import Verif.Props.Interp
import Verif.Props.Intersect
import Verif.Props.IntersectCurves
import Verif.Props.IntersectMore
import Verif.Props.IntersectObj
import Verif.Props.IntersectParts
import Verif.Props.Keywords
import Verif.Props.KnownCurves
import Verif.Props.Laws
import Verif.Props.LineGrid
import Verif.Props.Local
import Verif.Props.LocalGeom
import Verif.Props.Metrics
import Verif.Props.Metrics2
import Verif.Props.Motion
import Verif.Props.NonFinite
import Verif.Props.Nonsingular
import Verif.Props.Orient
import Verif.Props.Param
import Verif.Props.Parts
import Verif.Props.Plot
import Verif.Props.Position
import Verif.Props.Range
import Verif.Props.Rank
import Verif.Props.Refine
import Verif.Props.Registry
import Verif.Props.Repr
import Verif.Props.Rescale
import Verif.Props.Reversal
import Verif.Props.ReverseGeom
import Verif.Props.ReverseInterp
import Verif.Props.Rounded
import Verif.Props.RoundedCross
import Verif.Props.RoundedCurv
import Verif.Props.RoundedDeriv
import Verif.Props.RoundedDet
import Verif.Props.RoundedDist
import Verif.Props.RoundedExact
import Verif.Props.RoundedGrid
import Verif.Props.RoundedGrids
import Verif.Props.RoundedMetrics
import Verif.Props.RoundedPairs
import Verif.Props.RoundedParam
import Verif.Props.RoundedRank
import Verif.Props.RoundedResample
import Verif.Props.RoundedSeg
import Verif.Props.RoundedSingular
import Verif.Props.RoundedSmooth
import Verif.Props.Sampling
import Verif.Props.Savgol
import Verif.Props.SegDist
import Verif.Props.Segment
import Verif.Props.SegmentObj
import Verif.Props.Select
import Verif.Props.Sequence
import Verif.Props.Shorten
import Verif.Props.Slopes
import Verif.Props.SmallFacts
import Verif.Props.Smooth
import Verif.Props.SpeedGrid
import Verif.Props.Spline
import Verif.Props.SplineBc
import Verif.Props.SplineEnds
import Verif.Props.SplineShape
import Verif.Props.SplineSym
import Verif.Props.Stable
import Verif.Props.StablePchip
import Verif.Props.StableResample
import Verif.Props.StableSpline
import Verif.Props.Threads
import Verif.Props.Units
import Verif.Props.Univariate
import Verif.Props.UnivariateSym
import Verif.Props.Warn
import Verif.Props.WarnMore

/-! Written by tools/gen_manifest.py: the axioms behind every property theorem. -/

#print axioms Verif.Props.C01_step
#print axioms Verif.Props.C01_wellformed
#print axioms Verif.Props.C01_any_step
#print axioms Verif.Props.C01_all_operations
#print axioms Verif.Props.C02_coords
#print axioms Verif.Props.C02_ragged
#print axioms Verif.Props.C03_as2d
#print axioms Verif.Props.C03_reject
#print axioms Verif.Props.C03_negative_axis_accepted
#print axioms Verif.Props.C03_negative_axis_partial
#print axioms Verif.Props.C04_lengths
#print axioms Verif.Props.C04_lengths_any
#print axioms Verif.Props.C04_reject
#print axioms Verif.Props.C04_ndmin
#print axioms Verif.Props.C04_any
#print axioms Verif.Props.C05_copy_partial
#print axioms Verif.Props.C05_copy_content
#print axioms Verif.Props.C05_copy_loses_dimension
#print axioms Verif.Props.C06_index_partial
#print axioms Verif.Props.C06_getitem
#print axioms Verif.Props.C06_below_range_accepted
#print axioms Verif.Props.C07_slice
#print axioms Verif.Props.C07_zero_step
#print axioms Verif.Props.C07_plain
#print axioms Verif.Props.C08_list
#print axioms Verif.Props.C08_list_reject
#print axioms Verif.Props.C08_empty_list
#print axioms Verif.Props.C08_mask
#print axioms Verif.Props.C09_add
#print axioms Verif.Props.C09_assoc_partial
#print axioms Verif.Props.C09_split_partial
#print axioms Verif.Props.C09_split_fails
#print axioms Verif.Props.C09_empty_parts
#print axioms Verif.Props.C10_reverse
#print axioms Verif.Props.C10_involution_partial
#print axioms Verif.Props.C10_reverse_loses_dimension
#print axioms Verif.Props.C10_distrib_partial
#print axioms Verif.Props.C11_insert
#print axioms Verif.Props.C11_insert_exact
#print axioms Verif.Props.C11_reject
#print axioms Verif.Props.C11_append
#print axioms Verif.Props.C11_insert_list
#print axioms Verif.Props.C12_delete_insert
#print axioms Verif.Props.C12_delete
#print axioms Verif.Props.C12_delete_when
#print axioms Verif.Props.C13_partition
#print axioms Verif.Props.C13_partition_mask
#print axioms Verif.Props.C14_appenddim
#print axioms Verif.Props.C14_deletedim
#print axioms Verif.Props.C14_insertdim
#print axioms Verif.Props.C14_deletedim_insertdim
#print axioms Verif.Props.C14_deletedim_2d
#print axioms Verif.Props.C14_deletedim_size_partial
#print axioms Verif.Props.C14_deletedim_all
#print axioms Verif.Props.C15_unique
#print axioms Verif.Props.C15_idempotent
#print axioms Verif.Props.C16_drop_bool
#print axioms Verif.Props.C16_drop_matrix
#print axioms Verif.Props.C16_drop_indices
#print axioms Verif.Props.C16_drop_reject
#print axioms Verif.Props.C17_kept_partial
#print axioms Verif.Props.C17_unchanged
#print axioms Verif.Props.C17_separated_partial
#print axioms Verif.Props.C17_empty_fails
#print axioms Verif.Props.C17_nan_fails
#print axioms Verif.Props.C17_drift_fails
#print axioms Verif.Props.C18_shape
#print axioms Verif.Props.C18_int
#print axioms Verif.Props.C18_refl
#print axioms Verif.Props.C18_refl_point
#print axioms Verif.Props.C18_nan
#print axioms Verif.Props.C18_point
#print axioms Verif.Props.C18_not_symmetric
#print axioms Verif.Props.C18_not_transitive
#print axioms Verif.Props.C18_segment
#print axioms Verif.Props.C19_agree
#print axioms Verif.Props.C19_count
#print axioms Verif.Props.C19_other_dim
#print axioms Verif.Props.C19_count_add_partial
#print axioms Verif.Props.C19_count_mixed
#print axioms Verif.Props.C20_index_partial
#print axioms Verif.Props.C20_start_below_range
#print axioms Verif.Props.C21_contains
#print axioms Verif.Props.C21_slice_partial
#print axioms Verif.Props.C21_empty_slice
#print axioms Verif.Props.C22_reads_partial
#print axioms Verif.Props.C22_write_fails
#print axioms Verif.Props.C22_write_spreads
#print axioms Verif.Props.C22_parameters
#print axioms Verif.Props.C23_points
#print axioms Verif.Props.C23_number
#print axioms Verif.Props.C23_laws
#print axioms Verif.Props.C23_matmul
#print axioms Verif.Props.C24_copy_partial
#print axioms Verif.Props.C24_copy_changes_dtype
#print axioms Verif.Props.C25_affine
#print axioms Verif.Props.C25_length
#print axioms Verif.Props.C26_point
#print axioms Verif.Props.C26_inverse_partial
#print axioms Verif.Props.C26_ends
#print axioms Verif.Props.C26_off_line
#print axioms Verif.Props.C26_sequence_partial
#print axioms Verif.Props.C26_single_point_list
#print axioms Verif.Props.C26_nan_on_line
#print axioms Verif.Props.C27_sound_partial
#print axioms Verif.Props.C27_complete_partial
#print axioms Verif.Props.C27_exact_behaviour
#print axioms Verif.Props.C27_misses
#print axioms Verif.Props.C27_close_accepted
#print axioms Verif.Props.C28_parallel
#print axioms Verif.Props.C28_nonparallel_partial
#print axioms Verif.Props.C28_short_segments
#print axioms Verif.Props.C29_coplanar_partial
#print axioms Verif.Props.C29_segment
#print axioms Verif.Props.C29_few_fails
#print axioms Verif.Props.C29_translate
#print axioms Verif.Props.C29_isplane_partial
#print axioms Verif.Props.C29_isplane_fails
#print axioms Verif.Props.C30_range
#print axioms Verif.Props.C30_geometric
#print axioms Verif.Props.C30_symm
#print axioms Verif.Props.C30_self
#print axioms Verif.Props.C30_reverse
#print axioms Verif.Props.C30_scale
#print axioms Verif.Props.C31_none_iff
#print axioms Verif.Props.C31_common_partial
#print axioms Verif.Props.C31_check
#print axioms Verif.Props.C31_mixed_signs
#print axioms Verif.Props.C32_distance_partial
#print axioms Verif.Props.C32_exact
#print axioms Verif.Props.C32_short
#print axioms Verif.Props.C33_range
#print axioms Verif.Props.C33_endpoints
#print axioms Verif.Props.C34_bound_partial
#print axioms Verif.Props.C34_exact_partial
#print axioms Verif.Props.C34_singular_second
#print axioms Verif.Props.C35_symm_partial
#print axioms Verif.Props.C35_zero_partial
#print axioms Verif.Props.C36_entries_partial
#print axioms Verif.Props.C36_int_data
#print axioms Verif.Props.C37_on_both
#print axioms Verif.Props.C38_crossing_partial
#print axioms Verif.Props.C38_short_missed
#print axioms Verif.Props.C38_far_missed
#print axioms Verif.Props.C39_overlap_partial
#print axioms Verif.Props.C39_sound
#print axioms Verif.Props.C39_missed
#print axioms Verif.Props.C40_pruning
#print axioms Verif.Props.C41_row_major
#print axioms Verif.Props.C42_self
#print axioms Verif.Props.C42_copy
#print axioms Verif.Props.C43_pairs_partial
#print axioms Verif.Props.C43_int_curves
#print axioms Verif.Props.C44_representatives
#print axioms Verif.Props.C44_idempotent
#print axioms Verif.Props.C44_enumeration
#print axioms Verif.Props.C45_almost
#print axioms Verif.Props.C45_curve_segment
#print axioms Verif.Props.C45_segment_curve
#print axioms Verif.Props.C46_results
#print axioms Verif.Props.C46_accessors
#print axioms Verif.Props.C47_errors_partial
#print axioms Verif.Props.C47_other_errors
#print axioms Verif.Props.C48_call_partial
#print axioms Verif.Props.C48_none_fails
#print axioms Verif.Props.C49_intersect_history
#print axioms Verif.Props.C49_default
#print axioms Verif.Props.C49_interp_history
#print axioms Verif.Props.C49_smooth_history_partial
#print axioms Verif.Props.C49_smooth_no_check
#print axioms Verif.Props.C50_chordlen_partial
#print axioms Verif.Props.C50_cumarclen_partial
#print axioms Verif.Props.C50_monotone_rounded
#print axioms Verif.Props.C50_monotone
#print axioms Verif.Props.C50_empty_fails
#print axioms Verif.Props.C50_t
#print axioms Verif.Props.C51_reverse_partial
#print axioms Verif.Props.C51_add_partial
#print axioms Verif.Props.C51_add_empty
#print axioms Verif.Props.C51_ends
#print axioms Verif.Props.C51_similar_partial
#print axioms Verif.Props.C52_delete_partial
#print axioms Verif.Props.C52_select_partial
#print axioms Verif.Props.C52_unique_partial
#print axioms Verif.Props.C52_insert_partial
#print axioms Verif.Props.C53_insertdim
#print axioms Verif.Props.C53_default
#print axioms Verif.Props.C54_shape_partial
#print axioms Verif.Props.C54_single_point_fails
#print axioms Verif.Props.C54_linear
#print axioms Verif.Props.C54_translation
#print axioms Verif.Props.C54_quadratic
#print axioms Verif.Props.C54_line
#print axioms Verif.Props.C55_unit
#print axioms Verif.Props.C55_orthogonal
#print axioms Verif.Props.C56_torsion_plane
#print axioms Verif.Props.C56_torsion
#print axioms Verif.Props.C56_line
#print axioms Verif.Props.C56_reverse
#print axioms Verif.Props.C56_single_point_fails
#print axioms Verif.Props.C57_choice
#print axioms Verif.Props.C57_canonical_partial
#print axioms Verif.Props.C57_det_zero_fails
#print axioms Verif.Props.C57_closed
#print axioms Verif.Props.C57_axis_range
#print axioms Verif.Props.C57_nonfinite
#print axioms Verif.Props.C58_shape_partial
#print axioms Verif.Props.C58_agree
#print axioms Verif.Props.C58_single_point_fails
#print axioms Verif.Props.C59_uniform
#print axioms Verif.Props.C59_errors
#print axioms Verif.Props.C60_length_partial
#print axioms Verif.Props.C60_short_fails
#print axioms Verif.Props.C60_reject
#print axioms Verif.Props.C61_extrapolate_partial
#print axioms Verif.Props.C61_length
#print axioms Verif.Props.C61_single_fails
#print axioms Verif.Props.C61_negative
#print axioms Verif.Props.C61_reject
#print axioms Verif.Props.C61_length_reject
#print axioms Verif.Props.C62_speed
#print axioms Verif.Props.C62_parametric
#print axioms Verif.Props.C63_grid_partial
#print axioms Verif.Props.C63_reject
#print axioms Verif.Props.C63_nan_fails
#print axioms Verif.Props.C63_inf_fails
#print axioms Verif.Props.C64_between_partial
#print axioms Verif.Props.C64_nodes_partial
#print axioms Verif.Props.C64_reproduce_partial
#print axioms Verif.Props.C64_extrapolate
#print axioms Verif.Props.C64_out_of_range
#print axioms Verif.Props.C64_int_fails
#print axioms Verif.Props.C65_length_partial
#print axioms Verif.Props.C65_int_fails
#print axioms Verif.Props.C66_method_errors
#print axioms Verif.Props.C66_grid_errors
#print axioms Verif.Props.C66_result_partial
#print axioms Verif.Props.C66_small_partial
#print axioms Verif.Props.C66_empty_parametric_fails
#print axioms Verif.Props.C66_linear_fails
#print axioms Verif.Props.C67_errors
#print axioms Verif.Props.C67_result_partial
#print axioms Verif.Props.C67_curve_fails
#print axioms Verif.Props.C67_window_errors
#print axioms Verif.Props.C68_averaging
#print axioms Verif.Props.C68_window_partial
#print axioms Verif.Props.C68_int
#print axioms Verif.Props.C68_hann_partial
#print axioms Verif.Props.C68_hann2_fails
#print axioms Verif.Props.C68_int_linear_fails
#print axioms Verif.Props.C69_count
#print axioms Verif.Props.C69_arc
#print axioms Verif.Props.C69_arc_closed
#print axioms Verif.Props.C69_lemniscate
#print axioms Verif.Props.C69_spiral
#print axioms Verif.Props.C69_lissajous
#print axioms Verif.Props.C69_lissajous_shape
#print axioms Verif.Props.C69_helix
#print axioms Verif.Props.C69_irregular_helix
#print axioms Verif.Props.C70_metric
#print axioms Verif.Props.C70_dimensions
#print axioms Verif.Props.C70_agree
#print axioms Verif.Props.C70_geom
#print axioms Verif.Props.C70_errors
#print axioms Verif.Props.C71_linrescale
#print axioms Verif.Props.C71_default
#print axioms Verif.Props.C71_range
#print axioms Verif.Props.C72_arclen
#print axioms Verif.Props.C72_subcurve
#print axioms Verif.Props.C72_step
#print axioms Verif.Props.C73_segments
#print axioms Verif.Props.C73_sum
#print axioms Verif.Props.C73_index_partial
#print axioms Verif.Props.C73_below_range_accepted
#print axioms Verif.Props.C74_partial
#print axioms Verif.Props.C74_truncates
#print axioms Verif.Props.C74_interpolate_fails
#print axioms Verif.Props.C75_nonnumeric_dtype_accepted
#print axioms Verif.Props.C75_numeric_partial
#print axioms Verif.Props.C76_dtype_partial
#print axioms Verif.Props.C76_int_fails
#print axioms Verif.Props.C77_result_partial
#print axioms Verif.Props.C77_window_fails
#print axioms Verif.Props.C78_line
#print axioms Verif.Props.C79_interp
#print axioms Verif.Props.C79_interior
#print axioms Verif.Props.C79_errors
#print axioms Verif.Props.C79_negative_order_fails
#print axioms Verif.Props.C80_named_partial
#print axioms Verif.Props.C80_name_fails
#print axioms Verif.Props.C80_callable_fails
#print axioms Verif.Props.C81_cityblock
#print axioms Verif.Props.C81_chebyshev
#print axioms Verif.Props.C81_order
#print axioms Verif.Props.C82_chords
#print axioms Verif.Props.C82_symmetric
#print axioms Verif.Props.C83_reproduce_partial
#print axioms Verif.Props.C83_periodic_fails
#print axioms Verif.Props.C84_hermite_tangent
#print axioms Verif.Props.C85_pchip_monotone
#print axioms Verif.Props.C86_natural
#print axioms Verif.Props.C87_line
#print axioms Verif.Props.C87_hermite_partial
#print axioms Verif.Props.C87_collinear
#print axioms Verif.Props.C87_spacing_fails
#print axioms Verif.Props.C87_speed_fails
#print axioms Verif.Props.C88_outside
#print axioms Verif.Props.C89_translation
#print axioms Verif.Props.C90_lengths
#print axioms Verif.Props.C90_vectors
#print axioms Verif.Props.C90_scalars
#print axioms Verif.Props.C90_plane
#print axioms Verif.Props.C91_plane
#print axioms Verif.Props.C91_lengths
#print axioms Verif.Props.C91_derivatives
#print axioms Verif.Props.C91_spatial_partial
#print axioms Verif.Props.C91_small_fails
#print axioms Verif.Props.C92_shows
#print axioms Verif.Props.C92_chain
#print axioms Verif.Props.C92_errors_partial
#print axioms Verif.Props.C92_normals_fails
#print axioms Verif.Props.C93_monotone
#print axioms Verif.Props.C93_sound
#print axioms Verif.Props.C93_complete_partial
#print axioms Verif.Props.C94_swap_partial
#print axioms Verif.Props.C94_curves_partial
#print axioms Verif.Props.C94_reverse_partial
#print axioms Verif.Props.C94_direction_fails
#print axioms Verif.Props.C94_order_fails
#print axioms Verif.Props.C95_arc
#print axioms Verif.Props.C95_arc_limit
#print axioms Verif.Props.C95_helix
#print axioms Verif.Props.C96_circle_partial
#print axioms Verif.Props.C96_ends_fail
#print axioms Verif.Props.C97_curvature_partial
#print axioms Verif.Props.C97_torsion_partial
#print axioms Verif.Props.C97_coarse_partial
#print axioms Verif.Props.C97_fine_sampling_fails
#print axioms Verif.Props.C97_handedness_fails
#print axioms Verif.Props.C98_segments
#print axioms Verif.Props.C98_coplanar
#print axioms Verif.Props.C98_almost_segments
#print axioms Verif.Props.C98_almost_curves
#print axioms Verif.Props.C98_exact_partial
#print axioms Verif.Props.C98_exact_fails
#print axioms Verif.Props.C99_window
#print axioms Verif.Props.C99_savgol
#print axioms Verif.Props.C99_smooth
#print axioms Verif.Props.C99_cubic
#print axioms Verif.Props.C99_linear
#print axioms Verif.Props.C99_isometry
#print axioms Verif.Props.C99_pchip_fails
#print axioms Verif.Props.C100_continuation
#print axioms Verif.Props.C100_window
#print axioms Verif.Props.C100_savgol
#print axioms Verif.Props.C101_best
#print axioms Verif.Props.C101_modes
#print axioms Verif.Props.C101_interp
#print axioms Verif.Props.C102_window
#print axioms Verif.Props.C102_savgol
#print axioms Verif.Props.C102_even_fails
#print axioms Verif.Props.C103_splines
#print axioms Verif.Props.C103_linear
#print axioms Verif.Props.C103_reverse_partial
#print axioms Verif.Props.C103_reverse_linear_partial
#print axioms Verif.Props.C103_parametric_fails
#print axioms Verif.Props.C103_sorted_fails
#print axioms Verif.Props.C104_splines
#print axioms Verif.Props.C104_linear
#print axioms Verif.Props.C104_scaling
#print axioms Verif.Props.C104_hermite_fails
#print axioms Verif.Props.C105_splines
#print axioms Verif.Props.C105_linear
#print axioms Verif.Props.C105_akima_partial
#print axioms Verif.Props.C105_univariate
#print axioms Verif.Props.C105_univariate_raise
#print axioms Verif.Props.C105_univariate_error
#print axioms Verif.Props.C105_hermite_fails
#print axioms Verif.Props.C105_akima_fails
#print axioms Verif.Props.C106_splines
#print axioms Verif.Props.C106_linear
#print axioms Verif.Props.C106_slice
#print axioms Verif.Props.C106_slice_linear
#print axioms Verif.Props.C106_cubic_fails
#print axioms Verif.Props.C106_akima_fails
#print axioms Verif.Props.C107_pieces
#print axioms Verif.Props.C107_akima
#print axioms Verif.Props.C107_pchip
#print axioms Verif.Props.C108_methods
#print axioms Verif.Props.C108_unknown
#print axioms Verif.Props.C108_order
#print axioms Verif.Props.C108_defaults
#print axioms Verif.Props.C108_spline
#print axioms Verif.Props.C108_csaps
#print axioms Verif.Props.C108_boundary
#print axioms Verif.Props.C108_linear
#print axioms Verif.Props.C108_truth
#print axioms Verif.Props.C108_none_fails
#print axioms Verif.Props.C109_vectors
#print axioms Verif.Props.C109_numbers
#print axioms Verif.Props.C110_local
#print axioms Verif.Props.C110_slice
#print axioms Verif.Props.C110_ends_fails
#print axioms Verif.Props.C111_curve
#print axioms Verif.Props.C111_rebuild
#print axioms Verif.Props.C111_slice
#print axioms Verif.Props.C111_pick
#print axioms Verif.Props.C111_pick_errors
#print axioms Verif.Props.C111_iteration_errors
#print axioms Verif.Props.C111_point
#print axioms Verif.Props.C111_contains
#print axioms Verif.Props.C111_index
#print axioms Verif.Props.C111_copy_partial
#print axioms Verif.Props.C111_copy_fails
#print axioms Verif.Props.C111_scalar_fails
#print axioms Verif.Props.C111_part_fails
#print axioms Verif.Props.C112_init
#print axioms Verif.Props.C112_reverse
#print axioms Verif.Props.C112_toCurve
#print axioms Verif.Props.C112_curveSegment
#print axioms Verif.Props.C112_geometry
#print axioms Verif.Props.C112_points
#print axioms Verif.Props.C112_objects
#print axioms Verif.Props.C112_errors_partial
#print axioms Verif.Props.C112_errors_real_partial
#print axioms Verif.Props.C112_angle_fails
#print axioms Verif.Props.C112_overlap_fails
#print axioms Verif.Props.C112_attribute_fails
#print axioms Verif.Props.C112_parameter_fails
#print axioms Verif.Props.C112_kinds
#print axioms Verif.Props.C113_parts
#print axioms Verif.Props.C113_self
#print axioms Verif.Props.C113_apart
#print axioms Verif.Props.C113_graph_partial
#print axioms Verif.Props.C113_graph_fails
#print axioms Verif.Props.C113_almost_partial
#print axioms Verif.Props.C113_almost_apart
#print axioms Verif.Props.C113_extra_fails
#print axioms Verif.Props.C114_algorithms
#print axioms Verif.Props.C114_total
#print axioms Verif.Props.C114_arguments
#print axioms Verif.Props.C114_exact
#print axioms Verif.Props.C114_almost
#print axioms Verif.Props.C114_defaults
#print axioms Verif.Props.C114_named
#print axioms Verif.Props.C114_slices
#print axioms Verif.Props.C114_empty_fails
#print axioms Verif.Props.C114_class_fails
#print axioms Verif.Props.C115_first
#print axioms Verif.Props.C115_second
#print axioms Verif.Props.C115_speed
#print axioms Verif.Props.C115_third_partial
#print axioms Verif.Props.C115_third_fails
#print axioms Verif.Props.C116_plane
#print axioms Verif.Props.C116_space_partial
#print axioms Verif.Props.C116_space_fails
#print axioms Verif.Props.C116_formula
#print axioms Verif.Props.C117_first
#print axioms Verif.Props.C117_second
#print axioms Verif.Props.C117_arclen
#print axioms Verif.Props.C118_linear_partial
#print axioms Verif.Props.C118_near_partial
#print axioms Verif.Props.C119_chord
#print axioms Verif.Props.C119_swap
#print axioms Verif.Props.C119_arclen
#print axioms Verif.Props.C119_cumarclen
#print axioms Verif.Props.C119_exact
#print axioms Verif.Props.C120_grid
#print axioms Verif.Props.C120_accepted_partial
#print axioms Verif.Props.C120_exact
#print axioms Verif.Props.C120_accepted_fails
#print axioms Verif.Props.C121_point
#print axioms Verif.Props.C121_end_fails
#print axioms Verif.Props.C121_linear
#print axioms Verif.Props.C121_node_fails
#print axioms Verif.Props.C121_exact
#print axioms Verif.Props.C122_shorter
#print axioms Verif.Props.C122_default
#print axioms Verif.Props.C122_lengthened
#print axioms Verif.Props.C123_points_partial
#print axioms Verif.Props.C123_parts_partial
#print axioms Verif.Props.C123_repeated_fails
#print axioms Verif.Props.C124_clamped
#print axioms Verif.Props.C124_not_a_knot
#print axioms Verif.Props.C124_periodic
#print axioms Verif.Props.C125_natural
#print axioms Verif.Props.C125_clamped
#print axioms Verif.Props.C126_exact
#print axioms Verif.Props.C126_collinear
#print axioms Verif.Props.C126_collinear_near
#print axioms Verif.Props.C126_collinear_default
#print axioms Verif.Props.C126_coplanar
#print axioms Verif.Props.C126_coplanar_near
#print axioms Verif.Props.C126_complete
#print axioms Verif.Props.C126_scale
#print axioms Verif.Props.C126_negative
#print axioms Verif.Props.C126_isplane
#print axioms Verif.Props.C126_t
#print axioms Verif.Props.C126_default_fails
#print axioms Verif.Props.C127_minkowski
#print axioms Verif.Props.C127_weighted
#print axioms Verif.Props.C127_orders
#print axioms Verif.Props.C127_wminkowski
#print axioms Verif.Props.C127_wminkowski_inf_fails
#print axioms Verif.Props.C127_zero_weight_fails
#print axioms Verif.Props.C127_seuclidean
#print axioms Verif.Props.C127_canberra
#print axioms Verif.Props.C127_braycurtis
#print axioms Verif.Props.C127_braycurtis_fails
#print axioms Verif.Props.C127_cosine
#print axioms Verif.Props.C127_correlation
#print axioms Verif.Props.C127_cosine_fails
#print axioms Verif.Props.C127_mahalanobis
#print axioms Verif.Props.C127_mahalanobis_fails
#print axioms Verif.Props.C127_jensenshannon
#print axioms Verif.Props.C127_chebyshev
#print axioms Verif.Props.C127_arguments
#print axioms Verif.Props.C127_abs
#print axioms Verif.Props.C128_minimal
#print axioms Verif.Props.C128_natural
#print axioms Verif.Props.C128_interpolates
#print axioms Verif.Props.C128_reproduce
#print axioms Verif.Props.C128_moments
#print axioms Verif.Props.C128_regression
#print axioms Verif.Props.C128_line
#print axioms Verif.Props.C128_tradeoff
#print axioms Verif.Props.C128_auto
#print axioms Verif.Props.C128_errors
#print axioms Verif.Props.C129_cubic
#print axioms Verif.Props.C129_linear
#print axioms Verif.Props.C129_errors
#print axioms Verif.Props.C130_exact
#print axioms Verif.Props.C130_derivs
#print axioms Verif.Props.C130_inside
#print axioms Verif.Props.C130_speed
#print axioms Verif.Props.C130_unit
#print axioms Verif.Props.C130_sampled
#print axioms Verif.Props.C130_edge_fails
#print axioms Verif.Props.C131_window
#print axioms Verif.Props.C131_const_fails
#print axioms Verif.Props.C132_exact
#print axioms Verif.Props.C132_parallel
#print axioms Verif.Props.C132_angle
#print axioms Verif.Props.C132_nearest
#print axioms Verif.Props.C132_distance
#print axioms Verif.Props.C132_parallel_fails
#print axioms Verif.Props.C132_angle_fails
#print axioms Verif.Props.C133_ends
#print axioms Verif.Props.C133_same
#print axioms Verif.Props.C133_rejected
#print axioms Verif.Props.C133_bending
#print axioms Verif.Props.C134_interpolate
#print axioms Verif.Props.C134_values
#print axioms Verif.Props.C134_reproduce
#print axioms Verif.Props.C134_linear
#print axioms Verif.Props.C134_outside
#print axioms Verif.Props.C135_spread
#print axioms Verif.Props.C135_reject
#print axioms Verif.Props.C135_indexers
#print axioms Verif.Props.C135_negative_fails
#print axioms Verif.Props.C135_mask_fails
#print axioms Verif.Props.C135_insertdim
#print axioms Verif.Props.C136_order
#print axioms Verif.Props.C136_chord
#print axioms Verif.Props.C136_chordlen
#print axioms Verif.Props.C136_box
#print axioms Verif.Props.C136_dot
#print axioms Verif.Props.C136_nonsingular
#print axioms Verif.Props.C136_overflow_fails
#print axioms Verif.Props.C137_natural
#print axioms Verif.Props.C137_ends
#print axioms Verif.Props.C137_pchip
#print axioms Verif.Props.C138_natural
#print axioms Verif.Props.C138_ends
#print axioms Verif.Props.C138_linear
#print axioms Verif.Props.C138_pchip_fails
#print axioms Verif.Props.C138_plain_fails
#print axioms Verif.Props.C139_chord
#print axioms Verif.Props.C139_arclen
#print axioms Verif.Props.C139_overflow_fails
#print axioms Verif.Props.C139_underflow_fails
#print axioms Verif.Props.C140_affine
#print axioms Verif.Props.C140_units
#print axioms Verif.Props.C140_units_auto
#print axioms Verif.Props.C140_backwards
#print axioms Verif.Props.C140_backwards_auto
#print axioms Verif.Props.C140_scaling
#print axioms Verif.Props.C140_reverse
#print axioms Verif.Props.C140_units_fails
#print axioms Verif.Props.C141_affine
#print axioms Verif.Props.C141_reverse
#print axioms Verif.Props.C141_periodic
#print axioms Verif.Props.C141_periodic_reverse
#print axioms Verif.Props.C141_strings
#print axioms Verif.Props.C141_scaling
#print axioms Verif.Props.C141_reversed
#print axioms Verif.Props.C141_unconverted_fails
#print axioms Verif.Props.C142_differences
#print axioms Verif.Props.C142_strict_partial
#print axioms Verif.Props.C142_usual
#print axioms Verif.Props.C142_equal_fails
#print axioms Verif.Props.C142_refused_fails
#print axioms Verif.Props.C143_affine
#print axioms Verif.Props.C143_reverse
#print axioms Verif.Props.C143_reversed
#print axioms Verif.Props.C143_scaled
#print axioms Verif.Props.C144_arc
#print axioms Verif.Props.C144_spiral
#print axioms Verif.Props.C144_euler
#print axioms Verif.Props.C144_euler_length
#print axioms Verif.Props.C144_lemniscate
#print axioms Verif.Props.C145_warning_partial
#print axioms Verif.Props.C145_nan
#print axioms Verif.Props.C145_nan_fails
#print axioms Verif.Props.C145_int
#print axioms Verif.Props.C145_extrapolate
#print axioms Verif.Props.C145_speed
#print axioms Verif.Props.C145_call
#print axioms Verif.Props.C146_moved
#print axioms Verif.Props.C146_second
#print axioms Verif.Props.C146_arc
#print axioms Verif.Props.C147_interp
#print axioms Verif.Props.C147_modes
#print axioms Verif.Props.C147_derivative
#print axioms Verif.Props.C148_select_twice
#print axioms Verif.Props.C148_slice_slice
#print axioms Verif.Props.C148_delete_mask
#print axioms Verif.Props.C148_reverse_slice
#print axioms Verif.Props.C148_insert_join
#print axioms Verif.Props.C148_join_parts
#print axioms Verif.Props.C148_insertdim_select
#print axioms Verif.Props.C148_deletedim_select
#print axioms Verif.Props.C148_insertdim_twice
#print axioms Verif.Props.C148_insertdim_join
#print axioms Verif.Props.C148_unique_join
#print axioms Verif.Props.C148_unique_self
#print axioms Verif.Props.C148_nonsingular_partial
#print axioms Verif.Props.C148_nonsingular_fails
#print axioms Verif.Props.C149_pchip
#print axioms Verif.Props.C149_akima
#print axioms Verif.Props.C149_hermite
#print axioms Verif.Props.C149_sampled
#print axioms Verif.Props.C150_exact
#print axioms Verif.Props.C150_self
#print axioms Verif.Props.C150_almost
#print axioms Verif.Props.C150_found
#print axioms Verif.Props.C150_graphs
#print axioms Verif.Props.C150_graphs_only
#print axioms Verif.Props.C151_tangent
#print axioms Verif.Props.C151_normal
#print axioms Verif.Props.C151_normal_inside
#print axioms Verif.Props.C151_binormal
#print axioms Verif.Props.C151_threshold
#print axioms Verif.Props.C151_torsion
#print axioms Verif.Props.C151_fine
#print axioms Verif.Props.C151_fine_fails
#print axioms Verif.Props.C151_formula
#print axioms Verif.Props.C152_options
#print axioms Verif.Props.C152_shown
#print axioms Verif.Props.C152_curve
#print axioms Verif.Props.C152_curve_tells
#print axioms Verif.Props.C152_point
#print axioms Verif.Props.C152_point_tells
#print axioms Verif.Props.C152_segment_tells
#print axioms Verif.Props.C152_hidden_fails
#print axioms Verif.Props.C152_intersection
#print axioms Verif.Props.C153_length
#print axioms Verif.Props.C153_derivatives
#print axioms Verif.Props.C153_speed
#print axioms Verif.Props.C153_tangent
#print axioms Verif.Props.C153_curvature
#print axioms Verif.Props.C153_linear
#print axioms Verif.Props.C153_window
#print axioms Verif.Props.C153_distance_point
#print axioms Verif.Props.C153_distance_segment
#print axioms Verif.Props.C153_crossing_partial
#print axioms Verif.Props.C153_curves_partial
#print axioms Verif.Props.C153_space_fails
#print axioms Verif.Props.C153_pchip
#print axioms Verif.Props.C153_resample
#print axioms Verif.Props.C153_cubic
#print axioms Verif.Props.C153_hermite
#print axioms Verif.Props.C153_savgol
#print axioms Verif.Props.C153_akima_fails
#print axioms Verif.Props.C154_segments
#print axioms Verif.Props.C154_point
#print axioms Verif.Props.C154_distance
#print axioms Verif.Props.C154_distance_grid
#print axioms Verif.Props.C154_exact_partial
#print axioms Verif.Props.C154_almost
#print axioms Verif.Props.C154_exact_fails
#print axioms Verif.Props.C154_angle_fails
#print axioms Verif.Props.C155_crossing_partial
#print axioms Verif.Props.C155_sound
#print axioms Verif.Props.C155_solver
#print axioms Verif.Props.C155_exact
#print axioms Verif.Props.C155_far_fails
#print axioms Verif.Props.C156_sound
#print axioms Verif.Props.C156_distance_partial
#print axioms Verif.Props.C156_almost_partial
#print axioms Verif.Props.C156_exact
#print axioms Verif.Props.C156_usual
#print axioms Verif.Props.C156_parallel_fails
#print axioms Verif.Props.C157_pairs
#print axioms Verif.Props.C157_sound
#print axioms Verif.Props.C157_complete_partial
#print axioms Verif.Props.C157_exact
#print axioms Verif.Props.C157_usual
#print axioms Verif.Props.C157_parallel_fails
#print axioms Verif.Props.C158_exact
#print axioms Verif.Props.C158_plane
#print axioms Verif.Props.C158_inside
#print axioms Verif.Props.C158_sampled
#print axioms Verif.Props.C158_values
#print axioms Verif.Props.C158_space
#print axioms Verif.Props.C158_line_fails
#print axioms Verif.Props.C159_sign
#print axioms Verif.Props.C159_choice
#print axioms Verif.Props.C159_agrees
#print axioms Verif.Props.C159_twice
#print axioms Verif.Props.C159_exact
#print axioms Verif.Props.C159_closed_fails
#print axioms Verif.Props.C160_collinear
#print axioms Verif.Props.C160_line
#print axioms Verif.Props.C160_sound
#print axioms Verif.Props.C160_coplanar
#print axioms Verif.Props.C160_plane
#print axioms Verif.Props.C160_coplanar_near
#print axioms Verif.Props.C160_exact
#print axioms Verif.Props.C160_tolerance
#print axioms Verif.Props.C160_off_origin_fails
#print axioms Verif.Props.C161_crossing_partial
#print axioms Verif.Props.C161_sound
#print axioms Verif.Props.C161_pairs
#print axioms Verif.Props.C161_usual
#print axioms Verif.Props.C161_entries
#print axioms Verif.Props.C161_far_fails
#print axioms Verif.Props.C161_exact
#print axioms Verif.Props.C162_values
#print axioms Verif.Props.C162_curvature
#print axioms Verif.Props.C162_missing
#print axioms Verif.Props.C162_missing_curvature
#print axioms Verif.Props.C162_reach
#print axioms Verif.Props.C162_chord
#print axioms Verif.Props.C162_length
#print axioms Verif.Props.C162_nonsingular
#print axioms Verif.Props.C162_infinite_fails
#print axioms Verif.Props.C162_smooth
#print axioms Verif.Props.C162_pairs
#print axioms Verif.Props.C162_exact
#print axioms Verif.Props.C163_points
#print axioms Verif.Props.C163_accepted
#print axioms Verif.Props.C163_exists
#print axioms Verif.Props.C163_usual
#print axioms Verif.Props.C163_end_fails
#print axioms Verif.Props.C163_exact
#print axioms Verif.Props.C164_kept
#print axioms Verif.Props.C164_exists
#print axioms Verif.Props.C164_agree
#print axioms Verif.Props.C164_exact
#print axioms Verif.Props.C164_usual
#print axioms Verif.Props.C164_threshold_fails
#print axioms Verif.Props.C164_singular
#print axioms Verif.Props.C165_count
#print axioms Verif.Props.C165_speed
#print axioms Verif.Props.C165_exists
#print axioms Verif.Props.C165_usual
#print axioms Verif.Props.C165_exact
#print axioms Verif.Props.C165_count_fails
#print axioms Verif.Props.C165_range_fails
#print axioms Verif.Props.C166_relative
#print axioms Verif.Props.C166_chebyshev
#print axioms Verif.Props.C166_braycurtis
#print axioms Verif.Props.C166_zero
#print axioms Verif.Props.C166_swap
#print axioms Verif.Props.C166_triangle
#print axioms Verif.Props.C166_cosine
#print axioms Verif.Props.C166_triangle_fails
#print axioms Verif.Props.C166_cosine_fails
#print axioms Verif.Props.C166_usual
#print axioms Verif.Props.C167_reads
#print axioms Verif.Props.C167_stable
#print axioms Verif.Props.C167_ends
#print axioms Verif.Props.C167_alone
#print axioms Verif.Props.C167_identity_fails
#print axioms Verif.Props.C167_identity
#print axioms Verif.Props.C168_safe_partial
#print axioms Verif.Props.C168_ends
#print axioms Verif.Props.C168_register
#print axioms Verif.Props.C168_default
#print axioms Verif.Props.C168_race_fails
#print axioms Verif.Props.C169_issued
#print axioms Verif.Props.C169_lazy
#print axioms Verif.Props.C169_once
#print axioms Verif.Props.C169_same
#print axioms Verif.Props.C169_silent
#print axioms Verif.Props.C170_t
#print axioms Verif.Props.C170_t_silent
#print axioms Verif.Props.C170_t_fails
#print axioms Verif.Props.C170_degenerate_fails
#print axioms Verif.Props.C170_ts
#print axioms Verif.Props.C170_order_fails
#print axioms Verif.Props.C170_exact
#print axioms Verif.Props.C170_exact_curves
#print axioms Verif.Props.C170_angle
#print axioms Verif.Props.C170_angle_fails
#print axioms Verif.Props.C170_params
#print axioms Verif.Props.C170_interpolator
#print axioms Verif.Props.C170_construct
#print axioms Verif.Props.C170_feps_fails
#print axioms Verif.Props.C171_linear
#print axioms Verif.Props.C171_not_a_knot
#print axioms Verif.Props.C171_spline
#print axioms Verif.Props.C171_spacing
#print axioms Verif.Props.C171_uniform
#print axioms Verif.Props.C171_points
#print axioms Verif.Props.C171_fill
#print axioms Verif.Props.C171_extrapolate
#print axioms Verif.Props.C171_extrapolate_length
#print axioms Verif.Props.C171_methods
#print axioms Verif.Props.C171_hermite_partial
#print axioms Verif.Props.C171_hermite_fails
#print axioms Verif.Props.C172_window
#print axioms Verif.Props.C172_region
#print axioms Verif.Props.C172_segments
#print axioms Verif.Props.C172_linear
#print axioms Verif.Props.C172_constant_fails
#print axioms Verif.Props.C173_part
#print axioms Verif.Props.C173_lengths
#print axioms Verif.Props.C173_parameter
#print axioms Verif.Props.C173_first_partial
#print axioms Verif.Props.C173_second_partial
#print axioms Verif.Props.C173_third_partial
#print axioms Verif.Props.C173_ends_fails
