"""Writes MANIFEST.json. Theorem lists are collected from the Lean sources: every theorem named
C<nn>_... in lean/Verif/Props belongs to property C<nn>. NOTES says what is missing."""
import json, os, re

ROOT = os.path.dirname(os.path.dirname(os.path.abspath(__file__)))

# property -> (status, note)
NOTES = {
    "C59": ("proved", "Exact real arithmetic; rounding of linspace is not modelled."),
    "C60": ("partial", "Proved when round(L/f) >= 1; a curve shorter than f/2 gives a grid of one value and no step (C60_short_fails)."),
    "C61": ("partial", "Proved for grids of at least two values and non-negative counts; a grid of one value gives NaN (C61_single_fails), negative counts raise ValueError (C61_negative)."),
    "C62": ("proved", "Non-parametric curves of positive length; C62_parametric says what a parametric curve gets."),
    "C63": ("partial", "Proved for finite grids; NaN passes the test (C63_nan_fails), as do repeated infinities (C63_inf_fails)."),
    "C64": ("partial", "Proved for dtypes that are not integer ones; integer curves truncate (C64_int_fails, C134_linear). Reproduction needs parameter gaps over 1e-8, else the grid is rejected (C63)."),
    "C65": ("partial", "Proved for dtypes that are not integer ones and strictly increasing parameters; integer curves can get longer (C65_int_fails)."),
    "C66": ("partial", "Proved: error kinds, size, parametrization, dtype for any interpolator. False for the linear interpolator on empty and single-point curves (C66_linear_fails) and for empty parametric curves (C66_empty_parametric_fails)."),
    "C67": ("partial", "Error kinds and sizes proved for all methods; a method that returns a parametric Curve gives a parametric result (C67_curve_fails)."),
    "C68": ("partial", "Proved for curves of float dtype and any non-negative window of positive sum (integer curves keep the bounds, C68_int). Not linear for integer curves (C68_int_linear_fails); the default window of size 2 gives NaN (C68_hann2_fails)."),
    "C69": ("proved", "Exact real arithmetic."),
    "C70": ("proved", "Finite coordinates, exact real arithmetic. C70_dimensions says what points of different dimension get."),
    "C76": ("partial", "Proved for the Savitzky-Golay filter and for float curves; window smoothing of an integer curve gives an integer curve (C76_int_fails)."),
    "C77": ("partial", "The second result equals the first, but the array is changed in place (C77_window_fails)."),
    "C78": ("proved", "Modes that repeat points; the default window is symmetric (hann_symmetric)."),
    "C79": ("partial", "Proved for odd window lengths: all points with mode interp, interior points otherwise; errors. A negative order is accepted by the other modes and gives zeros (C79_negative_order_fails); even lengths, where scipy accepts them, shift by half a step (C79_interior)."),
    "C80": ("partial", "Proved for metrics given by name; a callable metric never gets the keyword arguments (C80_callable_fails)."),
    "C81": ("proved", "Finite coordinates, exact real arithmetic, no keyword arguments."),
    "C82": ("proved", "fresnel is the pair of Fresnel integrals."),
    "C71": ("proved", "Finite data with two different values."),
    "C22": ("partial", "Proved for all histories of reads: every read returns the value computed from scratch and leaves earlier arrays unchanged. Violated for user writes: computed arrays are writeable and shared (C22_write_fails). C22_write_spreads: what a write into the tangent array changes and what not."),
    "C54": ("partial", "Linearity, translation invariance, exactness for quadratics and lines proved for all curves; the shape claim fails for single points (C54_single_point_fails)."),
    "C55": ("proved", "Exact real arithmetic, tolerance 1e-8 of np.isclose."),
    "C56": ("partial", "Torsion of plane curves (in any dimension), curvature of lines with at least two points, sign change under reversal proved; a single point of the plane raises IndexError (C56_single_point_fails)."),
    "C58": ("partial", "Agreement proved for all curves and indices in range; the shape clause for curves of at least two points; it fails for single points (C58_single_point_fails)."),
    'C01': ('proved', 'C01_wellformed for any element type and the operations of Model/History; C01_all_operations adds nonsingular, coorientplane, interpolate and smooth on floating point values. For curves with NaN or infinite values the array an interpolator computes is left open.'),
    'C02': ('proved', ''),
    'C03': ('partial', 'The code accepts axes -2*rank..-rank-1 (C03_negative_axis_accepted); all other axes are proved.'),
    'C04': ('proved', ''),
    'C05': ('partial', 'False as stated: an empty curve of dimension > 2 loses its dimension (C05_copy_loses_dimension). Proved for the others.'),
    'C06': ('partial', 'False as stated: indices -2*size..-size-1 are accepted (C06_below_range_accepted). Proved for all other indices.'),
    'C07': ('proved', ''),
    'C08': ('proved', 'An empty python list raises IndexError (C08_empty_list).'),
    'C09': ('partial', 'False as stated for empty parts of curves of dimension > 2 (C09_split_fails, C09_empty_parts).'),
    'C10': ('partial', 'Involution is false for an empty curve of dimension > 2 (C10_reverse_loses_dimension).'),
    'C11': ('proved', ''),
    'C12': ('proved', ''),
    'C13': ('proved', ''),
    'C14': ('partial', 'The last claim is false: deletedim(slice(None)) removes all points (C14_deletedim_all). The rest is proved.'),
    'C15': ('proved', ''),
    'C16': ('proved', ''),
    'C18': ('partial', 'False as stated: float equality is neither symmetric (C18_not_symmetric) nor transitive (C18_not_transitive). Proved: reflexivity, shape, NaN, integer data. Segments of finite float coordinates: C18_segment.'),
    'C19': ('partial', 'Additivity of count is false for mixed dtypes (C19_count_mixed); all else proved.'),
    'C20': ('partial', 'False for start < -size (C20_start_below_range); a start in -size..-1 gives a negative index. Proved for start >= -size.'),
    'C21': ('partial', 'An empty slice of a curve of dimension > 2 is not contained (C21_empty_slice); all else proved.'),
    'C23': ('proved', ''),
    'C24': ('partial', 'False: the dtype becomes float64 (C24_copy_changes_dtype); the coordinates are kept.'),
    'C25': ('proved', ''),
    'C26': ('partial', 'False for lines not through the origin (C26_nan_on_line) and for a list of one non-collinear point (C26_single_point_list). Proved otherwise.'),
    'C27': ('partial', 'False: lines not through the origin are missed (C27_misses), points close to an end point are accepted (C27_close_accepted). C27_exact_behaviour gives what the test decides.'),
    'C28': ('partial', 'False for short segments (C28_short_segments); proved when a 2x2 minor of the directions is large enough. The rest is proved.'),
    'C29': ('partial', 'In dimension 3 and more a single point raises ValueError and no point IndexError (C29_few_fails, C29_isplane_fails); proved for all other cases, for points, segments and curves.'),
    'C30': ('proved', ''),
    'C31': ('partial', 'False for directions of mixed sign (C31_mixed_signs); proved for directions without opposite signs. None-iff-disjoint and the midpoint are proved for all lines.'),
    'C32': ('partial', 'Not exact in the tolerance zone (C32_short); proved: foot on the segment, explicit error bound, exactness outside the zone.'),
    'C33': ('proved', ''),
    'C34': ('partial', 'False for a one-point second segment (C34_singular_second). Proved: explicit error bound for all others, exact minimum for coordinates on a grid of size at least 2^-13.'),
    'C35': ('partial', 'False for one-point segments (C34_singular_second). Proved exactly on grids, up to the error bound otherwise; distance 0 always means contact.'),
    'C36': ('partial', 'False for integer data (C36_int_data); proved for float data.'),
    'C37': ('proved', 'The tolerance is 1e-8 below 0 and 1e-8 + 1e-5 above 1.'),
    'C38': ('partial', 'False for short segments (C38_short_missed) and far from the origin (C38_far_missed); proved with explicit size conditions.'),
    'C39': ('partial', 'False for lines not through the origin (C39_missed); proved for lines through the origin.'),
    'C40': ('proved', ''),
    'C41': ('proved', ''),
    'C42': ('proved', ''),
    'C43': ('partial', 'False for two integer curves (C43_int_curves); proved otherwise.'),
    'C44': ('proved', 'The component enumeration of networkx is an arbitrary function meeting IsComponents.'),
    'C45': ('proved', ''),
    'C46': ('proved', ''),
    'C47': ('partial', 'Other errors exist: constructor errors and objects without ndim (C47_other_errors); proved otherwise.'),
    'C49': ('partial', 'The smoothing registry does not refuse non-methods (C49_smooth_no_check); all else proved.'),
    'C48': ('partial', 'False for NONE (C48_none_fails); the other types are proved.'),
    'C72': ('proved', ''),
    'C74': ('partial', 'False for integer curves (C74_truncates, C74_interpolate_fails); proved for float curves and integral values.'),
    'C17': ('partial', 'Near-zero segments can remain (C17_nan_fails, C17_drift_fails) and an empty curve is a ValueError (C17_empty_fails). Proved: what is kept, finiteness, unchanged when nothing is singular, separation when neighbours coincide or are apart.'),
    'C50': ('partial', 'False for empty curves (C50_empty_fails): chordlen is an uninitialised 0-d array. Proved for curves with points; monotonicity also with rounded additions.'),
    'C51': ('partial', 'Proved for curves with points; the arc length of an empty curve is garbage (C50_empty_fails).'),
    'C52': ('partial', 'Proved whenever both curves have points; the arc length of an empty curve is garbage (C50_empty_fails).'),
    'C53': ('proved', 'For curves with points (an empty curve has no chords).'),
    'C57': ('partial', 'False when the determinant of the end points is 0, e.g. for closed curves (C57_det_zero_fails). NaN and infinities: C57_nonfinite.'),
    'C73': ('partial', 'Indices below -(size-1) are accepted and wrap around (C73_below_range_accepted).'),
    'C83': ('partial', 'Integer dtypes: C134_reproduce; false for periodic continuation (C83_periodic_fails).'),
    'C84': ('proved', ''),
    'C85': ('proved', 'Exact arithmetic.'),
    'C86': ('proved', 'Assumes that the solver of scipy solves its tridiagonal system (NaturalOk, shown to be satisfiable with a unique solution).'),
    'C87': ('partial', 'Proved for pchip, cubic, akima. False for hermite with uneven spacing (C87_spacing_fails) or a parameter that does not measure length (C87_speed_fails); proved for hermite under explicit spacing conditions.'),
    'C88': ('proved', ''),
    'C89': ('proved', 'cubic under NaturalOk as in C86.'),
    'C90': ('proved', 'Exact real arithmetic.'),
    'C91': ('partial', 'Lengths, derivatives, speed and the curvature of plane curves proved for all r; spatial curvature, torsion and Frenet vectors when the vectors exceed 1e-8, else false (C91_small_fails).'),
    'C92': ('partial', 'Proved except that normals of a 3-d curve fail after the curve has been drawn (C92_normals_fails). matplotlib functions are taken to succeed; styles and colour bars are not modelled.'),
    'C93': ('partial', 'Soundness and monotonicity for all curves and parameters; completeness up to the error bound of the distance, exact on grids; missing: two integer curves (C43_int_curves), single-point second segments (C34_singular_second), pairs within the error bound.'),
    'C94': ('partial', 'Proved for segments that are not equal up to the tolerances and points on the segments; false for nearly equal segments (C94_order_fails) and for points just beyond an end (C94_direction_fails).'),
    'C95': ('proved', 'Exact real arithmetic.'),
    'C96': ('partial', 'Exact for all points except two at each end, where the one-sided differences give other values (C96_ends_fail).'),
    'C97': ('partial', 'Closed forms and bounds away from the ends and above the threshold 1e-8; false for fine sampling, where the torsion comes out as nearly 0 (C97_fine_sampling_fails), and for the sign of the torsion (C97_handedness_fails).'),
    'C98': ('partial', 'Segments and the almost method (without correct_overlap, not two integer curves) fully; the exact method for segments that are neither nearly parallel, nearly equal nor nearly degenerate in both positions; false for collinear segments (C98_exact_fails).'),
    'C99': ('partial', 'Window filter (float curves, repeating modes), Savitzky-Golay (all modes but constant), linear and natural cubic interpolation for all affine maps; Hermite interpolation for isometries. False for pchip (C99_pchip_fails). Dtypes that are not integer ones for interpolation.'),
    'C100': ('proved', 'Integer and float curves with finite values (integer results truncated); Savitzky-Golay with odd window lengths and scipy modes other than interp, given least squares by the library. The continuation is specified by its symmetries (Continues) and shown to exist and to be unique.'),
    'C101': ('proved', 'Odd window lengths. Assumes that lstsq returns the shortest least squares solution and polyfit a least squares polynomial, as documented (MinNormOk, shown satisfiable). Exact real arithmetic.'),
    'C102': ('partial', 'Symmetric windows with an odd number of entries, Savitzky-Golay with odd window length, all modes. False for an even number of entries (C102_even_fails).'),
    'C103': ('partial', 'Curves without parameter values (dtypes that are not integer ones), and any two curves with mirrored parameter values. False for Curve.reverse of a curve with parameter values: splines raise (C103_parametric_fails), linear interpolation undoes the reversal (C103_sorted_fails).'),
    'C104': ('partial', 'Linear, pchip, natural cubic, akima (three or more points, in the range) for all factors; hermite for a = s when point differences exceed 1e-8. False for hermite when only the parameter is rescaled (C104_hermite_fails). Dtypes that are not integer ones.'),
    'C105': ('partial', 'Proved for linear, pchip, natural cubic (any solver of the system) and spline (any univariate spline routine). Violated by hermite and akima: witnesses C105_hermite_fails and C105_akima_fails; for akima the claim is proved for curves that have all coordinates in common, in any order and number.'),
    'C106': ('partial', 'Proved for linear, pchip and hermite, and for slices. Violated by natural cubic splines (C106_cubic_fails, for any three or more parameter values) and by akima (C106_akima_fails: a threshold over the whole curve).'),
    'C107': ('proved', 'C107_pieces, C107_akima and C107_pchip. For akima the weights of the second pieces from the ends use the extrapolated slopes, stated as the turn of the next inner point.'),
    'C108': ('partial', 'Proved, except that extrapolate=None turns extrapolation off for linear, while it means the default (on) for the other methods (C108_none_fails). Pairs of boundary conditions (bc_type) are the subject of C133.'),
    'C109': ('proved', 'The signed curvature of a single point is an error and needs no statement.'),
    'C110': ('proved', 'C110_ends_fails shows that the ends of a slice are rightly left out.'),
    'C111': ('partial', 'Holds with the exceptions C111_scalar_fails (a point from a single number has length one but no readable coordinate), C111_part_fails (a slice with one coordinate is an array, integers become floats, a wrong index type is an IndexError instead of the documented TypeError) and C111_copy_fails (copy of a point taken with an index far below zero).'),
    'C112': ('partial', 'Holds with the exceptions C112_angle_fails (angle with a point-like segment of another dimension is NaN), C112_overlap_fails (coordinates of a one-dimensional segment are broadcast), C112_attribute_fails (parallel and overlap raise AttributeError), C112_parameter_fails (point of a 0-d array). to_curve in dimension 1 is a ValueError.'),
    'C113': ('partial', 'Exact method: holds for parts of any two curves and of a curve with itself; graphs only if the steps exceed the tolerance of isclose (C113_graph_fails). Almost method: holds without remove_extra; with remove_extra violated (C113_extra_fails).'),
    'C114': ('partial', 'Holds except: empty slices of curves with more than two dimensions change the dimension (C114_empty_fails); the names of registered classes are bound to None (C114_class_fails). Values of keyword arguments that are neither numbers nor truth values are not modelled.'),
    'C115': ('partial', 'First and second derivative and speed hold at every point with explicit bounds; the third derivative holds except at the three points at each end, where it does not converge (C115_third_fails: 9/4, 15/4, 21/4 instead of 6 for x^3). Exact arithmetic, no rounding.'),
    'C116': ('partial', 'Holds in the plane. In other dimensions an explicit bound holds while every speed is above 1e-8; below that the unit vectors are zeroed and the curvature tends to 0 instead (C116_space_fails). In space the limit is |d x e| / |d|^3 (C116_formula). Exact arithmetic, no rounding.'),
    'C117': ('proved', 'Exact arithmetic, no rounding.'),
    'C118': ('partial', 'Integer dtypes: the same points without the fractional parts of the coordinates (C134_interpolate), so that the bounds hold up to 1 per coordinate only. Exact arithmetic, no rounding.'),
    'C119': ('proved', 'Rounding without underflow and overflow (unbounded exponent), float dtype.'),
    'C120': ('partial', 'The grid is refused for steps below the rounding of the ends: C120_accepted_fails. No underflow or overflow.'),
    'C121': ('partial', 'point(1) and the right node are not exact: C121_end_fails, C121_node_fails. No underflow or overflow.'),
    'C122': ('proved', 'Exact arithmetic, float dtype; the Hann window of size 2 has the sum 0 and is excluded (see C68).'),
    'C123': ('partial', 'Refused with a ValueError for curves with repeated points: C123_repeated_fails. Integer dtypes: C64_int_fails. Steps of the grid above 1e-8 are assumed.'),
    'C124': ('proved', 'The linear systems of scipy are a contract (BoundaryOk); libraries that meet it are shown to exist (exists_boundaryOk).'),
    'C125': ('proved', 'Contracts NaturalOk and BoundaryOk for the solver of scipy.'),
    'C126': ('proved', 'Exact singular values of real matrices; C126_default_fails shows that without tol also points off a line pass, C126_negative what a negative tol does.'),
    'C127': ('proved', 'Formulas of scipy 1.7, all thirteen metrics. Further metric axioms do not hold: C127_braycurtis_fails, C127_cosine_fails, C127_zero_weight_fails, C127_wminkowski_inf_fails, C127_mahalanobis_fails. The triangle inequality of jensenshannon is neither claimed nor proved.'),
    'C128': ('proved', 'Formulas of csaps 0.9 to 0.11 in exact arithmetic; the regularity of its linear system is proved. Values at infinite grid values, parameters outside [0, 1] and weights that are not positive are left open.'),
    'C129': ('proved', 'Under the contract UnivariateOk of scipy (degree 1 and 3, s=0), which some library meets (exists_univariateOk); BoundaryOk for the comparison with cubic. Smoothing (s > 0) and other degrees are not covered.'),
    'C130': ('partial', 'Overflow and underflow are not modelled. That the derivative of a constant coordinate is zero is violated at the ends (C130_edge_fails: coordinate 1+2^-52 everywhere gives -2^-53 at the first point in binary64).'),
    'C131': ('partial', 'Window coefficients are taken as given; overflow and underflow are not modelled. That constant curves stay constant is violated (C131_const_fails: ten equal weights on the constant 1 give 1-2^-53 in binary64).'),
    'C132': ('partial', 'Overflow and underflow are not modelled. In binary64 segments with proportional directions need not be parallel (C132_parallel_fails: (0.2, 0.4) and (1.4, 2.8)), and the angle of a segment with itself need not be 0 (C132_angle_fails: (0, 0)-(1, 1)).'),
    'C133': ('proved', 'The linear systems of scipy are a contract (EndsOk); libraries that meet it are shown to exist (exists_endsOk). The validation of bc_type by scipy is modelled. Dtypes that are not integer ones; entries of bc_type as in the model (BcEnd).'),
    'C134': ('proved', 'Exact arithmetic: with rounding a value just below an integer loses one. The conversion of NaN to -2^63 is what numpy does on x86-64; it is undefined in C.'),
    'C135': ('partial', 'False for positions before the start in a list of several (C135_negative_fails) and for masks, which numpy 1.19-1.23 casts to the positions 0 and 1 (C135_mask_fails); the rest is proved. The algorithm of np.insert is modelled, see the trusted base.'),
    'C136': ('partial', 'Proved for squared distances below 2^63; false beyond (C136_overflow_fails: points 2^32 apart have chord length 0 and one of them is removed by nonsingular). The conversion of int64 to float64 and the square root are exact in the model.'),
    'C137': ('proved', 'Under the contracts for the linear solver of scipy (NaturalOk, EndsOk). For dtypes that are not integer ones; those convert to integers (C134).'),
    'C138': ('proved', 'As stated, under the contracts NaturalOk, EndsOk for cubic interpolation. The same is not true for PCHIP, which estimates the slopes anew (C138_pchip_fails), and for cubic interpolation of curves without parameter, whose parameter changes (C138_plain_fails). Not-a-knot conditions are left out.'),
    'C139': ('proved', 'As stated. Without the bound on distances and without the absolute error it would fail: the squares overflow for points 2^512 apart, and points 2^-600 apart get distance 0 (C139_overflow_fails, C139_underflow_fails).'),
    'C140': ('proved', 'Proved for curves whose dtype is not int. C140_units_fails is the last clause: a given smooth depends on the unit of the parameter.'),
    'C141': ('proved', 'Proved for curves whose dtype is not int. C141_unconverted_fails shows that the conversion of derivatives is needed. Curve.reverse is covered for curves without parameter values (with parameter values the result is rejected, C103_parametric_fails).'),
    'C142': ('partial', 'Violated: (0,0), (2^53,0), (2^53,1) get the parameter 0, 2^53, 2^53 in binary64 (C142_equal_fails) and all spline methods refuse such a curve (C142_refused_fails). Proved if every step exceeds 5 eps times the length so far, in particular for curves of length at most 1e7 with steps of at least 1e-8 (C142_usual). Underflow and overflow: C139.'),
    'C143': ('proved', 'Under the contract UnivariateOk for scipy (exists_univariateOk). Other degrees and smoothing are not covered.'),
    'C144': ('proved', 'Exact real arithmetic; fresnel is the pair of Fresnel integrals. For helix see C97.'),
    'C145': ('partial', 'Proved for grids of finite values, however specified. Violated by grids with NaN: they are accepted and never warned about (C145_nan, C145_nan_fails).'),
    'C146': ('proved', 'Exact real arithmetic; float curves (integer curves are truncated, C68).'),
    'C147': ('proved', 'Exact real arithmetic; lstsq returns the shortest least squares solution and polyfit a least squares polynomial (MinNormOk). Odd window lengths.'),
    'C148': ('partial', 'Proved with the conditions named in the theorems (same dtype, parts with points: empty parts of curves of dimension > 2 become 2-dimensional, C09_split_fails). False for nonsingular (C148_nonsingular_fails).'),
    'C149': ('proved', 'For dtypes that are not integer ones; those convert to integers (C134). Exact arithmetic, no rounding.'),
    'C150': ('proved', 'Exact arithmetic, no rounding. The almost method with remove_extra and correct_overlap off; for these see C43, C44.'),
    'C151': ('proved', 'Exact arithmetic. The limit of validity (absolute threshold 1e-8 of the normalisation) is part of the statement, C151_fine and C151_fine_fails show what happens below it. Nothing is claimed about binormals and torsion of the three points at each end.'),
    'C152': ('proved', 'How numpy writes numbers is left open; which entries are shown follows np.array2string. Texts of curves are assumed to consist of lines that are not blank, texts of the end points of segments not to contain commas (true for numbers). C152_hidden_fails: different curves with the same text.'),
    'C153': ('partial', 'Crossings in space are not stable (C153_space_fails) and neither is Akima interpolation (C153_akima_fails); crossings in the plane with the size conditions of C38; integer dtypes are left out; resampling by arc length for the linear method.'),
    'C154': ('partial', 'The exact method only if the tests against absolute tolerances turn out alike in both units: perpendicular segments of length 1e-4 count as parallel (C154_exact_fails); the angle is NaN for short segments (C154_angle_fails); the almost method for coordinates on grids.'),
    'C155': ('partial', 'In the plane and after the test of collinearity; explicit conditions on the size and the angle: the segment from (-2^27, 0) to (48 2^27, 0) and the one from (0, -1) to (0, 1) cross at the origin and the crossing is missed (C155_far_fails). np.linalg.solve by its backward error, shown for elimination with pivoting (C155_solver).'),
    'C156': ('partial', 'Soundness for all segments; the upper bound under conditions on the angle. Without them it is false: the segments from (0, 0) and from (4044, 4825) to the common end point (8699, 10379) get a distance of more than 3000 in binary64 (C156_parallel_fails).'),
    'C157': ('partial', 'Agreement with the computation for single pairs and soundness for all curves that do not both have integer data, without remove_extra and correct_overlap; completeness under the conditions of C156 on the angle, false without (C157_parallel_fails).'),
    'C158': ('partial', 'Error bounds for all curves; relative accuracy fails, a straight line may have a huge computed curvature (C158_line_fails). For other than plane curves only points two steps away from the ends.'),
    'C159': ('partial', 'Right sign above 5 eps times the larger product; for closed curves the outcome depends on rounding (C159_closed_fails). No underflow of the determinant.'),
    'C160': ('partial', 'Lines not through the origin are not found collinear (C160_off_origin_fails), as with exact arithmetic. Singular values by the error bound of LAPACK.'),
    'C161': ('partial', 'Crossings at flat angles or far from the origin are missing (C161_crossing_partial); diagonals of a square near (2^20, 2^20) are reported as an overlap (C161_far_fails). Plane only.'),
    'C162': ('partial', 'The curvature in space next to a point with an infinite coordinate is the number 0 (C162_infinite_fails). Intersections are treated for curves without infinite coordinates.'),
    'C163': ('partial', 'The last point of the result need not be the last point of the curve (C163_end_fails), and results with points between 5e-9 and 3e-8 apart may be accepted or refused.'),
    'C164': ('partial', 'At the threshold rounding decides: two points 1e-8 apart (the binary64 number, which exceeds 1 / 10^8) lose the second one in binary64 only (C164_threshold_fails).'),
    'C165': ('partial', 'The last claim fails: np.sum and np.cumsum add in different orders, so the last value of a grid by speed may lie beyond the parameter range (C165_range_fails). Next to a tie the number of points may differ from that of exact arithmetic (C165_count_fails).'),
    'C166': ('partial', 'The last sentence fails in binary64: a detour can be shorter by one digit (C166_triangle_fails), and the cosine distance of parallel points can be 2^-52 (C166_cosine_fails). Weights, correlation, seuclidean, mahalanobis, jensenshannon and other orders of minkowski are treated in exact arithmetic only (C127).'),
    'C167': ('partial', 'Values, stability and progress as stated. The last sentence fails: two threads may both find nothing stored and get different arrays (C167_identity_fails); it holds for reads one after another (C167_identity). Steps are those atomic under the global interpreter lock; nobody writes into the arrays (C22_write_fails).'),
    'C168': ('partial', 'The last sentence fails: both of two threads registering one name may succeed, and the first class is lost (C168_race_fails). With one registration per name it is as stated (C168_register). One call per thread.'),
    'C169': ('proved', 'Which warnings, for which property, not their order nor their text. Warnings of numpy and filters that turn warnings into errors are not modelled.'),
    'C170': ('partial', 'Fails in five ways, each with a witness: a point of the line may be reported as not collinear (C170_t_fails); on a degenerate segment every point gets 0 without warning (C170_degenerate_fails); the residuals of only the first of several points are looked at (C170_order_fails); short segments are called degenerate (C170_angle_fails); a negative feps gives a warning for a correct crossing (C170_feps_fails). Otherwise as stated. Exact arithmetic; texts and numpy warnings are not modelled.'),
    'C171': ('partial', 'Fails for hermite when the second step at an end is about three times the first or more (C171_hermite_fails); proved for hermite otherwise and for all other methods. Splines of scipy as in section 3 of DESIGN.md; exact arithmetic; not integer dtypes.'),
    'C172': ('partial', 'Proved for the modes reflect, mirror, nearest and wrap (segments: not wrap). Fails for the mode constant (C172_constant_fails). Linear interpolation for dtypes that are not integer ones. Exact arithmetic.'),
    'C173': ('partial', 'Lengths and parameter for all parts; derivatives for points at least one (two, three) points away from the ends of the part, nearer to the ends they differ in general (C173_ends_fails). Exact arithmetic.'),
    'C75': ('partial', 'False as stated: the code builds the ValueError but does not raise it; C75_nonnumeric_dtype_accepted shows the acceptance. Proved: a given dtype changes nothing but the conversion of the coordinates (same errors, same shape and parameter).'),
}


def main():
    thms = {}
    props = os.path.join(ROOT, 'lean', 'Verif', 'Props')
    for f in sorted(os.listdir(props)):
        for m in re.finditer(r'^theorem (C\d\d\d?)(_\w+)', open(os.path.join(props, f)).read(), re.M):
            thms.setdefault(m.group(1), []).append('Verif.Props.' + m.group(1) + m.group(2))
    ids = [json.loads(l)['id'] for l in open(os.path.join(ROOT, 'properties.jsonl'))]
    claims = []
    for i in ids:
        if i in thms or i in NOTES:
            status, note = NOTES[i]
            claims.append({'property': i, 'status': status, 'theorems': thms.get(i, []), 'note': note})
    with open(os.path.join(ROOT, 'MANIFEST.json'), 'w') as out:
        json.dump({'claims': claims}, out, indent=1)
        out.write('\n')
    with open(os.path.join(ROOT, 'lean', 'Verif', 'Audit.lean'), 'w') as out:
        mods = sorted(f[:-5] for f in os.listdir(props) if f.endswith('.lean'))
        out.write(''.join(f'import Verif.Props.{m}\n' for m in mods))
        out.write('\n/-! Written by tools/gen_manifest.py: the axioms behind every property theorem. -/\n\n')
        out.write(''.join(f'#print axioms {t}\n' for i in ids for t in thms.get(i, [])))
    print('missing:', [i for i in ids if i not in thms])


main()
