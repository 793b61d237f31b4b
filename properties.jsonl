{"id": "C01", "title": "Every curve that the API can produce is well formed", "statement": "A Curve returned by the constructor or by any chain of curve-returning operations (indexing, slicing, masking, +, reverse, insert, append, delete, insertdim, appenddim, deletedim, unique, drop, nonsingular, coorientplane, copy, subcurve, interpolate, smooth) has ndim >= 2, all points have exactly ndim coordinates, and if isparametric then t has exactly size entries.", "quantifier": "all constructor inputs and all finite histories of operations with arbitrary arguments", "why_tests_cant": "the set of histories is infinite; a test covers a handful of chains", "anchors": ["skcurve/_base.py:Curve.__init__", "skcurve/_base.py:Curve.__getitem__", "skcurve/_base.py:Curve.insert", "skcurve/_base.py:Curve.delete", "skcurve/_base.py:Curve.drop"]}
{"id": "C02", "title": "Coordinate vectors round-trip through the constructor", "statement": "Curve([X1,...,Xn]) with n >= 2 coordinate vectors of the same length m >= 1 has size m, ndim n, values(i) returns Xi (also for negative axes -n..-1), and point j has coordinates (X1[j],...,Xn[j]). An axis >= ndim is a ValueError.", "quantifier": "all n >= 2, all m >= 1, all coordinate values, all axes", "why_tests_cant": "sizes and values are unbounded", "anchors": ["skcurve/_base.py:Curve.__init__", "skcurve/_base.py:Curve.values", "skcurve/_utils.py:as2d"]}
{"id": "C03", "title": "Building from an N-D array along an axis loses and duplicates nothing", "statement": "For a non-empty array of any rank and an axis in range, row i of the 2-D form holds exactly the elements whose index on that axis is i, in C order of the remaining axes; negative axes count from the end; an axis outside -rank..rank-1 is rejected with ValueError.", "quantifier": "all ranks, shapes, axes and contents", "why_tests_cant": "rank and shape are unbounded", "anchors": ["skcurve/_utils.py:as2d", "skcurve/_base.py:Curve.__init__"]}
{"id": "C04", "title": "ndmin pads with zero coordinates and changes nothing else", "statement": "Curve(data, ndmin=k) has ndim max(k, dimension of data), its first coordinates are the data unchanged, the added ones are 0, size is unchanged, and chord lengths and arc length equal those of Curve(data).", "quantifier": "all data, all k >= 2", "why_tests_cant": "all dimensions and sizes", "anchors": ["skcurve/_base.py:Curve.__init__", "skcurve/_diffgeom.py:chordlen"]}
{"id": "C05", "title": "Copying a curve is the identity on its observable value", "statement": "Curve(c), copy(c) and deepcopy(c) have the same points, ndim, dtype and parametrization as c.", "quantifier": "all curves c the API can produce, including empty ones", "why_tests_cant": "every shape including degenerate ones", "anchors": ["skcurve/_base.py:Curve.__init__", "skcurve/_base.py:Curve.__copy__", "skcurve/_base.py:Curve.__deepcopy__"]}
{"id": "C06", "title": "Integer indexing follows the Sequence protocol", "statement": "c[i] succeeds exactly when -size <= i < size, returns the point stored at position i (counting from the end if negative) with idx equal to that position in 0..size-1, and raises IndexError otherwise.", "quantifier": "all curves and all integers i", "why_tests_cant": "integers are unbounded; the failing ones are outside the range tests sample", "anchors": ["skcurve/_base.py:Curve.__getitem__", "skcurve/_base.py:CurvePoint.__init__"]}
{"id": "C07", "title": "Slicing a curve is Python slicing of its points and of its t together", "statement": "c[start:stop:step] has as points the Python slice of the list of points and, if c is parametric, as t the same slice of t, for every start, stop (any sign, missing or out of range) and non-zero step.", "quantifier": "all curves, all start/stop/step", "why_tests_cant": "unbounded integers and sizes", "anchors": ["skcurve/_base.py:Curve.__getitem__"]}
{"id": "C08", "title": "Index lists and boolean masks select points and t consistently", "statement": "c[list of ints] gives the listed points in the listed order with the matching t values and raises IndexError exactly when some index is out of range or the list is empty (an empty list is a float array for numpy); c[mask] keeps exactly the points whose mask entry is True, in order, with matching t.", "quantifier": "all curves, all index lists, all masks", "why_tests_cant": "unbounded", "anchors": ["skcurve/_base.py:Curve.__getitem__"]}
{"id": "C09", "title": "Splitting and concatenating are inverse; concatenation is associative", "statement": "c[:k] + c[k:] equals c for every integer k; (a+b)+c equals a+(b+c); sizes add; the concatenation is parametric exactly when both parts are and then t is the concatenation of the two; curves of different dimension are rejected with ValueError.", "quantifier": "all curves and all integers k", "why_tests_cant": "unbounded, and the degenerate split points are the interesting ones", "anchors": ["skcurve/_base.py:Curve.__add__", "skcurve/_base.py:Curve.__getitem__"]}
{"id": "C10", "title": "reverse is an involution that keeps points and t paired", "statement": "c.reverse() has the points of c in opposite order, each still paired with its own t value; reversing twice gives c back; reverse distributes over concatenation with the order swapped.", "quantifier": "all curves", "why_tests_cant": "unbounded sizes", "anchors": ["skcurve/_base.py:Curve.reverse"]}
{"id": "C11", "title": "insert puts the new points at the requested place and nothing else moves", "statement": "c.insert(i, other) with -size <= i <= size has size c.size + other.size; the points before position i are unchanged, then come the points of other in order, then the remaining points of c; the result is not parametric; other integers raise IndexError; append is insert at the end; inserting with a list of positions puts the k-th new point immediately before the k-th named original point; different dimension is a ValueError.", "quantifier": "all curves, positions and inserted points or curves", "why_tests_cant": "unbounded", "anchors": ["skcurve/_base.py:Curve.insert", "skcurve/_base.py:Curve.append"]}
{"id": "C12", "title": "delete removes exactly the named points and keeps t aligned", "statement": "c.delete(idx) for an int, list of ints, slice or mask keeps exactly the points whose position is not named, in order, with their own t values; an out-of-range int or list entry raises IndexError, a zero step or a mask of another length ValueError; deleting what was just inserted at one position gives the original points back.", "quantifier": "all curves, all indexers", "why_tests_cant": "unbounded", "anchors": ["skcurve/_base.py:Curve.delete"]}
{"id": "C13", "title": "Indexing and deleting by the same slice or mask partition the curve", "statement": "For every slice s, the points of c[s] together with the points of c.delete(s) are a permutation of the points of c.", "quantifier": "all curves, all slices", "why_tests_cant": "unbounded", "anchors": ["skcurve/_base.py:Curve.__getitem__", "skcurve/_base.py:Curve.delete"]}
{"id": "C14", "title": "insertdim, values and deletedim are inverse and act on one axis only", "statement": "c.insertdim(a, v) with 0 <= a <= ndim has values(a) = v and all other axes unchanged in order; deletedim(a) of it has the points of c back; deletedim of a 2-dimensional curve raises ValueError; deletedim never changes the number of points.", "quantifier": "all curves, axes and value vectors", "why_tests_cant": "unbounded", "anchors": ["skcurve/_base.py:Curve.insertdim", "skcurve/_base.py:Curve.appenddim", "skcurve/_base.py:Curve.deletedim", "skcurve/_base.py:Curve.values"]}
{"id": "C15", "title": "unique keeps exactly the first occurrence of each point, in order", "statement": "c.unique() has no two equal points, contains every point of c, its points are in the order of their first occurrence in c and each keeps the t value of its first occurrence; unique is idempotent.", "quantifier": "all curves without NaN", "why_tests_cant": "unbounded; the implementation sorts and un-sorts so order preservation is not local", "anchors": ["skcurve/_base.py:Curve.unique"]}
{"id": "C16", "title": "drop removes exactly the flagged points", "statement": "For a checker that returns a boolean vector of length size, a boolean size x ndim matrix, or a vector of indices, c.drop(checker) keeps exactly the points not flagged (for a matrix: no coordinate flagged), in order, with their own t values.", "quantifier": "all curves, all checkers", "why_tests_cant": "arbitrary callables", "anchors": ["skcurve/_base.py:Curve.drop"]}
{"id": "C17", "title": "nonsingular returns a curve without NaN, Inf and near-zero segments", "statement": "c.nonsingular() has only finite coordinates, its points are a subsequence of those of c with their t values, and no two consecutive points of it are closer than the tolerance 1e-8; a curve that already has these properties is returned unchanged.", "quantifier": "all curves including NaN/Inf points in any position", "why_tests_cant": "the failing patterns need specific neighbours", "anchors": ["skcurve/_base.py:Curve.nonsingular", "skcurve/_diffgeom.py:nonsingular", "skcurve/_base.py:Curve.drop"]}
{"id": "C18", "title": "Equality of points, segments and curves is an equivalence up to dtype", "statement": "== is reflexive on objects with finite coordinates, symmetric and (for integer data) transitive; objects of different dimension or size are unequal; a NaN coordinate makes an object unequal to everything.", "quantifier": "all pairs and triples of objects", "why_tests_cant": "the tolerance makes the relation fail only on thin bands of values", "anchors": ["skcurve/_base.py:Point.__eq__", "skcurve/_base.py:Segment.__eq__", "skcurve/_base.py:Curve.__eq__", "skcurve/_numeric.py:isequal", "skcurve/_numeric.py:allequal"]}
{"id": "C19", "title": "Membership, count and index agree", "statement": "p in c is true exactly when c.count(p) > 0 and exactly when c.index(p) returns; c.index(p) is the smallest matching position; count is the number of matching positions; count over a concatenation is the sum of the counts.", "quantifier": "all curves and points of the same dimension", "why_tests_cant": "unbounded", "anchors": ["skcurve/_base.py:Curve.__contains__", "skcurve/_base.py:Curve.count", "skcurve/_base.py:Curve.index"]}
{"id": "C20", "title": "index(point, start, end) searches exactly the given interval and returns an index into the curve", "statement": "If it returns k then position k of c holds a point equal to the given one and lies in the interval start:end, and it is the first such position; it raises ValueError exactly when there is none.", "quantifier": "all curves, points, and all start/end integers", "why_tests_cant": "out-of-range starts", "anchors": ["skcurve/_base.py:Curve.index"]}
{"id": "C21", "title": "Sub-curve membership is contiguous containment", "statement": "other in c (same dimension) is true exactly when other occurs as a block of consecutive points of c; a curve of different dimension is never contained; every slice with step 1 of c is contained in c.", "quantifier": "all pairs of curves", "why_tests_cant": "unbounded", "anchors": ["skcurve/_base.py:Curve.__contains__"]}
{"id": "C22", "title": "Lazy caching is invisible: a curve looks the same after any history of reads", "statement": "Reading t, chordlen, arclen, cumarclen, firstderiv, secondderiv, thirdderiv, tangent, speed, frenet vectors in any order and any number of times always returns the value a fresh object would return, and never changes data.", "quantifier": "all finite histories of reads (and of user writes into returned arrays)", "why_tests_cant": "infinitely many histories", "anchors": ["skcurve/_base.py:Curve.t", "skcurve/_base.py:Curve.chordlen", "skcurve/_base.py:Curve.arclen", "skcurve/_diffgeom.py:CurvePointFunctionMixin.cumarclen"]}
{"id": "C23", "title": "Point arithmetic is componentwise and reflected operators swap the operands", "statement": "For points of equal dimension and each of + - * / //, p op q applies op to each pair of coordinates; with a number on either side it is applied to every coordinate with the operands in the written order; other operand types raise TypeError; p - p = 0, (p + q) - q = p in exact arithmetic; p @ q is symmetric and bilinear.", "quantifier": "all points and numbers", "why_tests_cant": "unbounded", "anchors": ["skcurve/_base.py:Point._op", "skcurve/_base.py:Point.__matmul__"]}
{"id": "C24", "title": "Copying a point is the identity on its observable value", "statement": "Point(p), copy(p), deepcopy(p) have the coordinates and dtype of p.", "quantifier": "all points and dtypes", "why_tests_cant": "dtype x value", "anchors": ["skcurve/_base.py:Point.__init__", "skcurve/_base.py:Point.__deepcopy__"]}
{"id": "C25", "title": "Segment.point is the affine parametrization of the segment", "statement": "point(0)=p1, point(1)=p2, point(t) is between p1 and p2 for t in [0,1], the distance of point(s) and point(t) is |s-t| times the segment length, and a sequence of t gives the list of the single results.", "quantifier": "all segments in all dimensions, all t", "why_tests_cant": "unbounded dimension, real t", "anchors": ["skcurve/_geomalg.py:segment_point", "skcurve/_base.py:Segment.point"]}
{"id": "C26", "title": "Segment.t inverts Segment.point", "statement": "For a non-singular segment, s.t(s.point(t)) = t for every t; for a point not on the line of the segment it returns NaN; for a sequence it returns the vector of the single results.", "quantifier": "all non-singular segments, all t, all points", "why_tests_cant": "a measure-zero set of lines works in tests", "anchors": ["skcurve/_geomalg.py:segment_t", "skcurve/_base.py:Segment.t"]}
{"id": "C27", "title": "collinear is true exactly when the objects lie on one line", "statement": "s.collinear(other) is True iff p1, p2 and the point(s) of other lie on a common straight line (exact arithmetic).", "quantifier": "all segments, points, dimensions", "why_tests_cant": "the failing set is almost every line", "anchors": ["skcurve/_geomalg.py:collinear_points", "skcurve/_base.py:Segment.collinear"]}
{"id": "C28", "title": "parallel is true exactly for parallel directions", "statement": "s.parallel(r) is True when one direction is a multiple of the other; it is symmetric; when it is True the Gram determinant of the directions is below the tolerance; non-parallel segments are reported non-parallel.", "quantifier": "all pairs of segments in all dimensions and all scales", "why_tests_cant": "scale dependence shows only for short segments", "anchors": ["skcurve/_geomalg.py:parallel_segments"]}
{"id": "C29", "title": "coplanar / isplane is true exactly when the points lie in one plane", "statement": "For any number of points in any dimension, the check is True iff all points lie in a common affine plane (dimension at most 2); it is invariant under translation.", "quantifier": "all finite point sets, all dimensions", "why_tests_cant": "unbounded", "anchors": ["skcurve/_geomalg.py:coplanar_points", "skcurve/_base.py:Segment.coplanar", "skcurve/_base.py:Curve.isplane"]}
{"id": "C30", "title": "angle lies in [0, pi], is symmetric, and reversing one segment gives the supplement", "statement": "For segments whose length product is not near 0: 0 <= angle <= pi, angle(s,r)=angle(r,s), angle(s,s)=0, angle(s,r.reverse())=pi-angle(s,r), invariant under scaling a direction by a positive factor; near-singular segments give NaN.", "quantifier": "all pairs of segments", "why_tests_cant": "continuous domain", "anchors": ["skcurve/_geomalg.py:segments_angle"]}
{"id": "C31", "title": "overlap of collinear segments is their common part", "statement": "For two segments on one line, overlap is None iff they share no point, and otherwise the returned segment consists of exactly the common points; its midpoint lies on both segments.", "quantifier": "all collinear pairs in all dimensions", "why_tests_cant": "all slopes; tests use one slope", "anchors": ["skcurve/_geomalg.py:overlap_segments", "skcurve/_base.py:Segment.overlap"]}
{"id": "C32", "title": "Segment-to-point distance is the minimum over the segment", "statement": "s.distance(p) <= |s.point(t) - p| for all t in [0,1], up to the documented-by-code tolerance; the foot point lies on the segment.", "quantifier": "all segments, points, dimensions, t", "why_tests_cant": "continuous domain, all dimensions", "anchors": ["skcurve/_geomalg.py:segment_to_point", "skcurve/_base.py:Segment.distance", "skcurve/_base.py:Segment.shortest_segment"]}
{"id": "C33", "title": "The shortest connecting segment starts and ends on the two segments", "statement": "The two parameters computed for two segments always lie in [0,1], even when intermediate results are rounded.", "quantifier": "all pairs of segments including singular and parallel ones, every rounding of the intermediate results", "why_tests_cant": "branchy clamping code, all roundings", "anchors": ["skcurve/_geomalg.py:segment_to_segment"]}
{"id": "C34", "title": "Segment-to-segment distance is the global minimum", "statement": "s1.distance(s2) <= |s1.point(x) - s2.point(y)| for all x, y in [0,1].", "quantifier": "all pairs of segments in all dimensions, all x, y", "why_tests_cant": "continuous domain, all branch combinations", "anchors": ["skcurve/_geomalg.py:segment_to_segment", "skcurve/_base.py:Segment.distance"]}
{"id": "C35", "title": "distance between segments is symmetric and zero iff they touch", "statement": "s1.distance(s2) = s2.distance(s1); it is 0 iff the segments have a common point.", "quantifier": "all pairs of segments", "why_tests_cant": "continuous", "anchors": ["skcurve/_geomalg.py:segment_to_segment", "skcurve/_base.py:Segment.distance"]}
{"id": "C36", "title": "The vectorized all-pairs computation equals the scalar one on every pair", "statement": "For two curves, entry (i,j) of t1, t2 and of the connecting points equals what the scalar segment computation gives for segment i of the first and segment j of the second.", "quantifier": "all curves, all (i,j), all tolerances > 0", "why_tests_cant": "mask-by-mask code with in-place updates over all branch combinations", "anchors": ["skcurve/_geomalg.py:segments_to_segments", "skcurve/_geomalg.py:segment_to_segment"]}
{"id": "C37", "title": "An exact intersection point lies on both segments", "statement": "If intersect (method exact) reports EXACT with point P then P lies on both lines with parameters in [0,1] up to the closeness tolerance of the parameter test.", "quantifier": "all pairs of segments, all dimensions", "why_tests_cant": "continuous", "anchors": ["skcurve/_intersect.py:ExactIntersectionMethod._intersect_segments"]}
{"id": "C38", "title": "Crossing segments are found", "statement": "If two non-parallel segments have a common point, intersect (method exact) reports EXACT with exactly that point.", "quantifier": "all pairs of crossing segments in all dimensions and scales", "why_tests_cant": "continuous; scale dependence", "anchors": ["skcurve/_intersect.py:ExactIntersectionMethod._intersect_segments", "skcurve/_geomalg.py:parallel_segments", "skcurve/_geomalg.py:collinear_points"]}
{"id": "C39", "title": "Overlapping collinear segments are found", "statement": "If two segments on one line share a part, intersect (method exact) reports OVERLAP and the intersect_point lies on both.", "quantifier": "all overlapping collinear pairs", "why_tests_cant": "lines through the origin are special in the code", "anchors": ["skcurve/_intersect.py:ExactIntersectionMethod._intersect_segments", "skcurve/_geomalg.py:collinear_points", "skcurve/_geomalg.py:overlap_segments"]}
{"id": "C40", "title": "Bounding-box pruning never discards an intersecting pair", "statement": "If segment i of one curve and segment j of the other have a common point then (i,j) is among the candidate pairs examined.", "quantifier": "all pairs of curves, all (i,j)", "why_tests_cant": "all geometries", "anchors": ["skcurve/_intersect.py:ExactIntersectionMethod._find_segments_bbox_intersection"]}
{"id": "C41", "title": "Curve intersection is the row-major list of all intersecting segment pairs", "statement": "curve1.intersect(curve2) contains one entry for every pair of segments that intersect as segments with common points, no entry for pairs reported NONE, no duplicates, ordered by the first then the second segment index; entry (i,j) carries the result of intersecting the two segments.", "quantifier": "all pairs of curves", "why_tests_cant": "unbounded", "anchors": ["skcurve/_intersect.py:ExactIntersectionMethod._intersect_curves", "skcurve/_intersect.py:IntersectionMethodBase._curves_intersect_indices"]}
{"id": "C42", "title": "Self-intersection reports every unordered non-adjacent pair once", "statement": "c.intersect() reports only pairs i, j with j >= i+2, each at most once, and misses no such intersecting pair; for a curve intersected with an equal but distinct object all pairs are examined.", "quantifier": "all curves", "why_tests_cant": "unbounded", "anchors": ["skcurve/_intersect.py:IntersectionMethodBase._curves_intersect_indices", "skcurve/_base.py:Curve.intersect"]}
{"id": "C43", "title": "Almost-intersection of curves is pairwise almost-intersection of segments", "statement": "Without remove_extra, curve1.intersect(curve2, \"almost\", dist_tol=d) reports exactly the segment pairs whose Segment.distance is < d, in row-major order, with the connecting segment equal to Segment.shortest_segment of the pair.", "quantifier": "all pairs of curves, all d", "why_tests_cant": "vectorized vs scalar code", "anchors": ["skcurve/_intersect.py:AlmostIntersectionMethod._intersect_curves", "skcurve/_intersect.py:AlmostIntersectionMethod._intersect_segments"]}
{"id": "C44", "title": "remove_extra keeps exactly one best representative of every cluster", "statement": "The result is a subsequence of the input; two results are never closer than extra_tol; in every chain-connected cluster of intersection points closer than extra_tol exactly one is kept and its connecting segment is shortest in the cluster; isolated ones are kept; doing it twice changes nothing; the outcome clusters do not depend on the enumeration order.", "quantifier": "all lists of intersections, all tolerances, all enumeration orders of components", "why_tests_cant": "graph clustering over arbitrary point sets", "anchors": ["skcurve/_intersect.py:AlmostIntersectionMethod._remove_extra_intersections"]}
{"id": "C45", "title": "Intersecting a curve with a segment reports the given segment", "statement": "For a curve and a segment in either order, every reported intersection names the original segment in its position and a curve segment of the curve in the other, and is otherwise the same as intersecting with the two-point curve of the segment.", "quantifier": "all curves and segments, both orders", "why_tests_cant": "order/type combinations x unbounded data", "anchors": ["skcurve/_intersect.py:IntersectionMethodBase.__call__", "skcurve/_base.py:Segment.to_curve"]}
{"id": "C46", "title": "Intersection results are internally consistent", "statement": "bool(result) is False iff type is NONE iff intersect_point and intersect_segment are None; for EXACT intersect_segment is the singular segment at intersect_point; for OVERLAP/ALMOST intersect_point is the midpoint of intersect_segment; every result returned by the library has data matching its type.", "quantifier": "all results of all methods", "why_tests_cant": "all reachable results", "anchors": ["skcurve/_intersect.py:SegmentsIntersection", "skcurve/_intersect.py:IntersectionType.__call__"]}
{"id": "C47", "title": "intersect reports errors by kind", "statement": "Different dimension: ValueError; unknown method name: NameError; a method that is neither a name nor a method object: ValueError; any failure inside the method: IntersectionError; no other outcome than a result or one of these.", "quantifier": "all argument combinations and all behaviours of the method", "why_tests_cant": "arbitrary method behaviour", "anchors": ["skcurve/_intersect.py:intersect", "skcurve/_intersect.py:get_intersect_method"]}
{"id": "C48", "title": "IntersectionType(...) accepts exactly the matching data", "statement": "Calling a type with data builds an info iff the data is None for NONE, a Point for EXACT, a Segment for OVERLAP and ALMOST; ValueError otherwise.", "quantifier": "all types and data", "why_tests_cant": "(finite in kind, unbounded in data)", "anchors": ["skcurve/_intersect.py:IntersectionType.__call__"]}
{"id": "C49", "title": "Method registries are append-only maps and the default is always registered", "statement": "Over every history of register / set_default / lookup calls: a registered name keeps its first implementation forever; registering it again raises ValueError and changes nothing; registering a non-method raises TypeError and changes nothing; lookup of an unknown name raises NameError; the default intersect method is always a registered name; methods are listed in registration order without repetition.", "quantifier": "all finite histories", "why_tests_cant": "infinitely many histories", "anchors": ["skcurve/_intersect.py:register_intersect_method", "skcurve/_intersect.py:set_default_intersect_method", "skcurve/_intersect.py:get_intersect_method", "skcurve/_interpolate.py:register_interpolator", "skcurve/_interpolate.py:get_interpolator", "skcurve/_smooth.py:register_smooth_method", "skcurve/_smooth.py:get_smooth_method"]}
{"id": "C50", "title": "chordlen, cumarclen and arclen agree", "statement": "chordlen has size-1 non-negative entries (none for an empty curve); cumarclen has size entries, starts at 0, is non-decreasing even with rounded additions, its differences are the chord lengths and its last entry is arclen; an empty curve has arclen 0.", "quantifier": "all curves", "why_tests_cant": "unbounded; rounding", "anchors": ["skcurve/_diffgeom.py:chordlen", "skcurve/_diffgeom.py:arclen", "skcurve/_diffgeom.py:CurvePointFunctionMixin.cumarclen"]}
{"id": "C51", "title": "Arc length is additive and orientation independent", "statement": "arclen(c.reverse()) = arclen(c); arclen(a+b) = arclen(a) + |last(a)-first(b)| + arclen(b); arclen(c) >= |first - last|; arclen is translation invariant and scales with |k|.", "quantifier": "all curves", "why_tests_cant": "unbounded", "anchors": ["skcurve/_diffgeom.py:arclen", "skcurve/_base.py:Curve.reverse", "skcurve/_base.py:Curve.__add__"]}
{"id": "C52", "title": "Removing points never lengthens and inserting never shortens a curve", "statement": "arclen(c.delete(idx)) <= arclen(c), arclen(c[idx]) <= arclen(c) for increasing idx, arclen(c.unique()) <= arclen(c), arclen(c.insert(i, x)) >= arclen(c), for every indexer.", "quantifier": "all curves and indexers", "why_tests_cant": "unbounded", "anchors": ["skcurve/_diffgeom.py:arclen", "skcurve/_base.py:Curve.delete", "skcurve/_base.py:Curve.insert", "skcurve/_base.py:Curve.unique"]}
{"id": "C53", "title": "Adding a dimension never shortens chords, adding a zero dimension keeps them", "statement": "Each chord length of c.insertdim(a, v) is >= that of c, with equality for the default zero values.", "quantifier": "all curves, axes, value vectors", "why_tests_cant": "unbounded", "anchors": ["skcurve/_diffgeom.py:chordlen", "skcurve/_base.py:Curve.insertdim", "skcurve/_base.py:Curve.appenddim"]}
{"id": "C54", "title": "Numerical derivatives are linear, have the shape of the data, and are exact for quadratics", "statement": "firstderiv has one vector of dimension ndim per point; it is linear in the data, translation invariant, and for points sampled uniformly from a quadratic curve (size >= 3) it equals the derivative at every point including the ends; for a line (size >= 2) it is the constant step.", "quantifier": "all curves and sizes", "why_tests_cant": "boundary formulas for all sizes", "anchors": ["skcurve/_diffgeom.py:_gradient", "skcurve/_diffgeom.py:CurvePointFunctionMixin.firstderiv"]}
{"id": "C55", "title": "Frenet vectors are unit and mutually orthogonal where defined", "statement": "At every point where the tangent (normal, binormal) norm exceeds the tolerance, frenet1 (frenet2, frenet3) has norm 1; frenet1 is orthogonal to frenet2, and frenet3 to both, wherever they are defined; where the norm is below the tolerance the vector returned is the unnormalized one.", "quantifier": "all curves, all points", "why_tests_cant": "continuous, all dimensions", "anchors": ["skcurve/_diffgeom.py:CurvePointFunctionMixin.frenet1", "skcurve/_diffgeom.py:CurvePointFunctionMixin.frenet2", "skcurve/_diffgeom.py:CurvePointFunctionMixin.frenet3", "skcurve/_diffgeom.py:_frenet_vector_norm"]}
{"id": "C56", "title": "Plane curves have zero torsion and straight uniform curves zero curvature", "statement": "For a 2-dimensional curve torsion is 0 wherever frenet1 and frenet2 are defined; for uniformly sampled straight lines curvature is 0 everywhere; reversing a 2-d curve flips the sign of curvature.", "quantifier": "all 2-d curves; all lines, dimensions and sizes", "why_tests_cant": "continuous, unbounded", "anchors": ["skcurve/_diffgeom.py:CurvePointFunctionMixin.torsion", "skcurve/_diffgeom.py:CurvePointFunctionMixin.curvature"]}
{"id": "C57", "title": "coorientplane is independent of the orientation it is given and idempotent", "statement": "c.coorientplane(a,b) is c or c.reverse(); c.coorientplane(a,b) = c.reverse().coorientplane(a,b); applying it twice is the same as once.", "quantifier": "all curves, all axes", "why_tests_cant": "closed and degenerate curves", "anchors": ["skcurve/_base.py:Curve.coorientplane", "skcurve/_diffgeom.py:coorientplane"]}
{"id": "C58", "title": "Point-wise access to curve properties agrees with the curve arrays", "statement": "curve[i].f equals curve.f[i] for f in cumarclen, firstderiv, ..., curvature, torsion and t, for every valid i; per-point arrays of a curve with at least one point have one row of ndim values per point.", "quantifier": "all curves, all i", "why_tests_cant": "unbounded; single-point curves", "anchors": ["skcurve/_diffgeom.py:_maybe_curve_point", "skcurve/_base.py:CurvePoint.t", "skcurve/_diffgeom.py:_gradient"]}
{"id": "C59", "title": "The uniform grid has the requested points", "statement": "UniformInterpolationGrid(n)(curve) has exactly n values, starts at t[0], ends at t[-1], has constant step, and is strictly increasing when t[0] < t[-1]; n < 2 is a ValueError at construction; a curve of fewer than 2 points is a ValueError.", "quantifier": "all curves and all n", "why_tests_cant": "unbounded", "anchors": ["skcurve/_interpolate.py:UniformInterpolationGrid"]}
{"id": "C60", "title": "The length grid has the step closest to the request", "statement": "UniformInterpolationGrid(f, 'length') on a non-parametric curve of arc length L divides it into round(L/f) equal steps, so that the number of steps differs from L/f by at most 1/2.", "quantifier": "all curves, all f > 0", "why_tests_cant": "rounding at ties; unbounded", "anchors": ["skcurve/_interpolate.py:UniformInterpolationGrid.__call__"]}
{"id": "C61", "title": "The extrapolation grid continues the interpolation grid uniformly", "statement": "With kind point, UniformExtrapolationGrid(g, before=b, after=a) has b + n + a values, contains the grid of g in the middle, and the whole has one constant step; it is strictly increasing if g is; zero before/after adds nothing.", "quantifier": "all grids, all b, a >= 0", "why_tests_cant": "unbounded; off-by-one at the seams", "anchors": ["skcurve/_interpolate.py:UniformExtrapolationGrid"]}
{"id": "C62", "title": "The preserved-speed grid spans the curve", "statement": "On a non-parametric curve with positive length PreservedSpeedInterpolationGrid(n) has n values, starts at 0, ends at arclen, is non-decreasing, and for n = size equals cumarclen.", "quantifier": "all curves, all n >= 2", "why_tests_cant": "unbounded", "anchors": ["skcurve/_interpolate.py:PreservedSpeedInterpolationGrid", "skcurve/_numeric.py:linrescale"]}
{"id": "C63", "title": "Only strictly increasing grids are accepted", "statement": "interpolate accepts an explicit grid iff consecutive differences are positive and not within tolerance of 0; every accepted grid is strictly increasing; a rejected one raises ValueError before any interpolation is computed.", "quantifier": "all grids", "why_tests_cant": "unbounded", "anchors": ["skcurve/_interpolate.py:InterpolatorBase._get_interpolation_grid"]}
{"id": "C64", "title": "Linear interpolation passes through the points and stays on the polyline", "statement": "For strictly increasing t: linear interpolation at t[i] is point i; at any value between t[i] and t[i+1] it is the convex combination of points i and i+1; interpolating at the grid t reproduces the curve.", "quantifier": "all curves, all grids", "why_tests_cant": "continuous", "anchors": ["skcurve/_interpolate.py:LinearInterpolator", "skcurve/_interpolate.py:InterpolatorBase.__call__"]}
{"id": "C65", "title": "Linear resampling inside the range never lengthens the curve", "statement": "For every strictly increasing grid inside [t[0], t[-1]], arclen of the linearly interpolated curve is <= arclen of the curve.", "quantifier": "all curves and grids", "why_tests_cant": "unbounded, continuous", "anchors": ["skcurve/_interpolate.py:LinearInterpolator", "skcurve/_diffgeom.py:arclen"]}
{"id": "C66", "title": "interpolate keeps size, parametrization and error contracts", "statement": "The result has one point per grid value; it is parametric iff the source is, and then t is the grid; failures of the interpolator are reported as InterpolationError, unknown methods as NameError, bad grids as ValueError; an empty curve gives an empty curve of the same dimension; a single-point curve is a ValueError.", "quantifier": "all curves, grids, and interpolator behaviours", "why_tests_cant": "arbitrary interpolators", "anchors": ["skcurve/_interpolate.py:InterpolatorBase.__call__", "skcurve/_interpolate.py:get_interpolator", "skcurve/_interpolate.py:interpolate"]}
{"id": "C67", "title": "smooth keeps the number of points, is never parametric, and maps errors by kind", "statement": "The smoothed curve has the points returned by the method and is not parametric; ValueError and TypeError of the method propagate, every other exception becomes SmoothingError; unknown method is NameError.", "quantifier": "all curves and method behaviours", "why_tests_cant": "arbitrary methods", "anchors": ["skcurve/_smooth.py:smooth", "skcurve/_smooth.py:get_smooth_method"]}
{"id": "C68", "title": "Window smoothing is an averaging", "statement": "With a non-negative window of positive sum and the default mode, window smoothing keeps the number of points, leaves constant curves unchanged, is linear, and every coordinate of the result lies between the minimum and maximum of that coordinate of the curve.", "quantifier": "all curves, all windows", "why_tests_cant": "unbounded", "anchors": ["skcurve/_smooth.py:window_filter"]}
{"id": "C69", "title": "The well-known curves satisfy their implicit equations", "statement": "arc points lie on the circle of radius |r| around (c,c); the lemniscate satisfies (x^2+y^2)^2 = 2c^2(x^2-y^2); helix satisfies x^2+y^2=a^2 and z=b*t; the spiral satisfies x^2+y^2=(a+bt)^2; lissajous stays in its box, meets the axes and the sides of the box exactly at the phases that the frequencies tell, and is an ellipse for equal frequencies; each has p_count points and t = the sampled parameter; a full arc is closed.", "quantifier": "all parameters", "why_tests_cant": "continuous parameters", "anchors": ["skcurve/curves.py:arc", "skcurve/curves.py:lemniscate_of_bernoulli", "skcurve/curves.py:helix", "skcurve/curves.py:archimedean_spiral", "skcurve/curves.py:lissajous", "skcurve/curves.py:irregular_helix"]}
{"id": "C70", "title": "The default point distance is a metric and seglen/norm agree with it", "statement": "p.distance(q) >= 0, = 0 iff the coordinates agree, symmetric, satisfies the triangle inequality; Segment.seglen, norm of direction and distance agree; unknown metric names raise NameError; a non-callable metric raises TypeError.", "quantifier": "all points", "why_tests_cant": "continuous", "anchors": ["skcurve/_base.py:Point.distance", "skcurve/_base.py:Point.norm", "skcurve/_base.py:Segment.seglen", "skcurve/_distance.py:get_metric"]}
{"id": "C71", "title": "linrescale maps the input range onto the output range affinely", "statement": "The minimum goes to the lower and the maximum to the upper end of the output range, order is preserved, values stay inside the output range, and rescaling back to the original range gives the data back.", "quantifier": "all non-constant data and ranges", "why_tests_cant": "unbounded", "anchors": ["skcurve/_numeric.py:linrescale"]}
{"id": "C72", "title": "A sub-curve between two curve points contains exactly the points between them", "statement": "For CurvePoints at positions i <= j of one curve, p_i.subcurve(p_j) has the points i..j (i..j-1 without endpoint) with their t values; a point of another curve is a ValueError, a non-CurvePoint a TypeError; arclen of the sub-curve is cumarclen[j]-cumarclen[i].", "quantifier": "all curves, all i <= j", "why_tests_cant": "unbounded", "anchors": ["skcurve/_base.py:CurvePoint.subcurve"]}
{"id": "C73", "title": "Curve segments tile the curve", "statement": "c.segments has size-1 entries (none for size <= 1); segment k goes from point k to point k+1; CurveSegment(c, k) accepts exactly -(size-1) <= k < size-1; its seglen is chordlen[k]; the segment lengths sum to arclen.", "quantifier": "all curves, all integers k", "why_tests_cant": "negative out-of-range indices", "anchors": ["skcurve/_base.py:CurveSegment.__init__", "skcurve/_base.py:Curve.segments"]}
{"id": "C74", "title": "Editing operations do not silently change stored numbers", "statement": "After insert, insertdim, interpolate and ndmin the stored coordinates are the numbers supplied by the caller.", "quantifier": "all curves of integer and float dtype", "why_tests_cant": "dtype combinations x values", "anchors": ["skcurve/_base.py:Curve.insert", "skcurve/_base.py:Curve.insertdim", "skcurve/_base.py:Curve.__init__"]}
{"id": "C75", "title": "A non-numeric dtype is rejected", "statement": "Point(data, dtype) and Curve(data, dtype) raise ValueError if dtype is not numeric.", "quantifier": "all dtypes", "why_tests_cant": "the check is present but has no effect", "anchors": ["skcurve/_base.py:Point.__init__", "skcurve/_base.py:Curve.__init__"]}
{"id": "C76", "title": "smooth returns float64 data", "statement": "The data of the curve returned by window smoothing has dtype float64, as the docstring of smooth says, whatever the dtype of the curve.", "quantifier": "all curves of integer and float dtype", "why_tests_cant": "dtype combinations", "anchors": ["skcurve/_smooth.py:window_filter", "skcurve/_smooth.py:smooth"]}
{"id": "C77", "title": "Smoothing does not modify the window returned by the caller", "statement": "A window function that returns the same array twice gives the same result twice: window_filter leaves the array as it was.", "quantifier": "all windows", "why_tests_cant": "aliasing of a mutable array", "anchors": ["skcurve/_smooth.py:window_filter"]}
{"id": "C78", "title": "Symmetric windows keep interior points of uniformly sampled lines", "statement": "If the points of the curve are equally spaced on a line, a symmetric window of odd size and positive sum leaves every point unchanged that is at least half a window away from both ends.", "quantifier": "all lines, all symmetric windows", "why_tests_cant": "unbounded", "anchors": ["skcurve/_smooth.py:window_filter"]}
{"id": "C79", "title": "Savitzky-Golay smoothing reproduces polynomial curves", "statement": "If every coordinate is a polynomial in the point index of degree at most polyorder, savgol returns the curve unchanged, for all modes of the interior points and with mode interp also at the ends; bad window lengths and orders raise ValueError.", "quantifier": "all polynomial curves, all window lengths and orders", "why_tests_cant": "unbounded", "anchors": ["skcurve/_smooth.py:savgol_filter"]}
{"id": "C80", "title": "Keyword arguments of distance reach the metric", "statement": "p.distance(q, metric, **kwargs) calls the metric with the given keyword arguments.", "quantifier": "all metrics, names and callables", "why_tests_cant": "arbitrary callables", "anchors": ["skcurve/_base.py:Point.distance", "skcurve/_distance.py:get_metric"]}
{"id": "C81", "title": "City block and Chebyshev distances are metrics and bound the euclidean distance", "statement": "Both are non-negative, symmetric, zero only for equal coordinates and satisfy the triangle inequality; chebyshev <= euclidean <= cityblock; sqeuclidean is the square of euclidean.", "quantifier": "all points of one dimension", "why_tests_cant": "continuous", "anchors": ["skcurve/_base.py:Point.distance", "skcurve/_distance.py:get_metric"]}
{"id": "C82", "title": "The Euler spiral is symmetric and parametrized by arc length at most", "statement": "Over a symmetric parameter range the points are symmetric about the origin; two points are never further apart than their parameter values.", "quantifier": "all parameters", "why_tests_cant": "integrals", "anchors": ["skcurve/curves.py:euler_spiral"]}
{"id": "C83", "title": "Spline interpolation passes through the points", "statement": "Interpolating at the parameter values themselves by hermite, pchip, akima or cubic (any boundary condition scipy can solve) gives the curve back.", "quantifier": "all curves with increasing parameter, all keyword arguments", "why_tests_cant": "continuous data", "anchors": ["skcurve/_interpolate.py:CubicSplineInterpolator", "skcurve/_interpolate.py:CubicHermiteSplineInterpolator", "skcurve/_interpolate.py:AkimaInterpolator", "skcurve/_interpolate.py:PchipInterpolator"]}
{"id": "C84", "title": "Hermite interpolation has the unit tangents of the curve as derivatives", "statement": "For curves of floating point dtype: the curve that method hermite evaluates is differentiable at every parameter value of the source, where its derivative is the frenet1 vector of the source.", "quantifier": "all curves with increasing parameter", "why_tests_cant": "derivatives are limits", "anchors": ["skcurve/_interpolate.py:CubicHermiteSplineInterpolator"]}
{"id": "C85", "title": "PCHIP interpolation is monotone between neighbouring points", "statement": "For curves of floating point dtype: between neighbouring parameter values every coordinate of the interpolated curve is non-decreasing if the coordinate of the source does not decrease and non-increasing if it does not increase, so it stays in the box spanned by the two points.", "quantifier": "all curves with increasing parameter, all positions", "why_tests_cant": "continuous positions", "anchors": ["skcurve/_interpolate.py:PchipInterpolator"]}
{"id": "C86", "title": "Default cubic interpolation is a natural cubic spline", "statement": "For curves of floating point dtype, and with the linear system of scipy solved, the coordinates are piecewise cubic, twice continuously differentiable at the inner parameter values, have second derivative 0 at both ends and pass through the points.", "quantifier": "all curves with increasing parameter", "why_tests_cant": "derivatives are limits", "anchors": ["skcurve/_interpolate.py:CubicSplineInterpolator"]}
{"id": "C87", "title": "Spline interpolation reproduces straight lines", "statement": "If the points lie on a line at places proportional to the parameter (in particular: collinear points in order of a curve without own parameter), pchip, cubic, akima and hermite give points of that line at the right place.", "quantifier": "all lines, all spacings, all grid values", "why_tests_cant": "continuous", "anchors": ["skcurve/_interpolate.py:CubicSplineInterpolator", "skcurve/_interpolate.py:CubicHermiteSplineInterpolator", "skcurve/_interpolate.py:AkimaInterpolator", "skcurve/_interpolate.py:PchipInterpolator"]}
{"id": "C88", "title": "Interpolators without extrapolation give NaN outside of the parameter range and finite points inside", "statement": "For curves of floating point dtype; akima always, and hermite, pchip, cubic with extrapolate=False: grid values outside of the range of the parameter give points of NaNs, grid values inside give finite points.", "quantifier": "all curves and grids", "why_tests_cant": "continuous", "anchors": ["skcurve/_interpolate.py:AkimaInterpolator", "skcurve/_interpolate.py:CubicSplineInterpolator"]}
{"id": "C89", "title": "Spline interpolation commutes with translations", "statement": "For curves of floating point dtype: interpolating the translated curve gives the translated interpolated curve, for hermite, pchip, akima (three points or more, inside the parameter range) and natural cubic splines.", "quantifier": "all curves, all translations, all grid values", "why_tests_cant": "continuous", "anchors": ["skcurve/_interpolate.py:CubicSplineInterpolator", "skcurve/_interpolate.py:CubicHermiteSplineInterpolator", "skcurve/_interpolate.py:AkimaInterpolator", "skcurve/_interpolate.py:PchipInterpolator"]}
{"id": "C90", "title": "Lengths, speed, curvature and torsion do not depend on the position of the curve", "statement": "Moving a curve by an isometry changes no chord length, arc length, cumulative length, speed, torsion and (for 3 or more dimensions) curvature; derivatives, normals, binormals and Frenet vectors are turned with the curve; the signed curvature of a plane curve is kept by rotations and translations and changes sign under reflections.", "quantifier": "all curves of at least two points, all isometries, also into higher dimensions", "why_tests_cant": "isometries form a continuum", "anchors": ["skcurve/_diffgeom.py:chordlen", "skcurve/_diffgeom.py:CurvePointFunctionMixin", "skcurve/_diffgeom.py:_gradient"]}
{"id": "C91", "title": "Lengths and curvature scale with the curve", "statement": "Scaling a curve by r > 0 multiplies chord lengths, arc length, derivatives and speed by r, divides curvature and torsion by r and keeps the Frenet vectors.", "quantifier": "all curves of at least two points, all r > 0", "why_tests_cant": "the scale is unbounded; errors appear at scales tests do not sample", "anchors": ["skcurve/_diffgeom.py:chordlen", "skcurve/_diffgeom.py:CurvePointFunctionMixin", "skcurve/_diffgeom.py:_frenet_vector_norm"]}
{"id": "C92", "title": "Plots show the whole curve and nothing else", "statement": "If plotting succeeds, what was on the axes stays and exactly the requested things are added, in the order of a chain of plots: the line through the points, or the pieces between neighbouring points with the values of the requested property, markers at the points, normals. A curve of more than three dimensions is a ValueError, a 3-d curve on plane axes a TypeError; a plot that fails adds nothing.", "quantifier": "all curves, arguments, axes and chains", "why_tests_cant": "chains are unbounded; plots are checked by eye", "anchors": ["skcurve/plot.py:CurvePlot", "skcurve/plot.py:CurvePlot._multicolor_plot", "skcurve/plot.py:CurvePlot._plot"]}
{"id": "C93", "title": "Almost intersections: what is reported is close, what is close is reported", "statement": "Every intersection the almost method reports names a segment of each curve, two points of these segments are closer than dist_tol, and an ALMOST result joins such points; every pair of segments closer than dist_tol (in particular, with a common point) is reported; raising dist_tol never loses an intersection (without remove_extra).", "quantifier": "all curves, all parameters", "why_tests_cant": "continuous positions; tests use a handful of curves", "anchors": ["skcurve/_intersect.py:AlmostIntersectionMethod", "skcurve/_geomalg.py:segments_to_segments"]}
{"id": "C94", "title": "The exact intersection does not depend on the order or the direction of the segments", "statement": "Exchanging the two segments (or curves) gives the same type with the same point or overlap; so does reversing a segment.", "quantifier": "all pairs of segments of one dimension", "why_tests_cant": "continuous positions; the asymmetries are at the tolerances", "anchors": ["skcurve/_intersect.py:ExactIntersectionMethod", "skcurve/_base.py:Segment.collinear"]}
{"id": "C95", "title": "Lengths of sampled arcs and helices", "statement": "The chords of arc() and helix() are all equal; the arc length of the curve is at most that of the circle arc |r||t_stop - t_start| or of the helix sqrt(a^2 + b^2)|t_stop - t_start|, and tends to it as p_count grows.", "quantifier": "all parameters, all p_count >= 2", "why_tests_cant": "a limit over unboundedly many samples", "anchors": ["skcurve/curves.py:arc", "skcurve/curves.py:helix", "skcurve/_diffgeom.py:chordlen", "skcurve/_diffgeom.py:arclen"]}
{"id": "C96", "title": "The curvature of a sampled circle is the reciprocal of its radius", "statement": "Every point of arc() with radius r has curvature 1/|r|, with positive sign if the samples run counter-clockwise (by less than half a turn per step) and negative sign if clockwise.", "quantifier": "all parameters, all p_count", "why_tests_cant": "the exact value does not depend on the sampling, tests sample few", "anchors": ["skcurve/curves.py:arc", "skcurve/_diffgeom.py:CurvePointFunctionMixin.curvature", "skcurve/_diffgeom.py:_gradient"]}
{"id": "C97", "title": "Curvature and torsion of a sampled helix", "statement": "Curvature and torsion of helix() agree with a/(a^2 + b^2) and b/(a^2 + b^2) up to an error that goes to 0 with the step between samples; the sign of the torsion tells the handedness.", "quantifier": "all parameters, all p_count", "why_tests_cant": "the thresholds take effect only for fine samplings", "anchors": ["skcurve/curves.py:helix", "skcurve/_diffgeom.py:CurvePointFunctionMixin.curvature", "skcurve/_diffgeom.py:CurvePointFunctionMixin.torsion", "skcurve/_diffgeom.py:_frenet_vector_norm"]}
{"id": "C98", "title": "Segment geometry and intersections do not depend on the position", "statement": "If points, segments and curves are moved by a common isometry (also into a space of higher dimension), then lengths, angles, parallelism, coplanarity and distances are unchanged, and shortest connections and the intersections found are those found before, moved.", "quantifier": "all isometries, all segments and curves", "why_tests_cant": "all rigid motions; the tolerances break the exact method only in some places", "anchors": ["skcurve/_base.py:Segment.shortest_segment", "skcurve/_base.py:Segment.parallel", "skcurve/_intersect.py:AlmostIntersectionMethod", "skcurve/_intersect.py:ExactIntersectionMethod"]}
{"id": "C99", "title": "Smoothing and interpolation commute with affine maps", "statement": "Smoothing (window, Savitzky-Golay) or interpolating (linear, natural cubic) the image of a curve under an affine map x -> Mx + b, also into another dimension, gives the image of the result; Hermite interpolation commutes with isometries.", "quantifier": "all affine maps, all curves, all windows", "why_tests_cant": "all linear maps and all weights; tests look at single results", "anchors": ["skcurve/_smooth.py:window_filter", "skcurve/_smooth.py:savgol_filter", "skcurve/_interpolate.py:LinearInterpolator", "skcurve/_interpolate.py:CubicSplineInterpolator", "skcurve/_interpolate.py:CubicHermiteSplineInterpolator"]}
{"id": "C100", "title": "Beyond the ends smoothing continues the curve as the mode says", "statement": "With the modes reflect, mirror, nearest, wrap and constant point i of the smoothed curve is the weighted sum of the points around i, where points beyond the ends are those of the one continuation of the curve by reflection about the edges, reflection about the end points, repetition of the end points, periodicity or the constant cval.", "quantifier": "all finite curves, all windows, also longer than the curve", "why_tests_cant": "windows longer than the curve reflect several times; tests use short windows", "anchors": ["skcurve/_smooth.py:window_filter", "skcurve/_smooth.py:savgol_filter"]}
{"id": "C101", "title": "The Savitzky-Golay filter fits polynomials by least squares", "statement": "Point i of the result is the derivative of order deriv (divided by delta^deriv) at i of the polynomial of degree at most polyorder with the least squared error at the window around i; with mode interp the windows at the ends are the first and the last one within the curve, with the other modes the curve is continued beyond its ends.", "quantifier": "all finite curves, odd window lengths, all orders and derivatives", "why_tests_cant": "arbitrary data and orders; tests compare with scipy itself", "anchors": ["skcurve/_smooth.py:savgol_filter"]}
{"id": "C102", "title": "Smoothing commutes with reversing the curve", "statement": "Smoothing the reversed curve gives the reversed smoothed curve, for symmetric windows and for the Savitzky-Golay filter (with the opposite sign for derivatives of odd order), for all modes.", "quantifier": "all finite curves, all symmetric windows", "why_tests_cant": "asymmetries show only at the ends and with even windows", "anchors": ["skcurve/_smooth.py:window_filter", "skcurve/_smooth.py:savgol_filter", "skcurve/_base.py:Curve.reverse"]}
{"id": "C103", "title": "Interpolation of a reversed curve", "statement": "Interpolating the reversed curve at x gives the point that interpolating the curve gives at (length - x): for linear, hermite, pchip, natural cubic and akima interpolation, of curves without parameter values or with parameter values mirrored along.", "quantifier": "all curves, all grid values", "why_tests_cant": "end conditions and slope formulas treat the two ends by different code; tests use one direction", "anchors": ["skcurve/_interpolate.py:LinearInterpolator", "skcurve/_interpolate.py:PchipInterpolator", "skcurve/_interpolate.py:AkimaInterpolator", "skcurve/_interpolate.py:CubicSplineInterpolator", "skcurve/_interpolate.py:CubicHermiteSplineInterpolator", "skcurve/_base.py:Curve.reverse"]}
{"id": "C104", "title": "Interpolation does not depend on units", "statement": "If all points p are replaced by s p + w and all parameter values x by a x + b (a > 0), the interpolated point at a x + b is s times the former one at x, plus w: for linear, pchip, natural cubic and akima interpolation; for hermite interpolation with a = s, as for curves parametrised by length.", "quantifier": "all curves, all factors", "why_tests_cant": "scaling laws for arbitrary factors; the slope formulas contain sign tests and a threshold", "anchors": ["skcurve/_interpolate.py:LinearInterpolator", "skcurve/_interpolate.py:PchipInterpolator", "skcurve/_interpolate.py:AkimaInterpolator", "skcurve/_interpolate.py:CubicSplineInterpolator", "skcurve/_interpolate.py:CubicHermiteSplineInterpolator"]}
{"id": "C105", "title": "Interpolation treats the coordinates separately", "statement": "Two curves with the same parameter values that agree in a coordinate (not necessarily at the same position, possibly with different numbers of coordinates) have interpolations that agree in that coordinate: leaving out, adding, repeating or exchanging other coordinates does not change it. For the method spline: coordinate j of the result is the univariate spline through coordinate j of the points.", "quantifier": "all pairs of curves, all dimensions, all grid values", "why_tests_cant": "relations between curves of different dimension; tests interpolate one curve at a time", "anchors": ["skcurve/_interpolate.py:LinearInterpolator", "skcurve/_interpolate.py:PchipInterpolator", "skcurve/_interpolate.py:AkimaInterpolator", "skcurve/_interpolate.py:CubicSplineInterpolator", "skcurve/_interpolate.py:CubicHermiteSplineInterpolator", "skcurve/_interpolate.py:SplineInterpolator"]}
{"id": "C106", "title": "Interpolation is local", "statement": "Between two neighbouring points the interpolated curve depends only on these two points (linear) or on these and the points before and after them (pchip, hermite), and on their parameter values up to a common shift. In particular interpolating a slice of a curve gives the interpolation of the curve, except in the first and last piece of the slice.", "quantifier": "all pairs of curves, all slices, all grid values", "why_tests_cant": "dependence on far-away points; tests look at one curve at a time", "anchors": ["skcurve/_interpolate.py:LinearInterpolator", "skcurve/_interpolate.py:PchipInterpolator", "skcurve/_interpolate.py:AkimaInterpolator", "skcurve/_interpolate.py:CubicSplineInterpolator", "skcurve/_interpolate.py:CubicHermiteSplineInterpolator", "skcurve/_base.py:Curve.__getitem__"]}
{"id": "C107", "title": "Slopes at the points of the interpolated curve", "statement": "hermite, pchip and akima give piecewise cubic curves. At an inner point the slope of pchip is zero if the neighbouring pieces do not both rise or both fall, and otherwise the harmonic mean of their slopes with the weights of Fritsch and Butland; at the ends it is the slope of the parabola through three points, limited so that the piece stays monotone. The slope of akima at an inner point is the mean of the slopes of the neighbouring pieces, weighted by how much the curve turns on the other side, and lies between them, unless these turns are tiny (1e-9) compared with the largest turn of the curve.", "quantifier": "all curves with strictly increasing parameter values, all points, all coordinates", "why_tests_cant": "slopes are not compared by the tests; a wrong weight gives a smooth curve through the same points", "anchors": ["skcurve/_interpolate.py:PchipInterpolator", "skcurve/_interpolate.py:AkimaInterpolator", "skcurve/_interpolate.py:CubicHermiteSplineInterpolator"]}
{"id": "C108", "title": "Names and keyword arguments of the interpolation methods", "statement": "After the import and any further registrations the seven built-in names mean their own interpolators. A keyword argument that the method does not have is an InterpolationError; the order of keyword arguments does not matter; giving the documented default, in particular extrapolate=None, is the same as leaving the argument out; otherwise only the truth value of extrapolate matters, apart from periodic.", "quantifier": "all curves, grids, dictionaries of arguments and histories of registrations", "why_tests_cant": "tests call the methods with few combinations of arguments", "anchors": ["skcurve/_interpolate.py:get_interpolator", "skcurve/_interpolate.py:interpolate", "skcurve/_interpolate.py:register_interpolator", "skcurve/_interpolate.py:LinearInterpolator", "skcurve/_interpolate.py:CubicSplineInterpolator", "skcurve/_interpolate.py:SplineInterpolator", "skcurve/_interpolate.py:CsapsInterpolator", "skcurve/_base.py:Curve.interpolate"]}
{"id": "C109", "title": "Differential geometry of a reversed curve", "statement": "Running a curve backwards reverses the order of the values of every differential-geometry property. The first and third derivative, the tangent, the binormal, the first and third Frenet vector and the signed curvature of a plane curve change their sign; the second derivative, the normal, the second Frenet vector, the speed, the torsion and the curvature in other dimensions keep theirs.", "quantifier": "all well-formed curves of any dimension and size", "why_tests_cant": "tests look at particular curves in one direction", "anchors": ["skcurve/_base.py:Curve.reverse", "skcurve/_diffgeom.py:_gradient", "skcurve/_diffgeom.py:CurvePointFunctionMixin.tangent", "skcurve/_diffgeom.py:CurvePointFunctionMixin.normal", "skcurve/_diffgeom.py:CurvePointFunctionMixin.binormal", "skcurve/_diffgeom.py:CurvePointFunctionMixin.curvature", "skcurve/_diffgeom.py:CurvePointFunctionMixin.torsion", "skcurve/_diffgeom.py:CurvePointFunctionMixin.speed"]}
{"id": "C110", "title": "Differential geometry is local", "statement": "The first derivative, tangent, speed and first Frenet vector at a point depend on the point and one neighbour on either side only; second derivative, normal, second Frenet vector and curvature on two; third derivative, binormal, third Frenet vector and torsion on three. So the points of a slice have the same properties as in the curve, except the first and last one, two or three.", "quantifier": "all curves of any dimension and size, positions and slices", "why_tests_cant": "tests look at particular curves, not at pairs of curves that agree in part", "anchors": ["skcurve/_base.py:Curve.__getitem__", "skcurve/_diffgeom.py:_gradient", "skcurve/_diffgeom.py:CurvePointFunctionMixin.tangent", "skcurve/_diffgeom.py:CurvePointFunctionMixin.normal", "skcurve/_diffgeom.py:CurvePointFunctionMixin.binormal", "skcurve/_diffgeom.py:CurvePointFunctionMixin.curvature", "skcurve/_diffgeom.py:CurvePointFunctionMixin.torsion", "skcurve/_diffgeom.py:_maybe_curve_point"]}
{"id": "C111", "title": "Points and curves are Python sequences", "statement": "Iterating over a curve gives its points in order, each with its position, and rebuilding a curve from them gives the curve back; reversed gives them backwards; a copied curve point is the same point. Iterating over a point gives its coordinates; a slice with several coordinates is the point with these coordinates; x in point holds exactly if some coordinate equals x, count is the number of such coordinates and index(x, start, stop) the first such position inside of start:stop, a ValueError if there is none. NaN is never found.", "quantifier": "all points and curves, indices and slices, numbers including NaN and infinities", "why_tests_cant": "tests iterate over a few small curves and points", "anchors": ["skcurve/_base.py:Point.__getitem__", "skcurve/_base.py:Point.__len__", "skcurve/_base.py:Point.__bool__", "skcurve/_base.py:CurvePoint.__deepcopy__", "skcurve/_base.py:Curve.__getitem__", "skcurve/_base.py:Curve.values"]}
{"id": "C112", "title": "Segments as objects", "statement": "Segments are built from two points of the same dimension, at least 1; anything else is refused with TypeError (not points) or ValueError. to_curve is the curve with the two points (the segment k of a curve gives curve[k:k+2]) and its arc length is the length of the segment; reversing twice is the segment. On objects of one dimension the methods compute the segment geometry and never raise; what is neither point nor segment is a TypeError and an object of another dimension a ValueError.", "quantifier": "all segment objects, arguments of every kind and dimension", "why_tests_cant": "tests call the methods with fitting arguments of dimension 2 and 3", "anchors": ["skcurve/_base.py:Segment.__init__", "skcurve/_base.py:Segment.data", "skcurve/_base.py:Segment.to_curve", "skcurve/_base.py:Segment.reverse", "skcurve/_base.py:Segment.angle", "skcurve/_base.py:Segment.collinear", "skcurve/_base.py:Segment.coplanar", "skcurve/_base.py:Segment.shortest_segment", "skcurve/_base.py:CurveSegment.chordlen", "skcurve/_geomalg.py:segment_point", "skcurve/_geomalg.py:overlap_segments", "skcurve/_geomalg.py:parallel_segments"]}
{"id": "C113", "title": "Intersections of parts of curves, of curves apart and of graphs", "statement": "The intersections of contiguous parts of two curves (or of a part with itself) are exactly the intersections of the curves whose segments belong to the parts, in the same order and with the same intersection object. Curves separated in a coordinate by more than the tolerance have no intersections, and the graph of a function has no self-intersections.", "quantifier": "all curves of any dimension and length, all contiguous parts, both methods", "why_tests_cant": "tests intersect whole curves only; a relation between two calls is not tested", "anchors": ["skcurve/_intersect.py:IntersectionMethodBase.__call__", "skcurve/_intersect.py:ExactIntersectionMethod._intersect_curves", "skcurve/_intersect.py:AlmostIntersectionMethod._intersect_curves", "skcurve/_base.py:Curve.intersect"]}
{"id": "C114", "title": "intersect on curves, segments and other objects", "statement": "intersect (and the methods of Segment and Curve) on two segments or curves of one dimension never raises for any parameters the method accepts: one intersection object for two segments, otherwise a list; each entry names the given segment or a segment of the given curve with its index. Arguments of other kinds, other dimensions, unknown methods and unknown parameters have their documented errors; omitted parameters have their defaults; slices of curves have exactly the intersections of their segments; a registered class can be used under its name.", "quantifier": "all arguments, keyword arguments, histories of registrations and slices", "why_tests_cant": "tests call intersect with few fitting arguments", "anchors": ["skcurve/_intersect.py:intersect", "skcurve/_intersect.py:IntersectionMethodBase.__call__", "skcurve/_intersect.py:ExactIntersectionMethod.__init__", "skcurve/_intersect.py:AlmostIntersectionMethod.__init__", "skcurve/_intersect.py:get_intersect_method", "skcurve/_intersect.py:register_intersect_method", "skcurve/_base.py:Segment.intersect", "skcurve/_base.py:Curve.intersect"]}
{"id": "C115", "title": "Derivatives of a finely sampled curve", "statement": "The rows of the first, second and third derivative of a curve whose points are sampled at equal steps h from a smooth curve differ from h, h^2, h^3 times its derivatives by at most an explicit constant times a higher power of h; likewise the speed. At the ends too.", "quantifier": "all smooth curves of every dimension, steps, numbers of points and indices", "why_tests_cant": "tests compare few sampled circles with a tolerance", "anchors": ["skcurve/_diffgeom.py:_gradient", "skcurve/_diffgeom.py:CurvePointFunctionMixin.speed", "skcurve/_diffgeom.py:CurvePointFunctionMixin.firstderiv", "skcurve/_diffgeom.py:CurvePointFunctionMixin.secondderiv", "skcurve/_diffgeom.py:CurvePointFunctionMixin.thirdderiv"]}
{"id": "C116", "title": "Curvature of a finely sampled curve", "statement": "The curvature at every point of a curve sampled at equal steps from a smooth regular curve tends to the curvature of that curve when the step tends to zero, uniformly and at the ends too.", "quantifier": "all smooth regular curves of every dimension, steps, numbers of points and indices", "why_tests_cant": "tests compare few sampled circles with a tolerance", "anchors": ["skcurve/_diffgeom.py:CurvePointFunctionMixin.curvature", "skcurve/_diffgeom.py:CurvePointFunctionMixin.frenet1", "skcurve/_diffgeom.py:_gradient"]}
{"id": "C117", "title": "Arc length of a sampled curve", "statement": "Entry k of the cumulative arc length of a curve whose points are sampled at increasing parameters from a smooth curve is at most the length of the arc from point 0 to point k, and smaller by at most M h/2 times the parameter range (M Lipschitz constant of the derivative, h the largest step), and by at most M^2 h^2/(2 v) times the range if the speed is at least v > 0; likewise arclen.", "quantifier": "all smooth curves of every dimension, all increasing parameters and indices", "why_tests_cant": "tests compare the length of few sampled circles with a tolerance", "anchors": ["skcurve/_diffgeom.py:chordlen", "skcurve/_diffgeom.py:arclen", "skcurve/_diffgeom.py:CurvePointFunctionMixin.cumarclen", "skcurve/_base.py:Curve.arclen"]}
{"id": "C118", "title": "Linear interpolation of a sampled curve", "statement": "Linear interpolation of a curve whose points are sampled from a smooth curve at the parameters of the curve object differs from the smooth curve by at most M h^2/8 at every grid value (M Lipschitz constant of the derivative, h largest step); for any other increasing parameter of the curve object every point of the result is within M h^2/8 of the smooth curve, h then being the largest step of the sampling.", "quantifier": "all smooth curves of every dimension, parameters and grids", "why_tests_cant": "tests compare few samples with a tolerance", "anchors": ["skcurve/_interpolate.py:LinearInterpolator", "skcurve/_interpolate.py:InterpolatorBase.__call__", "skcurve/_base.py:Curve.interpolate"]}
{"id": "C119", "title": "Rounding of chord and arc lengths", "statement": "Computed in floating point with any rounding that is monotone, odd and of relative error at most eps (in particular 53 bit round to nearest even), whatever the order of the sums: chordlen in n dimensions differs from the exact value by at most a relative 2(n+4) eps and is 0 exactly for equal points and the same for exchanged points, arclen of m points by at most 2(n+m+2) eps, entry k of cumarclen by at most 2(n+k+4) eps; cumarclen starts with 0 and does not decrease.", "quantifier": "all float curves, all roundings, all orders of summation; no underflow or overflow", "why_tests_cant": "tests compare single curves with a tolerance", "anchors": ["skcurve/_diffgeom.py:chordlen", "skcurve/_diffgeom.py:arclen", "skcurve/_diffgeom.py:CurvePointFunctionMixin.cumarclen", "skcurve/_base.py:Curve.arclen"]}
{"id": "C120", "title": "Rounding of uniform interpolation grids", "statement": "The uniform interpolation grid computed in floating point starts and ends exactly at the ends of the parameter, never decreases, stays inside the range, each value differs from the exact one by at most eps times its size plus 12 eps times the range, and it is accepted as a grid.", "quantifier": "all numbers of points, all parameter ranges, all roundings", "why_tests_cant": "tests use few grids", "anchors": ["skcurve/_interpolate.py:UniformInterpolationGrid.__call__", "skcurve/_interpolate.py:InterpolatorBase._get_interpolation_grid"]}
{"id": "C121", "title": "Rounding of points of segments and of linear interpolation", "statement": "Computed in floating point, Segment.point(t) and each coordinate of the linear interpolation differ from the exact value v by at most eps |v| plus 8 eps (24 eps) times the size of the term that depends on t; they are monotone in t; point(0) and the left node are exact, and so are point(1) and the right node.", "quantifier": "all segments and intervals, all t, all roundings", "why_tests_cant": "tests use few values with a tolerance", "anchors": ["skcurve/_geomalg.py:segment_point", "skcurve/_base.py:Segment.point", "skcurve/_interpolate.py:LinearInterpolator"]}
{"id": "C122", "title": "Smoothing does not lengthen curves", "statement": "Smoothing with a window of entries at least 0 and a positive sum gives a curve at most as long (arclen) as the given one: in mode nearest with any window, in the modes reflect and mirror with symmetric windows, in mode wrap for curves whose first and last point are the same. In particular the default window and mode never lengthen a float curve. In the other cases curves can become longer.", "quantifier": "all float curves, dimensions, windows and sizes", "why_tests_cant": "tests smooth a few curves", "anchors": ["skcurve/_smooth.py:window_filter", "skcurve/_smooth.py:smooth", "skcurve/_base.py:Curve.smooth", "skcurve/_diffgeom.py:arclen"]}
{"id": "C123", "title": "Speed-preserving grids divide segments equally", "statement": "Linear interpolation of a curve of m points without own parameter with PreservedSpeedInterpolationGrid(n) gives n points, point j being the point of the curve at the broken index j (m - 1)/(n - 1); for n = k (m - 1) + 1 every segment is divided into k chords of equal length and the points of the curve are every k-th point.", "quantifier": "all curves, dimensions and numbers of points", "why_tests_cant": "tests compare one grid with printed numbers", "anchors": ["skcurve/_interpolate.py:PreservedSpeedInterpolationGrid.__call__", "skcurve/_interpolate.py:LinearInterpolator", "skcurve/_base.py:Curve.interpolate"]}
{"id": "C124", "title": "Boundary conditions of cubic interpolation", "statement": "For curves of floating point dtype, with scipy's linear systems solved. bc_type='clamped': the coordinates are piecewise cubic, twice continuously differentiable, pass through the points and have derivative 0 at both ends. bc_type='not-a-knot': the first two polynomials are one, the last two are one, three points give a parabola, two a line; points of polynomials of degree at most 3 give these polynomials. bc_type='periodic' with a closed curve: the curve is periodic and twice continuously differentiable also where end and beginning meet.", "quantifier": "all curves with increasing parameter, all numbers of points", "why_tests_cant": "derivatives are limits; reproduction of all polynomials", "anchors": ["skcurve/_interpolate.py:CubicSplineInterpolator", "skcurve/_base.py:Curve.interpolate"]}
{"id": "C125", "title": "Cubic interpolation bends least", "statement": "For curves of floating point dtype, with scipy's linear systems solved: every coordinate of the default (natural) cubic interpolation has the least integral of the squared second derivative among all twice continuously differentiable functions with the same values at the parameter values, and is the only one with it. With bc_type='clamped' the same holds among the functions with derivative 0 at both ends.", "quantifier": "all curves with increasing parameter, all competing functions", "why_tests_cant": "quantifies over a space of functions", "anchors": ["skcurve/_interpolate.py:CubicSplineInterpolator", "skcurve/_base.py:Curve.interpolate"]}
{"id": "C126", "title": "Tolerance of the collinearity and coplanarity tests", "statement": "`tol` is the threshold below which singular values count as zero. With tol=0 the tests are the exact ones. With tol >= 0, collinear (of at least three distinct points, none close to an end) is true exactly if the points spread across to some direction by at most tol; then all are within tol of a line through the origin, and points within tol/sqrt(m) of one are accepted; likewise coplanar for the differences to the last point and two directions. Without tol the bound is max(m, n) 2^-52 times the largest spread, and the result does not depend on the unit of length. Exactly collinear (through the origin) or coplanar points always pass. t(point, tol) is NaN exactly if collinear(point, tol) is false. Curve.isplane is the test without tol.", "quantifier": "all points, all tolerances, all dimensions", "why_tests_cant": "singular values characterised over all directions", "anchors": ["skcurve/_geomalg.py:collinear_points", "skcurve/_geomalg.py:coplanar_points", "skcurve/_geomalg.py:segment_t", "skcurve/_base.py:Segment.collinear", "skcurve/_base.py:Segment.coplanar", "skcurve/_base.py:Segment.t", "skcurve/_base.py:Curve.isplane"]}
{"id": "C127", "title": "The metrics of distance: formulas and metric axioms", "statement": "Point.distance with the name of one of scipy's metrics (euclidean, sqeuclidean, cityblock, chebyshev, minkowski, wminkowski, seuclidean, canberra, braycurtis, cosine, correlation, mahalanobis, jensenshannon) is the textbook formula, with the keyword arguments p, w, V, VI in their places. Minkowski distances of order >= 1, weighted with positive weights, standardised ones, Canberra and Mahalanobis (for VI = B^T B with one-to-one B) are metrics; the Minkowski distance falls with the order from city block to Chebyshev. Bray-Curtis, cosine, correlation and Jensen-Shannon are symmetric, bounded, and 0 exactly as described. Wrong or missing keyword arguments are TypeErrors, negative weights and orders below 1 ValueErrors.", "quantifier": "all points of all dimensions, all weights, orders, variances and matrices", "why_tests_cant": "metric axioms (Minkowski and Canberra triangle inequalities) quantify over all points", "anchors": ["skcurve/_base.py:Point.distance", "skcurve/_distance.py:get_metric"]}
{"id": "C128", "title": "csaps: the smoothing spline", "statement": "For a parameter that increases strictly, a smoothing parameter p in [0, 1] and positive weights w, the method csaps evaluates a natural cubic spline that minimises p * sum w_i (y_i - f(t_i))^2 + (1-p) * integral f''^2 among all twice continuously differentiable functions; for 0 < p < 1 it is the only minimum. p = 1, the default, gives natural cubic interpolation; p = 0 the weighted straight regression line; points on a line stay where they are; weighted sums and first moments of the points are kept; as p grows the misfit falls and the bending grows. smooth=None computes p from the parameter values and weights, strictly between 0 and 1 for three or more points. A wrong number of weights, a parameter that does not increase strictly and unknown keyword arguments are InterpolationErrors.", "quantifier": "all curves, all smoothing parameters in [0, 1], all positive weights, all grids of finite values", "why_tests_cant": "minimality quantifies over all twice differentiable functions", "anchors": ["skcurve/_interpolate.py:CsapsInterpolator.__init__", "skcurve/_interpolate.py:CsapsInterpolator._interpolate"]}
{"id": "C129", "title": "spline without smoothing is not-a-knot cubic or linear interpolation", "statement": "With smooth=0 (the default) and degree 3 (the default) the method spline gives, for four or more points and whatever the weights, the curve of the method cubic with bc_type='not-a-knot', inside and (by default) outside of the range of the parameter; with degree 1 the curve of the method linear. extrapolate 1, 2, 3 ('zeros', 'raise', 'const') gives zeros, an InterpolationError, or the nearest end point for values outside. Too few points for the degree or a parameter that does not increase strictly are InterpolationErrors.", "quantifier": "all curves, all weights, all extrapolation modes, all grids of finite values", "why_tests_cant": "identity of two external algorithms for all inputs", "anchors": ["skcurve/_interpolate.py:SplineInterpolator.__init__", "skcurve/_interpolate.py:SplineInterpolator._interpolate"]}
{"id": "C130", "title": "Derivatives and unit vectors in floating point", "statement": "With every operation rounded to binary64 (or any rounding with relative error eps), the first, second and third numerical derivatives differ from the exact ones by at most 28, 225 and 1354 times eps times the largest coordinate; between the ends the first derivative has relative error 3 eps. Speeds and unit tangents inherit relative bounds in the dimension, whatever the order of summation. For samples of a smooth curve the total error is the discretization error plus the rounding error divided by the step. The derivative of a coordinate that does not change is claimed to be exactly zero.", "quantifier": "all curves of two or more points, all roundings with relative error eps, all orders of summation", "why_tests_cant": "rounding errors quantify over all real inputs and evaluation orders", "anchors": ["skcurve/_diffgeom.py:_gradient", "skcurve/_diffgeom.py:CurvePointFunctionMixin.firstderiv", "skcurve/_diffgeom.py:CurvePointFunctionMixin.secondderiv", "skcurve/_diffgeom.py:CurvePointFunctionMixin.thirdderiv", "skcurve/_diffgeom.py:CurvePointFunctionMixin.speed", "skcurve/_diffgeom.py:CurvePointFunctionMixin.frenet1"]}
{"id": "C131", "title": "Window smoothing in floating point", "statement": "The window filter computed in rounded arithmetic, in whatever order and with fused products or not, differs from the exact one by at most n (10 eps + eta) times the largest coordinate, where n is the window length and eta bounds the change of the normalised weights by the symmetry shortcut. A constant curve is claimed to stay exactly constant.", "quantifier": "all curves, windows, boundary modes, all roundings with relative error eps, all evaluation orders", "why_tests_cant": "rounding errors quantify over all real inputs and evaluation orders", "anchors": ["skcurve/_smooth.py:window_filter"]}
{"id": "C132", "title": "Parallelism, angles and nearest points of segments in floating point", "statement": "With every operation rounded (relative error eps, dot products in any order, fused or not), the test of parallelism is right whenever the exact Gram determinant is away from the tolerance by more than (5(n+2)+4) eps |u|^2 |v|^2; the angle differs from the geometric one by at most the error of arccos plus pi sqrt(5/2 (n+2) eps); the parameter of the nearest point of a segment stays in [0, 1] and the distance at it exceeds the distance to the segment by at most the tolerances of the code and the rounding error. Segments whose directions are multiples of each other are claimed to be parallel, and the angle of a segment with itself to be 0.", "quantifier": "all segments and points of all dimensions, all roundings with relative error eps, all evaluation orders", "why_tests_cant": "rounding errors quantify over all real inputs and evaluation orders", "anchors": ["skcurve/_geomalg.py:parallel_segments", "skcurve/_geomalg.py:segments_angle", "skcurve/_geomalg.py:segment_to_point", "skcurve/_base.py:Segment.parallel", "skcurve/_base.py:Segment.angle", "skcurve/_base.py:Segment.distance"]}
{"id": "C133", "title": "Cubic interpolation with a condition for each end", "statement": "bc_type of cubic interpolation may be a pair. The first entry is met at the start and the second at the end: natural (second derivative 0), clamped (first derivative 0), not-a-knot (the two polynomials next to the end are the same), or order 1 or 2 with one value per coordinate for the first or second derivative. Points of cubic polynomials that fit both conditions give these polynomials back. A pair of equal strings means the same as the string. If each end is free or has a given derivative, the curve bends least. Anything else is an InterpolationError, in particular periodic in a pair and a derivative given as one number.", "quantifier": "all curves with strictly increasing parameter, all pairs of conditions and values, all grids (rejections: all curves and tuples)", "why_tests_cant": "Tests of the project use the default boundary condition; no test can compare with all competitors of least bending.", "anchors": ["skcurve/_interpolate.py:CubicSplineInterpolator.__init__", "skcurve/_interpolate.py:CubicSplineInterpolator._interpolate"]}
{"id": "C134", "title": "Interpolation of curves of integer dtype", "statement": "Interpolating a curve of integer dtype by any of the seven built-in methods is interpolating the curve with its points as floating point numbers and storing the result as integers: the same errors, the same parameter values, every coordinate without its fractional part. At the parameter values of the curve linear, hermite, pchip, akima and cubic interpolation give the curve back. Linear interpolation is the point of the segment without the fractional parts. Where a curve of floating point numbers gives NaN (outside of the range without extrapolation) the coordinates are -2^63.", "quantifier": "all curves of integer dtype, all keyword arguments, all grids that do not ask for the dtype (every grid of the package)", "why_tests_cant": "The tests interpolate float curves; the truncation is silent and has no test.", "anchors": ["skcurve/_interpolate.py:InterpolatorBase.__call__", "skcurve/_base.py:Curve.__init__", "skcurve/_base.py:Curve.interpolate"]}
{"id": "C135", "title": "insert and insertdim: one point at several positions, refusals, slices and masks", "statement": "One point inserted at a list of positions goes before each of them. Several positions with neither one point nor as many points as positions are a ValueError, a position beyond the end is an IndexError, also in a list. A list of one position is that position, a slice is the list of the positions it selects. insertdim: negative axes count from the end, axes out of range are an IndexError, one value is used for all points, no values mean zeros, any other number of values than the size is a ValueError. Positions before the start are an IndexError and a boolean mask names the points it selects, as in c[mask].", "quantifier": "all curves, points, position lists, slices, masks, axes and values", "why_tests_cant": "Tests insert at a few positions of small curves.", "anchors": ["skcurve/_base.py:Curve.insert", "skcurve/_base.py:Curve.insertdim"]}
{"id": "C136", "title": "Integer coordinates with 64 bits", "statement": "Chord lengths of curves of integer dtype, scalar products and norms of integer points, and the points kept by nonsingular are those of exact arithmetic. In int64 this holds if and only if the squared distances (scalar products) are below 2^63; coordinates up to m in n dimensions are safe if n (2m)^2 < 2^63. Beyond that the square is taken modulo 2^64.", "quantifier": "all integer curves and points", "why_tests_cant": "Tests use small integers; the wrap-around is silent.", "anchors": ["skcurve/_diffgeom.py:chordlen", "skcurve/_diffgeom.py:nonsingular", "skcurve/_base.py:Point.__matmul__", "skcurve/_base.py:Point.norm"]}
{"id": "C137", "title": "Accuracy of cubic and PCHIP interpolation", "statement": "A curve whose points are those of a smooth curve g at its parameter values (steps at most h, range [a, b]). Default cubic interpolation differs from g in every coordinate by at most M/2 h sqrt(h (b - a)) if |second derivative of g| <= M, and its derivative from that of g by at most M sqrt(h (b - a)). If the end conditions (default or a pair) give the first or second derivative that g has at the ends, and M is a Lipschitz constant of the third derivative, the bounds are M/16 h^3 sqrt(h (b - a)) and M/8 h^2 sqrt(h (b - a)). PCHIP interpolation differs from g by at most L h, where L is a Lipschitz constant of g.", "quantifier": "all smooth functions, samplings and values inside the range of the parameter", "why_tests_cant": "An error bound for all functions; tests compare a few functions on a few grids to a tolerance.", "anchors": ["skcurve/_interpolate.py:CubicSplineInterpolator.__init__", "skcurve/_interpolate.py:PchipInterpolator.__init__", "skcurve/_base.py:Curve.interpolate"]}
{"id": "C138", "title": "Interpolating twice", "statement": "A curve interpolated on a grid that contains all its parameter values and stays inside their range gives a curve which, interpolated with the same method, goes along the same curve at every value of the parameter, not only on the grid. For linear interpolation of curves with or without a parameter of their own (the parameter of the result is then the grid), and for cubic interpolation of parametric curves with default end conditions or a pair of natural, clamped and derivative conditions.", "quantifier": "all curves, all grids that contain the parameter values, all values in between", "why_tests_cant": "Tests compare curves at a few points; here two interpolants are equal as functions.", "anchors": ["skcurve/_interpolate.py:LinearInterpolator.__init__", "skcurve/_interpolate.py:CubicSplineInterpolator.__init__", "skcurve/_interpolate.py:PchipInterpolator.__init__", "skcurve/_interpolate.py:InterpolatorBase.__call__", "skcurve/_base.py:Curve.interpolate", "skcurve/_base.py:Curve.t"]}
{"id": "C139", "title": "Lengths in the range of binary64", "statement": "With subnormal numbers and overflow taken into account: coordinates that are binary64 numbers, neighbouring points not more than 2^510 apart, the distance of neighbours and the arc length computed in binary64 are finite; they differ from the exact ones by a relative error of 2 (n + 4) 2^-53 for chords and 2 (n + s + 2) 2^-53 for arc lengths (n coordinates, s points) plus an absolute error of the order of 2^-535, for every order of summation.", "quantifier": "all curves of binary64 coordinates, all orders of summation", "why_tests_cant": "Results near the ends of the exponent range are not sampled by tests, and no finite set of inputs gives an error bound.", "anchors": ["skcurve/_diffgeom.py:chordlen", "skcurve/_diffgeom.py:arclen", "skcurve/_base.py:Curve.chordlen", "skcurve/_base.py:Curve.arclen"]}
{"id": "C140", "title": "Symmetries of the csaps smoothing spline", "statement": "The smoothing spline of the image of a curve under an affine map, the parameter kept, is the image of the smoothing spline. With smooth=None (the computed parameter) it does not depend on the unit and the origin of the parameter nor on a common factor of the weights, it scales with a curve without parameter values, and the spline of the reversed curve is the reversed spline (with reversed weights). With a given smooth p and the parameter multiplied by a, the same spline belongs to p' with p' (1 - p) a^3 = p (1 - p') for equal weights; the same p gives another curve.", "quantifier": "all float curves of at least two points with increasing parameter, all affine maps, all units, all weights", "why_tests_cant": "Independence of units and direction is about pairs of runs over all data sets, not about expected values of single runs.", "anchors": ["skcurve/_interpolate.py:CsapsInterpolator.__init__", "skcurve/_interpolate.py:CsapsInterpolator._interpolate", "skcurve/_base.py:Curve.interpolate"]}
{"id": "C141", "title": "Symmetries of cubic interpolation with boundary conditions", "statement": "Cubic interpolation with any documented boundary condition (natural, clamped, not-a-knot, periodic, or a pair of strings or derivatives) commutes with affine maps of the points, with changes of the unit and origin of the parameter and with the change of direction: points M p + w at parameter values a x + b with a > 0 give at a x + b the image of the point at x, the same points backwards at mirrored parameter values give the same curve, inside and outside of the range of the parameter. Derivatives given at the ends have to be converted: mapped by M and divided by a to the power of their order; exchanged, with first derivatives negated. For curves without parameter values this says that a scaled curve has the scaled interpolation (first derivatives kept) and a reversed curve the reversed one.", "quantifier": "all float curves of at least two points with increasing parameter, all documented boundary conditions, all affine maps, all units", "why_tests_cant": "Independence of coordinates, units and direction is about pairs of runs over all data sets; tests compare with stored values.", "anchors": ["skcurve/_interpolate.py:CubicSplineInterpolator.__init__", "skcurve/_interpolate.py:CubicSplineInterpolator._interpolate", "skcurve/_base.py:Curve.interpolate", "skcurve/_base.py:Curve.reverse"]}
{"id": "C142", "title": "The default parameter in floating point", "statement": "The default parameter of a curve, its cumulative chord lengths, computed in floating point increases strictly whenever neighbouring points are distinct, so that every interpolation method accepts the curve; neighbouring values differ by the distance of the points up to 2(n+4) eps times the distance plus 2 eps times the length so far.", "quantifier": "all float curves, all roundings with relative error eps, all orders of summation", "why_tests_cant": "The failing case needs a particular ratio of lengths; tests use small well scaled curves.", "anchors": ["skcurve/_diffgeom.py:cumarclen", "skcurve/_diffgeom.py:chordlen", "skcurve/_base.py:Curve.t", "skcurve/_base.py:Curve.interpolate"]}
{"id": "C143", "title": "Symmetries of interpolating splines", "statement": "The method spline without smoothing (degree 1, or degree 3 for four or more points) commutes with affine maps of the points and changes of unit of the parameter, and with reversal of direction; so a reversed curve without parameter values is evaluated at arc length minus x, and a scaled one at s x.", "quantifier": "all curves of non-integer dtype with increasing parameter, all weights, all modes of extrapolation, all affine maps between any dimensions, all a > 0", "why_tests_cant": "Tests compare a few transformed curves at a few parameter values up to a tolerance.", "anchors": ["skcurve/_interpolate.py:SplineInterpolator.__init__", "skcurve/_interpolate.py:SplineInterpolator._interpolate", "skcurve/_base.py:Curve.interpolate", "skcurve/_base.py:Curve.reverse"]}
{"id": "C144", "title": "Curvature and length of the spirals, the lemniscate and the circle", "statement": "With ever more points the curvature array of the library tends, uniformly and at the ends too, to 1/|r| for arc, to (rho^2+2b^2)/(rho^2+b^2)^(3/2) with rho = a+b t for archimedean_spiral, to pi t for euler_spiral and to 3 cos t/(sqrt 2 |c| sqrt(1+sin^2 t)) for lemniscate_of_bernoulli. The cumulative length of euler_spiral at t is t - t_start, up to (pi m h)^2/2 times it from below (h the step, m the largest |t|).", "quantifier": "all parameters with t_start < t_stop (and r, b, c not 0), all numbers of points from some number on", "why_tests_cant": "A limit; tests look at one number of points.", "anchors": ["skcurve/curves.py:arc", "skcurve/curves.py:archimedean_spiral", "skcurve/curves.py:euler_spiral", "skcurve/curves.py:lemniscate_of_bernoulli", "skcurve/_diffgeom.py:curvature", "skcurve/_diffgeom.py:cumarclen"]}
{"id": "C145", "title": "The warning tells whether the grid covers the parameter range", "statement": "interpolate warns about the range of the grid iff the accepted grid does not reach from t[0] or below to t[-1] or above. Hence a number of points, the preserved-speed grid and an extrapolation grid over a covering grid never give the warning; the result of the interpolation depends on the grid values only.", "quantifier": "all curves with two points, all grid specifications", "why_tests_cant": "The values between the grid and the range of a curve vary continuously; tests use a few grids.", "anchors": ["skcurve/_interpolate.py:InterpolatorBase._get_interpolation_grid", "skcurve/_interpolate.py:UniformExtrapolationGrid.__call__", "skcurve/_interpolate.py:PreservedSpeedInterpolationGrid.__call__"]}
{"id": "C146", "title": "How far window smoothing moves the points", "statement": "With a window of entries at least 0 and a positive sum, in the modes reflect, mirror and nearest, smoothing moves no point by more than half the window length times the longest segment. On samples at the step h of a curve whose derivative is Lipschitz with constant M, a symmetric window of 2m+1 entries moves every point at least m points away from the ends by at most M h^2/2 times the mean of (k-m)^2 under the window, hence by at most M (m h)^2/2, in all modes. For arc with the default window: m |r| h everywhere and |r| (m h)^2/2 in the interior.", "quantifier": "all float curves, windows, modes, smooth curves and steps", "why_tests_cant": "A bound for all curves and an order of convergence.", "anchors": ["skcurve/_smooth.py:window_filter", "skcurve/_smooth.py:smooth", "skcurve/curves.py:arc"]}
{"id": "C147", "title": "Savitzky-Golay smoothing and differentiation converge", "statement": "For every odd window length, order p and derivative d <= p there is a constant K such that for all samples at the step h of a function whose p-th derivative is Lipschitz with constant M, savgol with delta = h returns the d-th derivative of the function up to K M |h|^(p+1-d): with mode interp at all points, the ends included, with the other modes at points at least half a window away from the ends. In general (any delta) it returns (h/delta)^d times the derivative up to K M |h|^(p+1)/|delta|^d.", "quantifier": "all window lengths, orders, derivatives, functions, steps and numbers of points", "why_tests_cant": "An order of convergence.", "anchors": ["skcurve/_smooth.py:savgol_filter", "skcurve/_smooth.py:smooth"]}
{"id": "C148", "title": "Laws between selecting, joining and editing", "statement": "Selecting points twice is one selection of the positions selected twice, in particular c[a:b][i:j] is c[a+i:min(b,a+j)]; delete is the selection of the rest; reverse() is c[::-1]; insert(k, o) is c[:k] + o + c[k:]; the parts of a join are the joined curves; inserting or deleting coordinates commutes with selecting points, with joining curves and (with places counted accordingly) with inserting another coordinate; the unique points of a join are those of the first curve followed by those of the second that are not in the first; nonsingular() twice is nonsingular().", "quantifier": "all curves, indexers, masks, positions and values", "why_tests_cant": "Equations between combinations of operations for all arguments.", "anchors": ["skcurve/_base.py:Curve.__getitem__", "skcurve/_base.py:Curve.__add__", "skcurve/_base.py:Curve.insert", "skcurve/_base.py:Curve.delete", "skcurve/_base.py:Curve.reverse", "skcurve/_base.py:Curve.insertdim", "skcurve/_base.py:Curve.deletedim", "skcurve/_base.py:Curve.unique", "skcurve/_base.py:Curve.nonsingular"]}
{"id": "C149", "title": "Accuracy of hermite, pchip and akima interpolation", "statement": "If coordinate j of the points is a function g of the parameter with steps at most h, and M is a Lipschitz constant of the derivative of g, coordinate j of pchip interpolation differs from g by at most 3/8 M h^2 and that of akima by at most 1/2 M h^2. Hermite interpolation of a curve without own parameter stays within half the length of a piece from the chord of the piece; if all second differences of the points are at most B (and speeds above 1e-8), within B/4; so that for points sampled at equal steps h from a smooth curve every point of the result is within 3/8 M h^2 of that curve.", "quantifier": "all smooth functions and curves of every dimension, samplings and values inside the range of the parameter", "why_tests_cant": "Error bounds for every smooth function and every sampling.", "anchors": ["skcurve/_interpolate.py:CubicHermiteSplineInterpolator", "skcurve/_interpolate.py:PchipInterpolator", "skcurve/_interpolate.py:AkimaInterpolator", "skcurve/_diffgeom.py:CurvePointFunctionMixin.frenet1"]}
{"id": "C150", "title": "Accuracy of intersections of sampled smooth curves", "statement": "If the points of curves lie on smooth curves whose derivatives have the Lipschitz constants M and the parameters of neighbouring points differ by at most h, every point reported as EXACT is within M h^2/8 (plus 1e-5 + 1e-8 times the longest chord) of both smooth curves, for two curves and for self-intersections; the almost method (without remove_extra and correct_overlap) reports only pairs where the smooth curves come within dist_tol plus M h^2/8 of both, and misses no pair of segments where they come within dist_tol minus M h^2/8 of both minus the error of the segment distance. For graphs y = f(x), y = k(x) with f' - k' >= mu > 0 sampled at the same abscissas, their crossing is reported with an abscissa error of at most (Mf + Mk) h^2/(8 mu), if steps and angle are above the tolerances of the method, and every EXACT point is near that crossing.", "quantifier": "all smooth curves of every dimension and samplings, all smooth functions with a transversal crossing", "why_tests_cant": "Error bounds and completeness for every smooth curve and every sampling.", "anchors": ["skcurve/_intersect.py:ExactIntersectionMethod", "skcurve/_intersect.py:AlmostIntersectionMethod", "skcurve/_intersect.py:IntersectionMethodBase.__call__", "skcurve/_geomalg.py:segments_to_segments"]}
{"id": "C151", "title": "Accuracy of the Frenet vectors and of the torsion of sampled smooth curves", "statement": "For points sampled with step h on a smooth curve (fourth derivative bounded, speed, normal part of the second and binormal part of the third derivative bounded away from 0), as long as the vectors that are normalised exceed the absolute threshold 1e-8: the unit tangents are those of the curve up to a multiple of h^2 at every point; the unit normals up to a multiple of h^2 inside (h at the ends); the unit binormals up to a multiple of h, and the torsion is the torsion of the curve (in space |det(d, e, f)| / |d x e|^2) up to a multiple of h, at all points that are not among the first three and last three. Conditions on h alone imply that the threshold is exceeded. When h is so small that h^3 F + (7/8) M h^4 <= 1e-8 the binormals are not normalised and the torsion comes out (almost) zero, e.g. for a helix of torsion 1/2 sampled with step 1/1000: the torsion does not converge.", "quantifier": "all smooth curves of every dimension, all step widths and sizes", "why_tests_cant": "Error bounds with explicit constants for every smooth curve and every step.", "anchors": ["skcurve/_diffgeom.py:CurvePointFunctionMixin.frenet1", "skcurve/_diffgeom.py:CurvePointFunctionMixin.frenet2", "skcurve/_diffgeom.py:CurvePointFunctionMixin.frenet3", "skcurve/_diffgeom.py:CurvePointFunctionMixin.torsion"]}
{"id": "C152", "title": "Text representations", "statement": "repr of points, curve points, segments, curve segments and curves leaves numpy's print options unchanged and does not depend on the precision and suppression set by the caller (for curves neither on threshold and edge items); numbers are written with four digits after the point. The text of a curve is the class name, numpy's lines of its points aligned below each other, then size, ndim and dtype; all points are shown if there are at most 10, else the first four and the last four (then also only four plus four coordinates in more than 8 dimensions). Equal texts mean: for curves equal size, dimension, dtype and equal text of the shown points; for points equal dimension, dtype and text; for curve points and curve segments equal index and text; for segments equal texts of both ends. Hidden points and parameter values are not told by the text.", "quantifier": "all curves, points, segments and print options, every way of numpy to write numbers", "why_tests_cant": "Injectivity and layout for all texts that numpy may produce.", "anchors": ["skcurve/_base.py:Point.__repr__", "skcurve/_base.py:CurvePoint.__repr__", "skcurve/_base.py:Segment.__repr__", "skcurve/_base.py:CurveSegment.__repr__", "skcurve/_base.py:Curve.__repr__", "skcurve/_intersect.py:SegmentsIntersection.__repr__"]}
{"id": "C153", "title": "Small changes of the points change the results little", "statement": "If the points of a curve are moved by at most d: chord lengths change by at most 2d, the cumulative arc length at index k by 2kd and the arc length by 2(m-1)d; the first three derivatives by 4d, 16d, 64d (d away from the ends), the speed like the first derivative; unit tangents by 8d over the speed; the curvature of a plane curve by a constant times d; linear interpolation at the same parameter values and window smoothing by at most d; the points of a curve of m points resampled linearly to n points of equal spacing by (4(m-1)+1)d; natural cubic splines and PCHIP (every coordinate) by (1 + 3/2 hmax/hmin) d, where the steps of the parameter are between hmin and hmax; Hermite interpolation by (1 + 2 hmax/v) d with v the smallest speed; Savitzky-Golay smoothing by the root of the window length times d, its derivatives by a constant times d. Akima interpolation has no such bound. The distances of segments change by at most 2d up to the error of the computation. Two crossing segments of the plane still cross and the reported point moves by at most a constant times d.", "quantifier": "all curves and segments, all perturbations within the stated bounds", "why_tests_cant": "All inputs and all perturbations; explicit constants.", "anchors": ["skcurve/_base.py:Curve.chordlen", "skcurve/_base.py:Curve.arclen", "skcurve/_diffgeom.py:curvature", "skcurve/_diffgeom.py:gradient", "skcurve/_interpolate.py:LinearInterpolator", "skcurve/_interpolate.py:CubicSplineInterpolator", "skcurve/_interpolate.py:CubicHermiteSplineInterpolator", "skcurve/_interpolate.py:PchipInterpolator", "skcurve/_interpolate.py:AkimaInterpolator", "skcurve/_smooth.py:window_filter", "skcurve/_smooth.py:savgol_filter", "skcurve/_geomalg.py:segment_to_segment", "skcurve/_intersect.py:ExactIntersectionMethod"]}
{"id": "C154", "title": "Segments, distances and intersections do not depend on the unit of length", "statement": "Multiplying all coordinates by k > 0 multiplies the length of a segment, its points and the overlap by k, keeps coplanarity and (with the tolerance k^4 tol) parallelism, and keeps the angle; the distance of a segment to a point or a segment is multiplied by k up to the error of the computation and exactly on grids; the almost method with the distance tolerance k d accepts the same pairs of segments; the exact method reports the intersection in the other unit.", "quantifier": "all segments and curves, all k > 0", "why_tests_cant": "The absolute tolerances of the code make the answer depend on the unit; tests use one unit.", "anchors": ["skcurve/_base.py:Segment.angle", "skcurve/_base.py:Segment.overlap", "skcurve/_geomalg.py:segment_to_point", "skcurve/_geomalg.py:segment_to_segment", "skcurve/_intersect.py:ExactIntersectionMethod", "skcurve/_intersect.py:AlmostIntersectionMethod"]}
{"id": "C155", "title": "Crossings of segments in floating point", "statement": "With every operation rounded, the exact method finds the crossing of two segments of the plane whose lengths and angle stay within explicit bounds, and the reported coordinates are correct up to an explicit error; whatever point it reports lies on both segments up to rounding and the tolerances. For far points the crossing can be missed.", "quantifier": "all pairs of segments of the plane within the bounds, every rounding function with relative error eps, every solver with a small backward error", "why_tests_cant": "Rounding errors depend on every bit of the coordinates; tests use a few small ones.", "anchors": ["skcurve/_intersect.py:ExactIntersectionMethod", "skcurve/_base.py:Segment.point"]}
{"id": "C156", "title": "Distance of segments and almost intersections in floating point", "statement": "With every operation rounded, the distance of two segments computed by the library is never smaller than their distance by more than rounding, and for segments at an angle it exceeds it by at most an explicit error. So the method almost reports segments that come closer than dist_tol less this error and nothing that stays farther apart than dist_tol plus rounding.", "quantifier": "all pairs of segments in every dimension within the bounds on length and angle, every order of the sums, every rounding function with relative error eps", "why_tests_cant": "The error depends on every bit of the coordinates and on which of the nine branches is taken; wrong results need nearly parallel segments and a determinant that is lost in rounding.", "anchors": ["skcurve/_geomalg.py:segment_to_segment", "skcurve/_base.py:Segment.shortest_segment", "skcurve/_intersect.py:AlmostIntersectionMethod"]}
{"id": "C157", "title": "Almost intersections of curves in floating point", "statement": "With every operation rounded, the computation for all pairs of segments of two curves at once gives for each pair what the computation for the pair alone may give. Every pair reported by the method almost comes closer than dist_tol up to rounding, and every pair at an angle that comes closer than dist_tol less an explicit error is reported once, in row-major order.", "quantifier": "all pairs of curves and all curves with themselves in every dimension, every order of the sums, every rounding function with relative error eps", "why_tests_cant": "The vectorised code with its thirteen masks must take the branch of the scalar code for every pair, whatever the rounding; tests compare a few pairs.", "anchors": ["skcurve/_geomalg.py:segments_to_segments", "skcurve/_intersect.py:AlmostIntersectionMethod"]}
{"id": "C158", "title": "Curvature in floating point", "statement": "With every operation rounded the curvature of a plane curve has an explicit absolute error, of the order eps B / v^2 for coordinates up to B and speed v inside and eps B^2 / v^3 at the ends; for a sampled smooth curve it is the curvature of the curve up to an error of the order h + eps B / h^2. In other dimensions the error at points away from the ends is of the order n eps / v, whatever the coordinates. A straight line of close points has a computed curvature above 10^14.", "quantifier": "all curves and points with positive speed, every order of the sums, every power accurate to eta, every rounding function with relative error eps", "why_tests_cant": "Cancellation in the second differences depends on the coordinates and the spacing of the points; tests use a few smooth curves of moderate size.", "anchors": ["skcurve/_diffgeom.py:curvature"]}
{"id": "C159", "title": "Orientation in floating point", "statement": "With the determinant of the end points computed by elimination in rounded arithmetic, coorientplane still returns the copy or the reversed curve. If the determinant exceeds 5 eps times its larger product, the choice is the exact one, a second call changes nothing, and the reversed curve gives the same result. A closed curve may be left as it is instead of reversed.", "quantifier": "all curves with two or more points, all axes, every way LAPACK may compute the multiplier and the update, every rounding function with relative error eps", "why_tests_cant": "The sign depends on the last bits for nearly collinear end points; tests use clear angles.", "anchors": ["skcurve/_diffgeom.py:coorientplane", "skcurve/_base.py:Curve.coorientplane"]}
{"id": "C160", "title": "Collinear and coplanar points in floating point", "statement": "collinear, coplanar and isplane with rounded differences and with singular values which are accurate to eta times the largest one. Points of a line through the origin, also after rounding their coordinates, are found collinear; points in a plane are found coplanar. What is found collinear (coplanar) lies within rho S of one line through the origin (one plane), with rho about max(m, n) 2^-52 + eta, and all 2x2 minors are as small. Lines which do not pass through the origin are not found.", "quantifier": "all points, all dimensions, every rounding function with relative error eps, every way LAPACK may compute the singular values", "why_tests_cant": "The decision is a comparison of a tiny singular value with a tiny threshold; samples cannot tell how far from a line the points may be.", "anchors": ["skcurve/_geomalg.py:collinear_points", "skcurve/_geomalg.py:coplanar_points", "skcurve/_base.py:Segment.collinear", "skcurve/_base.py:Segment.coplanar", "skcurve/_base.py:Curve.isplane"]}
{"id": "C161", "title": "Exact intersections of curves in floating point", "statement": "The exact method for segments and curves of the plane in rounded arithmetic, with the test of collinearity, the boxes and the solver. The list contains the intersecting pairs once each in row-major order. In binary64, with coordinates up to 1000, segments of length at most 10 and area at least 1 which meet at P are reported as an exact intersection within 1e-10 of P. What is reported lies near both segments, or is the common part of the boxes of segments taken for collinear. Far from the origin crossing segments are reported as overlapping.", "quantifier": "all curves of the plane, every rounding function with relative error eps, every solver and SVD with accuracy eta", "why_tests_cant": "Missed and false intersections come from the interplay of four tolerances; tests try a few well separated crossings.", "anchors": ["skcurve/_intersect.py:ExactIntersectionMethod._intersect_segments", "skcurve/_intersect.py:ExactIntersectionMethod._intersect_curves", "skcurve/_intersect.py:ExactIntersectionMethod._find_segments_bbox_intersection"]}
{"id": "C162", "title": "Curves with NaN and infinite coordinates", "statement": "Lengths, derivatives, Frenet vectors, speed, curvature and torsion of curves whose coordinates may be NaN or infinite. A value depends only on the points its finite differences use; if these are finite it is the value for a curve of numbers, and if one of them is not the value is not a number either. nonsingular removes the points that are not finite. Window smoothing spoils exactly the points whose window meets such a coordinate. Exact intersections are those of the segments without NaN.", "quantifier": "all curves over the reals extended by NaN and the two infinities", "why_tests_cant": "How far a missing value spreads depends on the position of the gap, the distance to the ends and the order of the derivative; tests contain no missing values.", "anchors": ["skcurve/_diffgeom.py:_gradient", "skcurve/_diffgeom.py:arclen", "skcurve/_diffgeom.py:curvature", "skcurve/_diffgeom.py:torsion", "skcurve/_base.py:Curve.nonsingular", "skcurve/_smooth.py:window_filter", "skcurve/_intersect.py:ExactIntersectionMethod._find_segments_bbox_intersection"]}
{"id": "C163", "title": "Resampling a curve in floating point", "statement": "curve.interpolate(n, method='linear') of a float curve without parameter values, computed in floating point from the chords on (any order of the sums). If the first two points differ and the points of the result are at least 3e-8 apart it returns n points; the first is the first point of the curve, and point i is, up to 2^-53 times the coordinate plus 24 * 2^-53 L, a point of the polygonal line at the length i L / (n - 1) from its start up to (4 (ndim + size) + 42) 2^-53 L. If the points would be at most 5e-9 apart it is a ValueError. InterpolationError does not occur.", "quantifier": "all float curves of at least two points, all n, every rounding function with a relative error bound; binary64 for up to 1e13 points and dimensions", "why_tests_cant": "The bounds hold for every order of summation and every rounding of the operations; a test fixes one machine and a few curves.", "anchors": ["skcurve/_diffgeom.py:chordlen", "skcurve/_diffgeom.py:cumarclen", "skcurve/_interpolate.py:UniformInterpolationGrid.__call__", "skcurve/_interpolate.py:InterpolatorBase._get_interpolation_grid", "skcurve/_interpolate.py:LinearInterpolator._interpolate"]}
{"id": "C164", "title": "Removing close points in floating point", "statement": "nonsingular of a curve of finite floats, computed with rounding and any order of the sums, returns a part of the curve with its parameter values that contains the first point. A point whose distance from the point before it exceeds 1e-8 by more than the error is kept, one nearer by more than the error is removed; in binary64 and up to a million dimensions the error is 1e-9 of the distance. If no distance is within the error of 1e-8 the result is that of exact arithmetic. Equality of points and Segment.singular follow the tolerance 1e-8 + 1e-5 |y| up to one percent.", "quantifier": "all non-empty curves of finite floats, every rounding function with a relative error bound; binary64", "why_tests_cant": "Points exactly at the threshold and the order of summation decide; a test does not reach them.", "anchors": ["skcurve/_diffgeom.py:nonsingular", "skcurve/_diffgeom.py:chordlen", "skcurve/_base.py:Curve.nonsingular", "skcurve/_base.py:Point.__eq__", "skcurve/_base.py:Segment.singular"]}
{"id": "C165", "title": "Grids by length and by speed in floating point", "statement": "The number of points of UniformInterpolationGrid(fill, kind='length'), computed with rounding and any order of the sums, is one more than L / fill up to 1/2 and the error 2 (ndim + size + 3) eps L / fill, and it is the one of exact arithmetic if the quotient is farther than the error from the middle between two integers. PreservedSpeedInterpolationGrid(n) of a curve of positive length without parameter values has n values, from 0 on and none above the computed length; value i is the length up to a point at the fractional index i (size - 1) / (n - 1), up to 26 (size - 1) eps in the index and (6 (ndim + size) + 92) eps L in the value. No value lies beyond the parameter range.", "quantifier": "all curves with at least two points, every rounding function with a relative error bound; binary64", "why_tests_cant": "The order of summation and quotients next to a tie decide; tests use round numbers.", "anchors": ["skcurve/_interpolate.py:UniformInterpolationGrid", "skcurve/_interpolate.py:PreservedSpeedInterpolationGrid", "skcurve/_numeric.py:linrescale", "skcurve/_diffgeom.py:arclen", "skcurve/_diffgeom.py:cumarclen"]}
{"id": "C166", "title": "Distances of points in floating point", "statement": "With rounding and any order of the sums, Point.distance by cityblock, sqeuclidean, canberra, braycurtis and euclidean (minkowski) differs from the exact distance by a small part of it: at most 2 n eps, 2 (n + 2) eps, 2 (n + 3) eps, 2 (3 n + 1) eps and about eps + eta for points of n coordinates, eta the relative error of the BLAS norm; chebyshev is the exact distance rounded once; cosine lies in [0, 2] and is within 6 (n + 2) eps of the exact distance. All are symmetric to the last digit, all but cosine are 0 for the same coordinates only, and a detour is not shorter up to these errors. The triangle inequality holds for the computed values, and points in the same direction have cosine distance 0.", "quantifier": "all points with n coordinates, every rounding function with a relative error bound; binary64", "why_tests_cant": "Errors depend on magnitudes and on the order of summation; tests use small integers, where every operation is exact.", "anchors": ["skcurve/_distance.py:get_metric", "skcurve/_base.py:Point.distance"]}
{"id": "C167", "title": "Reading one curve from several threads", "statement": "Threads that read properties of one curve (lengths, parameters, derivatives, Frenet vectors, speed, curvature, torsion) in any interleaving all obtain the values, or errors, computed from scratch. Arrays handed out keep their content, a thread ends after a bounded number of own steps whatever the others do, and a later read sees the same values. Every thread obtains the same array for a property.", "quantifier": "all curves, any number of threads, any sequences of reads, all interleavings of their steps (dictionary lookup, store, allocation, use of an array)", "why_tests_cant": "Interleavings of sixteen mutually dependent lazy properties cannot be enumerated by tests, and races show up rarely.", "anchors": ["skcurve/_base.py:Curve.chordlen", "skcurve/_base.py:Curve.t", "skcurve/_diffgeom.py:frenet1", "skcurve/_diffgeom.py:normal", "skcurve/_diffgeom.py:curvature", "skcurve/_diffgeom.py:torsion"]}
{"id": "C168", "title": "Registering and looking up methods from several threads", "statement": "Threads that register methods, set the default and look names up in any interleaving: names stay different and are never lost, the default is a registered name, every class found under a name was registered under it and is a subclass of the base class, a lookup gives a class or a NameError (never a KeyError), every call ends after four own steps. Of several registrations of one new name one succeeds and the others are refused with a ValueError.", "quantifier": "all registries, any number of threads and calls, all interleavings of their steps", "why_tests_cant": "The test and the store of a registration are separate steps; a test does not hit the moment between them.", "anchors": ["skcurve/_intersect.py:register_intersect_method", "skcurve/_intersect.py:set_default_intersect_method", "skcurve/_intersect.py:get_intersect_method", "skcurve/_interpolate.py:register_interpolator", "skcurve/_interpolate.py:get_interpolator"]}
{"id": "C169", "title": "Warnings of the computed properties", "statement": "On a new curve any series of reads of its properties issues each warning at most once per property, and exactly these: for every property that had to be computed and takes differences, the missing points (2 of 3; or 1 of 3, 1 of 2 and 'cannot'); for every computed kind of Frenet vectors, one if some vector does not have unit length. A property read before issues none, even if reading it failed. Nothing is computed that the reads do not need. Values and stored arrays do not depend on the warnings. Lengths and parameters never warn, nor does an empty curve.", "quantifier": "all curves, all series of reads of any properties", "why_tests_cant": "Warnings depend on what was read before; tests check a warning for a single property of a single curve.", "anchors": ["skcurve/_diffgeom.py:_gradient", "skcurve/_diffgeom.py:_frenet_vector_norm", "skcurve/_diffgeom.py:frenet1", "skcurve/_diffgeom.py:frenet2", "skcurve/_diffgeom.py:frenet3", "skcurve/_diffgeom.py:curvature", "skcurve/_diffgeom.py:torsion"]}
{"id": "C170", "title": "Warnings of segments, intersections, interpolators and of the constructor", "statement": "Warnings say what happened and change no result. Segment.t of a point warns iff the result is NaN, and a value is given silently only for a point of the line; for several points it warns iff some result is NaN. Segment.angle warns iff the result is NaN, for degenerate segments. Exact intersections never warn in exact arithmetic. intersect warns iff a method object is given together with parameters, which have no effect. An interpolator warns iff the curve is empty or the grid does not cover the range. Curve(curve, ...) warns iff tdata or axis is given, which have no effect.", "quantifier": "all segments of any dimension, points, curves, methods, grids and arguments", "why_tests_cant": "Tests look for a warning in single cases and never for its absence; the conditions are tolerances on all coordinates.", "anchors": ["skcurve/_geomalg.py:segment_t", "skcurve/_geomalg.py:segments_angle", "skcurve/_intersect.py:ExactIntersectionMethod._intersect_segments", "skcurve/_intersect.py:intersect", "skcurve/_interpolate.py:InterpolatorBase.__call__", "skcurve/_base.py:Curve.__init__"]}
{"id": "C171", "title": "Resampling a straight line keeps the spacing of the grid", "statement": "For points in order on a straight line (no own parameter) interpolation by linear, pchip, cubic (natural, not-a-knot), spline without smoothing, csaps, hermite and, within the curve, akima gives the points of that line: the chord lengths of the result are the steps of the grid and its arc length is the last grid value minus the first. A uniform grid of n points (or for a chord length f) gives equal chords, the length and the end points of the curve; extrapolation by b and a points adds (b + a) steps, by lengths v and w adds v + w up to one step, exactly if they are multiples of the step.", "quantifier": "all curves of at least 2 points in order on a line, of any dimension and distances; all grids with steps above 1e-8", "why_tests_cant": "unbounded", "anchors": ["skcurve/_interpolate.py:interpolate", "skcurve/_interpolate.py:UniformInterpolationGrid", "skcurve/_interpolate.py:UniformExtrapolationGrid"]}
{"id": "C172", "title": "Window smoothing and linear interpolation stay in the convex hull of the points", "statement": "Smoothing a float curve with windows of entries at least 0 and a positive sum, any number of rounds and each with its own window and mode, leaves every point in the convex hull of the points of the given curve, so in every convex region that contains these; in the modes reflect, mirror and nearest no segment becomes longer than the longest one was. Linear interpolation at grid values within the range of the parameter gives points of the convex hull.", "quantifier": "all float curves with points, of any size and dimension; all lists of windows; all grids with steps above 1e-8 within the range", "why_tests_cant": "unbounded", "anchors": ["skcurve/_smooth.py:window_filter", "skcurve/_interpolate.py:LinearInterpolator"]}
{"id": "C173", "title": "A part of a curve has the lengths and the local geometry of the curve", "statement": "For points p_i, p_j (i <= j) of a curve, the chord lengths of p_i.subcurve(p_j) are the chord lengths i..j-1 of the curve, its cumulative lengths are cumarclen[i+k] - cumarclen[i] and its arclen is cumarclen[j] - cumarclen[i], at least the distance of p_i and p_j; own parameter values are kept and the default parameter starts at 0 again. First derivative, speed and tangent (second derivative, normals and curvature; third derivative, binormals and torsion) of the part at its point k are those of the curve at point i+k.", "quantifier": "all curves, all pairs of positions, all points of the part", "why_tests_cant": "unbounded", "anchors": ["skcurve/_base.py:CurvePoint.subcurve", "skcurve/_diffgeom.py:chordlen", "skcurve/_diffgeom.py:_gradient", "skcurve/_diffgeom.py:CurvePointFunctionMixin.frenet1", "skcurve/_diffgeom.py:CurvePointFunctionMixin.curvature", "skcurve/_diffgeom.py:CurvePointFunctionMixin.torsion"]}
