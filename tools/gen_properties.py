#!/usr/bin/env python3
"""Source of /verif/properties.jsonl (one record per property)."""
import json, os
P = []
def p(id, title, statement, quantifier, why, anchors):
    P.append(dict(id=id, title=title, statement=statement, quantifier=quantifier,
                  why_tests_cant=why, anchors=anchors))
B='skcurve/_base.py'; G='skcurve/_geomalg.py'; I='skcurve/_intersect.py'; D='skcurve/_diffgeom.py'
N='skcurve/_interpolate.py'; S='skcurve/_smooth.py'; U='skcurve/_utils.py'; M='skcurve/_numeric.py'
X='skcurve/_distance.py'; C='skcurve/curves.py'

p('C01','Every curve that the API can produce is well formed',
  'A Curve returned by the constructor or by any chain of curve-returning operations (indexing, slicing, masking, +, reverse, insert, append, delete, insertdim, appenddim, deletedim, unique, drop, nonsingular, coorientplane, copy, subcurve, interpolate, smooth) has ndim >= 2, all points have exactly ndim coordinates, and if isparametric then t has exactly size entries.',
  'all constructor inputs and all finite histories of operations with arbitrary arguments',
  'the set of histories is infinite; a test covers a handful of chains',
  [f'{B}:Curve.__init__', f'{B}:Curve.__getitem__', f'{B}:Curve.insert', f'{B}:Curve.delete', f'{B}:Curve.drop'])
p('C02','Coordinate vectors round-trip through the constructor',
  'Curve([X1,...,Xn]) with n >= 2 coordinate vectors of the same length m >= 1 has size m, ndim n, values(i) returns Xi (also for negative axes -n..-1), and point j has coordinates (X1[j],...,Xn[j]). An axis >= ndim is a ValueError.',
  'all n >= 2, all m >= 1, all coordinate values, all axes','sizes and values are unbounded',
  [f'{B}:Curve.__init__', f'{B}:Curve.values', f'{U}:as2d'])
p('C03','Building from an N-D array along an axis loses and duplicates nothing',
  'For a non-empty array of any rank and an axis in range, row i of the 2-D form holds exactly the elements whose index on that axis is i, in C order of the remaining axes; negative axes count from the end; an axis outside -rank..rank-1 is rejected with ValueError.',
  'all ranks, shapes, axes and contents','rank and shape are unbounded',
  [f'{U}:as2d', f'{B}:Curve.__init__'])
p('C04','ndmin pads with zero coordinates and changes nothing else',
  'Curve(data, ndmin=k) has ndim max(k, dimension of data), its first coordinates are the data unchanged, the added ones are 0, size is unchanged, and chord lengths and arc length equal those of Curve(data).',
  'all data, all k >= 2','all dimensions and sizes',
  [f'{B}:Curve.__init__', f'{D}:chordlen'])
p('C05','Copying a curve is the identity on its observable value',
  'Curve(c), copy(c) and deepcopy(c) have the same points, ndim, dtype and parametrization as c.',
  'all curves c the API can produce, including empty ones','every shape including degenerate ones',
  [f'{B}:Curve.__init__', f'{B}:Curve.__copy__', f'{B}:Curve.__deepcopy__'])
p('C06','Integer indexing follows the Sequence protocol',
  'c[i] succeeds exactly when -size <= i < size, returns the point stored at position i (counting from the end if negative) with idx equal to that position in 0..size-1, and raises IndexError otherwise.',
  'all curves and all integers i','integers are unbounded; the failing ones are outside the range tests sample',
  [f'{B}:Curve.__getitem__', f'{B}:CurvePoint.__init__'])
p('C07','Slicing a curve is Python slicing of its points and of its t together',
  'c[start:stop:step] has as points the Python slice of the list of points and, if c is parametric, as t the same slice of t, for every start, stop (any sign, missing or out of range) and non-zero step.',
  'all curves, all start/stop/step','unbounded integers and sizes',
  [f'{B}:Curve.__getitem__'])
p('C08','Index lists and boolean masks select points and t consistently',
  'c[list of ints] gives the listed points in the listed order with the matching t values and raises IndexError exactly when some index is out of range or the list is empty (an empty list is a float array for numpy); c[mask] keeps exactly the points whose mask entry is True, in order, with matching t.',
  'all curves, all index lists, all masks','unbounded',
  [f'{B}:Curve.__getitem__'])
p('C09','Splitting and concatenating are inverse; concatenation is associative',
  'c[:k] + c[k:] equals c for every integer k; (a+b)+c equals a+(b+c); sizes add; the concatenation is parametric exactly when both parts are and then t is the concatenation of the two; curves of different dimension are rejected with ValueError.',
  'all curves and all integers k','unbounded, and the degenerate split points are the interesting ones',
  [f'{B}:Curve.__add__', f'{B}:Curve.__getitem__'])
p('C10','reverse is an involution that keeps points and t paired',
  'c.reverse() has the points of c in opposite order, each still paired with its own t value; reversing twice gives c back; reverse distributes over concatenation with the order swapped.',
  'all curves','unbounded sizes',
  [f'{B}:Curve.reverse'])
p('C11','insert puts the new points at the requested place and nothing else moves',
  'c.insert(i, other) with -size <= i <= size has size c.size + other.size; the points before position i are unchanged, then come the points of other in order, then the remaining points of c; the result is not parametric; other integers raise IndexError; append is insert at the end; inserting with a list of positions puts the k-th new point immediately before the k-th named original point; different dimension is a ValueError.',
  'all curves, positions and inserted points or curves','unbounded',
  [f'{B}:Curve.insert', f'{B}:Curve.append'])
p('C12','delete removes exactly the named points and keeps t aligned',
  'c.delete(idx) for an int, list of ints, slice or mask keeps exactly the points whose position is not named, in order, with their own t values; an out-of-range int or list entry raises IndexError, a zero step or a mask of another length ValueError; deleting what was just inserted at one position gives the original points back.',
  'all curves, all indexers','unbounded',
  [f'{B}:Curve.delete'])
p('C13','Indexing and deleting by the same slice or mask partition the curve',
  'For every slice s, the points of c[s] together with the points of c.delete(s) are a permutation of the points of c.',
  'all curves, all slices','unbounded',
  [f'{B}:Curve.__getitem__', f'{B}:Curve.delete'])
p('C14','insertdim, values and deletedim are inverse and act on one axis only',
  'c.insertdim(a, v) with 0 <= a <= ndim has values(a) = v and all other axes unchanged in order; deletedim(a) of it has the points of c back; deletedim of a 2-dimensional curve raises ValueError; deletedim never changes the number of points.',
  'all curves, axes and value vectors','unbounded',
  [f'{B}:Curve.insertdim', f'{B}:Curve.appenddim', f'{B}:Curve.deletedim', f'{B}:Curve.values'])
p('C15','unique keeps exactly the first occurrence of each point, in order',
  'c.unique() has no two equal points, contains every point of c, its points are in the order of their first occurrence in c and each keeps the t value of its first occurrence; unique is idempotent.',
  'all curves without NaN','unbounded; the implementation sorts and un-sorts so order preservation is not local',
  [f'{B}:Curve.unique'])
p('C16','drop removes exactly the flagged points',
  'For a checker that returns a boolean vector of length size, a boolean size x ndim matrix, or a vector of indices, c.drop(checker) keeps exactly the points not flagged (for a matrix: no coordinate flagged), in order, with their own t values.',
  'all curves, all checkers','arbitrary callables',
  [f'{B}:Curve.drop'])
p('C17','nonsingular returns a curve without NaN, Inf and near-zero segments',
  'c.nonsingular() has only finite coordinates, its points are a subsequence of those of c with their t values, and no two consecutive points of it are closer than the tolerance 1e-8; a curve that already has these properties is returned unchanged.',
  'all curves including NaN/Inf points in any position','the failing patterns need specific neighbours',
  [f'{B}:Curve.nonsingular', f'{D}:nonsingular', f'{B}:Curve.drop'])
p('C18','Equality of points, segments and curves is an equivalence up to dtype',
  '== is reflexive on objects with finite coordinates, symmetric and (for integer data) transitive; objects of different dimension or size are unequal; a NaN coordinate makes an object unequal to everything.',
  'all pairs and triples of objects','the tolerance makes the relation fail only on thin bands of values',
  [f'{B}:Point.__eq__', f'{B}:Segment.__eq__', f'{B}:Curve.__eq__', f'{M}:isequal', f'{M}:allequal'])
p('C19','Membership, count and index agree',
  'p in c is true exactly when c.count(p) > 0 and exactly when c.index(p) returns; c.index(p) is the smallest matching position; count is the number of matching positions; count over a concatenation is the sum of the counts.',
  'all curves and points of the same dimension','unbounded',
  [f'{B}:Curve.__contains__', f'{B}:Curve.count', f'{B}:Curve.index'])
p('C20','index(point, start, end) searches exactly the given interval and returns an index into the curve',
  'If it returns k then position k of c holds a point equal to the given one and lies in the interval start:end, and it is the first such position; it raises ValueError exactly when there is none.',
  'all curves, points, and all start/end integers','out-of-range starts',
  [f'{B}:Curve.index'])
p('C21','Sub-curve membership is contiguous containment',
  'other in c (same dimension) is true exactly when other occurs as a block of consecutive points of c; a curve of different dimension is never contained; every slice with step 1 of c is contained in c.',
  'all pairs of curves','unbounded',
  [f'{B}:Curve.__contains__'])
p('C22','Lazy caching is invisible: a curve looks the same after any history of reads',
  'Reading t, chordlen, arclen, cumarclen, firstderiv, secondderiv, thirdderiv, tangent, speed, frenet vectors in any order and any number of times always returns the value a fresh object would return, and never changes data.',
  'all finite histories of reads (and of user writes into returned arrays)','infinitely many histories',
  [f'{B}:Curve.t', f'{B}:Curve.chordlen', f'{B}:Curve.arclen', f'{D}:CurvePointFunctionMixin.cumarclen'])
p('C23','Point arithmetic is componentwise and reflected operators swap the operands',
  'For points of equal dimension and each of + - * / //, p op q applies op to each pair of coordinates; with a number on either side it is applied to every coordinate with the operands in the written order; other operand types raise TypeError; p - p = 0, (p + q) - q = p in exact arithmetic; p @ q is symmetric and bilinear.',
  'all points and numbers','unbounded',
  [f'{B}:Point._op', f'{B}:Point.__matmul__'])
p('C24','Copying a point is the identity on its observable value',
  'Point(p), copy(p), deepcopy(p) have the coordinates and dtype of p.',
  'all points and dtypes','dtype x value',
  [f'{B}:Point.__init__', f'{B}:Point.__deepcopy__'])
p('C25','Segment.point is the affine parametrization of the segment',
  'point(0)=p1, point(1)=p2, point(t) is between p1 and p2 for t in [0,1], the distance of point(s) and point(t) is |s-t| times the segment length, and a sequence of t gives the list of the single results.',
  'all segments in all dimensions, all t','unbounded dimension, real t',
  [f'{G}:segment_point', f'{B}:Segment.point'])
p('C26','Segment.t inverts Segment.point',
  'For a non-singular segment, s.t(s.point(t)) = t for every t; for a point not on the line of the segment it returns NaN; for a sequence it returns the vector of the single results.',
  'all non-singular segments, all t, all points','a measure-zero set of lines works in tests',
  [f'{G}:segment_t', f'{B}:Segment.t'])
p('C27','collinear is true exactly when the objects lie on one line',
  's.collinear(other) is True iff p1, p2 and the point(s) of other lie on a common straight line (exact arithmetic).',
  'all segments, points, dimensions','the failing set is almost every line',
  [f'{G}:collinear_points', f'{B}:Segment.collinear'])
p('C28','parallel is true exactly for parallel directions',
  's.parallel(r) is True when one direction is a multiple of the other; it is symmetric; when it is True the Gram determinant of the directions is below the tolerance; non-parallel segments are reported non-parallel.',
  'all pairs of segments in all dimensions and all scales','scale dependence shows only for short segments',
  [f'{G}:parallel_segments'])
p('C29','coplanar / isplane is true exactly when the points lie in one plane',
  'For any number of points in any dimension, the check is True iff all points lie in a common affine plane (dimension at most 2); it is invariant under translation.',
  'all finite point sets, all dimensions','unbounded',
  [f'{G}:coplanar_points', f'{B}:Segment.coplanar', f'{B}:Curve.isplane'])
p('C30','angle lies in [0, pi], is symmetric, and reversing one segment gives the supplement',
  'For segments whose length product is not near 0: 0 <= angle <= pi, angle(s,r)=angle(r,s), angle(s,s)=0, angle(s,r.reverse())=pi-angle(s,r), invariant under scaling a direction by a positive factor; near-singular segments give NaN.',
  'all pairs of segments','continuous domain',
  [f'{G}:segments_angle'])
p('C31','overlap of collinear segments is their common part',
  'For two segments on one line, overlap is None iff they share no point, and otherwise the returned segment consists of exactly the common points; its midpoint lies on both segments.',
  'all collinear pairs in all dimensions','all slopes; tests use one slope',
  [f'{G}:overlap_segments', f'{B}:Segment.overlap'])
p('C32','Segment-to-point distance is the minimum over the segment',
  's.distance(p) <= |s.point(t) - p| for all t in [0,1], up to the documented-by-code tolerance; the foot point lies on the segment.',
  'all segments, points, dimensions, t','continuous domain, all dimensions',
  [f'{G}:segment_to_point', f'{B}:Segment.distance', f'{B}:Segment.shortest_segment'])
p('C33','The shortest connecting segment starts and ends on the two segments',
  'The two parameters computed for two segments always lie in [0,1], even when intermediate results are rounded.',
  'all pairs of segments including singular and parallel ones, every rounding of the intermediate results','branchy clamping code, all roundings',
  [f'{G}:segment_to_segment'])
p('C34','Segment-to-segment distance is the global minimum',
  's1.distance(s2) <= |s1.point(x) - s2.point(y)| for all x, y in [0,1].',
  'all pairs of segments in all dimensions, all x, y','continuous domain, all branch combinations',
  [f'{G}:segment_to_segment', f'{B}:Segment.distance'])
p('C35','distance between segments is symmetric and zero iff they touch',
  's1.distance(s2) = s2.distance(s1); it is 0 iff the segments have a common point.',
  'all pairs of segments','continuous',
  [f'{G}:segment_to_segment', f'{B}:Segment.distance'])
p('C36','The vectorized all-pairs computation equals the scalar one on every pair',
  'For two curves, entry (i,j) of t1, t2 and of the connecting points equals what the scalar segment computation gives for segment i of the first and segment j of the second.',
  'all curves, all (i,j), all tolerances > 0','mask-by-mask code with in-place updates over all branch combinations',
  [f'{G}:segments_to_segments', f'{G}:segment_to_segment'])
p('C37','An exact intersection point lies on both segments',
  'If intersect (method exact) reports EXACT with point P then P lies on both lines with parameters in [0,1] up to the closeness tolerance of the parameter test.',
  'all pairs of segments, all dimensions','continuous',
  [f'{I}:ExactIntersectionMethod._intersect_segments'])
p('C38','Crossing segments are found',
  'If two non-parallel segments have a common point, intersect (method exact) reports EXACT with exactly that point.',
  'all pairs of crossing segments in all dimensions and scales','continuous; scale dependence',
  [f'{I}:ExactIntersectionMethod._intersect_segments', f'{G}:parallel_segments', f'{G}:collinear_points'])
p('C39','Overlapping collinear segments are found',
  'If two segments on one line share a part, intersect (method exact) reports OVERLAP and the intersect_point lies on both.',
  'all overlapping collinear pairs','lines through the origin are special in the code',
  [f'{I}:ExactIntersectionMethod._intersect_segments', f'{G}:collinear_points', f'{G}:overlap_segments'])
p('C40','Bounding-box pruning never discards an intersecting pair',
  'If segment i of one curve and segment j of the other have a common point then (i,j) is among the candidate pairs examined.',
  'all pairs of curves, all (i,j)','all geometries',
  [f'{I}:ExactIntersectionMethod._find_segments_bbox_intersection'])
p('C41','Curve intersection is the row-major list of all intersecting segment pairs',
  'curve1.intersect(curve2) contains one entry for every pair of segments that intersect as segments with common points, no entry for pairs reported NONE, no duplicates, ordered by the first then the second segment index; entry (i,j) carries the result of intersecting the two segments.',
  'all pairs of curves','unbounded',
  [f'{I}:ExactIntersectionMethod._intersect_curves', f'{I}:IntersectionMethodBase._curves_intersect_indices'])
p('C42','Self-intersection reports every unordered non-adjacent pair once',
  'c.intersect() reports only pairs i, j with j >= i+2, each at most once, and misses no such intersecting pair; for a curve intersected with an equal but distinct object all pairs are examined.',
  'all curves','unbounded',
  [f'{I}:IntersectionMethodBase._curves_intersect_indices', f'{B}:Curve.intersect'])
p('C43','Almost-intersection of curves is pairwise almost-intersection of segments',
  'Without remove_extra, curve1.intersect(curve2, "almost", dist_tol=d) reports exactly the segment pairs whose Segment.distance is < d, in row-major order, with the connecting segment equal to Segment.shortest_segment of the pair.',
  'all pairs of curves, all d','vectorized vs scalar code',
  [f'{I}:AlmostIntersectionMethod._intersect_curves', f'{I}:AlmostIntersectionMethod._intersect_segments'])
p('C44','remove_extra keeps exactly one best representative of every cluster',
  'The result is a subsequence of the input; two results are never closer than extra_tol; in every chain-connected cluster of intersection points closer than extra_tol exactly one is kept and its connecting segment is shortest in the cluster; isolated ones are kept; doing it twice changes nothing; the outcome clusters do not depend on the enumeration order.',
  'all lists of intersections, all tolerances, all enumeration orders of components','graph clustering over arbitrary point sets',
  [f'{I}:AlmostIntersectionMethod._remove_extra_intersections'])
p('C45','Intersecting a curve with a segment reports the given segment',
  'For a curve and a segment in either order, every reported intersection names the original segment in its position and a curve segment of the curve in the other, and is otherwise the same as intersecting with the two-point curve of the segment.',
  'all curves and segments, both orders','order/type combinations x unbounded data',
  [f'{I}:IntersectionMethodBase.__call__', f'{B}:Segment.to_curve'])
p('C46','Intersection results are internally consistent',
  'bool(result) is False iff type is NONE iff intersect_point and intersect_segment are None; for EXACT intersect_segment is the singular segment at intersect_point; for OVERLAP/ALMOST intersect_point is the midpoint of intersect_segment; every result returned by the library has data matching its type.',
  'all results of all methods','all reachable results',
  [f'{I}:SegmentsIntersection', f'{I}:IntersectionType.__call__'])
p('C47','intersect reports errors by kind',
  'Different dimension: ValueError; unknown method name: NameError; a method that is neither a name nor a method object: ValueError; any failure inside the method: IntersectionError; no other outcome than a result or one of these.',
  'all argument combinations and all behaviours of the method','arbitrary method behaviour',
  [f'{I}:intersect', f'{I}:get_intersect_method'])
p('C48','IntersectionType(...) accepts exactly the matching data',
  'Calling a type with data builds an info iff the data is None for NONE, a Point for EXACT, a Segment for OVERLAP and ALMOST; ValueError otherwise.',
  'all types and data','(finite in kind, unbounded in data)',
  [f'{I}:IntersectionType.__call__'])
p('C49','Method registries are append-only maps and the default is always registered',
  'Over every history of register / set_default / lookup calls: a registered name keeps its first implementation forever; registering it again raises ValueError and changes nothing; registering a non-method raises TypeError and changes nothing; lookup of an unknown name raises NameError; the default intersect method is always a registered name; methods are listed in registration order without repetition.',
  'all finite histories','infinitely many histories',
  [f'{I}:register_intersect_method', f'{I}:set_default_intersect_method', f'{I}:get_intersect_method', f'{N}:register_interpolator', f'{N}:get_interpolator', f'{S}:register_smooth_method', f'{S}:get_smooth_method'])
p('C50','chordlen, cumarclen and arclen agree',
  'chordlen has size-1 non-negative entries (none for an empty curve); cumarclen has size entries, starts at 0, is non-decreasing even with rounded additions, its differences are the chord lengths and its last entry is arclen; an empty curve has arclen 0.',
  'all curves','unbounded; rounding',
  [f'{D}:chordlen', f'{D}:arclen', f'{D}:CurvePointFunctionMixin.cumarclen'])
p('C51','Arc length is additive and orientation independent',
  'arclen(c.reverse()) = arclen(c); arclen(a+b) = arclen(a) + |last(a)-first(b)| + arclen(b); arclen(c) >= |first - last|; arclen is translation invariant and scales with |k|.',
  'all curves','unbounded',
  [f'{D}:arclen', f'{B}:Curve.reverse', f'{B}:Curve.__add__'])
p('C52','Removing points never lengthens and inserting never shortens a curve',
  'arclen(c.delete(idx)) <= arclen(c), arclen(c[idx]) <= arclen(c) for increasing idx, arclen(c.unique()) <= arclen(c), arclen(c.insert(i, x)) >= arclen(c), for every indexer.',
  'all curves and indexers','unbounded',
  [f'{D}:arclen', f'{B}:Curve.delete', f'{B}:Curve.insert', f'{B}:Curve.unique'])
p('C53','Adding a dimension never shortens chords, adding a zero dimension keeps them',
  'Each chord length of c.insertdim(a, v) is >= that of c, with equality for the default zero values.',
  'all curves, axes, value vectors','unbounded',
  [f'{D}:chordlen', f'{B}:Curve.insertdim', f'{B}:Curve.appenddim'])
p('C54','Numerical derivatives are linear, have the shape of the data, and are exact for quadratics',
  'firstderiv has one vector of dimension ndim per point; it is linear in the data, translation invariant, and for points sampled uniformly from a quadratic curve (size >= 3) it equals the derivative at every point including the ends; for a line (size >= 2) it is the constant step.',
  'all curves and sizes','boundary formulas for all sizes',
  [f'{D}:_gradient', f'{D}:CurvePointFunctionMixin.firstderiv'])
p('C55','Frenet vectors are unit and mutually orthogonal where defined',
  'At every point where the tangent (normal, binormal) norm exceeds the tolerance, frenet1 (frenet2, frenet3) has norm 1; frenet1 is orthogonal to frenet2, and frenet3 to both, wherever they are defined; where the norm is below the tolerance the vector returned is the unnormalized one.',
  'all curves, all points','continuous, all dimensions',
  [f'{D}:CurvePointFunctionMixin.frenet1', f'{D}:CurvePointFunctionMixin.frenet2', f'{D}:CurvePointFunctionMixin.frenet3', f'{D}:_frenet_vector_norm'])
p('C56','Plane curves have zero torsion and straight uniform curves zero curvature',
  'For a 2-dimensional curve torsion is 0 wherever frenet1 and frenet2 are defined; for uniformly sampled straight lines curvature is 0 everywhere; reversing a 2-d curve flips the sign of curvature.',
  'all 2-d curves; all lines, dimensions and sizes','continuous, unbounded',
  [f'{D}:CurvePointFunctionMixin.torsion', f'{D}:CurvePointFunctionMixin.curvature'])
p('C57','coorientplane is independent of the orientation it is given and idempotent',
  'c.coorientplane(a,b) is c or c.reverse(); c.coorientplane(a,b) = c.reverse().coorientplane(a,b); applying it twice is the same as once.',
  'all curves, all axes','closed and degenerate curves',
  [f'{B}:Curve.coorientplane', f'{D}:coorientplane'])
p('C58','Point-wise access to curve properties agrees with the curve arrays',
  'curve[i].f equals curve.f[i] for f in cumarclen, firstderiv, ..., curvature, torsion and t, for every valid i; per-point arrays of a curve with at least one point have one row of ndim values per point.',
  'all curves, all i','unbounded; single-point curves',
  [f'{D}:_maybe_curve_point', f'{B}:CurvePoint.t', f'{D}:_gradient'])
p('C59','The uniform grid has the requested points',
  'UniformInterpolationGrid(n)(curve) has exactly n values, starts at t[0], ends at t[-1], has constant step, and is strictly increasing when t[0] < t[-1]; n < 2 is a ValueError at construction; a curve of fewer than 2 points is a ValueError.',
  'all curves and all n','unbounded',
  [f'{N}:UniformInterpolationGrid'])
p('C60','The length grid has the step closest to the request',
  "UniformInterpolationGrid(f, 'length') on a non-parametric curve of arc length L divides it into round(L/f) equal steps, so that the number of steps differs from L/f by at most 1/2.",
  'all curves, all f > 0','rounding at ties; unbounded',
  [f'{N}:UniformInterpolationGrid.__call__'])
p('C61','The extrapolation grid continues the interpolation grid uniformly',
  'With kind point, UniformExtrapolationGrid(g, before=b, after=a) has b + n + a values, contains the grid of g in the middle, and the whole has one constant step; it is strictly increasing if g is; zero before/after adds nothing.',
  'all grids, all b, a >= 0','unbounded; off-by-one at the seams',
  [f'{N}:UniformExtrapolationGrid'])
p('C62','The preserved-speed grid spans the curve',
  'On a non-parametric curve with positive length PreservedSpeedInterpolationGrid(n) has n values, starts at 0, ends at arclen, is non-decreasing, and for n = size equals cumarclen.',
  'all curves, all n >= 2','unbounded',
  [f'{N}:PreservedSpeedInterpolationGrid', f'{M}:linrescale'])
p('C63','Only strictly increasing grids are accepted',
  'interpolate accepts an explicit grid iff consecutive differences are positive and not within tolerance of 0; every accepted grid is strictly increasing; a rejected one raises ValueError before any interpolation is computed.',
  'all grids','unbounded',
  [f'{N}:InterpolatorBase._get_interpolation_grid'])
p('C64','Linear interpolation passes through the points and stays on the polyline',
  'For strictly increasing t: linear interpolation at t[i] is point i; at any value between t[i] and t[i+1] it is the convex combination of points i and i+1; interpolating at the grid t reproduces the curve.',
  'all curves, all grids','continuous',
  [f'{N}:LinearInterpolator', f'{N}:InterpolatorBase.__call__'])
p('C65','Linear resampling inside the range never lengthens the curve',
  "For every strictly increasing grid inside [t[0], t[-1]], arclen of the linearly interpolated curve is <= arclen of the curve.",
  'all curves and grids','unbounded, continuous',
  [f'{N}:LinearInterpolator', f'{D}:arclen'])
p('C66','interpolate keeps size, parametrization and error contracts',
  'The result has one point per grid value; it is parametric iff the source is, and then t is the grid; failures of the interpolator are reported as InterpolationError, unknown methods as NameError, bad grids as ValueError; an empty curve gives an empty curve of the same dimension; a single-point curve is a ValueError.',
  'all curves, grids, and interpolator behaviours','arbitrary interpolators',
  [f'{N}:InterpolatorBase.__call__', f'{N}:get_interpolator', f'{N}:interpolate'])
p('C67','smooth keeps the number of points, is never parametric, and maps errors by kind',
  'The smoothed curve has the points returned by the method and is not parametric; ValueError and TypeError of the method propagate, every other exception becomes SmoothingError; unknown method is NameError.',
  'all curves and method behaviours','arbitrary methods',
  [f'{S}:smooth', f'{S}:get_smooth_method'])
p('C68','Window smoothing is an averaging',
  'With a non-negative window of positive sum and the default mode, window smoothing keeps the number of points, leaves constant curves unchanged, is linear, and every coordinate of the result lies between the minimum and maximum of that coordinate of the curve.',
  'all curves, all windows','unbounded',
  [f'{S}:window_filter'])
p('C69','The well-known curves satisfy their implicit equations',
  'arc points lie on the circle of radius |r| around (c,c); the lemniscate satisfies (x^2+y^2)^2 = 2c^2(x^2-y^2); helix satisfies x^2+y^2=a^2 and z=b*t; the spiral satisfies x^2+y^2=(a+bt)^2; lissajous stays in its box, meets the axes and the sides of the box exactly at the phases that the frequencies tell, and is an ellipse for equal frequencies; each has p_count points and t = the sampled parameter; a full arc is closed.',
  'all parameters','continuous parameters',
  [f'{C}:arc', f'{C}:lemniscate_of_bernoulli', f'{C}:helix', f'{C}:archimedean_spiral', f'{C}:lissajous', f'{C}:irregular_helix'])
p('C70','The default point distance is a metric and seglen/norm agree with it',
  'p.distance(q) >= 0, = 0 iff the coordinates agree, symmetric, satisfies the triangle inequality; Segment.seglen, norm of direction and distance agree; unknown metric names raise NameError; a non-callable metric raises TypeError.',
  'all points','continuous',
  [f'{B}:Point.distance', f'{B}:Point.norm', f'{B}:Segment.seglen', f'{X}:get_metric'])
p('C71','linrescale maps the input range onto the output range affinely',
  'The minimum goes to the lower and the maximum to the upper end of the output range, order is preserved, values stay inside the output range, and rescaling back to the original range gives the data back.',
  'all non-constant data and ranges','unbounded',
  [f'{M}:linrescale'])
p('C72','A sub-curve between two curve points contains exactly the points between them',
  'For CurvePoints at positions i <= j of one curve, p_i.subcurve(p_j) has the points i..j (i..j-1 without endpoint) with their t values; a point of another curve is a ValueError, a non-CurvePoint a TypeError; arclen of the sub-curve is cumarclen[j]-cumarclen[i].',
  'all curves, all i <= j','unbounded',
  [f'{B}:CurvePoint.subcurve'])
p('C73','Curve segments tile the curve',
  'c.segments has size-1 entries (none for size <= 1); segment k goes from point k to point k+1; CurveSegment(c, k) accepts exactly -(size-1) <= k < size-1; its seglen is chordlen[k]; the segment lengths sum to arclen.',
  'all curves, all integers k','negative out-of-range indices',
  [f'{B}:CurveSegment.__init__', f'{B}:Curve.segments'])
p('C74','Editing operations do not silently change stored numbers',
  'After insert, insertdim, interpolate and ndmin the stored coordinates are the numbers supplied by the caller.',
  'all curves of integer and float dtype','dtype combinations x values',
  [f'{B}:Curve.insert', f'{B}:Curve.insertdim', f'{B}:Curve.__init__'])
p('C75','A non-numeric dtype is rejected',
  'Point(data, dtype) and Curve(data, dtype) raise ValueError if dtype is not numeric.',
  'all dtypes','the check is present but has no effect',
  [f'{B}:Point.__init__', f'{B}:Curve.__init__'])
p('C76','smooth returns float64 data',
  'The data of the curve returned by window smoothing has dtype float64, as the docstring of smooth says, whatever the dtype of the curve.',
  'all curves of integer and float dtype','dtype combinations',
  [f'{S}:window_filter', f'{S}:smooth'])
p('C77','Smoothing does not modify the window returned by the caller',
  'A window function that returns the same array twice gives the same result twice: window_filter leaves the array as it was.',
  'all windows','aliasing of a mutable array',
  [f'{S}:window_filter'])
p('C78','Symmetric windows keep interior points of uniformly sampled lines',
  'If the points of the curve are equally spaced on a line, a symmetric window of odd size and positive sum leaves every point unchanged that is at least half a window away from both ends.',
  'all lines, all symmetric windows','unbounded',
  [f'{S}:window_filter'])
p('C79','Savitzky-Golay smoothing reproduces polynomial curves',
  'If every coordinate is a polynomial in the point index of degree at most polyorder, savgol returns the curve unchanged, for all modes of the interior points and with mode interp also at the ends; bad window lengths and orders raise ValueError.',
  'all polynomial curves, all window lengths and orders','unbounded',
  [f'{S}:savgol_filter'])
p('C80','Keyword arguments of distance reach the metric',
  'p.distance(q, metric, **kwargs) calls the metric with the given keyword arguments.',
  'all metrics, names and callables','arbitrary callables',
  [f'{B}:Point.distance', f'{X}:get_metric'])
p('C81','City block and Chebyshev distances are metrics and bound the euclidean distance',
  'Both are non-negative, symmetric, zero only for equal coordinates and satisfy the triangle inequality; chebyshev <= euclidean <= cityblock; sqeuclidean is the square of euclidean.',
  'all points of one dimension','continuous',
  [f'{B}:Point.distance', f'{X}:get_metric'])
p('C82','The Euler spiral is symmetric and parametrized by arc length at most',
  'Over a symmetric parameter range the points are symmetric about the origin; two points are never further apart than their parameter values.',
  'all parameters','integrals',
  [f'{C}:euler_spiral'])
p('C83','Spline interpolation passes through the points',
  'Interpolating at the parameter values themselves by hermite, pchip, akima or cubic (any boundary condition scipy can solve) gives the curve back.',
  'all curves with increasing parameter, all keyword arguments','continuous data',
  [f'{N}:CubicSplineInterpolator', f'{N}:CubicHermiteSplineInterpolator', f'{N}:AkimaInterpolator', f'{N}:PchipInterpolator'])
p('C84','Hermite interpolation has the unit tangents of the curve as derivatives',
  'For curves of floating point dtype: the curve that method hermite evaluates is differentiable at every parameter value of the source, where its derivative is the frenet1 vector of the source.',
  'all curves with increasing parameter','derivatives are limits',
  [f'{N}:CubicHermiteSplineInterpolator'])
p('C85','PCHIP interpolation is monotone between neighbouring points',
  'For curves of floating point dtype: between neighbouring parameter values every coordinate of the interpolated curve is non-decreasing if the coordinate of the source does not decrease and non-increasing if it does not increase, so it stays in the box spanned by the two points.',
  'all curves with increasing parameter, all positions','continuous positions',
  [f'{N}:PchipInterpolator'])
p('C86','Default cubic interpolation is a natural cubic spline',
  'For curves of floating point dtype, and with the linear system of scipy solved, the coordinates are piecewise cubic, twice continuously differentiable at the inner parameter values, have second derivative 0 at both ends and pass through the points.',
  'all curves with increasing parameter','derivatives are limits',
  [f'{N}:CubicSplineInterpolator'])
p('C87','Spline interpolation reproduces straight lines',
  'If the points lie on a line at places proportional to the parameter (in particular: collinear points in order of a curve without own parameter), pchip, cubic, akima and hermite give points of that line at the right place.',
  'all lines, all spacings, all grid values','continuous',
  [f'{N}:CubicSplineInterpolator', f'{N}:CubicHermiteSplineInterpolator', f'{N}:AkimaInterpolator', f'{N}:PchipInterpolator'])
p('C88','Interpolators without extrapolation give NaN outside of the parameter range and finite points inside',
  'For curves of floating point dtype; akima always, and hermite, pchip, cubic with extrapolate=False: grid values outside of the range of the parameter give points of NaNs, grid values inside give finite points.',
  'all curves and grids','continuous',
  [f'{N}:AkimaInterpolator', f'{N}:CubicSplineInterpolator'])
p('C89','Spline interpolation commutes with translations',
  'For curves of floating point dtype: interpolating the translated curve gives the translated interpolated curve, for hermite, pchip, akima (three points or more, inside the parameter range) and natural cubic splines.',
  'all curves, all translations, all grid values','continuous',
  [f'{N}:CubicSplineInterpolator', f'{N}:CubicHermiteSplineInterpolator', f'{N}:AkimaInterpolator', f'{N}:PchipInterpolator'])
p('C90','Lengths, speed, curvature and torsion do not depend on the position of the curve',
  'Moving a curve by an isometry changes no chord length, arc length, cumulative length, speed, torsion and (for 3 or more dimensions) curvature; derivatives, normals, binormals and Frenet vectors are turned with the curve; the signed curvature of a plane curve is kept by rotations and translations and changes sign under reflections.',
  'all curves of at least two points, all isometries, also into higher dimensions','isometries form a continuum',
  [f'{D}:chordlen', f'{D}:CurvePointFunctionMixin', f'{D}:_gradient'])
p('C91','Lengths and curvature scale with the curve',
  'Scaling a curve by r > 0 multiplies chord lengths, arc length, derivatives and speed by r, divides curvature and torsion by r and keeps the Frenet vectors.',
  'all curves of at least two points, all r > 0','the scale is unbounded; errors appear at scales tests do not sample',
  [f'{D}:chordlen', f'{D}:CurvePointFunctionMixin', f'{D}:_frenet_vector_norm'])
p('C92','Plots show the whole curve and nothing else',
  'If plotting succeeds, what was on the axes stays and exactly the requested things are added, in the order of a chain of plots: the line through the points, or the pieces between neighbouring points with the values of the requested property, markers at the points, normals. A curve of more than three dimensions is a ValueError, a 3-d curve on plane axes a TypeError; a plot that fails adds nothing.',
  'all curves, arguments, axes and chains','chains are unbounded; plots are checked by eye',
  ['skcurve/plot.py:CurvePlot', 'skcurve/plot.py:CurvePlot._multicolor_plot', 'skcurve/plot.py:CurvePlot._plot'])
p('C93','Almost intersections: what is reported is close, what is close is reported',
  'Every intersection the almost method reports names a segment of each curve, two points of these segments are closer than dist_tol, and an ALMOST result joins such points; every pair of segments closer than dist_tol (in particular, with a common point) is reported; raising dist_tol never loses an intersection (without remove_extra).',
  'all curves, all parameters','continuous positions; tests use a handful of curves',
  [f'{I}:AlmostIntersectionMethod', f'{G}:segments_to_segments'])
p('C94','The exact intersection does not depend on the order or the direction of the segments',
  'Exchanging the two segments (or curves) gives the same type with the same point or overlap; so does reversing a segment.',
  'all pairs of segments of one dimension','continuous positions; the asymmetries are at the tolerances',
  [f'{I}:ExactIntersectionMethod', f'{B}:Segment.collinear'])
p('C95','Lengths of sampled arcs and helices',
  'The chords of arc() and helix() are all equal; the arc length of the curve is at most that of the circle arc |r||t_stop - t_start| or of the helix sqrt(a^2 + b^2)|t_stop - t_start|, and tends to it as p_count grows.',
  'all parameters, all p_count >= 2','a limit over unboundedly many samples',
  [f'{C}:arc', f'{C}:helix', f'{D}:chordlen', f'{D}:arclen'])
p('C96','The curvature of a sampled circle is the reciprocal of its radius',
  'Every point of arc() with radius r has curvature 1/|r|, with positive sign if the samples run counter-clockwise (by less than half a turn per step) and negative sign if clockwise.',
  'all parameters, all p_count','the exact value does not depend on the sampling, tests sample few',
  [f'{C}:arc', f'{D}:CurvePointFunctionMixin.curvature', f'{D}:_gradient'])
p('C97','Curvature and torsion of a sampled helix',
  'Curvature and torsion of helix() agree with a/(a^2 + b^2) and b/(a^2 + b^2) up to an error that goes to 0 with the step between samples; the sign of the torsion tells the handedness.',
  'all parameters, all p_count','the thresholds take effect only for fine samplings',
  [f'{C}:helix', f'{D}:CurvePointFunctionMixin.curvature', f'{D}:CurvePointFunctionMixin.torsion', f'{D}:_frenet_vector_norm'])
p('C98','Segment geometry and intersections do not depend on the position',
  'If points, segments and curves are moved by a common isometry (also into a space of higher dimension), then lengths, angles, parallelism, coplanarity and distances are unchanged, and shortest connections and the intersections found are those found before, moved.',
  'all isometries, all segments and curves','all rigid motions; the tolerances break the exact method only in some places',
  [f'{B}:Segment.shortest_segment', f'{B}:Segment.parallel', f'{I}:AlmostIntersectionMethod', f'{I}:ExactIntersectionMethod'])
p('C99','Smoothing and interpolation commute with affine maps',
  'Smoothing (window, Savitzky-Golay) or interpolating (linear, natural cubic) the image of a curve under an affine map x -> Mx + b, also into another dimension, gives the image of the result; Hermite interpolation commutes with isometries.',
  'all affine maps, all curves, all windows','all linear maps and all weights; tests look at single results',
  [f'{S}:window_filter', f'{S}:savgol_filter', f'{N}:LinearInterpolator', f'{N}:CubicSplineInterpolator', f'{N}:CubicHermiteSplineInterpolator'])
p('C100','Beyond the ends smoothing continues the curve as the mode says',
  'With the modes reflect, mirror, nearest, wrap and constant point i of the smoothed curve is the weighted sum of the points around i, where points beyond the ends are those of the one continuation of the curve by reflection about the edges, reflection about the end points, repetition of the end points, periodicity or the constant cval.',
  'all finite curves, all windows, also longer than the curve','windows longer than the curve reflect several times; tests use short windows',
  [f'{S}:window_filter', f'{S}:savgol_filter'])
p('C101','The Savitzky-Golay filter fits polynomials by least squares',
  'Point i of the result is the derivative of order deriv (divided by delta^deriv) at i of the polynomial of degree at most polyorder with the least squared error at the window around i; with mode interp the windows at the ends are the first and the last one within the curve, with the other modes the curve is continued beyond its ends.',
  'all finite curves, odd window lengths, all orders and derivatives','arbitrary data and orders; tests compare with scipy itself',
  [f'{S}:savgol_filter'])
p('C102','Smoothing commutes with reversing the curve',
  'Smoothing the reversed curve gives the reversed smoothed curve, for symmetric windows and for the Savitzky-Golay filter (with the opposite sign for derivatives of odd order), for all modes.',
  'all finite curves, all symmetric windows','asymmetries show only at the ends and with even windows',
  [f'{S}:window_filter', f'{S}:savgol_filter', f'{B}:Curve.reverse'])
p('C103','Interpolation of a reversed curve',
  'Interpolating the reversed curve at x gives the point that interpolating the curve gives at (length - x): for linear, hermite, pchip, natural cubic and akima interpolation, of curves without parameter values or with parameter values mirrored along.',
  'all curves, all grid values','end conditions and slope formulas treat the two ends by different code; tests use one direction',
  [f'{N}:LinearInterpolator', f'{N}:PchipInterpolator', f'{N}:AkimaInterpolator', f'{N}:CubicSplineInterpolator', f'{N}:CubicHermiteSplineInterpolator', f'{B}:Curve.reverse'])
p('C104','Interpolation does not depend on units',
  'If all points p are replaced by s p + w and all parameter values x by a x + b (a > 0), the interpolated point at a x + b is s times the former one at x, plus w: for linear, pchip, natural cubic and akima interpolation; for hermite interpolation with a = s, as for curves parametrised by length.',
  'all curves, all factors','scaling laws for arbitrary factors; the slope formulas contain sign tests and a threshold',
  [f'{N}:LinearInterpolator', f'{N}:PchipInterpolator', f'{N}:AkimaInterpolator', f'{N}:CubicSplineInterpolator', f'{N}:CubicHermiteSplineInterpolator'])
p('C105','Interpolation treats the coordinates separately',
  'Two curves with the same parameter values that agree in a coordinate (not necessarily at the same position, possibly with different numbers of coordinates) have interpolations that agree in that coordinate: leaving out, adding, repeating or exchanging other coordinates does not change it. For the method spline: coordinate j of the result is the univariate spline through coordinate j of the points.',
  'all pairs of curves, all dimensions, all grid values','relations between curves of different dimension; tests interpolate one curve at a time',
  [f'{N}:LinearInterpolator', f'{N}:PchipInterpolator', f'{N}:AkimaInterpolator', f'{N}:CubicSplineInterpolator', f'{N}:CubicHermiteSplineInterpolator', f'{N}:SplineInterpolator'])
p('C106','Interpolation is local',
  'Between two neighbouring points the interpolated curve depends only on these two points (linear) or on these and the points before and after them (pchip, hermite), and on their parameter values up to a common shift. In particular interpolating a slice of a curve gives the interpolation of the curve, except in the first and last piece of the slice.',
  'all pairs of curves, all slices, all grid values','dependence on far-away points; tests look at one curve at a time',
  [f'{N}:LinearInterpolator', f'{N}:PchipInterpolator', f'{N}:AkimaInterpolator', f'{N}:CubicSplineInterpolator', f'{N}:CubicHermiteSplineInterpolator', f'{B}:Curve.__getitem__'])
p('C107','Slopes at the points of the interpolated curve',
  'hermite, pchip and akima give piecewise cubic curves. At an inner point the slope of pchip is zero if the neighbouring pieces do not both rise or both fall, and otherwise the harmonic mean of their slopes with the weights of Fritsch and Butland; at the ends it is the slope of the parabola through three points, limited so that the piece stays monotone. The slope of akima at an inner point is the mean of the slopes of the neighbouring pieces, weighted by how much the curve turns on the other side, and lies between them, unless these turns are tiny (1e-9) compared with the largest turn of the curve.',
  'all curves with strictly increasing parameter values, all points, all coordinates','slopes are not compared by the tests; a wrong weight gives a smooth curve through the same points',
  [f'{N}:PchipInterpolator', f'{N}:AkimaInterpolator', f'{N}:CubicHermiteSplineInterpolator'])
p('C108','Names and keyword arguments of the interpolation methods',
  'After the import and any further registrations the seven built-in names mean their own interpolators. A keyword argument that the method does not have is an InterpolationError; the order of keyword arguments does not matter; giving the documented default, in particular extrapolate=None, is the same as leaving the argument out; otherwise only the truth value of extrapolate matters, apart from periodic.',
  'all curves, grids, dictionaries of arguments and histories of registrations','tests call the methods with few combinations of arguments',
  [f'{N}:get_interpolator', f'{N}:interpolate', f'{N}:register_interpolator', f'{N}:LinearInterpolator', f'{N}:CubicSplineInterpolator', f'{N}:SplineInterpolator', f'{N}:CsapsInterpolator', f'{B}:Curve.interpolate'])
p('C109','Differential geometry of a reversed curve',
  'Running a curve backwards reverses the order of the values of every differential-geometry property. The first and third derivative, the tangent, the binormal, the first and third Frenet vector and the signed curvature of a plane curve change their sign; the second derivative, the normal, the second Frenet vector, the speed, the torsion and the curvature in other dimensions keep theirs.',
  'all well-formed curves of any dimension and size','tests look at particular curves in one direction',
  [f'{B}:Curve.reverse', f'{D}:_gradient', f'{D}:CurvePointFunctionMixin.tangent', f'{D}:CurvePointFunctionMixin.normal', f'{D}:CurvePointFunctionMixin.binormal', f'{D}:CurvePointFunctionMixin.curvature', f'{D}:CurvePointFunctionMixin.torsion', f'{D}:CurvePointFunctionMixin.speed'])
p('C110','Differential geometry is local',
  'The first derivative, tangent, speed and first Frenet vector at a point depend on the point and one neighbour on either side only; second derivative, normal, second Frenet vector and curvature on two; third derivative, binormal, third Frenet vector and torsion on three. So the points of a slice have the same properties as in the curve, except the first and last one, two or three.',
  'all curves of any dimension and size, positions and slices','tests look at particular curves, not at pairs of curves that agree in part',
  [f'{B}:Curve.__getitem__', f'{D}:_gradient', f'{D}:CurvePointFunctionMixin.tangent', f'{D}:CurvePointFunctionMixin.normal', f'{D}:CurvePointFunctionMixin.binormal', f'{D}:CurvePointFunctionMixin.curvature', f'{D}:CurvePointFunctionMixin.torsion', f'{D}:_maybe_curve_point'])
p('C111','Points and curves are Python sequences',
  'Iterating over a curve gives its points in order, each with its position, and rebuilding a curve from them gives the curve back; reversed gives them backwards; a copied curve point is the same point. Iterating over a point gives its coordinates; a slice with several coordinates is the point with these coordinates; x in point holds exactly if some coordinate equals x, count is the number of such coordinates and index(x, start, stop) the first such position inside of start:stop, a ValueError if there is none. NaN is never found.',
  'all points and curves, indices and slices, numbers including NaN and infinities','tests iterate over a few small curves and points',
  [f'{B}:Point.__getitem__', f'{B}:Point.__len__', f'{B}:Point.__bool__', f'{B}:CurvePoint.__deepcopy__', f'{B}:Curve.__getitem__', f'{B}:Curve.values'])
p('C112','Segments as objects',
  'Segments are built from two points of the same dimension, at least 1; anything else is refused with TypeError (not points) or ValueError. to_curve is the curve with the two points (the segment k of a curve gives curve[k:k+2]) and its arc length is the length of the segment; reversing twice is the segment. On objects of one dimension the methods compute the segment geometry and never raise; what is neither point nor segment is a TypeError and an object of another dimension a ValueError.',
  'all segment objects, arguments of every kind and dimension','tests call the methods with fitting arguments of dimension 2 and 3',
  [f'{B}:Segment.__init__', f'{B}:Segment.data', f'{B}:Segment.to_curve', f'{B}:Segment.reverse', f'{B}:Segment.angle', f'{B}:Segment.collinear', f'{B}:Segment.coplanar', f'{B}:Segment.shortest_segment', f'{B}:CurveSegment.chordlen', f'{G}:segment_point', f'{G}:overlap_segments', f'{G}:parallel_segments'])
p('C113','Intersections of parts of curves, of curves apart and of graphs',
  'The intersections of contiguous parts of two curves (or of a part with itself) are exactly the intersections of the curves whose segments belong to the parts, in the same order and with the same intersection object. Curves separated in a coordinate by more than the tolerance have no intersections, and the graph of a function has no self-intersections.',
  'all curves of any dimension and length, all contiguous parts, both methods','tests intersect whole curves only; a relation between two calls is not tested',
  [f'{I}:IntersectionMethodBase.__call__', f'{I}:ExactIntersectionMethod._intersect_curves', f'{I}:AlmostIntersectionMethod._intersect_curves', f'{B}:Curve.intersect'])
p('C114','intersect on curves, segments and other objects',
  'intersect (and the methods of Segment and Curve) on two segments or curves of one dimension never raises for any parameters the method accepts: one intersection object for two segments, otherwise a list; each entry names the given segment or a segment of the given curve with its index. Arguments of other kinds, other dimensions, unknown methods and unknown parameters have their documented errors; omitted parameters have their defaults; slices of curves have exactly the intersections of their segments; a registered class can be used under its name.',
  'all arguments, keyword arguments, histories of registrations and slices','tests call intersect with few fitting arguments',
  [f'{I}:intersect', f'{I}:IntersectionMethodBase.__call__', f'{I}:ExactIntersectionMethod.__init__', f'{I}:AlmostIntersectionMethod.__init__', f'{I}:get_intersect_method', f'{I}:register_intersect_method', f'{B}:Segment.intersect', f'{B}:Curve.intersect'])
p('C115','Derivatives of a finely sampled curve',
  'The rows of the first, second and third derivative of a curve whose points are sampled at equal steps h from a smooth curve differ from h, h^2, h^3 times its derivatives by at most an explicit constant times a higher power of h; likewise the speed. At the ends too.',
  'all smooth curves of every dimension, steps, numbers of points and indices','tests compare few sampled circles with a tolerance',
  [f'{D}:_gradient', f'{D}:CurvePointFunctionMixin.speed', f'{D}:CurvePointFunctionMixin.firstderiv', f'{D}:CurvePointFunctionMixin.secondderiv', f'{D}:CurvePointFunctionMixin.thirdderiv'])
p('C116','Curvature of a finely sampled curve',
  'The curvature at every point of a curve sampled at equal steps from a smooth regular curve tends to the curvature of that curve when the step tends to zero, uniformly and at the ends too.',
  'all smooth regular curves of every dimension, steps, numbers of points and indices','tests compare few sampled circles with a tolerance',
  [f'{D}:CurvePointFunctionMixin.curvature', f'{D}:CurvePointFunctionMixin.frenet1', f'{D}:_gradient'])
p('C117','Arc length of a sampled curve',
  'Entry k of the cumulative arc length of a curve whose points are sampled at increasing parameters from a smooth curve is at most the length of the arc from point 0 to point k, and smaller by at most M h/2 times the parameter range (M Lipschitz constant of the derivative, h the largest step), and by at most M^2 h^2/(2 v) times the range if the speed is at least v > 0; likewise arclen.',
  'all smooth curves of every dimension, all increasing parameters and indices','tests compare the length of few sampled circles with a tolerance',
  [f'{D}:chordlen', f'{D}:arclen', f'{D}:CurvePointFunctionMixin.cumarclen', f'{B}:Curve.arclen'])
p('C118','Linear interpolation of a sampled curve',
  'Linear interpolation of a curve whose points are sampled from a smooth curve at the parameters of the curve object differs from the smooth curve by at most M h^2/8 at every grid value (M Lipschitz constant of the derivative, h largest step); for any other increasing parameter of the curve object every point of the result is within M h^2/8 of the smooth curve, h then being the largest step of the sampling.',
  'all smooth curves of every dimension, parameters and grids','tests compare few samples with a tolerance',
  [f'{N}:LinearInterpolator', f'{N}:InterpolatorBase.__call__', f'{B}:Curve.interpolate'])
p('C119','Rounding of chord and arc lengths',
  'Computed in floating point with any rounding that is monotone, odd and of relative error at most eps (in particular 53 bit round to nearest even), whatever the order of the sums: chordlen in n dimensions differs from the exact value by at most a relative 2(n+4) eps and is 0 exactly for equal points and the same for exchanged points, arclen of m points by at most 2(n+m+2) eps, entry k of cumarclen by at most 2(n+k+4) eps; cumarclen starts with 0 and does not decrease.',
  'all float curves, all roundings, all orders of summation; no underflow or overflow','tests compare single curves with a tolerance',
  [f'{D}:chordlen', f'{D}:arclen', f'{D}:CurvePointFunctionMixin.cumarclen', f'{B}:Curve.arclen'])
p('C120','Rounding of uniform interpolation grids',
  'The uniform interpolation grid computed in floating point starts and ends exactly at the ends of the parameter, never decreases, stays inside the range, each value differs from the exact one by at most eps times its size plus 12 eps times the range, and it is accepted as a grid.',
  'all numbers of points, all parameter ranges, all roundings','tests use few grids',
  [f'{N}:UniformInterpolationGrid.__call__', f'{N}:InterpolatorBase._get_interpolation_grid'])
p('C121','Rounding of points of segments and of linear interpolation',
  'Computed in floating point, Segment.point(t) and each coordinate of the linear interpolation differ from the exact value v by at most eps |v| plus 8 eps (24 eps) times the size of the term that depends on t; they are monotone in t; point(0) and the left node are exact, and so are point(1) and the right node.',
  'all segments and intervals, all t, all roundings','tests use few values with a tolerance',
  [f'{G}:segment_point', f'{B}:Segment.point', f'{N}:LinearInterpolator'])
p('C122','Smoothing does not lengthen curves',
  'Smoothing with a window of entries at least 0 and a positive sum gives a curve at most as long (arclen) as the given one: in mode nearest with any window, in the modes reflect and mirror with symmetric windows, in mode wrap for curves whose first and last point are the same. In particular the default window and mode never lengthen a float curve. In the other cases curves can become longer.',
  'all float curves, dimensions, windows and sizes','tests smooth a few curves',
  [f'{S}:window_filter', f'{S}:smooth', f'{B}:Curve.smooth', f'{D}:arclen'])
p('C123','Speed-preserving grids divide segments equally',
  'Linear interpolation of a curve of m points without own parameter with PreservedSpeedInterpolationGrid(n) gives n points, point j being the point of the curve at the broken index j (m - 1)/(n - 1); for n = k (m - 1) + 1 every segment is divided into k chords of equal length and the points of the curve are every k-th point.',
  'all curves, dimensions and numbers of points','tests compare one grid with printed numbers',
  [f'{N}:PreservedSpeedInterpolationGrid.__call__', f'{N}:LinearInterpolator', f'{B}:Curve.interpolate'])
p('C124','Boundary conditions of cubic interpolation',
  "For curves of floating point dtype, with scipy's linear systems solved. bc_type='clamped': the coordinates are piecewise cubic, twice continuously differentiable, pass through the points and have derivative 0 at both ends. bc_type='not-a-knot': the first two polynomials are one, the last two are one, three points give a parabola, two a line; points of polynomials of degree at most 3 give these polynomials. bc_type='periodic' with a closed curve: the curve is periodic and twice continuously differentiable also where end and beginning meet.",
  'all curves with increasing parameter, all numbers of points','derivatives are limits; reproduction of all polynomials',
  [f'{N}:CubicSplineInterpolator', f'{B}:Curve.interpolate'])
p('C125','Cubic interpolation bends least',
  "For curves of floating point dtype, with scipy's linear systems solved: every coordinate of the default (natural) cubic interpolation has the least integral of the squared second derivative among all twice continuously differentiable functions with the same values at the parameter values, and is the only one with it. With bc_type='clamped' the same holds among the functions with derivative 0 at both ends.",
  'all curves with increasing parameter, all competing functions','quantifies over a space of functions',
  [f'{N}:CubicSplineInterpolator', f'{B}:Curve.interpolate'])
p('C126','Tolerance of the collinearity and coplanarity tests',
  "`tol` is the threshold below which singular values count as zero. With tol=0 the tests are the exact ones. With tol >= 0, collinear (of at least three distinct points, none close to an end) is true exactly if the points spread across to some direction by at most tol; then all are within tol of a line through the origin, and points within tol/sqrt(m) of one are accepted; likewise coplanar for the differences to the last point and two directions. Without tol the bound is max(m, n) 2^-52 times the largest spread, and the result does not depend on the unit of length. Exactly collinear (through the origin) or coplanar points always pass. t(point, tol) is NaN exactly if collinear(point, tol) is false. Curve.isplane is the test without tol.",
  'all points, all tolerances, all dimensions','singular values characterised over all directions',
  [f'{G}:collinear_points', f'{G}:coplanar_points', f'{G}:segment_t', f'{B}:Segment.collinear', f'{B}:Segment.coplanar', f'{B}:Segment.t', f'{B}:Curve.isplane'])
p('C127','The metrics of distance: formulas and metric axioms',
  "Point.distance with the name of one of scipy's metrics (euclidean, sqeuclidean, cityblock, chebyshev, minkowski, wminkowski, seuclidean, canberra, braycurtis, cosine, correlation, mahalanobis, jensenshannon) is the textbook formula, with the keyword arguments p, w, V, VI in their places. Minkowski distances of order >= 1, weighted with positive weights, standardised ones, Canberra and Mahalanobis (for VI = B^T B with one-to-one B) are metrics; the Minkowski distance falls with the order from city block to Chebyshev. Bray-Curtis, cosine, correlation and Jensen-Shannon are symmetric, bounded, and 0 exactly as described. Wrong or missing keyword arguments are TypeErrors, negative weights and orders below 1 ValueErrors.",
  'all points of all dimensions, all weights, orders, variances and matrices','metric axioms (Minkowski and Canberra triangle inequalities) quantify over all points',
  [f'{B}:Point.distance','skcurve/_distance.py:get_metric'])
p('C128','csaps: the smoothing spline',
  "For a parameter that increases strictly, a smoothing parameter p in [0, 1] and positive weights w, the method csaps evaluates a natural cubic spline that minimises p * sum w_i (y_i - f(t_i))^2 + (1-p) * integral f''^2 among all twice continuously differentiable functions; for 0 < p < 1 it is the only minimum. p = 1, the default, gives natural cubic interpolation; p = 0 the weighted straight regression line; points on a line stay where they are; weighted sums and first moments of the points are kept; as p grows the misfit falls and the bending grows. smooth=None computes p from the parameter values and weights, strictly between 0 and 1 for three or more points. A wrong number of weights, a parameter that does not increase strictly and unknown keyword arguments are InterpolationErrors.",
  'all curves, all smoothing parameters in [0, 1], all positive weights, all grids of finite values','minimality quantifies over all twice differentiable functions',
  [f'{N}:CsapsInterpolator.__init__', f'{N}:CsapsInterpolator._interpolate'])
p('C129','spline without smoothing is not-a-knot cubic or linear interpolation',
  "With smooth=0 (the default) and degree 3 (the default) the method spline gives, for four or more points and whatever the weights, the curve of the method cubic with bc_type='not-a-knot', inside and (by default) outside of the range of the parameter; with degree 1 the curve of the method linear. extrapolate 1, 2, 3 ('zeros', 'raise', 'const') gives zeros, an InterpolationError, or the nearest end point for values outside. Too few points for the degree or a parameter that does not increase strictly are InterpolationErrors.",
  'all curves, all weights, all extrapolation modes, all grids of finite values','identity of two external algorithms for all inputs',
  [f'{N}:SplineInterpolator.__init__', f'{N}:SplineInterpolator._interpolate'])
p('C130','Derivatives and unit vectors in floating point',
  "With every operation rounded to binary64 (or any rounding with relative error eps), the first, second and third numerical derivatives differ from the exact ones by at most 28, 225 and 1354 times eps times the largest coordinate; between the ends the first derivative has relative error 3 eps. Speeds and unit tangents inherit relative bounds in the dimension, whatever the order of summation. For samples of a smooth curve the total error is the discretization error plus the rounding error divided by the step. The derivative of a coordinate that does not change is claimed to be exactly zero.",
  'all curves of two or more points, all roundings with relative error eps, all orders of summation','rounding errors quantify over all real inputs and evaluation orders',
  [f'{D}:_gradient', f'{D}:CurvePointFunctionMixin.firstderiv', f'{D}:CurvePointFunctionMixin.secondderiv', f'{D}:CurvePointFunctionMixin.thirdderiv', f'{D}:CurvePointFunctionMixin.speed', f'{D}:CurvePointFunctionMixin.frenet1'])
p('C131','Window smoothing in floating point',
  "The window filter computed in rounded arithmetic, in whatever order and with fused products or not, differs from the exact one by at most n (10 eps + eta) times the largest coordinate, where n is the window length and eta bounds the change of the normalised weights by the symmetry shortcut. A constant curve is claimed to stay exactly constant.",
  'all curves, windows, boundary modes, all roundings with relative error eps, all evaluation orders','rounding errors quantify over all real inputs and evaluation orders',
  [f'{S}:window_filter'])
p('C132','Parallelism, angles and nearest points of segments in floating point',
  "With every operation rounded (relative error eps, dot products in any order, fused or not), the test of parallelism is right whenever the exact Gram determinant is away from the tolerance by more than (5(n+2)+4) eps |u|^2 |v|^2; the angle differs from the geometric one by at most the error of arccos plus pi sqrt(5/2 (n+2) eps); the parameter of the nearest point of a segment stays in [0, 1] and the distance at it exceeds the distance to the segment by at most the tolerances of the code and the rounding error. Segments whose directions are multiples of each other are claimed to be parallel, and the angle of a segment with itself to be 0.",
  'all segments and points of all dimensions, all roundings with relative error eps, all evaluation orders','rounding errors quantify over all real inputs and evaluation orders',
  [f'{G}:parallel_segments', f'{G}:segments_angle', f'{G}:segment_to_point', f'{B}:Segment.parallel', f'{B}:Segment.angle', f'{B}:Segment.distance'])
p('C133','Cubic interpolation with a condition for each end',
  'bc_type of cubic interpolation may be a pair. The first entry is met at the start and the second at the end: natural (second derivative 0), clamped (first derivative 0), not-a-knot (the two polynomials next to the end are the same), or order 1 or 2 with one value per coordinate for the first or second derivative. Points of cubic polynomials that fit both conditions give these polynomials back. A pair of equal strings means the same as the string. If each end is free or has a given derivative, the curve bends least. Anything else is an InterpolationError, in particular periodic in a pair and a derivative given as one number.',
  'all curves with strictly increasing parameter, all pairs of conditions and values, all grids (rejections: all curves and tuples)',
  'Tests of the project use the default boundary condition; no test can compare with all competitors of least bending.',
  [f'{N}:CubicSplineInterpolator.__init__', f'{N}:CubicSplineInterpolator._interpolate'])

p('C134','Interpolation of curves of integer dtype',
  'Interpolating a curve of integer dtype by any of the seven built-in methods is interpolating the curve with its points as floating point numbers and storing the result as integers: the same errors, the same parameter values, every coordinate without its fractional part. At the parameter values of the curve linear, hermite, pchip, akima and cubic interpolation give the curve back. Linear interpolation is the point of the segment without the fractional parts. Where a curve of floating point numbers gives NaN (outside of the range without extrapolation) the coordinates are -2^63.',
  'all curves of integer dtype, all keyword arguments, all grids that do not ask for the dtype (every grid of the package)',
  'The tests interpolate float curves; the truncation is silent and has no test.',
  [f'{N}:InterpolatorBase.__call__', f'{B}:Curve.__init__', f'{B}:Curve.interpolate'])

p('C135','insert and insertdim: one point at several positions, refusals, slices and masks',
  'One point inserted at a list of positions goes before each of them. Several positions with neither one point nor as many points as positions are a ValueError, a position beyond the end is an IndexError, also in a list. A list of one position is that position, a slice is the list of the positions it selects. insertdim: negative axes count from the end, axes out of range are an IndexError, one value is used for all points, no values mean zeros, any other number of values than the size is a ValueError. Positions before the start are an IndexError and a boolean mask names the points it selects, as in c[mask].',
  'all curves, points, position lists, slices, masks, axes and values',
  'Tests insert at a few positions of small curves.',
  [f'{B}:Curve.insert', f'{B}:Curve.insertdim'])

p('C136','Integer coordinates with 64 bits',
  'Chord lengths of curves of integer dtype, scalar products and norms of integer points, and the points kept by nonsingular are those of exact arithmetic. In int64 this holds if and only if the squared distances (scalar products) are below 2^63; coordinates up to m in n dimensions are safe if n (2m)^2 < 2^63. Beyond that the square is taken modulo 2^64.',
  'all integer curves and points',
  'Tests use small integers; the wrap-around is silent.',
  [f'{D}:chordlen', f'{D}:nonsingular', f'{B}:Point.__matmul__', f'{B}:Point.norm'])

p('C137','Accuracy of cubic and PCHIP interpolation',
  'A curve whose points are those of a smooth curve g at its parameter values (steps at most h, range [a, b]). Default cubic interpolation differs from g in every coordinate by at most M/2 h sqrt(h (b - a)) if |second derivative of g| <= M, and its derivative from that of g by at most M sqrt(h (b - a)). If the end conditions (default or a pair) give the first or second derivative that g has at the ends, and M is a Lipschitz constant of the third derivative, the bounds are M/16 h^3 sqrt(h (b - a)) and M/8 h^2 sqrt(h (b - a)). PCHIP interpolation differs from g by at most L h, where L is a Lipschitz constant of g.',
  'all smooth functions, samplings and values inside the range of the parameter',
  'An error bound for all functions; tests compare a few functions on a few grids to a tolerance.',
  [f'{N}:CubicSplineInterpolator.__init__', f'{N}:PchipInterpolator.__init__', f'{B}:Curve.interpolate'])

p('C138','Interpolating twice',
  'A curve interpolated on a grid that contains all its parameter values and stays inside their range gives a curve which, interpolated with the same method, goes along the same curve at every value of the parameter, not only on the grid. For linear interpolation of curves with or without a parameter of their own (the parameter of the result is then the grid), and for cubic interpolation of parametric curves with default end conditions or a pair of natural, clamped and derivative conditions.',
  'all curves, all grids that contain the parameter values, all values in between',
  'Tests compare curves at a few points; here two interpolants are equal as functions.',
  [f'{N}:LinearInterpolator.__init__', f'{N}:CubicSplineInterpolator.__init__', f'{N}:PchipInterpolator.__init__', f'{N}:InterpolatorBase.__call__', f'{B}:Curve.interpolate', f'{B}:Curve.t'])

p('C139','Lengths in the range of binary64',
  'With subnormal numbers and overflow taken into account: coordinates that are binary64 numbers, neighbouring points not more than 2^510 apart, the distance of neighbours and the arc length computed in binary64 are finite; they differ from the exact ones by a relative error of 2 (n + 4) 2^-53 for chords and 2 (n + s + 2) 2^-53 for arc lengths (n coordinates, s points) plus an absolute error of the order of 2^-535, for every order of summation.',
  'all curves of binary64 coordinates, all orders of summation',
  'Results near the ends of the exponent range are not sampled by tests, and no finite set of inputs gives an error bound.',
  [f'{D}:chordlen', f'{D}:arclen', f'{B}:Curve.chordlen', f'{B}:Curve.arclen'])

p('C140','Symmetries of the csaps smoothing spline',
  "The smoothing spline of the image of a curve under an affine map, the parameter kept, is the image of the smoothing spline. With smooth=None (the computed parameter) it does not depend on the unit and the origin of the parameter nor on a common factor of the weights, it scales with a curve without parameter values, and the spline of the reversed curve is the reversed spline (with reversed weights). With a given smooth p and the parameter multiplied by a, the same spline belongs to p' with p' (1 - p) a^3 = p (1 - p') for equal weights; the same p gives another curve.",
  'all float curves of at least two points with increasing parameter, all affine maps, all units, all weights',
  'Independence of units and direction is about pairs of runs over all data sets, not about expected values of single runs.',
  [f'{N}:CsapsInterpolator.__init__', f'{N}:CsapsInterpolator._interpolate', f'{B}:Curve.interpolate'])

p('C141','Symmetries of cubic interpolation with boundary conditions',
  "Cubic interpolation with any documented boundary condition (natural, clamped, not-a-knot, periodic, or a pair of strings or derivatives) commutes with affine maps of the points, with changes of the unit and origin of the parameter and with the change of direction: points M p + w at parameter values a x + b with a > 0 give at a x + b the image of the point at x, the same points backwards at mirrored parameter values give the same curve, inside and outside of the range of the parameter. Derivatives given at the ends have to be converted: mapped by M and divided by a to the power of their order; exchanged, with first derivatives negated. For curves without parameter values this says that a scaled curve has the scaled interpolation (first derivatives kept) and a reversed curve the reversed one.",
  'all float curves of at least two points with increasing parameter, all documented boundary conditions, all affine maps, all units',
  'Independence of coordinates, units and direction is about pairs of runs over all data sets; tests compare with stored values.',
  [f'{N}:CubicSplineInterpolator.__init__', f'{N}:CubicSplineInterpolator._interpolate', f'{B}:Curve.interpolate', f'{B}:Curve.reverse'])

p('C142','The default parameter in floating point',
  "The default parameter of a curve, its cumulative chord lengths, computed in floating point increases strictly whenever neighbouring points are distinct, so that every interpolation method accepts the curve; neighbouring values differ by the distance of the points up to 2(n+4) eps times the distance plus 2 eps times the length so far.",
  'all float curves, all roundings with relative error eps, all orders of summation',
  'The failing case needs a particular ratio of lengths; tests use small well scaled curves.',
  [f'{D}:cumarclen', f'{D}:chordlen', f'{B}:Curve.t', f'{B}:Curve.interpolate'])

p('C143','Symmetries of interpolating splines',
  "The method spline without smoothing (degree 1, or degree 3 for four or more points) commutes with affine maps of the points and changes of unit of the parameter, and with reversal of direction; so a reversed curve without parameter values is evaluated at arc length minus x, and a scaled one at s x.",
  'all curves of non-integer dtype with increasing parameter, all weights, all modes of extrapolation, all affine maps between any dimensions, all a > 0',
  'Tests compare a few transformed curves at a few parameter values up to a tolerance.',
  [f'{N}:SplineInterpolator.__init__', f'{N}:SplineInterpolator._interpolate', f'{B}:Curve.interpolate', f'{B}:Curve.reverse'])

p('C144','Curvature and length of the spirals, the lemniscate and the circle',
  "With ever more points the curvature array of the library tends, uniformly and at the ends too, to 1/|r| for arc, to (rho^2+2b^2)/(rho^2+b^2)^(3/2) with rho = a+b t for archimedean_spiral, to pi t for euler_spiral and to 3 cos t/(sqrt 2 |c| sqrt(1+sin^2 t)) for lemniscate_of_bernoulli. The cumulative length of euler_spiral at t is t - t_start, up to (pi m h)^2/2 times it from below (h the step, m the largest |t|).",
  'all parameters with t_start < t_stop (and r, b, c not 0), all numbers of points from some number on',
  'A limit; tests look at one number of points.',
  [f'{C}:arc', f'{C}:archimedean_spiral', f'{C}:euler_spiral', f'{C}:lemniscate_of_bernoulli', f'{D}:curvature', f'{D}:cumarclen'])

p('C145','The warning tells whether the grid covers the parameter range',
  "interpolate warns about the range of the grid iff the accepted grid does not reach from t[0] or below to t[-1] or above. Hence a number of points, the preserved-speed grid and an extrapolation grid over a covering grid never give the warning; the result of the interpolation depends on the grid values only.",
  'all curves with two points, all grid specifications',
  'The values between the grid and the range of a curve vary continuously; tests use a few grids.',
  [f'{N}:InterpolatorBase._get_interpolation_grid', f'{N}:UniformExtrapolationGrid.__call__', f'{N}:PreservedSpeedInterpolationGrid.__call__'])

p('C146','How far window smoothing moves the points',
  "With a window of entries at least 0 and a positive sum, in the modes reflect, mirror and nearest, smoothing moves no point by more than half the window length times the longest segment. On samples at the step h of a curve whose derivative is Lipschitz with constant M, a symmetric window of 2m+1 entries moves every point at least m points away from the ends by at most M h^2/2 times the mean of (k-m)^2 under the window, hence by at most M (m h)^2/2, in all modes. For arc with the default window: m |r| h everywhere and |r| (m h)^2/2 in the interior.",
  'all float curves, windows, modes, smooth curves and steps',
  'A bound for all curves and an order of convergence.',
  [f'{S}:window_filter', f'{S}:smooth', f'{C}:arc'])

p('C147','Savitzky-Golay smoothing and differentiation converge',
  "For every odd window length, order p and derivative d <= p there is a constant K such that for all samples at the step h of a function whose p-th derivative is Lipschitz with constant M, savgol with delta = h returns the d-th derivative of the function up to K M |h|^(p+1-d): with mode interp at all points, the ends included, with the other modes at points at least half a window away from the ends. In general (any delta) it returns (h/delta)^d times the derivative up to K M |h|^(p+1)/|delta|^d.",
  'all window lengths, orders, derivatives, functions, steps and numbers of points',
  'An order of convergence.',
  [f'{S}:savgol_filter', f'{S}:smooth'])

p('C148','Laws between selecting, joining and editing',
  "Selecting points twice is one selection of the positions selected twice, in particular c[a:b][i:j] is c[a+i:min(b,a+j)]; delete is the selection of the rest; reverse() is c[::-1]; insert(k, o) is c[:k] + o + c[k:]; the parts of a join are the joined curves; inserting or deleting coordinates commutes with selecting points, with joining curves and (with places counted accordingly) with inserting another coordinate; the unique points of a join are those of the first curve followed by those of the second that are not in the first; nonsingular() twice is nonsingular().",
  'all curves, indexers, masks, positions and values',
  'Equations between combinations of operations for all arguments.',
  [f'{B}:Curve.__getitem__', f'{B}:Curve.__add__', f'{B}:Curve.insert', f'{B}:Curve.delete', f'{B}:Curve.reverse', f'{B}:Curve.insertdim', f'{B}:Curve.deletedim', f'{B}:Curve.unique', f'{B}:Curve.nonsingular'])

p('C149','Accuracy of hermite, pchip and akima interpolation',
  "If coordinate j of the points is a function g of the parameter with steps at most h, and M is a Lipschitz constant of the derivative of g, coordinate j of pchip interpolation differs from g by at most 3/8 M h^2 and that of akima by at most 1/2 M h^2. Hermite interpolation of a curve without own parameter stays within half the length of a piece from the chord of the piece; if all second differences of the points are at most B (and speeds above 1e-8), within B/4; so that for points sampled at equal steps h from a smooth curve every point of the result is within 3/8 M h^2 of that curve.",
  'all smooth functions and curves of every dimension, samplings and values inside the range of the parameter',
  'Error bounds for every smooth function and every sampling.',
  [f'{N}:CubicHermiteSplineInterpolator', f'{N}:PchipInterpolator', f'{N}:AkimaInterpolator', f'{D}:CurvePointFunctionMixin.frenet1'])

p('C150','Accuracy of intersections of sampled smooth curves',
  "If the points of curves lie on smooth curves whose derivatives have the Lipschitz constants M and the parameters of neighbouring points differ by at most h, every point reported as EXACT is within M h^2/8 (plus 1e-5 + 1e-8 times the longest chord) of both smooth curves, for two curves and for self-intersections; the almost method (without remove_extra and correct_overlap) reports only pairs where the smooth curves come within dist_tol plus M h^2/8 of both, and misses no pair of segments where they come within dist_tol minus M h^2/8 of both minus the error of the segment distance. For graphs y = f(x), y = k(x) with f' - k' >= mu > 0 sampled at the same abscissas, their crossing is reported with an abscissa error of at most (Mf + Mk) h^2/(8 mu), if steps and angle are above the tolerances of the method, and every EXACT point is near that crossing.",
  'all smooth curves of every dimension and samplings, all smooth functions with a transversal crossing',
  'Error bounds and completeness for every smooth curve and every sampling.',
  [f'{I}:ExactIntersectionMethod', f'{I}:AlmostIntersectionMethod', f'{I}:IntersectionMethodBase.__call__', f'{G}:segments_to_segments'])

p('C151','Accuracy of the Frenet vectors and of the torsion of sampled smooth curves',
  "For points sampled with step h on a smooth curve (fourth derivative bounded, speed, normal part of the second and binormal part of the third derivative bounded away from 0), as long as the vectors that are normalised exceed the absolute threshold 1e-8: the unit tangents are those of the curve up to a multiple of h^2 at every point; the unit normals up to a multiple of h^2 inside (h at the ends); the unit binormals up to a multiple of h, and the torsion is the torsion of the curve (in space |det(d, e, f)| / |d x e|^2) up to a multiple of h, at all points that are not among the first three and last three. Conditions on h alone imply that the threshold is exceeded. When h is so small that h^3 F + (7/8) M h^4 <= 1e-8 the binormals are not normalised and the torsion comes out (almost) zero, e.g. for a helix of torsion 1/2 sampled with step 1/1000: the torsion does not converge.",
  'all smooth curves of every dimension, all step widths and sizes',
  'Error bounds with explicit constants for every smooth curve and every step.',
  [f'{D}:CurvePointFunctionMixin.frenet1', f'{D}:CurvePointFunctionMixin.frenet2', f'{D}:CurvePointFunctionMixin.frenet3', f'{D}:CurvePointFunctionMixin.torsion'])

p('C152','Text representations',
  "repr of points, curve points, segments, curve segments and curves leaves numpy's print options unchanged and does not depend on the precision and suppression set by the caller (for curves neither on threshold and edge items); numbers are written with four digits after the point. The text of a curve is the class name, numpy's lines of its points aligned below each other, then size, ndim and dtype; all points are shown if there are at most 10, else the first four and the last four (then also only four plus four coordinates in more than 8 dimensions). Equal texts mean: for curves equal size, dimension, dtype and equal text of the shown points; for points equal dimension, dtype and text; for curve points and curve segments equal index and text; for segments equal texts of both ends. Hidden points and parameter values are not told by the text.",
  'all curves, points, segments and print options, every way of numpy to write numbers',
  'Injectivity and layout for all texts that numpy may produce.',
  [f'{B}:Point.__repr__', f'{B}:CurvePoint.__repr__', f'{B}:Segment.__repr__', f'{B}:CurveSegment.__repr__', f'{B}:Curve.__repr__', f'{I}:SegmentsIntersection.__repr__'])

p('C153','Small changes of the points change the results little',
  "If the points of a curve are moved by at most d: chord lengths change by at most 2d, the cumulative arc length at index k by 2kd and the arc length by 2(m-1)d; the first three derivatives by 4d, 16d, 64d (d away from the ends), the speed like the first derivative; unit tangents by 8d over the speed; the curvature of a plane curve by a constant times d; linear interpolation at the same parameter values and window smoothing by at most d; the points of a curve of m points resampled linearly to n points of equal spacing by (4(m-1)+1)d; natural cubic splines and PCHIP (every coordinate) by (1 + 3/2 hmax/hmin) d, where the steps of the parameter are between hmin and hmax; Hermite interpolation by (1 + 2 hmax/v) d with v the smallest speed; Savitzky-Golay smoothing by the root of the window length times d, its derivatives by a constant times d. Akima interpolation has no such bound. The distances of segments change by at most 2d up to the error of the computation. Two crossing segments of the plane still cross and the reported point moves by at most a constant times d.",
  'all curves and segments, all perturbations within the stated bounds',
  'All inputs and all perturbations; explicit constants.',
  [f'{B}:Curve.chordlen', f'{B}:Curve.arclen', f'{D}:curvature', f'{D}:gradient', f'{N}:LinearInterpolator', f'{N}:CubicSplineInterpolator', f'{N}:CubicHermiteSplineInterpolator', f'{N}:PchipInterpolator', f'{N}:AkimaInterpolator', f'{S}:window_filter', f'{S}:savgol_filter', f'{G}:segment_to_segment', f'{I}:ExactIntersectionMethod'])

p('C154','Segments, distances and intersections do not depend on the unit of length',
  "Multiplying all coordinates by k > 0 multiplies the length of a segment, its points and the overlap by k, keeps coplanarity and (with the tolerance k^4 tol) parallelism, and keeps the angle; the distance of a segment to a point or a segment is multiplied by k up to the error of the computation and exactly on grids; the almost method with the distance tolerance k d accepts the same pairs of segments; the exact method reports the intersection in the other unit.",
  'all segments and curves, all k > 0',
  'The absolute tolerances of the code make the answer depend on the unit; tests use one unit.',
  [f'{B}:Segment.angle', f'{B}:Segment.overlap', f'{G}:segment_to_point', f'{G}:segment_to_segment', f'{I}:ExactIntersectionMethod', f'{I}:AlmostIntersectionMethod'])

p('C155','Crossings of segments in floating point',
  "With every operation rounded, the exact method finds the crossing of two segments of the plane whose lengths and angle stay within explicit bounds, and the reported coordinates are correct up to an explicit error; whatever point it reports lies on both segments up to rounding and the tolerances. For far points the crossing can be missed.",
  'all pairs of segments of the plane within the bounds, every rounding function with relative error eps, every solver with a small backward error',
  'Rounding errors depend on every bit of the coordinates; tests use a few small ones.',
  [f'{I}:ExactIntersectionMethod', f'{B}:Segment.point'])

p('C156','Distance of segments and almost intersections in floating point',
  "With every operation rounded, the distance of two segments computed by the library is never smaller than their distance by more than rounding, and for segments at an angle it exceeds it by at most an explicit error. So the method almost reports segments that come closer than dist_tol less this error and nothing that stays farther apart than dist_tol plus rounding.",
  'all pairs of segments in every dimension within the bounds on length and angle, every order of the sums, every rounding function with relative error eps',
  'The error depends on every bit of the coordinates and on which of the nine branches is taken; wrong results need nearly parallel segments and a determinant that is lost in rounding.',
  [f'{G}:segment_to_segment', f'{B}:Segment.shortest_segment', f'{I}:AlmostIntersectionMethod'])

p('C157','Almost intersections of curves in floating point',
  "With every operation rounded, the computation for all pairs of segments of two curves at once gives for each pair what the computation for the pair alone may give. Every pair reported by the method almost comes closer than dist_tol up to rounding, and every pair at an angle that comes closer than dist_tol less an explicit error is reported once, in row-major order.",
  'all pairs of curves and all curves with themselves in every dimension, every order of the sums, every rounding function with relative error eps',
  'The vectorised code with its thirteen masks must take the branch of the scalar code for every pair, whatever the rounding; tests compare a few pairs.',
  [f'{G}:segments_to_segments', f'{I}:AlmostIntersectionMethod'])

p('C158','Curvature in floating point',
  "With every operation rounded the curvature of a plane curve has an explicit absolute error, of the order eps B / v^2 for coordinates up to B and speed v inside and eps B^2 / v^3 at the ends; for a sampled smooth curve it is the curvature of the curve up to an error of the order h + eps B / h^2. In other dimensions the error at points away from the ends is of the order n eps / v, whatever the coordinates. A straight line of close points has a computed curvature above 10^14.",
  'all curves and points with positive speed, every order of the sums, every power accurate to eta, every rounding function with relative error eps',
  'Cancellation in the second differences depends on the coordinates and the spacing of the points; tests use a few smooth curves of moderate size.',
  [f'{D}:curvature'])

p('C159','Orientation in floating point',
  "With the determinant of the end points computed by elimination in rounded arithmetic, coorientplane still returns the copy or the reversed curve. If the determinant exceeds 5 eps times its larger product, the choice is the exact one, a second call changes nothing, and the reversed curve gives the same result. A closed curve may be left as it is instead of reversed.",
  'all curves with two or more points, all axes, every way LAPACK may compute the multiplier and the update, every rounding function with relative error eps',
  'The sign depends on the last bits for nearly collinear end points; tests use clear angles.',
  [f'{D}:coorientplane', f'{B}:Curve.coorientplane'])

p('C160','Collinear and coplanar points in floating point',
  "collinear, coplanar and isplane with rounded differences and with singular values which are accurate to eta times the largest one. Points of a line through the origin, also after rounding their coordinates, are found collinear; points in a plane are found coplanar. What is found collinear (coplanar) lies within rho S of one line through the origin (one plane), with rho about max(m, n) 2^-52 + eta, and all 2x2 minors are as small. Lines which do not pass through the origin are not found.",
  'all points, all dimensions, every rounding function with relative error eps, every way LAPACK may compute the singular values',
  'The decision is a comparison of a tiny singular value with a tiny threshold; samples cannot tell how far from a line the points may be.',
  [f'{G}:collinear_points', f'{G}:coplanar_points', f'{B}:Segment.collinear', f'{B}:Segment.coplanar', f'{B}:Curve.isplane'])

p('C161','Exact intersections of curves in floating point',
  "The exact method for segments and curves of the plane in rounded arithmetic, with the test of collinearity, the boxes and the solver. The list contains the intersecting pairs once each in row-major order. In binary64, with coordinates up to 1000, segments of length at most 10 and area at least 1 which meet at P are reported as an exact intersection within 1e-10 of P. What is reported lies near both segments, or is the common part of the boxes of segments taken for collinear. Far from the origin crossing segments are reported as overlapping.",
  'all curves of the plane, every rounding function with relative error eps, every solver and SVD with accuracy eta',
  'Missed and false intersections come from the interplay of four tolerances; tests try a few well separated crossings.',
  [f'{I}:ExactIntersectionMethod._intersect_segments', f'{I}:ExactIntersectionMethod._intersect_curves', f'{I}:ExactIntersectionMethod._find_segments_bbox_intersection'])

p('C162','Curves with NaN and infinite coordinates',
  "Lengths, derivatives, Frenet vectors, speed, curvature and torsion of curves whose coordinates may be NaN or infinite. A value depends only on the points its finite differences use; if these are finite it is the value for a curve of numbers, and if one of them is not the value is not a number either. nonsingular removes the points that are not finite. Window smoothing spoils exactly the points whose window meets such a coordinate. Exact intersections are those of the segments without NaN.",
  'all curves over the reals extended by NaN and the two infinities',
  'How far a missing value spreads depends on the position of the gap, the distance to the ends and the order of the derivative; tests contain no missing values.',
  [f'{D}:_gradient', f'{D}:arclen', f'{D}:curvature', f'{D}:torsion', f'{B}:Curve.nonsingular', f'{S}:window_filter', f'{I}:ExactIntersectionMethod._find_segments_bbox_intersection'])

p('C163','Resampling a curve in floating point',
  "curve.interpolate(n, method='linear') of a float curve without parameter values, computed in floating point from the chords on (any order of the sums). If the first two points differ and the points of the result are at least 3e-8 apart it returns n points; the first is the first point of the curve, and point i is, up to 2^-53 times the coordinate plus 24 * 2^-53 L, a point of the polygonal line at the length i L / (n - 1) from its start up to (4 (ndim + size) + 42) 2^-53 L. If the points would be at most 5e-9 apart it is a ValueError. InterpolationError does not occur.",
  'all float curves of at least two points, all n, every rounding function with a relative error bound; binary64 for up to 1e13 points and dimensions',
  'The bounds hold for every order of summation and every rounding of the operations; a test fixes one machine and a few curves.',
  [f'{D}:chordlen', f'{D}:cumarclen', f'{N}:UniformInterpolationGrid.__call__', f'{N}:InterpolatorBase._get_interpolation_grid', f'{N}:LinearInterpolator._interpolate'])

p('C164','Removing close points in floating point',
  "nonsingular of a curve of finite floats, computed with rounding and any order of the sums, returns a part of the curve with its parameter values that contains the first point. A point whose distance from the point before it exceeds 1e-8 by more than the error is kept, one nearer by more than the error is removed; in binary64 and up to a million dimensions the error is 1e-9 of the distance. If no distance is within the error of 1e-8 the result is that of exact arithmetic. Equality of points and Segment.singular follow the tolerance 1e-8 + 1e-5 |y| up to one percent.",
  'all non-empty curves of finite floats, every rounding function with a relative error bound; binary64',
  'Points exactly at the threshold and the order of summation decide; a test does not reach them.',
  [f'{D}:nonsingular', f'{D}:chordlen', f'{B}:Curve.nonsingular', f'{B}:Point.__eq__', f'{B}:Segment.singular'])

p('C165','Grids by length and by speed in floating point',
  "The number of points of UniformInterpolationGrid(fill, kind='length'), computed with rounding and any order of the sums, is one more than L / fill up to 1/2 and the error 2 (ndim + size + 3) eps L / fill, and it is the one of exact arithmetic if the quotient is farther than the error from the middle between two integers. PreservedSpeedInterpolationGrid(n) of a curve of positive length without parameter values has n values, from 0 on and none above the computed length; value i is the length up to a point at the fractional index i (size - 1) / (n - 1), up to 26 (size - 1) eps in the index and (6 (ndim + size) + 92) eps L in the value. No value lies beyond the parameter range.",
  'all curves with at least two points, every rounding function with a relative error bound; binary64',
  'The order of summation and quotients next to a tie decide; tests use round numbers.',
  [f'{N}:UniformInterpolationGrid', f'{N}:PreservedSpeedInterpolationGrid', f'{M}:linrescale', f'{D}:arclen', f'{D}:cumarclen'])

p('C166','Distances of points in floating point',
  "With rounding and any order of the sums, Point.distance by cityblock, sqeuclidean, canberra, braycurtis and euclidean (minkowski) differs from the exact distance by a small part of it: at most 2 n eps, 2 (n + 2) eps, 2 (n + 3) eps, 2 (3 n + 1) eps and about eps + eta for points of n coordinates, eta the relative error of the BLAS norm; chebyshev is the exact distance rounded once; cosine lies in [0, 2] and is within 6 (n + 2) eps of the exact distance. All are symmetric to the last digit, all but cosine are 0 for the same coordinates only, and a detour is not shorter up to these errors. The triangle inequality holds for the computed values, and points in the same direction have cosine distance 0.",
  'all points with n coordinates, every rounding function with a relative error bound; binary64',
  'Errors depend on magnitudes and on the order of summation; tests use small integers, where every operation is exact.',
  [f'{X}:get_metric', f'{B}:Point.distance'])

p('C167','Reading one curve from several threads',
  "Threads that read properties of one curve (lengths, parameters, derivatives, Frenet vectors, speed, curvature, torsion) in any interleaving all obtain the values, or errors, computed from scratch. Arrays handed out keep their content, a thread ends after a bounded number of own steps whatever the others do, and a later read sees the same values. Every thread obtains the same array for a property.",
  'all curves, any number of threads, any sequences of reads, all interleavings of their steps (dictionary lookup, store, allocation, use of an array)',
  'Interleavings of sixteen mutually dependent lazy properties cannot be enumerated by tests, and races show up rarely.',
  [f'{B}:Curve.chordlen', f'{B}:Curve.t', f'{D}:frenet1', f'{D}:normal', f'{D}:curvature', f'{D}:torsion'])

p('C168','Registering and looking up methods from several threads',
  "Threads that register methods, set the default and look names up in any interleaving: names stay different and are never lost, the default is a registered name, every class found under a name was registered under it and is a subclass of the base class, a lookup gives a class or a NameError (never a KeyError), every call ends after four own steps. Of several registrations of one new name one succeeds and the others are refused with a ValueError.",
  'all registries, any number of threads and calls, all interleavings of their steps',
  'The test and the store of a registration are separate steps; a test does not hit the moment between them.',
  [f'{I}:register_intersect_method', f'{I}:set_default_intersect_method', f'{I}:get_intersect_method', f'{N}:register_interpolator', f'{N}:get_interpolator'])

p('C169','Warnings of the computed properties',
  "On a new curve any series of reads of its properties issues each warning at most once per property, and exactly these: for every property that had to be computed and takes differences, the missing points (2 of 3; or 1 of 3, 1 of 2 and 'cannot'); for every computed kind of Frenet vectors, one if some vector does not have unit length. A property read before issues none, even if reading it failed. Nothing is computed that the reads do not need. Values and stored arrays do not depend on the warnings. Lengths and parameters never warn, nor does an empty curve.",
  'all curves, all series of reads of any properties',
  'Warnings depend on what was read before; tests check a warning for a single property of a single curve.',
  [f'{D}:_gradient', f'{D}:_frenet_vector_norm', f'{D}:frenet1', f'{D}:frenet2', f'{D}:frenet3', f'{D}:curvature', f'{D}:torsion'])

p('C170','Warnings of segments, intersections, interpolators and of the constructor',
  "Warnings say what happened and change no result. Segment.t of a point warns iff the result is NaN, and a value is given silently only for a point of the line; for several points it warns iff some result is NaN. Segment.angle warns iff the result is NaN, for degenerate segments. Exact intersections never warn in exact arithmetic. intersect warns iff a method object is given together with parameters, which have no effect. An interpolator warns iff the curve is empty or the grid does not cover the range. Curve(curve, ...) warns iff tdata or axis is given, which have no effect.",
  'all segments of any dimension, points, curves, methods, grids and arguments',
  'Tests look for a warning in single cases and never for its absence; the conditions are tolerances on all coordinates.',
  [f'{G}:segment_t', f'{G}:segments_angle', f'{I}:ExactIntersectionMethod._intersect_segments', f'{I}:intersect', f'{N}:InterpolatorBase.__call__', f'{B}:Curve.__init__'])
p('C171','Resampling a straight line keeps the spacing of the grid',
  'For points in order on a straight line (no own parameter) interpolation by linear, pchip, cubic (natural, not-a-knot), spline without smoothing, csaps, hermite and, within the curve, akima gives the points of that line: the chord lengths of the result are the steps of the grid and its arc length is the last grid value minus the first. A uniform grid of n points (or for a chord length f) gives equal chords, the length and the end points of the curve; extrapolation by b and a points adds (b + a) steps, by lengths v and w adds v + w up to one step, exactly if they are multiples of the step.',
  'all curves of at least 2 points in order on a line, of any dimension and distances; all grids with steps above 1e-8','unbounded',
  [f'{N}:interpolate', f'{N}:UniformInterpolationGrid', f'{N}:UniformExtrapolationGrid'])

p('C172','Window smoothing and linear interpolation stay in the convex hull of the points',
  'Smoothing a float curve with windows of entries at least 0 and a positive sum, any number of rounds and each with its own window and mode, leaves every point in the convex hull of the points of the given curve, so in every convex region that contains these; in the modes reflect, mirror and nearest no segment becomes longer than the longest one was. Linear interpolation at grid values within the range of the parameter gives points of the convex hull.',
  'all float curves with points, of any size and dimension; all lists of windows; all grids with steps above 1e-8 within the range','unbounded',
  [f'{S}:window_filter', f'{N}:LinearInterpolator'])

p('C173','A part of a curve has the lengths and the local geometry of the curve',
  'For points p_i, p_j (i <= j) of a curve, the chord lengths of p_i.subcurve(p_j) are the chord lengths i..j-1 of the curve, its cumulative lengths are cumarclen[i+k] - cumarclen[i] and its arclen is cumarclen[j] - cumarclen[i], at least the distance of p_i and p_j; own parameter values are kept and the default parameter starts at 0 again. First derivative, speed and tangent (second derivative, normals and curvature; third derivative, binormals and torsion) of the part at its point k are those of the curve at point i+k.',
  'all curves, all pairs of positions, all points of the part','unbounded',
  [f'{B}:CurvePoint.subcurve', f'{D}:chordlen', f'{D}:_gradient', f'{D}:CurvePointFunctionMixin.frenet1', f'{D}:CurvePointFunctionMixin.curvature', f'{D}:CurvePointFunctionMixin.torsion'])

if __name__ == '__main__':
    with open(os.path.join(os.path.dirname(__file__), '..', 'properties.jsonl'), 'w') as f:
        for r in P: f.write(json.dumps(r, ensure_ascii=False) + '\n')
    print(len(P))
