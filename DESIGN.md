# Formal model of scikit-curve: design

Subject: espdev/scikit-curve (python, `/repo/skcurve`), read as text. Prover: Lean 4.33.0 with the
installed Mathlib (imported module by module). Properties: `properties.jsonl` (C01..). Status per
property: `MANIFEST.json`. Wrong-program experiments: `seeded/LOG.jsonl`.

## 1. Trusted base

* Lean's kernel. Every theorem depends at most on `propext`, `Classical.choice`, `Quot.sound`
  (Lean's standard axioms). No own axioms, no `sorry`, no `native_decide`, no `bv_decide`.
  `lean/Verif/Audit.lean` prints the axioms of the property theorems during the build.
* The claim that the definitions under `lean/Verif/Model` describe the Python code. Each definition
  cites file and lines; simplifications are stated in the comment of the definition and collected below.
* The behaviour of numpy/scipy primitives the code calls, as written down in `lean/Verif/Np` (list and
  array functions) and in section 3. The code uses `np.bool`/`np.object` and `np.delete`'s
  out-of-bounds IndexError, so numpy >= 1.19, < 1.24 is assumed.

## 2. Shape of the model

* `Verif/Np/*`      numpy primitives as total functions on lists (index normalisation, slices, take,
  mask, insert, delete, diff, cumsum, linspace, gradient, unique, transpose/reshape, ...).
* `Verif/Model/*`   the code of skcurve, function by function. Exceptions are values
  (`Except PyErr a`). Branches are kept in source order.
* `Verif/Spec/*`    small independent specifications the theorems are stated against.
* `Verif/Props/*`   property theorems, with `example`s showing the hypotheses are met by concrete
  non-trivial cases. Proof machinery is in `Verif/Lemmas/*` or private lemmas in the same file.
* `Verif/Tests/*`   cases of the project's own test suite (tests/test_curve.py, test_segment.py, test_intersect.py with the
  exact method) evaluated in the model with the results the project expects. They test that the model describes the code and
  prove no property. `Tests/Exec` has computable versions of the definitions that use ranks, with proofs that they are equal.

Exceptions: `PyErr` distinguishes the python exception classes the code distinguishes.

Numbers. Coordinates live in an arbitrary type / ordered field `K`; the examples use the rationals
(every finite float64 is a rational). Square roots and trigonometry use the reals. Where NaN/Inf
matter (`isclose`, `==`, `drop`, `nonsingular`, `chordlen`) the element type is `Val K` =
finite | nan | +inf | -inf with the IEEE comparison and absolute-difference rules (signed zeros are
not distinguished). Arithmetic is exact except where a theorem takes an explicit rounding function
`fl` (any monotone function, idempotent, fixing 0 and 1); such theorems hold for every rounding mode
and precision. The rounding layer (`Spec/Rounding.lean`, `Model/Rounded.lean`, C119-C121, C130-C132) has the same functions with
every operation followed by `fl`, `fl` monotone, odd, idempotent with relative error at most ε, sums in any order and grouping
(numpy sums pairwise); binary64 round to nearest even with an unbounded exponent is shown to be such an `fl`, so what is
left out there is underflow and overflow. `Spec/Range.lean` and `Model/Binary64.lean` (C139) have the bounded exponent, subnormal numbers and infinities, for chord and arc lengths. For `fl = id` these definitions are the exact model (theorems `…_exact`). Integers are unbounded, except in `Model/Int64.lean` (C136), which has the int64 arithmetic of numpy for the functions that compute with integers.

dtypes: `int` (truncating cast) and `float` (identity cast). float32 and complex are not modelled.

Heap/aliasing: objects are values; C22 has its own model with a lazily filled cache and user writes
into the arrays that were handed out.

### Wrong-program experiments

`seeded/LOG.jsonl` has one line per edited definition. How to read it:

* `failed`, lines 583 and later: the declarations (theorems, lemmas, examples) at which the build of the edited copy reported an error.
  `blocked`: the property theorems that depend on one of these. Lake does not build modules behind a failed one, so a blocked theorem has
  not been tried on the edited program; it has only lost its proof.
* Lines 1 to 582 have no `blocked`. They were written before these scripts existed here and `failed` has not been split again; it may contain
  dependants as well.
* `tightened`: theorems written or strengthened because the edit had survived. Where `failed` names
  one of these, it is the outcome of a second run, against the new theorems; otherwise that of the first run.
* The claims of lines 658-694 (edits generated from a list of operators) were filled in from the first property that failed; they were
  not predicted. Those of the other lines from 583 on were written with the edit.
* Edits after which the model itself no longer compiles are not listed (25 of the 137 edits behind the lines up to 694). From line 695 on
  every edit tried is listed.
* Lines 695-725 (31 edits, claims written before the run) built only the module of the claimed property and what it imports. For 20 of them
  the claimed property depends on a declaration that failed. For the other 11 an unrelated theorem in an imported module stopped the build,
  so the run said nothing about the claim. These were run again in the scratch copy with the failing imported proofs replaced by `sorry`
  (field `stubbed`, contained in `failed`) until the claimed module was tried or built: four fail in a theorem of C144 itself, one in a
  lemma of C151, and in six the module builds but its theorems rest on one of the stubbed lemmas, hence are `blocked`.
* A failed or blocked theorem has lost its proof on the edited program. That its statement is false there has not been proved.
* An edit that survives without a tightened theorem is a line with both lists empty.

## 3. What is modelled and what is not

Modelled: `_numeric.py` (all), `_utils.py` (all), `_base.py` (all classes; not `__hash__`), `_geomalg.py` (all), `_intersect.py` (all), `_diffgeom.py` (all), `_distance.py` (all; the
thirteen metrics of scipy 1.7 by formula), `_interpolate.py` (all; see below for
the splines), `_smooth.py` (registry, dispatcher, window filter, savgol), `curves.py` (formulas and sampling),
`plot.py` (what is drawn, not how it looks).

Not modelled: `_version.py`, texts of warnings (that they occur: C145, C169, C170), how numpy writes numbers; float rounding except through `fl`;
int64 overflow outside C136. Threads are treated in Model/Threads for reads of one curve and for the registries: the atomic
steps are those that CPython's global interpreter lock makes atomic (one dictionary operation, one array allocation, one use
of an array nobody writes into).

External numerics are replaced by exact mathematics or by a parameter:

| external | in the model |
|----------|--------------|
| `np.linalg.matrix_rank` | rank over the field in Model/Geom; with the tolerance on the exact singular values (Mathlib's `LinearMap.singularValues`) over ℝ in Model/Rank; in Model/RoundedRank the singular values are accurate to η times the largest one (`SvdTo`, LAPACK's error bound) |
| `np.linalg.solve`, `det`, `np.sqrt`, `np.cross` | exact; `solve` in C155: the exact solution of a system with slightly changed coefficients (`SolveTo`), shown for elimination with pivoting (C155_solver) |
| `np.linalg.lstsq`, `polyfit` (savgol) | any function returning a least-squares solution (`LsqOk`); for C101 and C102 `lstsq` returns the shortest one (`MinNormOk`) |
| networkx components | any enumeration of the connected components (`IsComponents`) |
| `scipy.ndimage.convolve1d`, `scipy.signal.windows.hann` | formulas with the padding modes; scipy takes weights that are symmetric up to 2^-52 for symmetric, which the exact model ignores and the rounded one (C131) covers by its parameter `η` |
| `scipy.special.fresnel` | the defining integrals |
| `interp1d(kind='linear')` | its search and formula |
| `collections.abc.Sequence` (iteration, `reversed`, `in`, `count`, `index`) | the loops of CPython's `_collections_abc.py` (`Model/Sequence`) |
| `CubicHermiteSpline`, `PchipInterpolator`, `Akima1DInterpolator` | their formulas (`Model/Spline`) |
| keyword arguments of interpolators | a dictionary of names and values (`InterpKw`); truth values as in Python |
| `CubicSpline` slopes | parameter; `NaturalOk` says it solves the natural system, `BoundaryOk` the clamped, not-a-knot and periodic ones |
| metrics of `scipy.spatial.distance` | their formulas (`Model/Distance`); NaN and infinity as values, no exceptions for them |
| `csaps.CubicSmoothingSpline` | the formulas of csaps 0.9 to 0.11 with the linear system solved exactly (`Model/Spline`), for smoothing parameters in [0, 1] and positive weights; otherwise an arbitrary parameter. Values at infinite grid values are not claimed |
| `UnivariateSpline` | arbitrary parameter (`SplineLib`); `UnivariateOk` says what is assumed for `s=0` and degree 1 or 3 |
| `np.array2string`, `np.printoptions` | which entries are shown (`threshold`, `edgeitems`); the text itself is a parameter (`Fmt`) |
| Akima with two knots | arbitrary parameter (`SplineLib`) |
| an uninitialised array (`chordlen` of an empty curve) | arbitrary value `junk` |

## 4. Plan per property

Status words: P = to be proved as stated; V = the code violates the statement for some inputs: a
negation theorem with a witness plus the strongest true version under the name `..._partial`.

| id | how |
|----|-----|
| C01 | P. `Curve.WF`; one preservation lemma per operation; induction over operation histories (Model/History, Model/FullHistory) |
| C02 | P. rows/columns of a transposed rectangular list of lists |
| C03 | V. N-D arrays as shape + element function, `transpose`/`reshape` through C-order enumeration; axis below -rank is accepted (witness) |
| C04 | P. zero padding; chord lengths over the reals |
| C05 | V. empty curves of dimension >= 3 lose their dimension; identity for all others |
| C06 | V. indices in [-2n,-n-1] are accepted; exact behaviour characterised for all integers |
| C07 | P. CPython slice adjustment against a declarative spec |
| C08 | V. the empty python list raises IndexError; otherwise as stated |
| C09 | V. empty part of a >= 3-D curve; otherwise as stated |
| C10 | V only for the dimension of empty curves; P for points and t |
| C11 | V. list positions below -size wrap; block insertion and list insertion as stated otherwise |
| C12 | P. complement of the index set |
| C13 | P. permutation from C07 and C12 |
| C14 | V. deletedim of all axes loses the points |
| C15 | P. stable sort + first of run + sort of indices = first occurrences |
| C16 | P. |
| C17 | V. a close pair separated by a NaN point survives; subsequence and finiteness hold |
| C18 | V. `isclose` is asymmetric; reflexivity, band in which symmetry holds, integer case |
| C19 | P. |
| C20 | V. start < -size gives a wrong index; nonnegative start as stated |
| C21 | P. infix |
| C22 | V for user writes into handed-out arrays; P for histories of reads |
| C23 | P. |
| C24 | V. dtype is always float64 after a copy |
| C25 | P. |
| C26 | V. only lines through the origin; P for those |
| C27 | V. same cause; exact characterisation: rank of the raw coordinates |
| C28 | V. scale-dependent threshold; P for the other three clauses |
| C29 | V/P: fewer than two points in space raise; rank of differences = dimension of the affine span |
| C30 | P. over the reals |
| C31 | V. diagonal of the bounding boxes; emptiness test and midpoint P |
| C32 | V exactly, P with the explicit tolerance |
| C33 | P with arbitrary rounding `fl` |
| C34 | V for near-parallel/short segments; P when the tolerance branches are exact (KKT for a convex box problem) |
| C35 | follows C34, same hypotheses |
| C36 | P. pointwise simulation of the masked updates |
| C37 | P |
| C38 | V for short segments; P with the non-parallel test passed |
| C39 | V; P for lines through the origin |
| C40 | P |
| C41 | P |
| C42 | P |
| C43 | P from C36 |
| C44 | P. connected components as reflexive-transitive closure |
| C45 | P |
| C46 | P |
| C47 | P |
| C48 | V. NONE never accepts |
| C49 | P. induction over histories of registry calls |
| C50 | V for empty curves; P otherwise, monotone under rounding |
| C51-C53 | P over the reals |
| C54 | V for single-point curves (shape); P otherwise |
| C55-C56 | P over the reals |
| C57 | V when the determinant is 0; P otherwise |
| C58 | V for single-point curves; P otherwise |
| C59-C61 | P |
| C62 | P |
| C63 | P |
| C64-C65 | P |
| C66 | V for empty curves; P otherwise |
| C67-C68 | P |
| C69 | P |
| C70-C73 | P (C73 V: CurveSegment accepts negative indices below -(size-1)) |
| C74 | V for integer dtype; P for float |
| C75 | V: the exception object is built but not raised |
| C76 | V for integer dtype; P otherwise |
| C77 | V: the window is normalised in place |
| C78-C79 | P; savgol over an arbitrary least-squares solver |
| C80 | V for callables; P for names |
| C81-C82 | P over the reals |
| C83 | V for periodic continuation; P otherwise |
| C84-C86 | P: piecewise cubics as real functions / polynomials |
| C87 | V for hermite; P for the others |
| C88-C89 | P |
| C90-C92 | P; C91, C92 with witnesses of violation |
| C93 | P; completeness up to the error bound of the distance |
| C94 | V at the tolerances; P otherwise |
| C95 | P |
| C96 | V next to the ends; P otherwise |
| C97 | V for fine sampling and the sign of the torsion; P otherwise |
| C98 | V for the exact method on collinear segments; P otherwise |
| C99 | V for pchip; P otherwise (float curves) |
| C100 | P |
| C101 | P (assumption MinNormOk on lstsq, polyfit) |
| C102 | V for windows with an even number of entries; P otherwise |
| C103 | V for curves with parameter values; P otherwise |
| C104 | V for hermite when only the parameter is rescaled; P otherwise |
| C105 | V for hermite and akima; P otherwise |
| C106 | V for cubic and akima; P otherwise |
| C107 | P |
| C108 | V for extrapolate=None with linear; P otherwise |
| C109 | P |
| C110 | P |
| C111 | V/P: `Point(5)`, one-coordinate slices, copies of far negative indices |
| C112 | V/P: dimension not checked by `angle` of point-like segments and by `overlap`; AttributeError; 0-d parameter arrays |
| C113 | V/P: graphs with steps below the tolerance; `remove_extra` on parts |
| C114 | V/P: empty slices in space raise ValueError; class names bound to None by the decorators |
| C115 | V/P: third derivative does not converge at the three points at each end |
| C116 | V/P: in space the curvature of ever finer samplings tends to 0 (threshold 1e-8 on the speed per index) |
| C117 | P |
| C118 | P: dtypes other than integer |
| C119 | P: rounding layer |
| C120 | P for steps above the rounding of the ends; else violated |
| C121 | P except point(1) and the right node (violated) |
| C122 | P: triangle inequality for the shifted continuations, pairs of opposite shifts |
| C123 | P for chords above the grid tolerance; violated for repeated points |
| C124 | P under the contract `BoundaryOk` for scipy's solver |
| C125 | P under the contracts `NaturalOk`, `BoundaryOk` |
| C126 | P; exact singular values |
| C127 | P. formulas of scipy; Minkowski's inequality from Mathlib, Canberra and Mahalanobis by hand; witnesses against the triangle inequality of braycurtis and cosine |
| C128 | P. regularity of the band system, the solution as moments of a natural spline, the cost split into the minimum plus a square |
| C129 | P under a contract of scipy's `UnivariateSpline`; the slopes solve the not-a-knot system, which has one solution |
| C130 | V. error bounds of numpy's gradient by the rounding interface, propagated three times; a binary64 witness at the ends |
| C131 | V. error bound of a weighted sum in any order, a binary64 witness of ten equal weights |
| C132 | V. error of a rounded dot product, Hölder continuity of arccos; binary64 witnesses against exact parallelism and zero angles |
| C133 | P for the contract of the solver |
| C134 | P. The cast of the interpolated values to the integer dtype (truncation toward zero) after the exact interpolation; values at the knots are integers, so they survive the cast |
| C135 | V. One point at a list, slice or mask of positions, refusals in the order of the code; negative positions out of range in lists and masks wrap (witnesses) |
| C136 | V beyond 2^63, P below. Model/Int64: 64-bit sums and products modulo 2^64; no wrap below explicit bounds, so the exact model applies; overflow witnesses |
| C137 | P. Peano-type error bounds for natural and clamped cubic splines by the energy argument of C125, for PCHIP by bounds on its slopes and the cubic Hermite error |
| C138 | V for PCHIP and curves without parameter values. Interpolating at a finer grid and again: the spline through samples of a natural spline is that spline (uniqueness of C125) |
| C139 | V at the ends of the range. Model/Binary64: squares and sums with overflow and underflow; no overflow for coordinates below 2^500, chords above 2^-500; witnesses outside |
| C140 | P. Model/Spline (csaps): the band system is mapped to itself by affine maps, scaling of the parameter and reversal, and has one solution |
| C141 | P. The boundary systems are mapped to themselves by affine maps of the points and reversal; one solution; witness that integer data are not converted |
| C142 | V. Rounded cumulative sums are monotone; strictly if no chord is below the rounding of the sum; witnesses of equal parameter values and of the refused interpolation |
| C143 | P under the contract `UnivariateOk`: the contract is preserved by the symmetries and determines the values |
| C144 | P. Derivatives of the parametrised curves with Mathlib's calculus, the Fresnel integrals as integrals |
| C145 | V for NaN in the grid. The test of the code against the coverage of the parameter range, for every kind of grid |
| C146 | P. Weighted means of nearby samples: Taylor with second derivative bound inside, reflection at the ends |
| C147 | P. Reproduction of polynomials (C67, C101) plus Taylor's theorem for the rest |
| C148 | V for nonsingular. Equational laws proved from the list specifications of C07 to C15 |
| C149 | P. Error of the cubic Hermite interpolant from the error of the slopes; slopes of pchip, akima and gradient by divided differences |
| C150 | P. Sampled smooth curves are within h^2 of their polygons; crossings of polygons against crossings of the curves by the intermediate value theorem |
| C151 | P above the threshold of normalisation, V below. Taylor expansion of the finite differences of a smooth curve, stability of normalisation and of projections |
| C152 | P. Model/Repr: texts as lists of lines with the text of numbers as a parameter `Fmt`; parsing the text back where nothing is hidden |
| C153 | V for crossings in space and Akima. Lipschitz bounds in the points for every computed quantity |
| C154 | V for absolute tolerances. Scaling of all coordinates by a unit, quantity by quantity |
| C155 | V without conditions on size and angle. Model/RoundedCross: `fl` for every operation, `SolveTo` for the solver, shown for elimination with pivoting |
| C156 | V without conditions on the angle. Model/RoundedDist: every operation through `fl`; forward error analysis of the clamped parameters |
| C157 | V without conditions on the angle. The vectorised computation equals C156 for single pairs, then C156 |
| C158 | V for the relative error. Forward error of C130 through the quotient; a straight line as a binary64 witness |
| C159 | V for closed curves. The sign of a rounded 2x2 determinant is right outside of 5 eps of the larger product |
| C160 | V off the origin as in exact arithmetic. Singular values within eta (`SvdTo`) against numpy's tolerance |
| C161 | V without conditions. Model/RoundedExact: collinearity by C160, boxes exactly, crossings by C155 |
| C162 | V for infinite coordinates and curvature in space. Model/NonFinite: all operations over `Val`; propagation by the set of points a difference uses |
| C163 | V at the last point. C142 for the parameters, C120 for the grid, rounded linear interpolation; all orders of summation through the relation `SumsTo` |
| C164 | V at the threshold. Relative error of a rounded chord against 1e-8 |
| C165 | V at ties and for the parameter range. Rounded quotient and round-half-even; rounded fractional indices |
| C166 | V for the exact triangle inequality. Relative error of each formula by the rounding interface; binary64 witnesses |
| C167 | P for values, V for identity. Model/Threads: a read as a tree of atomic steps (lookup, store, new array, use of an array), any schedule of any number of threads; the invariant says what the rest of each read will return in every future state; a step bound by structural recursion |
| C168 | V for two registrations of one name. Model/Threads: calls as trees of atomic steps on the registry; invariant per position in a call |
| C169 | P. Model/Warn: the reads of Model/Cache with the warnings they issue; Spec/Warn lists what each read needs and which curves deserve which warning. Invariant: what a stored property needs is stored; each computation issues the warnings of what it newly stores |
| C170 | V in five places, P otherwise. Model/WarnMore: the functions with their warnings, written again and shown to give the same results; the residual test is compared with the distance to the line, the exact method solves its equations exactly |
| C171 | V for `hermite` at uneven distances, P otherwise. Each method is shown to evaluate to the line (C87, C128, and here linear, not-a-knot and spline), a grid specification to act through its array, and chords of line points to be the steps of the grid; then C59-C61 apply |
| C172 | V for the mode `constant`, P otherwise. By C100 a smoothed point is a weighted mean of continued points, and these are points of the curve; induction over the rounds. Linear interpolation by C64 |
| C173 | V next to the ends of the part, P otherwise. Lengths by C50 and additivity of the length of a polygonal line; each operation of `_diffgeom.py` keeps agreement of a range of rows, a gradient narrows the range by one at each end |

The table is the plan; where a proof turned up further violations the status in `MANIFEST.json` and the
notes there are authoritative.

Expressibility: every listed property is expressible in the model; claims about how plots look and about the text of
messages were left out of the list.
