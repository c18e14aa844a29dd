# Formal model of pletzer/sigrid in Lean 4 - design

Source: `/repo` (C++ headers `cpp/Sg*.h`, C wrappers `cpp/Sg*.cpp`, `utils/*.cpp`,
`py/conserveInterp2D.py`), read as text. Nothing was compiled or run.

## 1. Layout

* `lean/Verif/Model/*`  - the model, one file per C++ class, every definition cites file:lines.
* `lean/Verif/Spec/*`   - small specifications written without the model's helpers
  (convex hull, polygons, lexicographic order, ...).
* `lean/Verif/Proof/*`  - helper lemmas.
* `lean/Verif/Props/*`  - the property theorems (names start with `C<nn>_`), each followed by
  `example`s showing that a concrete non-trivial case meets the hypotheses.
* `properties.jsonl`, `MANIFEST.json`, `seeded/LOG.jsonl` - property list, status, seeded bug log.

## 2. Modelling decisions

* **Undefined behaviour is an outcome.** Partial operations return `Cxx α = Except UB α` with
  `UB` one of out-of-bounds access, integer division by zero, signed overflow,
  dereference of an end iterator, null dereference, read of an
  uninitialised member, undefined `double`-to-`int` conversion, use of a dangling pointer. A theorem saying `f x = .ok v` therefore
  includes the absence of UB.
* **Scalars.** `double` is modelled by an arbitrary type `F` that only has the operations
  (`+ - * /`, comparisons, literals, `floor`), *without laws*. Control-flow and index theorems
  are proved for such an `F`, so they also hold for IEEE doubles (NaN included).
  Geometry theorems are proved for linear ordered fields, or for the real numbers when areas
  (Lebesgue measure) occur: these are statements about exact arithmetic. Rounding is modelled for
  `apply`, the rectangular grids, the octree, the multilinear interpolation, the nodal interpolator, the triangulation, the
  intersections of quadrilaterals and segments, the conservative interpolator, the projections of flows and flow interpolation (C92, C93, C106-C111, C114-C116:
  `Spec/Rounded.lean`, reals with every operation rounded, no NaN; `Spec/Double.lean` computes with 53 bits, ties to even, for a counterexample). Infinities and NaN are modelled, without rounding, for C120, C121, C135-C138 and C140
  (`Spec/Ieee.lean`, `Spec/IeeeOps.lean`). The other
  claims say "in exact arithmetic". The code's tolerances (1e-12, 100*eps) are kept
  as parameters or literal values, and the hypotheses name the configurations for which they matter.
* **Machine integers.** `int` arithmetic in the box iterator is checked 32-bit arithmetic
  (overflow = UB). `size_t` arithmetic is on `Nat` with the no-wrap bound stated where it can matter.
* **std::sort** is unstable: theorems about sorted data quantify over every permutation
  that satisfies the comparator (`IsStdSort`, `SortsTo`).
* **std::map** is an association list with unique sorted keys or a lookup function; only insert
  (does not overwrite), find, ordered iteration are used by the code.
* **LAPACK dgels** is an oracle with its documented contract (a structure of hypotheses, not an axiom):
  theorems take an arbitrary `gels` and the contract as hypothesis. For the 2x2 systems of the
  geometry code the contract is: non-singular -> info 0 and the unique solution;
  singular but not zero -> info > 0 and arbitrary contents; zero -> info 0 and the zero vector (dgels has this
  special case before the factorisation). `example`s exhibit an oracle meeting it (Cramer's rule).
  In rounded arithmetic the contract is backward stability on two equations (`GelsStable` in `Spec/RoundedQuad.lean`), with
  Cramer's rule and a rounded result as an instance.
* **libm** (`sin`, `cos`, `asin`, `atan2`, `pow`) are `Real.sin` etc. for the grid generators.
* `&v[n]` for a vector of `n` entries, used as the end of a range (`SgTriangulate.h:295`), is taken as the address it yields and
  not counted as an access.
* Printing and timers are not modelled, except for the items that the command line parser's `help` prints.

## 3. Trusted base

* Lean 4.33.0's kernel.
* The axioms `propext`, `Classical.choice`, `Quot.sound`, and no other: `#print axioms` on every
  theorem named in `MANIFEST.json` lists a subset of these three. No axiom is added, there is no
  `sorry`/`admit`, no `native_decide`/`bv_decide`, no `unsafe`/`implemented_by`.
  `decide +kernel` is used for closed witnesses over the rationals and the computable double precision numbers (the kernel evaluates).
* Mathlib definitions that occur in statements: lists, `Finset` sums, ordered fields, `convexHull`,
  `MeasureTheory.volume`, interval integrals, real trigonometry.
* The correspondence between the C++ text and the model. It is by reading: each definition cites its
  lines and says where it simplifies. It is exercised by seeded bugs in `seeded/LOG.jsonl`.
* The contracts assumed of code outside the repository, always as hypotheses of the theorems that
  need them: LAPACK `dgels` (`Spec/Gels.lean`, `Spec/RoundedQuad.lean`), `std::sort` (`IsStdSort`), `sqrt`, `fmod`, `floor`
  (`FOpsLaws`), `atoi`/`atof` (`Conv`). For each of them an instance meeting the contract is exhibited.

### What is modelled

| source | model | not modelled |
|--------|-------|--------------|
| `cpp/SgBoxIterator.{h,cpp}` | `Model/BoxIterator`, `Model/BoxIteratorRaw` | - |
| `cpp/SgSideIterator.h` | `Model/SideIterator` | - |
| `cpp/SgLine.cpp`, `SgTriangle.cpp`, `SgTetrahedron.cpp` | `Model/Simplex` | the returned pointers are represented by the contents |
| `cpp/SgLinearSolve.{h,cpp}` | `Model/LinearSolve`, `Model/LinearSolveRaw` | contents of the work array |
| `cpp/SgOctreePoints.{h,cpp}` | `Model/Octree`, `Model/OctreeFlat`, `Model/OctreeRaw` | the two maps are lists of entries |
| `utils/CmdLineArgParser.{h,cpp}` | `Model/CmdLine` | layout of printed numbers, fixed words of the help text, messages printed by `parse` |
| `utils/createGrids2D.cpp`, `cpp/SgTripolarGrid.{h,cpp}` | `Model/Grids`, `Model/GridsRaw` (with overflow of the `int` node count) | - |
| `cpp/SgFindPointInCell.{h,cpp}` | `Model/FindPoint`, `Model/FindPointHistory`, `Model/FindPointRaw`, `Model/FindPointRun` | running out of memory |
| `cpp/SgNodeInterp2D.{h,cpp}` | `Model/NodeInterp`, `Model/NodeInterpRaw`, `Model/NodeInterpRun` | `getDstQuadCoord`, `getSrcQuadCoord` (never called) |
| `cpp/SgFindOverlappingCells2D.{h,cpp}` | `Model/FindOverlap`, `Model/FindOverlapRaw`, `Model/FindOverlapRun` | - |
| `cpp/SgTriangulate.{h,cpp}` | `Model/Triangulate`, `Model/TriangulateRaw` (sorting of indices) | - |
| `cpp/SgQuadIntersect.{h,cpp}` | `Model/QuadIntersect`, `Model/QuadMemory`, `Model/QuadScratch` | - |
| `cpp/SgConserveInterp2D.{h,cpp}` | `Model/ConserveInterp`, `Model/ConserveRaw` | running out of memory |
| `cpp/SgQuadLineIntersect.{h,cpp}` | `Model/QuadLineIntersect`, `Model/QuadMemory`, `Model/QuadScratch` | - |
| `cpp/SgQuadLineFlows.{h,cpp}` | `Model/QuadLineFlows`, `Model/QuadMemory` | a member that is never read |
| `cpp/SgFlowInterp2D.{h,cpp}` | `Model/FlowInterp`, `Model/FlowRaw` | `debug` (prints) |
| `new`/`delete` in all the classes | `Model/Resources` | memory owned by `std::vector`/`std::map` |
| `py/conserveInterp2D.py` | `Model/PyWrapper`, `Model/PyArrays` (with numpy arrays and the native object) | type errors raised by `ctypes`/`numpy`, arrays of other types than `float64` |

Not modelled at all: `cpp/SgConserveInterp2D.h_bk` (not compiled), `tests/`, `examples/` and `scripts/`
(programs using the library, mostly file output), `setup.py`, `CMakeLists.txt`, timers and printing.
Rounding of floating point numbers is not modelled except where a property says so; see section 2.

## 4. Plan per property

| id | model | proof |
|----|-------|-------|
| C01-C05 | `Model/BoxIterator`: constructor, getElement, getIndex with checked int arithmetic | mixed-radix induction on the list of axes; counterexample for two negative extents |
| C06-C07 | `Model/SideIterator` | base-3 digits, induction over the iteration |
| C08-C09 | `Model/Simplex` | table facts + algebra for all coordinates; face orientation is refuted |
| C10-C13 | `Model/LinearSolve` with Fortran column-major view and dgels contract | index algebra for all n; counterexamples for rectangular shapes |
| C14-C18 | `Model/Octree`, `Model/OctreeFlat` | induction over levels, interval arithmetic; `refineOctree` by well-founded recursion |
| C19-C23 | `Model/CmdLine` | list induction |
| C24-C27 | `Model/Grids`, `Model/Tripolar` | index algebra, real trigonometry |
| C28-C37 | `Model/FindPoint` | products of linear weights, induction on dimension; loop measure; affine Newton step |
| C38-C41 | `Model/NodeInterp` | sums over weight tables; search oracle |
| C42-C44 | `Model/FindOverlap` | integer boxes |
| C45-C49 | `Model/Triangulate` | invariant: boundary edges are a half-plane description of the hull; area by Lebesgue measure of triangles; order arbitrary |
| C50-C55 | `Model/QuadIntersect` | barycentric algebra; extreme points of an intersection (Krein-Milman) |
| C56-C65 | `Model/ConserveInterp` | C45 + C54; additivity of measure; cache invariants |
| C66-C67 | `Model/QuadLine` | interval clipping |
| C68-C72 | `Model/QuadLineFlows`, `Model/FlowInterp` | ring identities, telescoping sums |
| C73-C74 | `Model/PyWrapper` | state machine invariant over all call sequences |
| C75 | `Model/Resources` | allocation ledger, counterexamples |
| C76-C77 | `Model/QuadLineIntersect` | interval arithmetic; history induction |
| C78-C80 | `Model/FlowInterp`, `Spec/Whitney` (edge fields), `Spec/Tensor` (sheared product grids) | flow = sum over cells of a line integral; Lipschitz bounds for potentials and, by integration by parts along columns and rows (`Proof/MoveBound`), for any edge data; witnesses over the rationals |
| C81, C85 | `Model/FindPointHistory`: storage of the history (capacity, blocks given up), domain accessors | induction on calls; an observer who notes the errors; witnesses |
| C86 | grids of `Spec/Lattice` (images of integer lines under an affine map), `createRectangularGrid` | corner points of two boxes are lattice points, so all tolerances are met; C56-C58, C65; coprimality keeps inner lines apart; witnesses |
| C87 | `Model/CmdLine` (`help`, sorted maps, help tables) | invariant of the tables over histories of calls |
| C88 | `Model/NodeInterp` | exact first Newton step on affine grids (C35), weights of the position |
| C89 | `Model/NodeInterp`, `Model/FindOverlap` (members not yet written) | invariant over sequences of calls; `uninit` otherwise |
| C90 | `Model/FlowInterp` | invariant over sequences of calls; `uninit` otherwise |
| C91 | `Model/FlowInterp`, `Spec/Whitney` | the integrals of C79 under reversal and splitting of the segment; for convex cells: only the two ends of the part in the cell are collected, and what is found for a point of the cell does not depend on the cells visited before |
| C92 | the three `apply` at `Spec/Rounded` (reals with every operation rounded) | induction over the products |
| C93 | `Model/Grids` at `Spec/Rounded` | monotone rounding, error propagation; the last node by computation |
| C94 | `Model/PyArrays`, `Spec/Numpy` (what `a[i, j]` is) | position of an entry of a contiguous array; witnesses with a transposed view and a short array |
| C95 | `Model/PyArrays` | `apply` on shared memory equals the native `apply` if source and result are different buffers; witnesses otherwise |
| C96 | `Model/PyArrays`, `Spec/Numpy`, `Spec/Cells` | C56 to C58 and C65 through C94 and C95 |
| C97 | `Model/Grids` at the real functions | the latitude as a function of the distance from the middle of the cap: monotone, Lipschitz |
| C98 | `Model/Grids`, `Model/Conserve`; `Spec/Polygon` | cells as sectors between chords, angles by `Complex.arg`, polygon as intersection of half planes; C57, C58 |
| C99 | `Model/FindPoint`, `Model/NodeInterp`; `Spec/Stretched` | the Newton step per axis is a slope of the piecewise linear map; contraction of the index error by r - 1, truncation does not increase it; refutations by an orbit of period two for every library |
| C100 | `Model/NodeInterp`; `Spec/Accuracy` | C38 table and C29 corners; means of points and of values, Cauchy-Schwarz |
| C101 | `Model/FindPoint`, `Model/NodeInterp`; `Spec/Curved` | interpolation of the code = linear interpolation along each axis in turn; induction on the axes bounds secants and difference quotients by the deviation of the edges; contraction in the norm of the regular grid |
| C102 | `Model/ConserveInterp`; `MeanValues`, `VariesBy` | weights = overlap fractions (C56); integral over a destination cell = sum of the integrals over its overlaps with the source cells; mean value against a bounded variation |
| C103 | `Model/FlowInterp`; `Spec/Circulation` | from C79 (sum of integrals of edge fields): on each cell the edge field is a weighted mean of edge integrals, so it is near the field; the parts of the segment in the cells cut it up (tensor_cover, tensor_once) |
| C104 | `Model/FindPointRaw`: vectors as lists with `resize`, `int` products with overflow, `size_t` products modulo 2^64, memory of the caller as lists | loop invariants; the result is compared with `Finder.setGrid` of `Model/FindPoint` field by field |
| C105 | `Model/ConserveRaw`: counts as `int`, numbers of points and cells as `size_t` modulo 2^64, the index of `get` converted to `int` | agreement with `Model/ConserveInterp` loop by loop; range of the indices of the table by induction; the two refutations by the same definitions |
| C106 | `Model/Octree` at `Fl rnd` (`Spec/Rounded`) | the fractions before scaling are exact binary numbers by induction over the key; one rounding error at most in the digits; scaling is a monotone function of the fraction |
| C107 | `Model/FindPoint` at `Fl rnd` (`Spec/Rounded`), compared with the same model at the real numbers | errors of the two weights of an axis add up to (1+u)^2-1 at most; induction over the factors of a weight; sum over the corners by the product rule; error of a sum of products (C92) |
| C108 | `Model/NodeInterp` and `Model/FindPoint` at `Fl rnd` | positions stay in the index range because truncation only compares; start positions by monotony of the rounding; loop invariants as for C38; C107 for the weights; lower bounds of the roundings in the computed distance |
| C109 | `Model/Triangulate` at `Fl rnd` and at ℝ (`Spec/RoundedPlane`) | every compared quantity is 0 or more than twice the tolerance, and the rounding error is less than half of it, so all comparisons agree and the two runs build the same mesh; the sum of positive triangle areas accumulates a bounded error |
| C110 | `Model/QuadIntersect` and `Model/Triangulate` at `Fl rnd`, `Spec/RoundedQuad` | perturbation of the 2 x 2 systems bounds the error of the parameters, which is less than the margin of each decision; the points then correspond one to one and C109 gives the area |
| C111 | `Model/ConserveInterp` at `Fl rnd`, `Spec/RoundedCells` | the cache holds points within the bound of the exact crossings, whichever pair they were computed for; induction over the pairs of cells with the areas of C109 and the points of C110; sums by C92 |
| C112 | `Model/NodeInterpRaw` over the finder of `Model/FindPointRaw` and the grids of `Model/ConserveRaw` | refinement: the stored numbers are those of `Model/NodeInterp`, then the loops agree round by round; arithmetic modulo 2^64 for the other counts |
| C113 | `Model/FlowRaw` over `Model/FlowInterp` | the integers are rewritten to the naturals of `Model/FlowInterp`, the loops are then the same; for the others the first (or last) cell is followed to the undefined operation |
| C114 | `Model/QuadLineIntersect` at `Fl rnd`, `Spec/RoundedLine` | each parameter collected is within the bound of one that is inside (perturbed 2 x 2 systems); each end of the inside part is the end of the segment or on an edge, and is then found; convexity fills the gap |
| C115 | `Model/QuadLineFlows` and `Model/FlowInterp` at `Fl rnd` and at the computable double precision numbers of `Spec/Double`; `Spec/RoundedFlow` | one Newton step with perturbed matrix and right-hand side (2 x 2 perturbation bound), clamping does not increase the error, the position error passes the tolerance; refutation by kernel evaluation, the perturbations of the line vanish in rounding |
| C116 | `Model/FlowInterp` at `Fl rnd`; `Spec/RoundedFlowLine` (segments for which rounding changes no decision, error bounds) | the run of `flowWith` as sums over cells (`Proof/FlowRun`, any scalars); in a cell, every parameter found is near one inside and the two ends of the part inside are found (`Proof/FlowInterpRounded`), the pieces telescope up to the projection errors of C115; the dot product by `dot_error`; the potential by telescoping over the cells |
| C117 | `Model/FlowInterp`, `Model/QuadLineFlows`, `Model/Grids`; `Spec/Trapezoid`, `Spec/Turns` | in a trapezoid one reference coordinate is found in the first Newton step and the other in the second (`Proof/TrapSearch`); in each cell the pieces telescope to a difference between places near the ends of the part inside, and over the cells the differences of `f` telescope (`Proof/FlowTrap`); on a polar grid the position on the chord determines the turns (`Proof/Turns`, `Proof/PolarFlow`) |
| C118 | `Model/FlowInterp`, `Model/QuadLineFlows`, `Model/FindPoint`; `Spec/FairQuad` | the errors of the two indices, scaled by the change of the determinant, follow `ab / (1 + a + b)`, which is positive after two steps and then decreases quadratically; a weighted sum of them bounds the distance from above and below (`Proof/ConvexSearch`); every point has a position by the intermediate value theorem (`Proof/FairQuad`); the flow as for C117 (`Proof/Located`) |
| C119 | `Model/FlowInterp`, `Model/Grids`; `Spec/Curvature`, `Spec/Tensor` | the parts of the segment in the cells add up to the part in the grid (`cells_potential_part`); the error of linear interpolation from convexity, along one axis and then the other (`Proof/Curvature`) |
| C120 | `Model/Grids`, `Model/Octree`; `Spec/Ieee` | the operations on finite numbers are those of the field, except the quotient by zero (`Proof/OctreeIeee`); NaN is followed through the formulas |
| C121 | `Model/ConserveInterp`, `Model/Triangulate`; `Spec/Ieee` | each weight is a quotient by the area computed for the cell (`weights_quotient`), which is zero; sums and products with an infinity or NaN stay such |
| C122 | `Model/GridsRaw`: `int` counts converted to `size_t`, memory behind the pointers | simulation by the loops of `Model/Grids` (`fillRaw_eq`); a loop that ends has written `n0 n1` elements (`fillNodes_short`); a negative count converts to more than any array holds |
| C123 | `Model/GridsRaw` | case analysis of the constructor; `getGrid` equals that of `Model/Grids` in the good case (`getGridR_eq`); outside, the first node of a row outside of the arrays is written (`getGridR_outside`) |
| C124 | `Model/ConserveInterp` | induction on the calls; invariant: table within the sizes the caller keeps in mind, iterators on a stored weight once begun (`exec_tracks`) |
| C125 | `Model/FindOverlapRaw`: `int` counts, `size_t` sizes, empty vectors, memory of the caller, cell numbers narrowed to `int` | simulation: each call keeps the correspondence with `Model/FindOverlap` (`run_agree`), using C104 for the grid; arithmetic of the doubly reversed box for the empty polygon |
| C126 | `Model/LinearSolveRaw`: `int` sizes, `size_t` conversions, `resize`, memory of the caller | case analysis of the constructor; each call commutes with the embedding of `Model/LinearSolve` (`run_raw`) |
| C127 | `Model/BoxIteratorRaw`: the loops on vectors, `int` number of axes, memory of the caller | loop invariants with a condition per round (`forFrom_cond`): the interleaved loop of the code fails exactly if the recursions of `Model/BoxIterator` do |
| C128 | `Model/TriangulateRaw`: `int` count, flat memory, index sort with a comparison that reads memory | loop invariants for the centre and the copy; `std::sort` is any function with the property of the standard (`SortsInds`), merge sort is one |
| C129 | `Model/FindPointRun`: the methods on the vectors of the object, loops that change arrays in place, `size_t` arithmetic modulo 2^64 and conversions from and to `int` | loop rule `forN_axes` that relates a loop over vectors to a computation per axis; the flat index of a corner wraps only when it is negative, which is out of range for any array; whether a field can be interpolated depends on its length only, so the order of the two evaluations does not matter |
| C130 | `Model/QuadMemory`: memory of the caller as blocks of numbers, objects that keep pointers, flat arrays read entry by entry, a vector of points with capacity and address; specification in `Spec/QuadMemory` | each method equals that of the model on values when the numbers are there, and needs the last number of each array otherwise; induction over the calls; growth of the vector by induction over the numbers pushed |
| C131 | `Model/OctreeRaw`: the class on lists with `size_t` arithmetic modulo 2^64, `int` loop index for the strides, rounding of the quadrant number in the comparison with `pow(2, ndims)`, recursion with fuel; specification in `Spec/OctreeRaw` | loops over entries equal the functions on `Fin n`; recursion by induction over levels and quadrants with enough fuel; keys visited are distinct so no insertion is ignored; strides are powers of two modulo 2^64; depth and length of the recursion bounded below by induction over fuel |
| C132 | `Model/ConserveInterp`, `Model/Triangulate` (all of computeWeights and apply) | Neighbours collect the two ends of the common edge five times each, all tied in distance; a stable sort leaves a repeated neighbour in the list, whose removal shortens the vector, so the reads of the triangulation stay in the buffer. Weights by C56 and disjointness of the cells |
| C133 | `Model/NodeInterpRun` (SgNodeInterp2D on vectors, maps and pointers, with FindPointRun for the finder) | Simulation: a relation between the two objects is kept by every call, by the relational loop rule for each loop. For negative counts: the second corner of every cell lies past the end of the coordinates, so a search that returns at all returns -3 |
| C134 | `Model/FindOverlapRun` (SgFindOverlappingCells2D on vectors and pointers, with FindPointRun for the finder) | Simulation with the model of C125 by the relational loop rule. For negative counts: both corners stay between the negative bound and 0, so the index box goes from 0 to the negative bound, which the box iterator takes for a box with a positive number of elements |
| C135 | `Model/ConserveInterp` with weights in exact arithmetic and data in `Spec/Ieee` (NaN and infinities) | Which pairs get an entry follows from the collected points (`Proof/ConserveEntries`): boxes overlap and at least three points, and a source corner in the cell is collected four times. Sums with NaN by induction over the list of an entry. The grid to itself from the conforming mesh of C132 |
| C136 | `Model/NodeInterp` with weights in exact arithmetic and data in `Spec/Ieee`, `Spec/IeeeOps` (NaN and infinities) | The entry of a destination node on an affine grid is that of its index position (C39), whose list is written out; sums with NaN by induction |
| C137 | `Model/NodeInterp` over `Spec/Ieee`, `Spec/IeeeOps` | Without laws of arithmetic: a target that does not pass the test of the box changes neither table nor start position (induction over the nodes); the loop for the bounds ends with NaN or a value met after the last NaN. Refutation by runs in the kernel with Cramer's rule in arithmetic with NaN |
| C138 | `Model/ConserveInterp` over `Spec/Ieee` | Without laws of arithmetic: a destination cell whose box overlaps no box has no entry (loop invariant over source cells, then destination cells); the bounds of four corners ending with NaN are NaN. Refutation by runs in the kernel with Cramer's rule in arithmetic with NaN |
| C139 | `Model/QuadScratch` (refines `Model/QuadMemory`) | A relation between programs with and without the arrays, closed under sequencing and loops; each system is filled completely before the solver reads it, for arrays of any content; induction over the history, then C130 |
| C140 | `Model/FlowInterp`, weights over the reals and data over `Spec/Ieee` | The stored cells of a segment: those with more than a point of it are among them (`cell_stored`), and each has a point of it (`stored_inside`); the sum of `apply` absorbs NaN and is exact on finite data. Refutation by runs in the kernel |
| C141 | `Model/FlowInterp`, `Model/QuadLineFlows`, `Model/FindPoint` | What the search finds for a point of the cell does not depend on the box remembered (`foundX_cell`), and what a cell adds depends on the two ends of the part in the cell (`cell_ends`, `cell_repeat`). Refutation by runs in the kernel |
| C142 | `Model/FlowInterp` | From the integral form of the flow (`C79_integral_partial`) for both grids: the part inside, the clearness and the field in cell coordinates do not change (`Proof/FlowMaps`). Refutation by runs in the kernel |
| C143 | `Model/FlowInterp` | Data without circulation are differences of nodal values (induction over the second axis), then `C70_loop`. In one cell: the integral form (`C79_integral_partial`) of each segment is a difference of end values and the area swept; induction over the segments. Over many cells: sums over columns and rows (`sum_fields_along`), integration by parts and telescoping |
| C144 | `Model/ConserveInterp` | The result is the sum of the fractions of overlap times the data (`C56`); areas are additive over the parts (measure of a union of sets with null intersections), sums rearranged over the parts of each cell |
| C145 | `Model/FlowInterp` | From the integral form of the flow (`C79_integral_partial`) on both grids: the field of a part is the field of its cell, and the integral over a cell is the sum over its parts (integral over a union of sets with null intersections) |
| C146 | `Model/NodeInterp` | From `C88_bilinear` for the three interpolations: a field bilinear between values of a bilinear field is this field; the cells of the fine grid are parts of cells |
| C147 | `Model/FindPoint`, `Model/NodeInterp` | The finder of the moved grid is the moved finder (`setGrid_shift`); each step of a moved finder is the moved step (interpolated coordinates move because weights sum to 1, Jacobian and right-hand side do not change), so by induction over the iterations, the retries and the destination nodes |
| C148 | `Model/ConserveInterp`, `Model/FlowInterp` | Simulation: all states of the two runs correspond (`Proof/Shift`: both succeed with related results or both fail in the same way); points and boxes are moved, matrices, right-hand sides, parameters and areas are equal; the sort sees distances from the centre only |
| C149 | `Model/FindOverlap` | Simulation of the two runs (`Proof/Shift`, `loop_shift` of C147): the finders are moved, the index corners equal; the start is in the grid if the second axis has three nodes; witness for two |
| C150 | `Model/Octree` | The domain's corners are carried along (order is kept), normalised coordinates are equal, boxes are affine in the corners |
| C151 | `Model/FindPoint` | Sum over the corners as a product over the axes (`sum_corners`); three cases per axis |
| C152 | `Model/FindOverlap` on `Fl rnd` | Indices stay within one node of the grid at the start and in the grid after a step; the corners are made by comparisons only; the box keeps its order since rounding fixes integers; 0.01 exceeds the rounding of indices |
| C153 | `Model/FindOverlap` | The corners are the least and greatest places of the vertices, and a place depends on its vertex only (`BoxOf`); monotone floor, ceiling and rounding |
| C154 | `Model/FindPoint` on `Fl rnd` | Indices stay in the grid; the place is a rounded sum of weighted nodes (C107); sums of squares have non-negative terms, so the relative error of the distance is bounded; rounding keeps the order of box and target |
| C155 | `Model/NodeInterp` on `Fl rnd` | The stored weights are near exact ones of sum 1 (C107); their place is within the tolerance plus rounding (C154); mean of the field as in C100; rounding of the sum in apply |
| C156 | `Model/Conserve` on `Fl rnd` | Values are area averages up to valueError (C111); the averages are near the density as in C102 |
| C157 | `Model/FindPoint`, `Model/NodeInterp` on `Fl rnd`, grids of `Spec/RoundedRegular` | Computed places, difference quotients and right-hand side are near those of the affine map; perturbed 2 by 2 system; the second step starts near the target; entries are kept by later nodes |
| C158 | `Model/FindPoint`, `Model/NodeInterp` on `Fl rnd` | An entry's weights are a rounded convex combination whose place is within the rounded tolerance of the node; the combination cannot lie beyond the last node along the direction |
| C159 | `Model/FlowInterp` on `Fl rnd` | The box test compares coordinates without rounding; entries of a segment come from cells that pass it; sums of the same products are the same |
| C160 | `Model/ConserveInterp` on `Fl rnd` | The box test compares coordinates without rounding; entries of a destination cell come from pairs that pass it; sums of the same products are the same |
| C161 | `apply` of `Model/NodeInterp`, `Model/ConserveInterp`, `Model/FlowInterp` on `Fl (nearest p)` | Rounding to p digits commutes with powers of two, so every sum and product of the loops does; induction over the loops with undefined outcomes kept |
| C162 | `Model/FindPoint`, `Model/NodeInterp` on `Fl rnd` | Rounded weights of the sides are not negative inside of the grid, neither are their products; sums of products keep the order; table of C108 |
| C163 | `apply` of `Model/NodeInterp`, `Model/ConserveInterp`, `Model/FlowInterp` on `Fl rnd` | Induction over the loops with undefined outcomes kept, as C161 |
| C164 | Models on `Fl (nearestEven 53)` | Rounding with halves to even gives a nearest number with 53 digits (proved), has relative error 2^-53, keeps the order and the numbers with 53 digits; then as the properties named |
| C82 | `Model/FindPoint` (`truncateIndices`) | `fmod` subtracts a multiple of the period; a set of states the search cannot leave |
| C83 | `Model/ConserveInterp` | overlap fractions (C56) and additivity of area |
| C84 | `Model/ConserveInterp`, `Spec/AffineMap` | overlap fractions are invariant; `CleanCells` is invariant under rigid maps; witness for scaling |

## 5. Where the code and the property disagree

For each property that is false of the code the negation is proved, for a concrete witness or for a whole
family (theorems `..._refuted`), next to a `_partial` theorem saying when the property holds.

| id | disagreement |
|----|--------------|
| C05 | two reversed axes (`end < beg`) give a positive element count |
| C09 | face `[3,1,2]` of the tetrahedron has the wrong orientation |
| C10 | the zero matrix: `dgels` returns zeros with INFO = 0, so `solve` reports success for a system without solution |
| C12 | rectangular systems: `LDB` is too small when `nrow < ncol` (always returns -8); when `nrow > ncol` another matrix is used |
| C13 | `solve` overwrites the matrix, so calling it again with a new right-hand side can report success with a wrong vector |
| C19 | bytes of 128 or more after a dash: `isdigit` of a negative `char` |
| C23 | the last piece of an `int` list is converted with `atof`, the others with `atoi`; numbers that do not fit are undefined |
| C25 | the centre of a polar grid is added to radius and angle, not to the coordinates |
| C27 | a negative number of cap rows writes out of bounds; when the cap has all rows but one the latitudes are 0/0 |
| C32, C35 | converging in the last allowed iteration is reported as -1, not 1; a negative `nitermax` throws |
| C36 | `setGrid` keeps the bounding box and the periodicity of earlier grids |
| C41 | a node found by restarting the search from a side gets no weights |
| C43 | a polygon on the upper boundary of an axis gets an empty box of candidate cells |
| C44 | cell numbers are computed with the number of nodes, not of cells, per row |
| C46 | points inside the hull of the others can be counted twice (9 instead of 6) |
| C48, C65 | collinear points make the triangulation read past its end, repeated ones read the removed tail |
| C51, C52 | a triangle whose three nodes are the same point gives the zero matrix, which `dgels` does not report: every point of the plane is accepted, and so by every cell with three equal nodes |
| C55, C77 | the C interfaces never reset the intersectors: points of earlier pairs are kept |
| C60 | crossings remembered for an edge may be rejected when computed in the other direction |
| C61, C62 | the iterators are dereferenced at the end of the map |
| C63, C74 | weights of earlier grids are kept, in C++ and in the Python wrapper |
| C64 | the periodicity of the source grid is stored and never used |
| C69 | projections on quadrilaterals that are no parallelograms are not additive |
| C70 | the perturbation of the line's nodes opens closed loops |
| C72 | calling `computeWeights` twice doubles the flow; stale entries write out of bounds |
| C75 | iterators, solvers and finders are never deleted in several classes |
| C78 | segments outside of the grid keep what was in the caller's array |
| C79 | a line along an edge between two cells is counted twice (exact count on sheared product grids: `Props/FlowAlong`) |
| C80 | intersector and finder use different tolerances: a tiny move can halve the flow |
| C81 | `getErrorHistory` before the first step takes `front()` of an empty vector; the pointer dangles after more than `nitermax` steps |
| C82 | crossing the seam of a periodic axis forwards is never found |
| C84 | absolute tolerances: the unit of length matters |
| C85 | the reported domain includes all earlier grids |
| C86 | two rectangular grids over the same rectangle (2 x 1 and 2 x 3 cells): the triangulation reads past the end of the points |
| C91 | the perturbation depends on the place of a node in the list: a line reversed by the caller has not exactly the opposite flow |
| C93 | in double arithmetic the last node of a rectangular grid need not be the upper bound (50 nodes from 0 to 1) |
| C94 | the Python class ignores strides: transposed and sliced arrays are misread; a shorter y array is read past its end |
| C95 | `apply` returns the same array each time: kept results are overwritten, and applying to an earlier result gives 0 |
| C97 | the halves of the tripolar cap do not meet exactly (a factor 1 - 1e-10); a cap of one row divides by zero |
| C26 | `delta_lon` turns westwards: the pole of the rotated grid is at longitude `-delta_lon` (the header does not say which way) |
| C98 | a polar grid as destination: the cells at the pole have two equal nodes, and their triangulation reads a removed element |
| C99 | on grids whose spacing changes by a factor 3 between neighbours the index search can oscillate for ever, and nodal interpolation leaves interior nodes without weights |
| C105 | `SgConserveInterp2D_setDstGrid` accepts 0 x 0 nodes; the number of cells, (0-1)*(0-1) as size_t, is 1, and computeWeights reads node 0 of an empty vector (`C105_empty_refuted`). With 46341 x 46341 destination cells `get` reports a negative index (`C105_get_refuted`). |
| C106 | in double precision a point can lie outside the box of its key: of the points -5/2^56 and 1 the second has a box that ends at 1 - 2^-53 (`C106_contains_refuted`) |
| C112 | `SgNodeInterp2D_setDstGrid` accepts two negative counts: their product is positive, so -3 x -2 is read as 3 x 2 (`C112_dst_both_negative_refuted`) |
| C113 | `SgFlowInterp2D` accepts lines of 0 nodes (2^64-1 segments), source grids of 0 x 0 (one cell) and of -a x -b nodes, and source grids of more than 2^30 nodes, for which `nodeIndx*NDIMS_2D_PHYS` overflows; computeWeights is undefined for all of them (`C113_dst_empty_refuted`, `C113_src_empty_refuted`, `C113_src_both_negative_refuted`, `C113_large_refuted`) |
| C115 | the box test of `SgFindPointInCell` has an absolute tolerance of 100 machine epsilons, which for coordinates of 128 and more is less than one unit in the last place: the end of a piece of the line on an edge is taken to be outside, its index is left at the middle of the cell, and `SgFlowInterp2D` ignores the code; the flow of a uniform field through a line of length 3712 along it is 2712 (`C115_flow_refuted`) |
| C118 | a strictly convex cell with a nearly flat corner: the search for this corner ends after `nitermax` = 10 steps without success, `computeProjections` goes on with the position reached, and the flow from this corner is wrong (`C118_refuted`) |
| C119 | the part of a line outside the grid is left out without notice, so the sum of the flows is not the difference of the stream function between the ends of the line (`C119_outside_refuted`); the default line of `examples/streamFlow.py.in` ends outside its grid |
| C120 | one node along an axis: the spacing is divided by zero and the coordinates are NaN (`C120_rectangular`, `C120_polar`, `C120_rotated`); a point beyond a flat domain gets another key than the nearest point (`C120_flat_outside_refuted`) |
| C121 | the weights of a destination cell without area are quotients by zero: the value becomes infinite or NaN for finite data (`C121_refuted`) |
| C122 | a negative count is compared as a `size_t`: the grid generators overrun the arrays instead of doing nothing or reporting an error |
| C123 | two negative counts give an object with a positive number of zeros and negative reported dimensions (`C123_negative_refuted`); one negative count throws through the C interface |
| C125 | `findSrcCellIndices` for a polygon without points reports (a-2)*(b-2) numbers on a grid of a x b nodes: both axes of its index box are reversed, which the box iterator counts as positive |
| C126 | `SgLinearSolve_new` with no rows and a negative number of columns is taken; `solve` on systems without rows or columns is undefined |
| C131 | `SgOctreePoints_new` does not check its arguments: 0 axes or 65 and more divide by zero, a negative number of levels overflows the stack, a negative number of axes throws through the C interface; `computeLoHi` adds to what its output vectors hold. |
| C132 | Two cells side by side, regridded to themselves, give undefined behaviour if std::sort returns the tied end points of the common edge in turn (`C132_ties_refuted`), and by the letter of the standard always (`C132_standard_refuted`). |
| C134 | A source grid given as -a x -b nodes is accepted and every polygon is reported to meet (a+1)*(b+1) cells (`C134_negative_source`, `C134_negative_source_refuted`). |
| C135 | Zero weights are stored for source cells that only have a corner in the destination cell, so a NaN spreads to all the neighbours when a grid is regridded to itself (`C135_self`, `C135_neighbour_refuted`). |
| C136 | Zero weights are stored for the corners of the cell of a destination node, so a NaN at one node spoils values at destination nodes that are other source nodes (`C136_self`, `C136_neighbour_refuted`). |
| C137 | NaN coordinates of a source node reset the bounding box, so destination nodes in cells far away are taken for nodes outside, and a search through a cell with such a corner converts NaN to `int` (`C137_source`, `C137_source_last`, `C137_source_refuted`). |
| C138 | A destination cell with a missing (NaN) corner counts as the triangle of the other corners or has area zero, and a source cell with a missing corner gives a weight for part of it: constant data one are regridded to 3/4 (`C138_refuted`). |
| C140 | A missing (NaN) value on an edge with weight zero makes the flow NaN: a segment along the bottom edge of a cell depends on the value of the top edge (`C140_refuted`). |
| C141 | the index search keeps the box of earlier cells: the flow of a segment whose node is outside of its cell by less than the tolerance of the intersector depends on the other segments (`C141_refuted`) |
| C142 | the tolerance of the index search is an absolute length, that of the intersector a fraction of the cell: a change of unit changes the flow of a segment whose node is outside of its cell by less than the tolerance of the intersector (`C142_refuted`) |
| C149 | The search of a vertex starts at `dims[1]/1.9647354`, which is outside the grid if `dims[1]` is 2 (SgFindOverlappingCells2D.h:107). The interpolation weights there sum to 0.96, so the first step depends on the origin; on a ring of 4 x 1 cells moved by 100 the wrong cell is reported. |
