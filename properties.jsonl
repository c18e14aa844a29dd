{"id": "C01", "title": "Box iterator: flat index -> tuple -> flat index", "statement": "For a box [beg,end) with positive extents whose element count fits in an int, every flat index i in 0..count-1 is turned by SgBoxIterator_getElement into a tuple that lies in the box, and SgBoxIterator_getIndex turns that tuple back into i; neither call has undefined behaviour.", "quantifier": "every dimension count, every box with positive extents and count <= INT_MAX, every valid flat index", "why_tests_cant": "infinitely many boxes and dimension counts; the arithmetic is modular and overflow dependent", "anchors": ["cpp/SgBoxIterator.h:getElement", "cpp/SgBoxIterator.h:getIndex", "cpp/SgBoxIterator.cpp"]}
{"id": "C02", "title": "Box iterator: tuple -> flat index -> tuple", "statement": "For the same boxes, every tuple of the box is mapped by getIndex to a flat index in 0..count-1, and getElement maps it back to the tuple. With C01: the flat indices and the tuples are in bijection.", "quantifier": "every dimension count, box and tuple in the box", "why_tests_cant": "infinitely many boxes and tuples", "anchors": ["cpp/SgBoxIterator.h:getElement", "cpp/SgBoxIterator.h:getIndex"]}
{"id": "C03", "title": "Box iterator: lexicographic order", "statement": "Increasing flat indices give lexicographically increasing tuples (the last index varies fastest, i.e. C ordering).", "quantifier": "every box and every pair of valid flat indices", "why_tests_cant": "a relation between all pairs of indices of all boxes", "anchors": ["cpp/SgBoxIterator.h:getElement"]}
{"id": "C04", "title": "Box iterator: element count and no overflow", "statement": "getNumberOfElements returns the number of integer tuples t with beg <= t < end, and building the iterator cannot overflow int arithmetic if the extents are positive and that number fits in an int.", "quantifier": "every dimension count and every box with positive extents", "why_tests_cant": "counting statement over all boxes; overflow boundary", "anchors": ["cpp/SgBoxIterator.h:SgBoxIterator_type", "cpp/SgBoxIterator.h:getNumberOfElements"]}
{"id": "C05", "title": "Box iterator: empty boxes", "statement": "A box with an empty axis (end <= beg on some axis) contains no tuple, so the iterator must report no element (count <= 0) and no caller looping over 0..count-1 may be handed a tuple.", "quantifier": "every box with at least one non-positive extent", "why_tests_cant": "needs the case of several negative extents at once, in every dimension", "anchors": ["cpp/SgBoxIterator.h:SgBoxIterator_type", "cpp/SgFindOverlappingCells2D.h:findSrcCellIndices"]}
{"id": "C06", "title": "Side iterator visits each side exactly once", "statement": "Starting from a new or reset iterator over n>=1 dimensions, the sequence of tuples returned by get, advanced by next until next reports the end, lists every vector of {-1,0,1}^n exactly once, in lexicographic order; next reports the end exactly at the 3^n-th call.", "quantifier": "every number of dimensions n (3^n below 2^64)", "why_tests_cant": "length of the iteration grows as 3^n, for all n", "anchors": ["cpp/SgSideIterator.h:next", "cpp/SgSideIterator.h:get", "cpp/SgSideIterator.cpp"]}
{"id": "C07", "title": "Side iterator reset forgets history", "statement": "After reset the iterator produces the same sequence as a new one, whatever calls of next were made before, including calls past the end.", "quantifier": "every n and every history of next calls", "why_tests_cant": "ranges over all call histories", "anchors": ["cpp/SgSideIterator.h:reset", "cpp/SgSideIterator.h:next"]}
{"id": "C08", "title": "Simplices keep their points and edges are complete", "statement": "SgLine/SgTriangle/SgTetrahedron return from getPoint exactly the coordinates passed to the constructor, even if the caller's arrays change later; the edge tables list every unordered vertex pair exactly once, the triangle's edges form a closed directed loop, as do the first three of the tetrahedron, whose other edges go from the loop to the fourth vertex.", "quantifier": "all point coordinates and all later contents of the caller's memory", "why_tests_cant": "ranges over all coordinates and later memory states", "anchors": ["cpp/SgLine.h", "cpp/SgTriangle.h", "cpp/SgTetrahedron.h", "cpp/SgTriangle.cpp", "cpp/SgTetrahedron.cpp"]}
{"id": "C09", "title": "Tetrahedron faces form a closed oriented surface", "statement": "The four faces list every vertex triple once, every edge belongs to exactly two faces, and adjacent faces traverse their common edge in opposite directions, so that the oriented area vectors of the faces sum to zero.", "quantifier": "all tetrahedra", "why_tests_cant": "the orientation statement quantifies over all coordinates", "anchors": ["cpp/SgTetrahedron.cpp", "cpp/SgTetrahedron.h"]}
{"id": "C10", "title": "Linear solver solves the user's square system", "statement": "For a square matrix given in row-major order, when solve succeeds the solution x satisfies sum_j A[i*n+j] x[j] = b[i] for every row i (given that LAPACK dgels keeps its documented contract).", "quantifier": "every n, every matrix and right-hand side", "why_tests_cant": "all sizes and matrices; depends on the row-major/column-major layout argument", "anchors": ["cpp/SgLinearSolve.h:setMatrix", "cpp/SgLinearSolve.h:solve", "cpp/SgLinearSolve.cpp"]}
{"id": "C11", "title": "Linear solver residual", "statement": "getResidual returns the sum over rows of |A x - b| computed with the matrix and right-hand side last set by the user (not with the copies overwritten by LAPACK); it is zero exactly when x solves the system.", "quantifier": "every size, matrix, right-hand side and solution vector", "why_tests_cant": "all sizes and contents", "anchors": ["cpp/SgLinearSolve.h:getResidual"]}
{"id": "C12", "title": "Linear solver handles rectangular systems", "statement": "For an nrow x ncol system with nrow != ncol, solve returns the least-squares solution (nrow > ncol) or the minimum-norm solution (nrow < ncol) of the user's system.", "quantifier": "every pair of sizes, matrix and right-hand side", "why_tests_cant": "all sizes; tests only exercise one or two shapes", "anchors": ["cpp/SgLinearSolve.h:SgLinearSolve_type", "cpp/SgLinearSolve.h:solve"]}
{"id": "C13", "title": "Linear solver depends only on the last system set", "statement": "After setMatrix and setRightHandSide the result of solve and getResidual is a function of these two inputs only, whatever was set or solved before; and calling solve again without setMatrix must still solve the user's system.", "quantifier": "every history of calls", "why_tests_cant": "ranges over call histories", "anchors": ["cpp/SgLinearSolve.h:setMatrix", "cpp/SgLinearSolve.h:setRightHandSide", "cpp/SgLinearSolve.h:solve"]}
{"id": "C14", "title": "Octree key shape", "statement": "getKey(point, nlev) returns exactly nlev digits, each smaller than 2^ndims, for any point including points outside the domain and for any arithmetic.", "quantifier": "every dimension, level, point and scalar arithmetic", "why_tests_cant": "all dimensions, levels and points, including non-finite values", "anchors": ["cpp/SgOctreePoints.h:getKey"]}
{"id": "C15", "title": "Octree box contains its points", "statement": "For a point inside the domain, the box [getLo(key), getHi(key)] of the point's key contains the point at every level up to the number of levels of the tree.", "quantifier": "every dimension, domain box, level and point in the domain", "why_tests_cant": "geometric statement for all points and levels", "anchors": ["cpp/SgOctreePoints.h:getKey", "cpp/SgOctreePoints.h:computeLoHi", "cpp/SgOctreePoints.h:getLo", "cpp/SgOctreePoints.h:getHi"]}
{"id": "C16", "title": "Octree keys are prefix consistent", "statement": "The key of a point at level l is the first l digits of its key at any deeper level, so coarse boxes contain fine boxes of the same point.", "quantifier": "every point and pair of levels", "why_tests_cant": "all levels", "anchors": ["cpp/SgOctreePoints.h:getKey"]}
{"id": "C17", "title": "Octree stores every box and boxes halve their parent", "statement": "The tree stores exactly the boxes for all keys of length 1..nlevels with digits below 2^ndims; a child box is the half of the parent selected by the bits of the last digit, so the children of a box cover it and overlap only on faces, and unknown keys give the whole domain.", "quantifier": "every dimension, domain, number of levels and key", "why_tests_cant": "number of boxes is exponential; all dimensions", "anchors": ["cpp/SgOctreePoints.h:refineOctree", "cpp/SgOctreePoints.h:computeLoHi", "cpp/SgOctreePoints.h:getLo", "cpp/SgOctreePoints.h:getHi"]}
{"id": "C18", "title": "Octree clamps outside points", "statement": "A point outside the domain gets the key of the nearest domain point (each coordinate clamped to the domain), at every level.", "quantifier": "every point and level", "why_tests_cant": "all points and levels", "anchors": ["cpp/SgOctreePoints.h:getKey"]}
{"id": "C19", "title": "Command line: unknown options are rejected without effect", "statement": "parse returns false exactly if some argument looks like an option (starts with '-' and is not a negative integer-like token) and was not registered; in that case no registered value changes.", "quantifier": "every argument list and every set of registered options", "why_tests_cant": "all argument lists", "anchors": ["utils/CmdLineArgParser.cpp:parse"]}
{"id": "C20", "title": "Command line: last occurrence wins", "statement": "If parse succeeds, a registered int/double/string option has the value given by the token after its last occurrence that is followed by a token, and keeps its previous value when there is no such occurrence.", "quantifier": "every argument list and option table", "why_tests_cant": "all argument lists", "anchors": ["utils/CmdLineArgParser.cpp:parse", "utils/CmdLineArgParser.cpp:get"]}
{"id": "C21", "title": "Command line: boolean switches", "statement": "If parse succeeds, a registered boolean option is its previous value negated once per occurrence of its name among the arguments.", "quantifier": "every argument list", "why_tests_cant": "all argument lists", "anchors": ["utils/CmdLineArgParser.cpp:parse"]}
{"id": "C22", "title": "Command line: reading values back", "statement": "get on a registered name after set (and no parse) returns the default; get on a name never registered returns the fixed sentinel for the type; setting one name never changes another; -h and --help are always accepted.", "quantifier": "every sequence of set calls and names", "why_tests_cant": "all names and histories", "anchors": ["utils/CmdLineArgParser.cpp:set", "utils/CmdLineArgParser.cpp:get"]}
{"id": "C23", "title": "Command line: comma separated lists", "statement": "get on a vector<double>/vector<int> returns one element per comma separated piece of the stored text, in order, each converted from that piece (the same conversion for all pieces).", "quantifier": "every stored text", "why_tests_cant": "all strings", "anchors": ["utils/CmdLineArgParser.cpp:get"]}
{"id": "C24", "title": "Rectangular grid nodes", "statement": "createRectangularGrid puts node (i,j), stored at i*n1+j, at xmin + (i,j)*(xmax-xmin)/(n-1): first and last nodes are the corners, coordinates are strictly monotone, all array writes are in bounds and every entry is written, for node counts >= 2.", "quantifier": "every node count >= 2 and every box", "why_tests_cant": "all sizes", "anchors": ["utils/createGrids2D.cpp:createRectangularGrid"]}
{"id": "C25", "title": "Polar grid nodes", "statement": "createPolarGrid puts node (i,j) at distance i*radius/(n0-1) from the given center, at angle 2*pi*j/(n1-1).", "quantifier": "every node count >= 2, radius and center", "why_tests_cant": "all sizes and centers", "anchors": ["utils/createGrids2D.cpp:createPolarGrid"]}
{"id": "C26", "title": "Rotated pole grid", "statement": "createRotatedPoleGrid maps each (lat,lon) of the rotated frame through an orthogonal rotation, so the computed z lies in [-1,1] (arcsine is defined), latitudes are in [-90,90] and zero pole displacement reproduces the original latitudes.", "quantifier": "every node count >= 2, every pole displacement", "why_tests_cant": "real trigonometric statement for all angles", "anchors": ["utils/createGrids2D.cpp:createRotatedPoleGrid", "utils/createGrids2D.cpp:matrixDotMatrix", "utils/createGrids2D.cpp:matrixDotVector"]}
{"id": "C27", "title": "Tripolar grid fills its arrays", "statement": "getGrid writes every entry of the two coordinate arrays exactly inside the bounds given by the reported dimensions, and the latitudes below the cap increase linearly from -90 to the cap latitude.", "quantifier": "every node count and cap index", "why_tests_cant": "all sizes; boundary indices", "anchors": ["cpp/SgTripolarGrid.h:getGrid", "cpp/SgTripolarGrid.cpp"]}
{"id": "C28", "title": "Interpolation weights are a partition of unity", "statement": "getSrcIndicesAndWeights returns 2^ndims weights summing to 1, all in [0,1], for any index-space position inside the grid.", "quantifier": "every dimension, grid size and position", "why_tests_cant": "all dimensions and positions", "anchors": ["cpp/SgFindPointInCell.h:getSrcIndicesAndWeights"]}
{"id": "C29", "title": "Interpolation indices are valid", "statement": "The flat indices returned with the weights are all inside the grid (0 <= index < number of nodes) and pairwise distinct, for any position inside the grid and at least 2 nodes per axis.", "quantifier": "every dimension, grid size and position", "why_tests_cant": "all dimensions, sizes, positions including the upper boundary", "anchors": ["cpp/SgFindPointInCell.h:getSrcIndicesAndWeights"]}
{"id": "C30", "title": "Interpolation is exact on nodes and multilinear fields", "statement": "interp returns the nodal value when the position is a node (including nodes on the upper boundary), and reproduces every multilinear field of the index coordinates that is multilinear over the cell exactly.", "quantifier": "every dimension, grid, position and field", "why_tests_cant": "all fields, positions and dimensions", "anchors": ["cpp/SgFindPointInCell.h:interp", "cpp/SgFindPointInCell.h:getPosition"]}
{"id": "C31", "title": "Newton search always stops", "statement": "Calling next until it returns a non-zero code takes at most max(nitermax,1) calls after reset, whatever the grid, the target, the linear solver's results and the floating point arithmetic (NaN and infinities included).", "quantifier": "every grid, target, solver behaviour and arithmetic", "why_tests_cant": "termination for all inputs, including NaN", "anchors": ["cpp/SgFindPointInCell.h:next", "cpp/SgFindPointInCell.h:reset"]}
{"id": "C32", "title": "Newton search status code is truthful", "statement": "When next returns 1 the current position error is below tolpos; when it returns -3 the target is outside the grid's bounding box in some coordinate; when it returns 0 fewer than nitermax steps were made.", "quantifier": "every grid, target and search state", "why_tests_cant": "all states", "anchors": ["cpp/SgFindPointInCell.h:next", "cpp/SgFindPointInCell.h:getError"]}
{"id": "C33", "title": "Newton search result does not depend on earlier searches", "statement": "After reset with given starting indices and target, the codes, indices and weights produced do not depend on earlier searches with the same object.", "quantifier": "every history of searches on a grid", "why_tests_cant": "call histories", "anchors": ["cpp/SgFindPointInCell.h:reset", "cpp/SgFindPointInCell.h:next"]}
{"id": "C34", "title": "Search indices stay in the grid", "statement": "After every call of next the index position is within [0, dims-1] on every axis, so that later reads of coordinates and fields are in bounds.", "quantifier": "every grid, target, solver result that is an ordinary number", "why_tests_cant": "all states and solver outputs", "anchors": ["cpp/SgFindPointInCell.h:truncateIndices", "cpp/SgFindPointInCell.h:next"]}
{"id": "C35", "title": "Newton search is exact on affine grids", "statement": "On a grid whose nodes are an invertible affine image of their indices, one call of next moves from any start in the grid to the exact index position of any target inside the grid.", "quantifier": "every invertible affine 2D grid, start and target", "why_tests_cant": "all grids and targets", "anchors": ["cpp/SgFindPointInCell.h:next", "cpp/SgFindPointInCell.h:computeJacobianAndRHS"]}
{"id": "C36", "title": "Setting a new grid forgets the old one", "statement": "After setGrid with a second grid the object behaves like a newly built one given that grid (bounding box, periodicity, dimensions).", "quantifier": "every pair of grids", "why_tests_cant": "object history", "anchors": ["cpp/SgFindPointInCell.h:setGrid"]}
{"id": "C37", "title": "Interpolation respects the range of the data", "statement": "interp at a position inside the grid returns a value between the smallest and the largest of the nodal values it uses.", "quantifier": "every dimension, position and field", "why_tests_cant": "all fields", "anchors": ["cpp/SgFindPointInCell.h:interp"]}
{"id": "C38", "title": "Nodal interpolation is linear and preserves constants", "statement": "apply writes sum(weight * source value) at each destination node that has weights: the result is linear in the data, and a constant source field is reproduced at these nodes; other destination entries are not touched.", "quantifier": "every weight table, source data and prior destination data", "why_tests_cant": "all data", "anchors": ["cpp/SgNodeInterp2D.h:apply"]}
{"id": "C39", "title": "Nodal interpolation is exact for bilinear index fields on affine grids", "statement": "If the source grid is an invertible affine image of its indices, any destination node inside it receives the exact value of any affine field of the physical coordinates.", "quantifier": "every affine source grid, affine field and destination node inside", "why_tests_cant": "all grids and fields", "anchors": ["cpp/SgNodeInterp2D.h:computeWeights", "cpp/SgNodeInterp2D.h:apply"]}
{"id": "C40", "title": "Recomputing nodal weights replaces the old ones", "statement": "computeWeights discards the weights of previous calls; calling it twice gives the same table as once.", "quantifier": "every history", "why_tests_cant": "object history", "anchors": ["cpp/SgNodeInterp2D.h:computeWeights"]}
{"id": "C41", "title": "Every destination node found is interpolated", "statement": "A destination node for which the search succeeds, at the first try or when restarted from a side, gets interpolation weights.", "quantifier": "every search outcome", "why_tests_cant": "depends on all possible search outcomes", "anchors": ["cpp/SgNodeInterp2D.h:computeWeights", "cpp/SgNodeInterp2D.h:findTarget"]}
{"id": "C42", "title": "Candidate cells form a valid index box", "statement": "The source cells reported for a polygon are the cells of an index box clipped to the grid; every reported cell exists.", "quantifier": "every set of polygon index positions and grid size", "why_tests_cant": "all positions", "anchors": ["cpp/SgFindOverlappingCells2D.h:findSrcCellIndices", "cpp/SgFindOverlappingCells2D.h:findFloatIndexBoxOfPolygon"]}
{"id": "C43", "title": "Candidate cells cover the polygon", "statement": "For every polygon vertex whose index position was found, the cell containing this position is among the reported cells.", "quantifier": "every set of vertex positions", "why_tests_cant": "all positions, including the upper boundary", "anchors": ["cpp/SgFindOverlappingCells2D.h:findSrcCellIndices"]}
{"id": "C44", "title": "Cell numbers follow the library's cell numbering", "statement": "The flat cell numbers reported use the same numbering as the cell data of the interpolators (row-major over cells).", "quantifier": "every grid size and cell", "why_tests_cant": "all sizes", "anchors": ["cpp/SgFindOverlappingCells2D.h:findSrcCellIndices", "cpp/SgConserveInterp2D.h:getSrcQuadCoord"]}
{"id": "C45", "title": "Triangulated area is the convex hull area (convex position)", "statement": "For planar points none of which lies in the interior of their convex hull (in exact arithmetic, with point distances and triangle areas either zero or above the code's tolerance), getConvexHullArea returns the area of the convex hull, for every ordering std::sort may produce.", "quantifier": "every number of points, all positions, every admissible sort order", "why_tests_cant": "area identity for all point sets and tie orders", "anchors": ["cpp/SgTriangulate.h:SgTriangulate_type", "cpp/SgTriangulate.h:addPoint", "cpp/SgTriangulate.h:getConvexHullArea"]}
{"id": "C46", "title": "Triangulated area is the convex hull area (any points)", "statement": "getConvexHullArea returns the area of the convex hull of any set of points.", "quantifier": "every set of points", "why_tests_cant": "the failure needs particular configurations of interior points", "anchors": ["cpp/SgTriangulate.h:addPoint", "cpp/SgTriangulate.h:getConvexHullArea"]}
{"id": "C47", "title": "Triangulated area ignores input order and repetitions", "statement": "The area does not depend on the order in which points are given nor on repeating points (points in convex position, same tolerance conditions).", "quantifier": "every permutation and repetition", "why_tests_cant": "factorially many permutations", "anchors": ["cpp/SgTriangulate.h:SgTriangulate_type", "cpp/SgTriangulate.h:removeDegenerateSegments"]}
{"id": "C48", "title": "Triangulation never reads outside its arrays", "statement": "Building a triangulation reads only existing points, for any input, including repeated and collinear points.", "quantifier": "every list of points", "why_tests_cant": "memory safety over all inputs", "anchors": ["cpp/SgTriangulate.h:makeFirstTriangle", "cpp/SgTriangulate.h:removeDegenerateSegments", "cpp/SgTriangulate.h:SgTriangulate_type"]}
{"id": "C49", "title": "Degenerate point sets have zero area", "statement": "Zero, one or two points, and sets of points that all coincide, have area 0.", "quantifier": "every such list", "why_tests_cant": "all lists", "anchors": ["cpp/SgTriangulate.h:SgTriangulate_type", "cpp/SgTriangulate.h:getConvexHullArea"]}
{"id": "C50", "title": "Bounding box test never rejects an overlap", "statement": "If two quadrilaterals have a point in common, checkIfBoxesOverlap returns true; the test is symmetric in the two quadrilaterals.", "quantifier": "every pair of quadrilaterals", "why_tests_cant": "all pairs", "anchors": ["cpp/SgQuadIntersect.h:checkIfBoxesOverlap"]}
{"id": "C51", "title": "Point in triangle test", "statement": "checkIfPointIsInsideTriangle accepts a point exactly if its barycentric coordinates are within the tolerance, for every non-degenerate triangle of either orientation; points of the closed triangle are always accepted; degenerate triangles contain nothing.", "quantifier": "every triangle and point", "why_tests_cant": "all triangles", "anchors": ["cpp/SgQuadIntersect.h:checkIfPointIsInsideTriangle"]}
{"id": "C52", "title": "Point in cell test", "statement": "For a convex quadrilateral of either orientation, isPointInCell accepts every point of the quadrilateral, and accepts no point outside of it by more than the tolerance.", "quantifier": "every convex quadrilateral and point", "why_tests_cant": "all quadrilaterals", "anchors": ["cpp/SgQuadIntersect.h:isPointInCell"]}
{"id": "C53", "title": "Collected points lie in both quadrilaterals", "statement": "Every point collected by collectIntersectPoints lies in both quadrilaterals (convex, tolerance clean), so their hull is inside the intersection.", "quantifier": "every pair of convex quadrilaterals", "why_tests_cant": "all pairs", "anchors": ["cpp/SgQuadIntersect.h:collectIntersectPoints", "cpp/SgQuadIntersect.h:collectEdgeToEdgeIntersectionPoints", "cpp/SgQuadIntersect.h:collectNodesInsideQuad"]}
{"id": "C54", "title": "Collected points span the intersection", "statement": "The convex hull of the collected points is exactly the intersection of the two quadrilaterals (convex, tolerance clean).", "quantifier": "every pair of convex quadrilaterals", "why_tests_cant": "all pairs", "anchors": ["cpp/SgQuadIntersect.h:collectIntersectPoints"]}
{"id": "C55", "title": "Intersection object can be reused", "statement": "collectIntersectPoints for a new pair of quadrilaterals returns the points of that pair only, whatever pairs were processed before with the same object.", "quantifier": "every history of pairs", "why_tests_cant": "object history", "anchors": ["cpp/SgQuadIntersect.h:collectIntersectPoints", "cpp/SgQuadIntersect.cpp:SgQuadIntersect_getIntersectPoints"]}
{"id": "C56", "title": "Conservative weight is the overlap fraction", "statement": "The weight computed for a destination cell and a source cell is area(dst and src)/area(dst) (convex cells, exact arithmetic, tolerance clean).", "quantifier": "every pair of convex cells", "why_tests_cant": "area identity for all pairs of cells", "anchors": ["cpp/SgConserveInterp2D.h:computeWeights"]}
{"id": "C57", "title": "Conservative weights sum to one", "statement": "If the source cells cover a destination cell and overlap each other only on their boundaries, the weights of the destination cell sum to 1, so constant fields are preserved.", "quantifier": "every source grid covering the cell", "why_tests_cant": "all grids and sizes", "anchors": ["cpp/SgConserveInterp2D.h:computeWeights", "cpp/SgConserveInterp2D.h:apply"]}
{"id": "C58", "title": "Conservation of the total", "statement": "The total over destination cells of area*value equals the total over source cells of (area covered by the destination)*value; if source and destination cover the same region the integral is conserved.", "quantifier": "every pair of grids and every source field", "why_tests_cant": "all grids and fields", "anchors": ["cpp/SgConserveInterp2D.h:apply", "cpp/SgConserveInterp2D.h:computeWeights"]}
{"id": "C59", "title": "Conservative apply", "statement": "apply sets each destination cell that has weights to sum(weight*source value), touches no other entry, and is linear in the source data.", "quantifier": "every weight table and data", "why_tests_cant": "all tables and data", "anchors": ["cpp/SgConserveInterp2D.h:apply"]}
{"id": "C60", "title": "Intersection caches are transparent", "statement": "The node-in-cell and edge-edge caches of computeWeights do not change the weights: the result is the same as recomputing every intersection from scratch.", "quantifier": "every pair of grids", "why_tests_cant": "cache states over all cell pairs", "anchors": ["cpp/SgConserveInterp2D.h:computeWeights"]}
{"id": "C61", "title": "Weight iteration", "statement": "reset, then get/next until next reports the end, lists every stored (destination, source, weight) triple exactly once in increasing destination order; afterwards the iteration starts over.", "quantifier": "every non-empty weight table", "why_tests_cant": "all table shapes", "anchors": ["cpp/SgConserveInterp2D.h:reset", "cpp/SgConserveInterp2D.h:next", "cpp/SgConserveInterp2D.h:get"]}
{"id": "C62", "title": "Weight iteration on an empty table is safe", "statement": "reset and next on an object without weights are harmless.", "quantifier": "new objects and tables with no overlap", "why_tests_cant": "object states", "anchors": ["cpp/SgConserveInterp2D.h:reset", "cpp/SgConserveInterp2D.h:next", "cpp/SgConserveInterp2D.h:SgConserveInterp2D_type"]}
{"id": "C63", "title": "Recomputing conservative weights uses the new grids", "statement": "After setSrcGrid/setDstGrid with new grids and computeWeights, the weights are those of the new grids.", "quantifier": "every pair of grids and history", "why_tests_cant": "object history", "anchors": ["cpp/SgConserveInterp2D.h:computeWeights", "cpp/SgConserveInterp2D.h:setDstGrid", "cpp/SgConserveInterp2D.h:setSrcGrid"]}
{"id": "C64", "title": "Grid cells read the right nodes", "statement": "For every cell of a grid with at least 2 nodes per axis, the four node coordinates read for the cell are those of nodes (i,j),(i+1,j),(i+1,j+1),(i,j+1), inside the arrays; the periodicity argument does not change which nodes are read.", "quantifier": "every grid size, periodicity and cell", "why_tests_cant": "all sizes", "anchors": ["cpp/SgConserveInterp2D.h:getSrcQuadCoord", "cpp/SgConserveInterp2D.h:getDstQuadCoord", "cpp/SgConserveInterp2D.h:setSrcGrid", "cpp/SgConserveInterp2D.h:setDstGrid"]}
{"id": "C65", "title": "Conservative interpolation never reads outside its arrays", "statement": "computeWeights performs no out-of-bounds access for any grids, including source cells that only touch a destination cell.", "quantifier": "every pair of grids", "why_tests_cant": "memory safety for all inputs", "anchors": ["cpp/SgConserveInterp2D.h:computeWeights", "cpp/SgTriangulate.h:makeFirstTriangle"]}
{"id": "C66", "title": "Line parameters are sorted and on the segment", "statement": "The line parameters returned are in increasing order, each is within the tolerance of [0,1], and each corresponding point is the point of the line at that parameter.", "quantifier": "every quadrilateral and segment", "why_tests_cant": "all inputs", "anchors": ["cpp/SgQuadLineIntersect.h:collectIntersectPoints", "cpp/SgQuadLineIntersect.h:setLinePoints"]}
{"id": "C67", "title": "Line clipping is exact", "statement": "With a new object, or after reset: for a convex quadrilateral the smallest and largest parameters returned delimit exactly the part of the segment inside the quadrilateral; no parameter is returned if the segment misses it (tolerance clean).", "quantifier": "every convex quadrilateral and segment", "why_tests_cant": "all inputs", "anchors": ["cpp/SgQuadLineIntersect.h:collectIntersectPoints", "cpp/SgQuadLineIntersect.h:collectEdgeToLineIntersectionPoints"]}
{"id": "C68", "title": "Edge projections reproduce potential differences", "statement": "With edge data equal to differences of nodal values, the four projections of a segment dotted with the edge data give exactly the difference of the bilinear interpolants at the segment's ends.", "quantifier": "every pair of end points in index space and nodal values", "why_tests_cant": "all positions", "anchors": ["cpp/SgQuadLineFlows.h:computeProjections"]}
{"id": "C69", "title": "Edge projections are additive and antisymmetric", "statement": "The projections of a segment are the sum of those of its pieces when it is split at any point of the segment, and change sign when it is reversed.", "quantifier": "every segment and split point", "why_tests_cant": "all positions", "anchors": ["cpp/SgQuadLineFlows.h:computeProjections"]}
{"id": "C70", "title": "Flow along a line of a potential field", "statement": "If the source edge data are differences of a nodal potential and the line's pieces in the source cells join end to end, the flow is the potential difference between the line's ends, so it vanishes on closed loops.", "quantifier": "every source grid, potential and chain of pieces", "why_tests_cant": "all grids and paths", "anchors": ["cpp/SgFlowInterp2D.h:computeWeights", "cpp/SgFlowInterp2D.h:apply"]}
{"id": "C71", "title": "Flow apply reads the cell's own edges", "statement": "apply combines, for each source cell, the four edges bounding that cell in the two staggered edge arrays, all inside the arrays, and is linear in the data.", "quantifier": "every grid size and cell", "why_tests_cant": "all sizes", "anchors": ["cpp/SgFlowInterp2D.h:apply"]}
{"id": "C72", "title": "Recomputing flow weights replaces the old ones", "statement": "Calling computeWeights twice gives the same flow as calling it once.", "quantifier": "every history", "why_tests_cant": "object history", "anchors": ["cpp/SgFlowInterp2D.h:computeWeights"]}
{"id": "C73", "title": "Python wrapper guards the order of calls", "statement": "apply before computeWeights, and computeWeights before both grids are set, raise an error and never call the native code.", "quantifier": "every sequence of method calls", "why_tests_cant": "call histories", "anchors": ["py/conserveInterp2D.py:computeWeights", "py/conserveInterp2D.py:apply"]}
{"id": "C74", "title": "Python wrapper never applies stale weights", "statement": "apply uses weights computed for the grids last set.", "quantifier": "every sequence of method calls", "why_tests_cant": "call histories", "anchors": ["py/conserveInterp2D.py:setDstGrid", "py/conserveInterp2D.py:apply"]}
{"id": "C75", "title": "No leaks over the life of an object", "statement": "Every object allocated by the library between new and del is released exactly once by del.", "quantifier": "every sequence of API calls between new and del", "why_tests_cant": "call histories", "anchors": ["cpp/SgFlowInterp2D.h:~SgFlowInterp2D_type", "cpp/SgFindPointInCell.h:setGrid", "cpp/SgQuadIntersect.h:~SgQuadIntersect_type"]}
{"id": "C76", "title": "Line box rejection is safe", "statement": "The bounding-box test of the line intersector succeeds for every segment that has a point in common with the quadrilateral, and is exactly the test whether the two bounding boxes meet; used before both are set it is undefined.", "quantifier": "every quadrilateral and segment", "why_tests_cant": "all inputs", "anchors": ["cpp/SgQuadLineIntersect.h:checkIfOverlap"]}
{"id": "C77", "title": "Line intersector can be reused", "statement": "The points returned for a segment and a quadrilateral do not depend on the calls made before on the same object.", "quantifier": "every history of calls", "why_tests_cant": "object history", "anchors": ["cpp/SgQuadLineIntersect.h:reset", "cpp/SgQuadLineIntersect.cpp:SgQuadLineIntersect_collectIntersectPoints"]}
{"id": "C78", "title": "A flow is written for every segment", "statement": "apply writes a number to every segment of the destination line, zero if the segment has no part inside the source grid.", "quantifier": "every source grid, line and previous content of the output array", "why_tests_cant": "all inputs and array contents", "anchors": ["cpp/SgFlowInterp2D.h:apply", "cpp/SgFlowInterp2D.h:computeWeights"]}
{"id": "C79", "title": "No part of a line is counted twice", "statement": "A part of a segment shared by two source cells (an edge between them) contributes to the flow once.", "quantifier": "every grid and line, including lines along grid edges", "why_tests_cant": "degenerate positions", "anchors": ["cpp/SgFlowInterp2D.h:setDstGrid", "cpp/SgFlowInterp2D.h:computeWeights"]}
{"id": "C80", "title": "A small move of the line changes the flow little", "statement": "Moving an end of a segment by an amount near rounding changes the flow by an amount near rounding; in particular a segment that leaves the grid by that much has the flow of its part inside.", "quantifier": "every grid, line and small move", "why_tests_cant": "degenerate positions near the tolerances", "anchors": ["cpp/SgFlowInterp2D.h:computeWeights", "cpp/SgQuadLineFlows.h:computeProjections", "cpp/SgFindPointInCell.h:next"]}
{"id": "C81", "title": "The error history is the record of the search", "statement": "After any sequence of calls, the array returned by getErrorHistory has one entry per successful step since the last reset, in order, each the error getError reported after that step; the array can be read until the search is continued or reset.", "quantifier": "every history of setGrid, reset and next calls, every iteration limit", "why_tests_cant": "ranges over all call histories, and over when storage is moved", "anchors": ["cpp/SgFindPointInCell.h:getErrorHistory", "cpp/SgFindPointInCell.h:next", "cpp/SgFindPointInCell.h:reset"]}
{"id": "C82", "title": "Searches on periodic grids may cross the seam", "statement": "Along a periodic axis index positions are only meaningful modulo the number of nodes: every position the search reports is in range and differs from the Newton iterate by a multiple of the period, and a target on the other side of the seam is found.", "quantifier": "every grid, target, starting position and iteration limit", "why_tests_cant": "ranges over all starting positions; failing for every iteration limit is an infinite claim", "anchors": ["cpp/SgFindPointInCell.h:truncateIndices", "cpp/SgFindPointInCell.h:next"]}
{"id": "C83", "title": "Conservative interpolation creates no new extrema", "statement": "Weights lie in [0,1]; the weights of a destination cell sum to the fraction of it that the source grid covers; in a covered destination cell the result lies between the smallest and largest value of the source cells it overlaps; larger source values give larger results.", "quantifier": "every pair of grids with convex cells, every source field", "why_tests_cant": "ranges over all grids and fields", "anchors": ["cpp/SgConserveInterp2D.h:computeWeights", "cpp/SgConserveInterp2D.h:apply"]}
{"id": "C84", "title": "Conservative weights depend on the geometry only", "statement": "The weight of a pair of cells depends on their regions only: not on numbering, on the other cells, on the linear algebra library or the sort, on the axis order; it does not change if both grids are moved, rotated, reflected, or written in another unit of length.", "quantifier": "every pair of grids, every affine map", "why_tests_cant": "relates runs on infinitely many inputs", "anchors": ["cpp/SgConserveInterp2D.h:computeWeights", "cpp/SgQuadIntersect.h:collectIntersectPoints", "cpp/SgTriangulate.cpp"]}
{"id": "C85", "title": "The reported source domain is that of the grid", "statement": "getSrcDomainLo and getSrcDomainHi return, per axis, the smallest and largest coordinate of the nodes of the current grid.", "quantifier": "every grid and every history of calls", "why_tests_cant": "ranges over all histories; stale bounds show only after a second grid", "anchors": ["cpp/SgFindPointInCell.h:getSrcDomainLo", "cpp/SgFindPointInCell.h:getSrcDomainHi", "cpp/SgFindPointInCell.h:setGrid"]}
{"id": "C86", "title": "Regridding between rectangular grids over the same rectangle", "statement": "Computing the weights between two grids made by createRectangularGrid over the same rectangle has no undefined behaviour; the weight of two cells is the product of the fractions of the width and of the height; applying them keeps constants and the mean value.", "quantifier": "all numbers of cells, rectangles, fields, std::sort and LAPACK implementations", "why_tests_cant": "infinitely many pairs of resolutions; which of them read past the end of an array depends on common factors of the numbers of cells", "anchors": ["cpp/createGrids2D.cpp:createRectangularGrid", "cpp/SgConserveInterp2D.h:computeWeights", "cpp/SgConserveInterp2D.h:apply", "cpp/SgTriangulate.cpp"]}
{"id": "C87", "title": "The help text shows the options as they are", "statement": "After any history of set, parse, setPurpose and addFootnote calls, help lists every registered option once per type, in alphabetical order, with the text last given for it and its current value, nothing else, shows the last purpose, the name of the command in the last parse and the footnotes, latest first, and has no undefined behaviour.", "quantifier": "every history of calls", "why_tests_cant": "all histories; texts and values are kept in separate tables that could disagree", "anchors": ["utils/CmdLineArgParser.cpp:help", "utils/CmdLineArgParser.cpp:set", "utils/CmdLineArgParser.cpp:parse"]}
{"id": "C88", "title": "Nodal interpolation of arbitrary data", "statement": "On a source grid that is an invertible affine image of its indices, a destination node inside a source cell gets the bilinear interpolant of the values at the four corners of the cell, for any data; a destination node that is a source node gets the value there, so interpolating from a grid to itself copies the data.", "quantifier": "every affine grid, destination grid, data, iteration limit above one, positive tolerance", "why_tests_cant": "all grids and data", "anchors": ["cpp/SgNodeInterp2D.h:computeWeights", "cpp/SgNodeInterp2D.h:apply", "cpp/SgFindPointInCell.h:getWeightsAndFlatIndices"]}
{"id": "C89", "title": "Order of calls", "statement": "The setters, computeWeights and apply of the nodal interpolator may be called in any order and any number of times without undefined behaviour, if weights are computed only once both grids are set and the arrays given to apply have at least the sizes of the grids at the last computation; without either grid computeWeights reads uninitialised members. The cell search without a grid, or without a polygon, is undefined.", "quantifier": "every sequence of calls, grid and array", "why_tests_cant": "unbounded histories", "anchors": ["cpp/SgNodeInterp2D.h:setSrcGrid", "cpp/SgNodeInterp2D.h:setDstGrid", "cpp/SgNodeInterp2D.h:computeWeights", "cpp/SgNodeInterp2D.h:apply", "cpp/SgFindOverlappingCells2D.h:findSrcCellIndices"]}
{"id": "C90", "title": "Order of calls of the flow interpolator", "statement": "The setters, computeWeights and apply of the flow interpolator may be called in any order and any number of times without undefined behaviour, if weights are computed only once both grids are set and the arrays given to apply have the numbers of edges of the source grid set last and as many segments as any line had when weights were computed; without a line, or without a source grid for a line with a segment, computeWeights reads uninitialised members.", "quantifier": "every sequence of calls, grid, line and array", "why_tests_cant": "unbounded histories", "anchors": ["cpp/SgFlowInterp2D.h:setSrcGrid", "cpp/SgFlowInterp2D.h:setDstGrid", "cpp/SgFlowInterp2D.h:computeWeights", "cpp/SgFlowInterp2D.h:apply"]}
{"id": "C91", "title": "Flow of reversed and split lines", "statement": "Listing the nodes of a line in reverse order changes the sign of the flow of every segment; inserting a node on a segment splits its flow into two that add up to it and leaves the others alone.", "quantifier": "every grid of parallelograms, line and edge data", "why_tests_cant": "all lines, grids and data", "anchors": ["cpp/SgFlowInterp2D.h:computeWeights", "cpp/SgFlowInterp2D.h:apply", "cpp/SgFlowInterp2D.h:setDstGrid"]}
{"id": "C92", "title": "Rounding errors of apply", "statement": "In arithmetic where every operation is rounded with relative error at most u (and a small absolute one), the values written by apply of the three interpolators differ from the exact sums of weight times value by at most ((1+u)^(n+1)-1) times the sum of the sizes of the products, n being the number of products.", "quantifier": "every rounding, table of weights and data", "why_tests_cant": "all roundings and data", "anchors": ["cpp/SgConserveInterp2D.h:apply", "cpp/SgNodeInterp2D.h:apply", "cpp/SgFlowInterp2D.h:apply"]}
{"id": "C93", "title": "Rectangular grids in rounded arithmetic", "statement": "In floating point arithmetic the coordinates of the nodes made by createRectangularGrid never decrease along their axis, differ from the exact ones by a few roundings, the first is the lower and the last the upper bound.", "quantifier": "every monotone rounding, box and number of nodes", "why_tests_cant": "all sizes and boxes; the last node is off for some numbers of nodes only", "anchors": ["utils/createGrids2D.cpp:createRectangularGrid"]}
{"id": "C94", "title": "Grids from numpy arrays", "statement": "After setDstGrid(x, y) or setSrcGrid(x, y) of the Python class the grid in use has the node (x[i,j], y[i,j]) at place (i,j), for every pair of arrays of the same shape; later changes of the arrays have no effect on it.", "quantifier": "every array (shape, strides, contents) and later program", "why_tests_cant": "all array layouts and programs", "anchors": ["py/conserveInterp2D.py:setDstGrid", "py/conserveInterp2D.py:setSrcGrid"]}
{"id": "C95", "title": "Result of apply in Python", "statement": "apply(srcData) returns an array with an entry per destination cell holding the weighted sum of the entries of srcData, changes no other array, and the array keeps these values; srcData may be any array with an entry per source cell, an earlier result included.", "quantifier": "every program, weights and source array", "why_tests_cant": "all programs and arrays", "anchors": ["py/conserveInterp2D.py:apply", "py/conserveInterp2D.py:setDstGrid", "cpp/SgConserveInterp2D.h:apply"]}
{"id": "C96", "title": "Conservative regridding in Python", "statement": "Setting both grids from contiguous arrays, computing the weights and applying them gives, for each destination cell, the sum over the source cells of the covered fraction times the value; constants stay constants in covered cells, and the total of area times value is conserved if both grids cover the same region.", "quantifier": "every pair of grids with convex cells clear of the tolerance, source array, and program of further calls in between", "why_tests_cant": "all grids, data and programs", "anchors": ["py/conserveInterp2D.py:ConserveInterp2D", "cpp/SgConserveInterp2D.h:computeWeights", "cpp/SgConserveInterp2D.h:apply"]}
{"id": "C97", "title": "Cap of the tripolar grid", "statement": "The cap continues the regular grid below it (same latitude and longitudes in its first row), its latitudes lie between that of its boundary and 90 degrees, latitudes never fall from row to row, its two poles are on its boundary, and the two halves meet in the last row.", "quantifier": "every number of rows and columns and every cap index", "why_tests_cant": "real trigonometric statements for all sizes", "anchors": ["cpp/SgTripolarGrid.h:getGrid"]}
{"id": "C98", "title": "Regridding from and to polar grids", "statement": "The cells of a polar grid with n sectors (3 or more) are convex, do not overlap and fill exactly the regular polygon with n corners; a cell of ring i has the area (2i+1)(R/m)^2 sin(2 pi/n)/2. Conservative regridding from a polar grid to a grid that covers the polygon conserves the total, a constant becomes the constant in cells inside the polygon, and regridding to a polar grid gives the total of the source over the polygon, with defined behaviour in all cases.", "quantifier": "every number of rings and sectors, every radius, every other grid whose cells are clear of the tolerances, every solver within its contract, every order std::sort may leave, all data", "why_tests_cant": "real areas, for all sizes of grids", "anchors": ["cpp/createGrids2D.cpp:createPolarGrid", "cpp/SgConserveInterp2D.h:computeWeights", "cpp/SgConserveInterp2D.h:apply", "cpp/SgTriangulate.h:removeDegenerateSegments"]}
{"id": "C99", "title": "The index search succeeds on stretched grids", "statement": "On a grid whose lines along each axis are straight and parallel, with spacing that may vary from cell to cell, the search for the indices of a point inside the grid ends with status converged for enough iterations and indices within a stated error, and nodal interpolation gives weights to every destination node inside the source grid.", "quantifier": "every number of dimensions, every size, every spacing, every direction of the axes, every start, every target in the grid, every solver within its contract", "why_tests_cant": "convergence of an iteration from every start to every target on every such grid", "anchors": ["cpp/SgFindPointInCell.h:next", "cpp/SgFindPointInCell.h:computeJacobianAndRHS", "cpp/SgFindPointInCell.h:truncateIndices", "cpp/SgNodeInterp2D.h:computeWeights"]}
{"id": "C100", "title": "Accuracy of nodal interpolation on any grid", "statement": "At every destination node that has weights, nodal interpolation of a linear field b0 + b.x is exact up to |b| times the position tolerance; of a field with Lipschitz constant L, up to L (h + tolerance) where h bounds the distance between corners of a cell; of a smooth field with slope L and second order remainder M, up to L tolerance + M (h + tolerance)^2.", "quantifier": "every source and destination grid (curved, folded, degenerate), periodic or not, every solver that keeps sizes, every tolerance, all fields of each class", "why_tests_cant": "error bounds for all grids and all fields", "anchors": ["cpp/SgNodeInterp2D.h:computeWeights", "cpp/SgNodeInterp2D.h:apply", "cpp/SgFindPointInCell.h:getSrcIndicesAndWeights"]}
{"id": "C101", "title": "The index search succeeds on curved grids that are nearly regular around the target", "statement": "If the edges of the part of the grid around the target agree with those of a grid of equal rectangular cells up to a relative error eps with eps sqrt(n) <= 1/4, then different index positions of this part have different places, and the search for the place of an index position, from a start from which all positions that are not farther from the target are in this part, ends with the code 1 after a number of steps given by the rate 8/3 eps sqrt(n); the indices are then within this rate to the number of steps of those of the target. Nodal interpolation from a grid that is nearly regular as a whole gives weights to every destination node in it.", "quantifier": "every number of dimensions, every size, every curved grid with this bound on the deviation of its edges, every start, every target, every solver within its contract, every tolerance", "why_tests_cant": "convergence of an iteration on all curved grids of a class, from all starts to all targets", "anchors": ["cpp/SgFindPointInCell.h:next", "cpp/SgFindPointInCell.h:computeJacobianAndRHS", "cpp/SgFindPointInCell.h:interp", "cpp/SgFindPointInCell.h:truncateIndices", "cpp/SgNodeInterp2D.h:computeWeights"]}
{"id": "C102", "title": "Accuracy of conservative interpolation", "statement": "If the source data are the mean values of a density over the source cells, the amount the interpolation puts into a destination cell (value times area) differs from the integral of the density over the part of that cell that the source grid covers by at most the variation of the density over a source cell times the area of that part; it is equal for a density that is constant on every source cell. In a covered destination cell the value differs from the density at any of its points by at most the variation over a source cell plus that over the destination cell, and over grids of the same region the amounts add up to the integral of the density.", "quantifier": "every pair of grids of convex cells that meet the conditions on tolerances, every integrable density, every bound on its variation", "why_tests_cant": "an error bound for all densities and all grids", "anchors": ["cpp/SgConserveInterp2D.h:computeWeights", "cpp/SgConserveInterp2D.h:apply", "cpp/SgQuadIntersect.h", "cpp/SgTriangulate.h"]}
{"id": "C103", "title": "Accuracy of the flows for a vector field", "statement": "If the edge data are the integrals of a continuous vector field along the edges of a sheared product grid, the flow of a segment differs from the integral of the field along the segment by at most the sum over the two axes of the variation of the component over a cell times the extent of the segment along the axis. For a field whose component along each axis is linear in the coordinate along the other axis, in particular for every rigid motion and every uniform field, the flow is the integral itself.", "quantifier": "every sheared product grid, every continuous vector field, every line whose segments have their ends in the grid, do not run along an inner grid line and are clear of the tolerance", "why_tests_cant": "an error bound for all fields, grids and lines", "anchors": ["cpp/SgFlowInterp2D.h:computeWeights", "cpp/SgFlowInterp2D.h:apply", "cpp/SgQuadLineFlows.h:computeProjections"]}
{"id": "C104", "title": "Setting a grid through pointers and int counts", "statement": "SgFindPointInCell_setGrid takes over a grid with up to 64 axes, at least one node along each and at most INT_MAX nodes, from any arrays that are long enough, on an object in any state, also when earlier grids had another number of axes: the call reads and writes in bounds, no int operation overflows and the object holds exactly the nodes passed, with the right steps between neighbours in the flat arrays. ndims <= 0 changes nothing. More than INT_MAX nodes overflow, an array that is too short is read past its end, counts with a negative product throw std::length_error.", "quantifier": "every state of the object, every number of axes, every counts, flags and arrays", "why_tests_cant": "all sizes and all histories of dimensions; overflow and reads past the end need not show in a run", "anchors": ["cpp/SgFindPointInCell.h:setGrid", "cpp/SgFindPointInCell.cpp:SgFindPointInCell_setGrid"]}
{"id": "C105", "title": "Conservative interpolation with the integers of the interface", "statement": "Setting both grids of SgConserveInterp2D through pointers and int counts and computing the weights does exactly what the same calls would do with unbounded integers: no product or index wraps around or overflows, and a pass of get and next reports every stored weight once with the exact indices of its two cells.", "quantifier": "every pair of grids, every counts, flags and arrays, every arithmetic of the coordinates", "why_tests_cant": "all sizes up to and beyond 2^31 cells, and grids without nodes", "anchors": ["cpp/SgConserveInterp2D.h:setDstGrid", "cpp/SgConserveInterp2D.h:setSrcGrid", "cpp/SgConserveInterp2D.h:computeWeights", "cpp/SgConserveInterp2D.h:get"]}
{"id": "C106", "title": "The octree in rounded arithmetic", "statement": "In double precision every point given to SgOctreePoints lies in the box of its key at every level, the boxes of the children of a box fit together without gap or overlap, and the boxes cover the domain.", "quantifier": "every set of points, every number of dimensions and levels, every rounding with bounded relative error that keeps order and the binary fractions of the tree (double precision: up to 52 levels)", "why_tests_cant": "rounding errors depend on the digits of the coordinates; all points and all roundings", "anchors": ["cpp/SgOctreePoints.h:getKey", "cpp/SgOctreePoints.h:computeLoHi", "cpp/SgOctreePoints.h:getLo", "cpp/SgOctreePoints.h:getHi"]}
{"id": "C107", "title": "Interpolation in rounded arithmetic", "statement": "In double precision the weights getSrcIndicesAndWeights returns belong to the same nodes as in exact arithmetic and differ from the exact ones by a few units of rounding altogether; interp returns the exact multilinear value up to a relative error (1+u)^(2^ndims+1+3 ndims)-1 of the largest corner value, keeps constants and stays in the range of the corner values up to that error.", "quantifier": "every number of dimensions, grid shape, position in the grid and data, every monotone rounding of relative error at most u that keeps the integers up to the node counts", "why_tests_cant": "rounding errors depend on the digits of position and data; a test sees a few of them", "anchors": ["cpp/SgFindPointInCell.h:getSrcIndicesAndWeights", "cpp/SgFindPointInCell.h:interp"]}
{"id": "C108", "title": "The nodal interpolator in rounded arithmetic", "statement": "In double precision, for any two grids, computeWeights has no undefined behaviour and gives a table that apply can use; each entry is within (1+u)^6-1 of non negative weights of sum 1, whose combination of the source nodes is within tolpos/(1-u)^4 plus a rounding error of the destination node; apply keeps constants and the range of the source values up to a relative error (1+u)^11-1, and changes no other entry.", "quantifier": "every pair of grids (2 to 2^30 source nodes per axis, any coordinates), periodicity, tolerance, iteration limit, behaviour of the linear solver and data; every monotone rounding of relative error at most u < 1 that keeps the integers up to 2^31", "why_tests_cant": "rounding errors and iterates of the search depend on all digits of the coordinates and on the solver library", "anchors": ["cpp/SgNodeInterp2D.h:computeWeights", "cpp/SgNodeInterp2D.h:apply", "cpp/SgFindPointInCell.h:next"]}
{"id": "C109", "title": "The area of the convex hull in rounded arithmetic", "statement": "In double precision the triangulation of points in convex position has the triangles of exact arithmetic, and the returned area is the area of the convex hull of the exact points up to a bound given in terms of the rounding error, the uncertainty of the points, their spread and their number.", "quantifier": "every number of points in convex position that are clean by twice the tolerance, every perturbation of their coordinates within the uncertainty, every order std::sort may leave, every rounding with bounded relative and absolute error that keeps a few constants (double precision: coordinates that spread by 16)", "why_tests_cant": "rounding errors depend on the digits of the coordinates and may change any of the comparisons; all points and all roundings", "anchors": ["cpp/SgTriangulate.h:SgTriangulate_type", "cpp/SgTriangulate.h:getConvexHullArea", "cpp/SgTriangulate.h:makeFirstTriangle", "cpp/SgTriangulate.h:addPoint", "cpp/SgTriangulate.h:removeDegenerateSegments"]}
{"id": "C110", "title": "Intersection points of two quadrilaterals in rounded arithmetic", "statement": "In double precision an intersector without earlier points returns the nodes of each of two convex quadrilaterals that lie in the other one and the crossings of their edges, as many and in the same order as in exact arithmetic, each coordinate within a bound given by the rounding error, the backward error of the linear solver, the shape of the quadrilaterals and the size of the coordinates; the area of their hull is the area of the intersection up to a further bound.", "quantifier": "every pair of convex quadrilaterals that are not too flat and have no decision closer than twice the tolerance, every earlier use of the object, every order std::sort may leave, every rounding with bounded relative error, every solver that is backward stable on two equations", "why_tests_cant": "rounding and the solver's errors depend on the digits of the coordinates and may change any of the decisions; all pairs, all roundings and all such solvers", "anchors": ["cpp/SgQuadIntersect.h:isPointInCell", "cpp/SgQuadIntersect.h:collectEdgeToEdgeIntersectionPoints", "cpp/SgQuadIntersect.h:collectIntersectPoints", "cpp/SgLinearSolve.h:solve", "cpp/SgTriangulate.h:getConvexHullArea"]}
{"id": "C111", "title": "Conservative interpolation in rounded arithmetic", "statement": "In double precision the weight of every pair of cells is the fraction of the destination cell that the source cell covers, up to a bound given by the rounding error, the backward error of the linear solver, the shape and size of the cells and the area of the destination cell; pairs with an area in common are all listed; the weights of a covered cell sum to 1, interpolated values are the area averages of the source values and the total over the region is conserved, each up to a bound.", "quantifier": "every two structured grids whose cells are convex, not too flat and have no decision closer than twice the tolerance, all data, every order std::sort may leave, every rounding with bounded relative error, every solver that is backward stable on two equations", "why_tests_cant": "rounding and the solver's errors depend on the digits of the coordinates and may change which points are collected, cached and reused; all grids, all data, all roundings and all such solvers", "anchors": ["cpp/SgConserveInterp2D.h:computeWeights", "cpp/SgConserveInterp2D.h:apply", "cpp/SgQuadIntersect.h:collectIntersectPoints", "cpp/SgTriangulate.h:getConvexHullArea"]}
{"id": "C112", "title": "Nodal interpolation with the integers of the interface", "statement": "Setting both grids of SgNodeInterp2D through pointers and int counts and computing the weights does exactly what the same calls would do with unbounded integers; counts and arrays that describe no grid are refused.", "quantifier": "every two pairs of counts, all arrays behind the pointers, all objects with any earlier grids, every linear solver", "why_tests_cant": "the counts range over all ints; overflow and wrap around need grids too large to allocate in a test; objects may have any history", "anchors": ["cpp/SgNodeInterp2D.h:setDstGrid", "cpp/SgNodeInterp2D.h:setSrcGrid", "cpp/SgNodeInterp2D.h:computeWeights", "cpp/SgFindPointInCell.h:setGrid"]}
{"id": "C113", "title": "Flow interpolation with the integers of the interface", "statement": "Setting the source grid and the line of SgFlowInterp2D through pointers and int counts does exactly what the same calls would do with unbounded integers, every grid that is accepted can be used, and counts that describe no grid are refused.", "quantifier": "all counts, all arrays behind the pointers, all objects with any earlier grids, every linear solver and sort", "why_tests_cant": "the counts range over all ints; the overflow needs grids of more than 2^30 nodes", "anchors": ["cpp/SgFlowInterp2D.h:setDstGrid", "cpp/SgFlowInterp2D.h:setSrcGrid", "cpp/SgFlowInterp2D.h:computeWeights", "cpp/SgFlowInterp2D.h:getSrcQuadCoord"]}
{"id": "C114", "title": "The part of a segment inside a quadrilateral in rounded arithmetic", "statement": "In double precision an intersector of a segment with a convex quadrilateral returns increasing parameters whose first and last are the ends of the part of the segment inside the quadrilateral, up to a bound given by the tolerance (100 times the machine epsilon) and the shape of the quadrilateral; if no part is inside, all parameters are within twice that bound of each other; the points returned are those of the segment at the parameters, up to rounding.", "quantifier": "every convex quadrilateral that is not too flat, every segment crossing no edge at a very small angle (segments along an edge or clearly beyond and parallel to it included), every earlier use of the object after which no parameters are left, every std::sort, every rounding with bounded relative error, every solver that is backward stable on two equations", "why_tests_cant": "rounding and the solver's errors depend on the digits of the coordinates and may add or drop parameters near the tolerance; all segments, quadrilaterals, roundings and such solvers", "anchors": ["cpp/SgQuadLineIntersect.h:isPointInQuad", "cpp/SgQuadLineIntersect.h:collectIntersectPoints", "cpp/SgLinearSolve.h:solve"]}
{"id": "C115", "title": "Projections and flows in rounded arithmetic", "statement": "In double precision the projections of the edge basis functions of a cell on a segment inside it are those of exact arithmetic up to a small bound, with code 0; hence the flow of a potential through the segment is the difference of its interpolants at the ends up to that bound, and the flow through a line on a grid is the sum of these.", "quantifier": "every cell that is not too flat, every segment in it, every earlier use of the object, every rounding with bounded relative error, every solver that is backward stable on two equations", "why_tests_cant": "whether a point of an edge passes the test that it is in the box of the cell depends on the last digit of its coordinates; all cells, segments, roundings and such solvers", "anchors": ["cpp/SgQuadLineFlows.h:computeProjections", "cpp/SgQuadLineFlows.h:computeStartEndLineIndices", "cpp/SgFindPointInCell.h:next", "cpp/SgFlowInterp2D.h:computeWeights"]}
{"id": "C116", "title": "Flow interpolation in rounded arithmetic", "statement": "On a grid of parallelograms with coordinates small enough for the absolute tolerances, for a segment for which no decision of the intersector is close (each edge of a cell is crossed at an angle that is not small or clearly missed, the ends are in a cell or clearly outside), the flow computed in double precision is the sum over the cells of the integral of the edge field along the part of the segment inside, up to an error proportional to the numbers on the edges (3e-11 divided by the cell size, plus 3e-15 for each cell). For edge numbers that are differences of a potential it is the difference of the interpolated potential between the ends, up to the same error.", "quantifier": "every such grid and line with any number of cells and segments, every perturbation of the nodes, all edge data, every rounding with bounded relative error, every sort, every solver that is backward stable on two equations", "why_tests_cant": "rounding may change which edges are hit, the order of the pieces and which cells are stored; all grids, lines, roundings and such solvers", "anchors": ["cpp/SgFlowInterp2D.h:computeWeights", "cpp/SgFlowInterp2D.h:apply", "cpp/SgQuadLineIntersect.h:collectIntersectPoints", "cpp/SgQuadLineFlows.h:computeProjections"]}
{"id": "C117", "title": "Flows on grids of trapezoids, and turns round the pole of a polar grid", "statement": "In a convex quadrilateral with two parallel sides (a cell of a polar grid is one) the position of every point is found in at most two Newton steps, and the projections of every segment give the flow of a potential between two places nearer to its ends than 1e-10. On a grid of such cells the flow along a segment is the difference of the interpolated potential between its ends, up to this accuracy for each cell it meets. On a polar grid with no flow along the radii and the flow 1/n along the chords of each ring, as in the example program polarFlow, the flow along a segment is the part of a turn that it makes round the pole, and the flows along a line add up to the turns it makes: a whole number for a closed line that does not meet the pole.", "quantifier": "every grid of trapezoids and every potential on it, every polar grid (any numbers of rings and sectors, any radius), every line with any number of segments clear of the tolerances and off the pole, every perturbation of the nodes, every sort, every solver that solves regular systems", "why_tests_cant": "the position is the result of an iteration on a map that is not affine; all cells, segments, numbers of rings and sectors and closed lines", "anchors": ["cpp/SgFlowInterp2D.h:computeWeights", "cpp/SgFlowInterp2D.h:apply", "cpp/SgQuadLineFlows.h:computeProjections", "cpp/SgFindPointInCell.h:next", "utils/createGrids2D.cpp:createPolarGrid", "examples/polarFlow.py.in"]}
{"id": "C118", "title": "Flows on grids of convex quadrilaterals without parallel sides", "statement": "In a convex quadrilateral with angles between 30 and 150 degrees, corner triangles whose areas differ at most by a factor 16 and sides not longer than 100, every point has exactly one index position; the Newton search finds it to 1e-10 within its ten steps, from any history of the object; and the projections of every segment give the flow of a potential between two places nearer to its ends than 1e-10. On a grid of such cells the flow along a segment is the difference of the interpolated potential between its ends, with an error bounded by the size of the data, the shortest side and the number of cells met, and the flows along a closed line add up to zero up to these errors. For other convex cells this can fail: at a nearly flat corner the search gives up and the flow is wrong.", "quantifier": "every quadrilateral of this kind and every pair of points in it, every grid of such cells, every potential, every line with any number of segments clear of the tolerances, every perturbation of the nodes, every sort, every solver that solves regular systems", "why_tests_cant": "convergence of an iteration on a curved map, with clamping of the indices, within a fixed number of steps for every cell and point", "anchors": ["cpp/SgFlowInterp2D.h:computeWeights", "cpp/SgFlowInterp2D.h:apply", "cpp/SgQuadLineFlows.h:computeProjections", "cpp/SgFindPointInCell.h:next"]}
{"id": "C119", "title": "The flow of a stream function along a line", "statement": "On a sheared product grid whose data are the differences of a stream function between the nodes, the flow of a segment is the difference of the interpolated stream function between the points where it enters and leaves the grid (the part outside is left out). If the second derivatives of the stream function along the axes are at most M0 and M1 in size and the cells at most w0 and w1 wide, the flow of a segment, and the sum of the flows of a line of any number of segments in the grid, differ by at most (M0 w0^2 + M1 w1^2) / 4 from the differences of the stream function itself. On a grid made by createRectangularGrid this holds for the ends given by the caller, up to the effect of the perturbation of the nodes.", "quantifier": "every grid of this kind of any size, every stream function with bounded second derivatives, every line with any number of segments clear of the tolerances that does not run along a grid line, every bounded perturbation of the nodes, every sort, every solver that solves regular systems", "why_tests_cant": "an error bound over all smooth stream functions, grids and lines; a test compares one line on one grid with one function", "anchors": ["cpp/SgFlowInterp2D.h:computeWeights", "cpp/SgFlowInterp2D.h:apply", "utils/createGrids2D.cpp:createRectangularGrid", "examples/streamFlow.py.in"]}
{"id": "C120", "title": "Divisions by zero in the grid generators and the tree of points", "statement": "With finite arguments the coordinates of the nodes made by createRectangularGrid, createPolarGrid and createRotatedPoleGrid are finite if there are at least two nodes along each axis. With one node along an axis the coordinate of the rectangular grid along that axis, and both coordinates of all nodes of the other two grids, are NaN. The box returned for the key of a point of a tree contains the point even if all points have the same coordinate along some axes; a point beyond the domain along such an axis does not get the key of the nearest point of the domain.", "quantifier": "every number of nodes, bounds, center, radius and angles; every list of finite points, point of it and level of the tree", "why_tests_cant": "the cases with one node along an axis or with points in a plane are limits of every family of inputs, and each size and each point would have to be tried", "anchors": ["utils/createGrids2D.cpp:createRectangularGrid", "utils/createGrids2D.cpp:createPolarGrid", "utils/createGrids2D.cpp:createRotatedPoleGrid", "cpp/SgOctreePoints.h:getKey", "cpp/SgOctreePoints.h:SgOctreePoints_type"]}
{"id": "C121", "title": "Destination cells without area", "statement": "If the four corners of a destination cell are at one place, applying the weights either leaves the value of the cell alone, because it has no weights, or sets it to an infinity or NaN, whatever the data of the source; it is never set to a finite number. For a cell shrunk to a point or to a segment inside of a source cell the second happens.", "quantifier": "every pair of grids of any size, every collapsed destination cell, every source data, every library and sort", "why_tests_cant": "ranges over all grids and data", "anchors": ["cpp/SgConserveInterp2D.h:computeWeights", "cpp/SgConserveInterp2D.h:apply", "cpp/SgTriangulate.h:getConvexHullArea"]}
{"id": "C122", "title": "Grid generators with any counts", "statement": "For any two int counts and any arrays, createRectangularGrid, createPolarGrid and createRotatedPoleGrid do one of three things. A count that is zero: nothing is written. Both positive: node (i,j) is written at i*n1+j of both arrays and nothing else changes, provided both arrays hold n0*n1 numbers; otherwise the first missing element is written out of bounds. A negative count with the other not zero: the arrays are overrun, whatever their length; INT_MIN overflows.", "quantifier": "every pair of int counts, every corner, centre, radius and angle, arrays of every length, every arithmetic", "why_tests_cant": "ranges over all counts and array lengths; the failing cases are undefined behaviour that a test cannot observe reliably", "anchors": ["utils/createGrids2D.cpp:createRectangularGrid", "utils/createGrids2D.cpp:createPolarGrid", "utils/createGrids2D.cpp:createRotatedPoleGrid"]}
{"id": "C123", "title": "Tripolar grid with any counts and cap index", "statement": "For any int counts and cap index: if the product of the counts is no int or is zero the constructor is undefined; if it is negative the constructor throws length_error; if both counts are positive and the cap index is from 0 to the number of rows, getGrid writes every node and reports the counts in the other order; if both are positive and the cap index is outside of that range, getGrid is undefined; if both are negative, an object is made and getGrid reports the negative counts with coordinates that are all zero.", "quantifier": "every pair of int counts, every int cap index, every arithmetic", "why_tests_cant": "ranges over all counts and cap indices, most of them with undefined behaviour", "anchors": ["cpp/SgTripolarGrid.h:SgTripolarGrid_type", "cpp/SgTripolarGrid.h:getGrid", "cpp/SgTripolarGrid.cpp:SgTripolarGrid_new"]}
{"id": "C124", "title": "Order of calls of the conservative interpolator", "statement": "The setters, computeWeights, apply, reset, next and get of the conservative interpolator may be called in any order and any number of times without undefined behaviour other than that of the triangulation in computeWeights, if weights are computed only once both grids are set, the arrays given to apply have as many cells as any grids had when weights were computed, and next and get are called only after a reset made when there were weights. Without a grid computeWeights reads what was never written; next and get without weights are undefined; apply with arrays that lack a cell of the table is undefined.", "quantifier": "every sequence of calls, every grid, data, library and sort, every arithmetic", "why_tests_cant": "ranges over all histories", "anchors": ["cpp/SgConserveInterp2D.h:setSrcGrid", "cpp/SgConserveInterp2D.h:setDstGrid", "cpp/SgConserveInterp2D.h:computeWeights", "cpp/SgConserveInterp2D.h:apply", "cpp/SgConserveInterp2D.h:next", "cpp/SgConserveInterp2D.h:get"]}
{"id": "C125", "title": "Candidate cells with the integers of the interface", "statement": "Whatever calls setSrcGrid, setPolygonPoints and findSrcCellIndices are made on a new object, in any order and number, with memory that holds the grids and polygons that are meant, what is stored and which calls are undefined is the same as with unbounded integers, and no call throws. A negative number of points makes setPolygonPoints throw; memory with fewer than two numbers per point is read past its end; too many nodes are undefined behaviour and one negative count throws. A polygon without points should be reported to meet no cell.", "quantifier": "every sequence of calls, every grid with at least one node per axis and at most INT_MAX nodes, every polygon, every arithmetic and library; any int number of points", "why_tests_cant": "ranges over all call sequences, counts and memory contents; several of the outcomes are undefined behaviour", "anchors": ["cpp/SgFindOverlappingCells2D.h:setSrcGrid", "cpp/SgFindOverlappingCells2D.h:setPolygonPoints", "cpp/SgFindOverlappingCells2D.h:findSrcCellIndices", "cpp/SgFindPointInCell.h:setGrid"]}
{"id": "C126", "title": "Linear solver with the integers and pointers of the interface", "statement": "For all numbers of rows and columns, SgLinearSolve_new makes an object exactly if the product is an int that is not negative and the number of rows is not negative; it throws if the product fits and one of the two is negative, and is undefined if the product overflows. For sizes that are not negative, any sequence of setMatrix, setRightHandSide and solve with pointers to at least as many numbers as the system has gives the solution, code and residual of the exact statements C10 to C13 on the numbers in memory. Less memory is read past its end. Without rows or without columns solve is undefined after any calls.", "quantifier": "all pairs of ints, all call sequences, all memory contents, all libraries", "why_tests_cant": "ranges over all integer sizes and call sequences; several outcomes are undefined behaviour", "anchors": ["cpp/SgLinearSolve.h:SgLinearSolve_type", "cpp/SgLinearSolve.cpp:SgLinearSolve_new", "cpp/SgLinearSolve.cpp:SgLinearSolve_setMatrix", "cpp/SgLinearSolve.cpp:SgLinearSolve_solve"]}
{"id": "C127", "title": "Box iterator with the integers and pointers of the interface", "statement": "For every number of axes and index sets in memory, SgBoxIterator_new makes the box of these index sets or is undefined by overflow exactly as the box on lists (C01 to C05) is; a negative number of axes throws; index sets with fewer integers than axes are never accepted. getElement overwrites exactly the first ndims integers of the caller's array, getIndex reads only these, and the index set left in memory leads back to the flat index. An array that is too short is written past its end.", "quantifier": "all numbers of axes, index sets, flat indices and memory contents", "why_tests_cant": "ranges over all numbers of axes, all integers and all memory; several outcomes are undefined behaviour", "anchors": ["cpp/SgBoxIterator.h:SgBoxIterator_type", "cpp/SgBoxIterator.cpp:SgBoxIterator_new", "cpp/SgBoxIterator.cpp:SgBoxIterator_getElement", "cpp/SgBoxIterator.cpp:SgBoxIterator_getIndex"]}
{"id": "C128", "title": "Triangulation with the integers and pointers of the interface", "statement": "For every number of points from 0 to 2^30 - 1 and memory with two numbers per point, SgTriangulate_new builds the triangulation of these points in an order std::sort may give, so that the area returned for the corners of a convex polygon in memory, in any order and with points of the sides and repetitions, is that of the polygon (buffer kept). A negative number throws, or is undefined if twice the number overflows, as are larger numbers; memory with fewer numbers is read past its end.", "quantifier": "all int numbers of points, all memory contents, all implementations of std::sort", "why_tests_cant": "ranges over all point sets, counts and sort implementations; several outcomes are undefined behaviour", "anchors": ["cpp/SgTriangulate.h:SgTriangulate_type", "cpp/SgTriangulate.h:SgSortByDistanceSquareFunctor", "cpp/SgTriangulate.cpp:SgTriangulate_new"]}
{"id": "C129", "title": "Cell search on the object's vectors, with the integers and pointers of the interface", "statement": "After setting a grid of fewer than 64 axes (at least one node along each, at most INT_MAX nodes) on any finder object, whatever grids it had before, any further calls of setGrid, reset and next whose memory holds what they need return the codes, and leave the indices, errors and history, that the search properties (C31 to C36) speak about, and are undefined exactly in the same cases; getPosition, getIndices and getError return these values and write only the first ndims numbers of the caller's memory. Shorter memory is read or written past its end. Before a grid is set next is undefined; with 64 or more axes, or after INT_MAX steps without a reset, a step towards a target inside the domain is undefined.", "quantifier": "all grids, node counts and numbers of axes, all earlier histories, all call sequences, all memory contents, all linear algebra libraries, any arithmetic", "why_tests_cant": "ranges over all histories and memory layouts; several outcomes are undefined behaviour", "anchors": ["cpp/SgFindPointInCell.h:next", "cpp/SgFindPointInCell.h:getSrcIndicesAndWeights", "cpp/SgFindPointInCell.h:computeJacobianAndRHS", "cpp/SgFindPointInCell.h:truncateIndices", "cpp/SgFindPointInCell.h:reset", "cpp/SgFindPointInCell.h:getPosition", "cpp/SgFindPointInCell.cpp:SgFindPointInCell_getPosition"]}
{"id": "C130", "title": "What the quadrilateral classes copy from the caller's arrays and what they read later", "statement": "The intersector of two quadrilaterals keeps the two addresses it is given and reads the eight numbers at each whenever it is asked, so that its answers are for the values in the arrays at the time of the call. The intersector of a quadrilateral and a segment computes the boxes when it is given the addresses and compares these later, while it finds points for the values at the time of the call: after the caller changes an array the two may disagree. The object for flows copies the quadrilateral when it is given its address and reads the segment when projections are computed. A call is undefined exactly when some number it needs is not there at that time (or the boxes or projections were never computed). Points are collected until reset; the address of the points handed out by one call is that of the next call exactly when the numbers fit in the vector's capacity; with 2^31 points the count given back is negative and, for two quadrilaterals, the address NULL.", "quantifier": "all sequences of calls, with any change of the caller's memory between them, all pointers (also NULL, short or freed arrays, several pointers into one array), all linear algebra libraries, any arithmetic, any growth of the vector", "why_tests_cant": "ranges over all histories and memory contents; half of the outcomes are undefined behaviour, which a test cannot observe reliably", "anchors": ["cpp/SgQuadIntersect.h:setQuadPoints", "cpp/SgQuadIntersect.h:collectIntersectPoints", "cpp/SgQuadIntersect.h:checkIfBoxesOverlap", "cpp/SgQuadLineIntersect.h:setQuadPoints", "cpp/SgQuadLineIntersect.h:setLinePoints", "cpp/SgQuadLineIntersect.h:checkIfOverlap", "cpp/SgQuadLineIntersect.h:collectIntersectPoints", "cpp/SgQuadLineFlows.h:setQuadPoints", "cpp/SgQuadLineFlows.h:setLinePoints", "cpp/SgQuadLineFlows.h:computeProjections"]}
{"id": "C131", "title": "Octree constructor and queries with any int arguments", "statement": "With a number of levels that is not negative, 1 to 53 axes and memory holding all coordinates, the octree constructor returns and its vectors and maps hold exactly the tree, the boxes and the keys described by C14 to C18, each key being inserted once; the queries on that object answer as the tree does for any key, index, level and readable point. With no axes the constructor divides by zero; with a negative number of axes it throws std::length_error or is given an invalid range; with a negative number of levels the recursion only gets deeper; with 54 to 64 axes the loop over quadrants does not end within 2^53 rounds; with 65 or more the first stride wraps to zero and is divided by. The helper that computes a box does not clear vectors it is handed, so a vector in use shifts the box.", "quantifier": "all int numbers of levels, axes and points, all memory contents, all keys, indices and levels, all numbers of rounds of the recursion", "why_tests_cant": "a test runs a few sizes; wrap-around of size_t strides, the conversion of negative int arguments and termination of the recursion for every level and axis count need an argument over all of them", "anchors": ["cpp/SgOctreePoints.h: SgOctreePoints_type constructor, refineOctree, computeLoHi, getIndices, getKey, getLo, getHi", "cpp/SgOctreePoints.cpp: SgOctreePoints_new"]}
{"id": "C132", "title": "Regridding a grid conservatively to itself", "statement": "If source and destination of the conservative interpolation are the same grid with cells that do not overlap, then, whenever computeWeights completes, every cell has weight 1 for itself and 0 for every other cell, and apply copies the cell data exactly, for any data and any previous content of the result array. computeWeights completes without undefined behaviour when every corner is proper, two cells have an edge, a corner or nothing in common, the erased elements of a vector stay readable, and the sort keeps ties of short lists in order; in particular for every rectangular grid with cells larger than the tolerances, of any size. With a sort that orders ties differently, which the C++ standard allows, or by the letter of the standard on erased elements, two cells side by side already give undefined behaviour.", "quantifier": "all grids of any size with clean cells that fit together, all cell data, all result arrays, all solvers and sorts within their contracts", "why_tests_cant": "Identity must hold for every grid size, every cell shape and every data, and whether the run completes depends on the order of ties in std::sort and on reading erased vector elements, which a test sees only for one library.", "anchors": ["cpp/SgConserveInterp2D.h: computeWeights, apply", "cpp/SgQuadIntersect.h: collectIntersectPoints", "cpp/SgTriangulate.h: SgTriangulate_type, removeDegenerateSegments"]}
{"id": "C133", "title": "Nodal interpolation on the vectors, maps and pointers of the object", "statement": "For every sequence of setDstGrid, setSrcGrid, computeWeights and apply calls in any order on a nodal interpolator whose arguments point to memory that holds the grids and data that are meant, the object with its std::vector members, size_t indices, in-place start vector and std::map behaves like the description used for the other properties of nodal interpolation: the same result arrays, the same table (indices modulo 2^64), and undefined behaviour exactly when the description says so and for the same reason; no call throws. A source grid given with two negative counts is accepted, and computeWeights is then undefined or leaves an empty table.", "quantifier": "all sequences of calls of any length, all grids with at least one node along each axis within the int range, all data, all solvers that keep the sizes of their arguments", "why_tests_cant": "Left-over contents of reused vectors, index arithmetic modulo 2^64 and grids set again in any order make up an unbounded set of histories.", "anchors": ["cpp/SgNodeInterp2D.h: setDstGrid, setSrcGrid, computeWeights, apply, findTarget", "cpp/SgFindPointInCell.h: setGrid, reset, next, getSrcIndicesAndWeights"]}
{"id": "C134", "title": "Candidate cells on the vectors and pointers of the object", "statement": "For every sequence of setSrcGrid, setPolygonPoints and findSrcCellIndices calls in any order on a candidate cell finder whose arguments point to memory that holds what is meant, the object with its std::vector members, corners changed in place and pointers into the polygon's points behaves like the description used for the other properties of candidate cells: the same cell numbers (as int), undefined behaviour exactly when the description says so and for the same reason, and no exception. A source grid with two negative counts does not give made-up cells.", "quantifier": "all sequences of calls of any length, all grids with at least one node along each axis within the int range, all polygons, all solvers that keep the sizes of their arguments; for negative counts all counts, grids, polygons and earlier calls", "why_tests_cant": "Left-over contents of vectors that are reused, and every order of the calls, make up an unbounded set of histories.", "anchors": ["cpp/SgFindOverlappingCells2D.h: setSrcGrid, setPolygonPoints, findFloatIndexBoxOfPolygon, findSrcCellIndices", "cpp/SgFindPointInCell.h: setGrid, reset, next", "cpp/SgBoxIterator.h: SgBoxIterator_type, getElement"]}
{"id": "C135", "title": "Missing values in conservative regridding", "statement": "A missing value (NaN) or an infinite value of a source cell affects the destination cells that have an area in common with the source cell, and no others: a destination cell gets NaN when a part of it is covered by a source cell whose value is NaN, and a destination cell whose overlapping source cells all have finite values gets the sum of covered fraction times value. In particular regridding data with missing values from a grid to the same grid leaves the data as they are.", "quantifier": "all pairs of grids of any size with cells clear of the tolerances, all data with any pattern of NaN and infinities; for the first statement all sequences of calls and all tables", "why_tests_cant": "The pattern of missing values is arbitrary, and which cells are listed with weight zero depends on the coincidence of corners in grids of any size.", "anchors": ["cpp/SgConserveInterp2D.h: computeWeights, apply", "cpp/SgQuadIntersect.h: addPoint"]}
{"id": "C136", "title": "Missing values in nodal interpolation", "statement": "A missing value (NaN) or an infinite value of a source node affects the destination nodes for which the source node has a non-zero weight, and no others. In particular interpolating data with missing values from a grid to the same grid leaves the data as they are.", "quantifier": "all source grids of any size that are invertible affine images of their indices, all destination grids, all data with any pattern of NaN and infinities", "why_tests_cant": "The pattern of missing values and the places of the destination nodes in the cells are arbitrary.", "anchors": ["cpp/SgNodeInterp2D.h: computeWeights, apply", "cpp/SgFindPointInCell.h: getSrcIndicesAndWeights"]}
{"id": "C137", "title": "Missing coordinates in nodal interpolation", "statement": "A destination node with a coordinate that is NaN or infinite gets no weights, its value is left alone by apply, there is no undefined behaviour, and the other destination nodes are not affected by what the missing coordinates are. A source node with NaN coordinates only affects destination nodes in the cells that have it as a corner.", "quantifier": "all source and destination grids of any size with any pattern of missing coordinates, all solvers that keep the sizes of their arguments, all data", "why_tests_cant": "The pattern of missing coordinates is arbitrary, and their effect goes through the bounding box and the path of every search.", "anchors": ["cpp/SgFindPointInCell.h: setGrid, next", "cpp/SgNodeInterp2D.h: computeWeights, findTarget, apply"]}
{"id": "C138", "title": "Missing coordinates in conservative regridding", "statement": "A destination cell with a corner of which a coordinate is NaN gets no weights and its value is left alone by apply; a source cell with such a corner gives no weight to any destination cell, so that no finite value is made from part of a cell.", "quantifier": "all source and destination grids of any size with any pattern of missing coordinates, all solvers, all sorts, all data", "why_tests_cant": "The pattern of missing coordinates is arbitrary, and their effect depends on which corner of a cell is missing and on the order of points that compare as equal.", "anchors": ["cpp/SgQuadIntersect.h: checkIfBoxesOverlap", "cpp/SgTriangulate.h: removeDegenerateSegments, getConvexHullArea", "cpp/SgConserveInterp2D.h: computeWeights, apply"]}
{"id": "C139", "title": "No use of uninitialised memory by the intersection classes", "statement": "The objects that intersect two quadrilaterals, or a quadrilateral and a segment, are constructed with arrays that hold whatever is in memory. No sequence of calls reads an entry of them before it has written it: the answers are a function of the arguments and of the arrays of the caller alone, and a call has undefined behaviour only if numbers of the caller that it needs are not there.", "quantifier": "all histories of calls, all changes the caller makes to its arrays in between, all initial contents of the arrays of the object, all solvers that keep the sizes of their arguments, every arithmetic", "why_tests_cant": "Contents of uninitialised memory vary from run to run, and which entries are read before they are written depends on the whole history.", "anchors": ["cpp/SgQuadIntersect.h: checkIfPointIsInsideTriangle, collectEdgeToEdgeIntersectionPoints, collectIntersectPoints", "cpp/SgQuadLineIntersect.h: checkIfPointIsInsideTriangle, collectEdgeToLineIntersectionPoints, collectIntersectPoints"]}
{"id": "C140", "title": "Missing values in flow interpolation", "statement": "A NaN on a source edge makes NaN exactly the flows of the segments that depend on the value of this edge; all other flows are those of exact arithmetic, and nothing else is written.", "quantifier": "all source grids of any size with convex cells, all lines, all patterns of missing values on the edges, all solvers that solve and all sorts that sort", "why_tests_cant": "Which edges a segment uses depends on all coordinates, and the pattern of missing values is arbitrary.", "anchors": ["cpp/SgFlowInterp2D.h: computeWeights, apply", "cpp/SgQuadLineIntersect.h: collectIntersectPoints", "cpp/SgQuadLineFlows.h: computeProjections"]}
{"id": "C141", "title": "The flow of a segment depends on the segment only", "statement": "The flow computed for a segment depends on its two nodes (as stored), the source grid and the data, and not on the other segments of the line, their number or their order.", "quantifier": "all source grids of any size with convex cells, all edge data, all pairs of lines of any lengths with a segment in common at any places, all solvers that solve and all sorts that sort", "why_tests_cant": "One object is used for all segments and cells in turn and remembers things between them; the lines, grids and the place of the segment are arbitrary.", "anchors": ["cpp/SgFlowInterp2D.h: computeWeights", "cpp/SgQuadLineFlows.h: setQuadPoints, computeProjections", "cpp/SgFindPointInCell.h: setGrid, next"]}
{"id": "C142", "title": "The flow does not depend on the coordinate system or the numbering of the nodes", "statement": "Mapping the source grid and the target line together by an invertible affine map (shift, rotation, reflection, shear, change of units) leaves every flow as it is; so does exchanging the two index axes of the grid together with the two arrays of edge data, and counting an axis from its other end with the data along it negated.", "quantifier": "all source grids of any size with parallelogram cells, all edge data, all lines of any length, all invertible affine maps, all solvers that solve and all sorts that sort", "why_tests_cant": "Grids, lines, data and maps are arbitrary; the code collects the points of a segment in an order that depends on the numbering and compares with tolerances of which one is relative and one absolute.", "anchors": ["cpp/SgFlowInterp2D.h: computeWeights, apply", "cpp/SgQuadLineIntersect.h: collectIntersectPoints", "cpp/SgQuadLineFlows.h: setQuadPoints, computeProjections", "cpp/SgFindPointInCell.h: next"]}
{"id": "C143", "title": "Circulation of closed lines", "statement": "The total flow of a closed line (as stored) is the sum over the cells of the circulation of the edge data round the cell times the share of the cell that the line encloses, with sign. So for edge data whose circulation round every cell is zero the total flow of a line depends only on its first and last node as stored. The segments are to be clear of the tolerance and not along a grid line inside the grid.", "quantifier": "all sheared product grids of any size, or all grids of parallelogram cells for lines inside one cell; all edge data, all lines of any length, all solvers that solve and all sorts that sort", "why_tests_cant": "Grids, data and lines with any number of nodes are arbitrary; a test compares the total for one loop.", "anchors": ["cpp/SgFlowInterp2D.h: setDstGrid, computeWeights, apply", "cpp/SgQuadLineIntersect.h: collectIntersectPoints", "cpp/SgQuadLineFlows.h: setQuadPoints, computeProjections"]}
{"id": "C144", "title": "Conservative regridding of cells cut into parts", "statement": "If the destination cells are cut into parts, the amount (area times value) in each cell is the sum of the amounts in its parts. If the source cells are cut into parts that keep the value of their cell, the result does not change; regridding to such parts gives each part the value of its cell, so regridding in two steps through them gives what regridding in one step gives. (Convex cells, exact arithmetic, tolerance clean, result arrays that held 0.)", "quantifier": "all grids of any size of convex cells and all ways to cut their cells into cells of another grid, all data, all solvers that solve and all sorts that sort", "why_tests_cant": "Grids, cuts and data are arbitrary; the points of intersection, their triangulation and the order of summation are different for a cell and its parts.", "anchors": ["cpp/SgConserveInterp2D.h: setSrcGrid, setDstGrid, computeWeights, apply", "cpp/SgQuadIntersect.h: collectIntersectPoints", "cpp/SgTriangulate.h: getConvexHullArea"]}
{"id": "C145", "title": "Flows on a source grid cut into parts", "statement": "If the cells of a second source grid are parts, with parallel sides, of the cells of the first, and its edge data are the integrals, along its edges, of the field that the data of the first define, then every segment has the same flow on both grids. (Parallelogram cells, exact arithmetic, segments that meet cells of both grids clear of the tolerance and do not run along an edge between parts.)", "quantifier": "all source grids of any size with parallelogram cells, all ways to cut them, all edge data, all lines of any length, all solvers that solve and all sorts that sort", "why_tests_cant": "Grids, cuts, data and lines are arbitrary; a segment is collected in a different number of pieces on the two grids.", "anchors": ["cpp/SgFlowInterp2D.h: setSrcGrid, computeWeights, apply", "cpp/SgQuadLineIntersect.h: collectIntersectPoints", "cpp/SgQuadLineFlows.h: computeProjections"]}
{"id": "C146", "title": "Nodal interpolation over a finer grid", "statement": "If a regular source grid (an invertible affine image of its indices) is refined by cutting each cell into p times q equal parts, interpolating nodal data to the refined grid and from there to a third grid gives every node of the third grid inside the source grid the same value as interpolating to it directly; interpolating to the refined grid and back gives exactly the data that were there.", "quantifier": "every regular source grid, every p and q, every third grid, all data, every linear solver that meets its contract", "why_tests_cant": "all grids, refinements, targets and data", "anchors": ["cpp/SgNodeInterp2D.h:computeWeights", "cpp/SgNodeInterp2D.h:apply", "cpp/SgFindPointInCell.h:getSrcIndicesAndWeights"]}
{"id": "C147", "title": "The origin of the coordinates does not matter to the search and to nodal interpolation", "statement": "Moving a grid and the target by the same vector leaves a search in index space as it is: same return code, same indices, same error history, and the position reported is moved by the vector. Moving the source grid and the destination grid of a nodal interpolation by the same vector leaves the weights, and so the result for any data, as they are.", "quantifier": "every grid of any shape (search: any number of axes; interpolation: two axes), every target or destination grid, every periodicity, tolerance and number of iterations, every vector, every linear solver that keeps the sizes of its arrays", "why_tests_cant": "all grids, targets, vectors and solvers", "anchors": ["cpp/SgFindPointInCell.h:next", "cpp/SgFindPointInCell.h:setGrid", "cpp/SgFindPointInCell.h:computeJacobianAndRHS", "cpp/SgNodeInterp2D.h:computeWeights", "cpp/SgNodeInterp2D.h:apply"]}
{"id": "C148", "title": "The origin of the coordinates does not matter to conservative and flow interpolation", "statement": "Moving the source grid and the destination grid (or line) by the same vector leaves the weights of conservative interpolation and the results for any data as they are, and the flows written for any numbers on the edges as well; if the calls fail, they fail in the same way. This holds for all grids: also where cells are not convex, overlap each other, have no area, or have nodes closer than the tolerances.", "quantifier": "every pair of grids, every grid and line, every vector, every sequence of calls of the flow interpolator, every data; every linear solver (for flows: one that keeps the sizes of its arrays), every sort that goes by the answers of its functor", "why_tests_cant": "all grids, vectors, solvers and histories", "anchors": ["cpp/SgConserveInterp2D.h:computeWeights", "cpp/SgQuadIntersect.h:collectIntersectPoints", "cpp/SgTriangulate.h", "cpp/SgFlowInterp2D.h:computeWeights", "cpp/SgQuadLineIntersect.h:collectIntersectPoints", "cpp/SgQuadLineFlows.h:computeProjections"]}
{"id": "C149", "title": "The origin of the coordinates does not matter to the candidate cells of a polygon", "statement": "Moving the grid and the polygon by the same vector leaves the list of candidate cells as it is, after any sequence of polygons and searches.", "quantifier": "every grid, vector and sequence of calls; every linear solver that keeps the sizes of its arrays", "why_tests_cant": "all grids, vectors, solvers and histories", "anchors": ["cpp/SgFindOverlappingCells2D.h:findFloatIndexBoxOfPolygon", "cpp/SgFindOverlappingCells2D.h:findSrcCellIndices", "cpp/SgFindPointInCell.h:getSrcIndicesAndWeights"]}
{"id": "C150", "title": "Units and origin of the coordinates do not matter to the tree of points", "statement": "With all points given in other units, each axis in its own, and from another origin, every point has the same key at every level, and the box reported for a key is the same box expressed in the new coordinates.", "quantifier": "every set of points in any number of dimensions, every number of levels, every choice of units and origin, every queried point and key", "why_tests_cant": "all point sets, dimensions, units and keys", "anchors": ["cpp/SgOctreePoints.h:SgOctreePoints_type", "cpp/SgOctreePoints.h:getKey", "cpp/SgOctreePoints.h:computeLoHi", "cpp/SgOctreePoints.h:getLo", "cpp/SgOctreePoints.h:getHi"]}
{"id": "C151", "title": "What interpolation weights sum to at positions outside of the grid", "statement": "At any position, in the grid or not, getSrcIndicesAndWeights returns 2^ndims distinct nodes of the grid whose weights sum to the product over the axes of one minus twice the distance of the index from the range of the axis. A constant field is thus reproduced at positions in the grid and not at positions slightly outside.", "quantifier": "every number of axes, shape and position that rounds to an int", "why_tests_cant": "all dimensions, shapes and positions", "anchors": ["cpp/SgFindPointInCell.h:getSrcIndicesAndWeights", "cpp/SgFindPointInCell.h:interp"]}
{"id": "C152", "title": "Candidate cells of a polygon in rounded arithmetic", "statement": "In every floating point arithmetic whose rounding keeps the order and the integers up to 2^31, whatever numbers the linear solver returns, and after any earlier use on this grid: for every polygon with at least one vertex, inside the grid or not, findSrcCellIndices has no undefined behaviour and reports, without repetition, the cells of an index box, all of them cells of the grid. If the relative rounding error is at most 2^-40 and along each axis some vertex is placed below the upper boundary, the cell of the place found for a vertex is reported.", "quantifier": "every rounding, linear solver, grid of at least 2x2 nodes whose number fits in an int, coordinates, periodicity, history of calls and polygon", "why_tests_cant": "all roundings, solver results, grids, histories and polygons", "anchors": ["cpp/SgFindOverlappingCells2D.h:findSrcCellIndices", "cpp/SgFindOverlappingCells2D.h:findFloatIndexBoxOfPolygon", "cpp/SgFindPointInCell.h:next"]}
{"id": "C153", "title": "Candidate cells depend on the set of vertices and grow with it", "statement": "On a grid and after any calls: if every vertex of a polygon is also a vertex of another polygon, the candidate cells of the first are among those of the second. Hence the order of the vertices, the choice of the first one and repetitions do not matter. This also holds in rounded arithmetic with any linear solver.", "quantifier": "every grid of at least 2x2 nodes whose number fits in an int, coordinates, periodicity, history of calls, pair of polygons, linear solver, and rounding that keeps the order and the integers up to 2^31", "why_tests_cant": "all grids, histories and pairs of polygons", "anchors": ["cpp/SgFindOverlappingCells2D.h:findSrcCellIndices", "cpp/SgFindOverlappingCells2D.h:findFloatIndexBoxOfPolygon", "cpp/SgFindOverlappingCells2D.h:setPolygonPoints"]}
{"id": "C154", "title": "The index search in rounded arithmetic", "statement": "In every floating point arithmetic whose rounding keeps the order and small integers, whatever numbers the linear solver returns, and after any number of searches started in the grid: next and getError have no undefined behaviour. If the relative rounding error is u, getError is within a factor (1\u00b1u)^(n+4) of the distance between the exact place of the indices and the target, up to sqrt(n)((1+u)^(2^n+1+3n)-1) times the largest coordinate. So code 1 (found) means that this distance is below the tolerance up to that error, and code 0 (continue) that it is not; in double precision and two dimensions the error is at most 2e-15 times the tolerance plus the largest coordinate. Code -3 (outside) means that along some axis the target is below all nodes or above all nodes.", "quantifier": "every rounding, linear solver, number of dimensions, grid, coordinates, periodicity, tolerance, target and history of searches", "why_tests_cant": "all roundings, solver results, grids, targets and histories", "anchors": ["cpp/SgFindPointInCell.h:next", "cpp/SgFindPointInCell.h:getError", "cpp/SgFindPointInCell.h:getPosition"]}
{"id": "C155", "title": "Accuracy of nodal interpolation in rounded arithmetic", "statement": "In double precision, for any two grids: if the source values are within \u03b4 of a linear field b0 + b.x and at most \u03a6 in size, computeWeights followed by apply gives at every destination node that has weights the value of the field up to |b| times the position tolerance, \u03b4, and rounding errors of 2e-15 times (|b|(tolerance + largest coordinate) + \u03a6); for a smooth field with slope L and second order remainder B the error is at most L T + B (h + T)^2 + \u03b4 plus rounding, T being the tolerance with its rounding errors and h the size of the source cells. The same holds for any arithmetic with relative rounding error u, with the error as a function of u.", "quantifier": "every rounding of relative error u < 1 that keeps order and integers, linear solver, pair of grids, field and source values", "why_tests_cant": "all grids, fields, solver results and roundings", "anchors": ["cpp/SgNodeInterp2D.h:computeWeights", "cpp/SgNodeInterp2D.h:apply", "cpp/SgFindPointInCell.h:next"]}
{"id": "C156", "title": "Accuracy of conservative interpolation in rounded arithmetic", "statement": "In rounded arithmetic, for source data that are within \u03b7 of the mean values of a density over the source cells: the amount conservative interpolation puts into a destination cell that meets the source grid (value times area) differs from the integral of the density over the covered part by at most (\u03b4 + \u03b7) times the area of that part plus the rounding error of a value times the area of the cell, \u03b4 being the variation of the density over a source cell; in a covered cell the value differs from the density at any of its points by at most \u03b4 + \u03b7 plus the variation over the destination cell and the rounding error; over grids of the same region the amounts add up to the integral of the density up to \u03b7 times the area and the rounding errors.", "quantifier": "every pair of grids of safe cells, density, source data, sort, backward stable solver and rounding", "why_tests_cant": "all grids, densities, solver results and roundings", "anchors": ["cpp/SgConserveInterp2D.h:computeWeights", "cpp/SgConserveInterp2D.h:apply"]}
{"id": "C157", "title": "Searches on regular grids succeed in rounded arithmetic", "statement": "In double precision, on a source grid of up to 1000 by 1000 nodes with straight equidistant lines (any directions, not too slanted, coordinates rounded), with a tolerance of at least 1e-10 times the distance of nodes and three iterations allowed: a search for any point of the grid, from any start in the grid and after any earlier searches, ends with code 1 after one or two calls of next; computeWeights gives weights to every destination node that lies in the source grid, and apply gives there the values of linear fields up to the tolerance and rounding. The same holds for any arithmetic of unit roundoff u and backward stable solver that are fine enough for the grid, with the error of the found indices as a function of u.", "quantifier": "every regular grid, start, target in the grid, destination grid, history of searches, rounding of relative error u and backward stable solver", "why_tests_cant": "all grids, starts, targets, solvers and roundings; a destination node left without weights is silent", "anchors": ["cpp/SgFindPointInCell.h:next", "cpp/SgFindPointInCell.h:computeJacobianAndRHS", "cpp/SgNodeInterp2D.h:computeWeights"]}
{"id": "C158", "title": "Destination nodes away from the source grid, in rounded arithmetic", "statement": "In double precision, for any two grids: a destination node that some straight line separates from all nodes of the source grid, by more than the tolerance and 2e-15 times the tolerance and the largest coordinate, gets no weights from computeWeights, and apply leaves the caller's value of that node as it was. The same holds in any arithmetic with roundings of relative error u < 1, with a margin that is a function of u.", "quantifier": "every source and destination grid, tolerance, iteration limit, solver, field and rounding", "why_tests_cant": "all grids, solvers and roundings; a value made up for a node outside the source grid looks like any other", "anchors": ["cpp/SgNodeInterp2D.h:computeWeights", "cpp/SgNodeInterp2D.h:apply", "cpp/SgFindPointInCell.h:next"]}
{"id": "C159", "title": "Segments beside cells of the source grid, in rounded arithmetic", "statement": "In double precision, for any source grid, line and solver: computing flows ends without an error; a segment (as stored) that lies beside every cell of the source grid (to the right or left of it, above or below) gets no flow, and the caller's value stays as it was; the flow of any segment depends on the numbers on the edges of those cells only that the segment does not lie beside, to the last bit. The same holds in any arithmetic with roundings of relative error at most 1e-14.", "quantifier": "every grid (also with cells that are not convex or have no area), line, edge data, solver, sort and rounding", "why_tests_cant": "all grids, lines, solvers and roundings; influence of a far away cell would show in few cases", "anchors": ["cpp/SgFlowInterp2D.h:computeWeights", "cpp/SgFlowInterp2D.h:apply", "cpp/SgQuadLineIntersect.h:checkIfOverlap"]}
{"id": "C160", "title": "Conservative interpolation only looks at source cells nearby, in rounded arithmetic", "statement": "However operations round: once the weights are computed, a destination cell whose box lies strictly apart from the boxes of all source cells has no weight, and apply leaves the caller's value there; the value of any destination cell depends on the data of those source cells only whose boxes are not apart from its own, to the last bit.", "quantifier": "every pair of grids (also with cells that are not convex or have no area), data, solver, sort and rounding", "why_tests_cant": "all grids, data and roundings; influence of a far away cell would show in few cases", "anchors": ["cpp/SgConserveInterp2D.h:computeWeights", "cpp/SgConserveInterp2D.h:apply", "cpp/SgQuadIntersect.h:checkIfBoxesOverlap"]}
{"id": "C161", "title": "Units of the data", "statement": "In binary arithmetic with any number of digits (53: double precision), for any state of the interpolator and any arrays: data in units that differ by a power of two give the same values in these units, to the last bit, and the call goes wrong in the one case if and only if it does in the other, in the same way. This is so for nodal, conservative and flow interpolation, and for the value at a position, in any number of dimensions.", "quantifier": "every state of the objects, all data arrays (of any lengths), every power of two, every number of digits", "why_tests_cant": "all states, data, units and precisions", "anchors": ["cpp/SgNodeInterp2D.h:apply", "cpp/SgConserveInterp2D.h:apply", "cpp/SgFlowInterp2D.h:apply", "cpp/SgFindPointInCell.h:interp"]}
{"id": "C162", "title": "Larger data give larger values in nodal interpolation, in rounded arithmetic", "statement": "In double precision (and in any arithmetic whose rounding keeps the order and leaves alone -1 and the integers up to 2^31): for any source grid, destination nodes and linear solver, data that are nowhere smaller give interpolated values that are nowhere smaller, to the last bit. In any number of dimensions, the value at a position inside of the grid does not get smaller when the data at the corners of its cell do not.", "quantifier": "every grid, destination, solver, data and position inside of the grid, every rounding of this kind", "why_tests_cant": "all grids, data, positions and roundings: a weight that is negative by a rounding error would show for few positions", "anchors": ["cpp/SgNodeInterp2D.h:apply", "cpp/SgFindPointInCell.h:getSrcIndicesAndWeights", "cpp/SgFindPointInCell.h:interp"]}
{"id": "C163", "title": "Signs of the data", "statement": "In any rounded arithmetic that treats both signs alike, as rounding to the nearest number with halves to the even neighbour does: for any state of the interpolator and any arrays, data with opposite signs give the opposite values, to the last bit, and the call goes wrong in the one case if and only if it does in the other, in the same way. This is so for nodal, conservative and flow interpolation.", "quantifier": "every state of the objects, all data arrays (of any lengths), every rounding of this kind", "why_tests_cant": "all states, data and roundings", "anchors": ["cpp/SgNodeInterp2D.h:apply", "cpp/SgConserveInterp2D.h:apply", "cpp/SgFlowInterp2D.h:apply"]}
{"id": "C164", "title": "Rounding as processors do it: halves to even", "statement": "What is said about double precision also holds when halves are rounded to the even neighbour: nodal interpolation of linear fields is accurate up to the tolerance and rounding (as C155), nodes away from the source grid keep the caller's values (as C158), searches on regular grids succeed (as C157), larger data give larger values (as C162), weights of conservative interpolation are accurate (as C111), and so are flows (as C116). The rounding meant gives a number with the digits available to which none is nearer.", "quantifier": "as the properties named", "why_tests_cant": "as the properties named; for all roundings of intermediate results", "anchors": ["cpp/SgNodeInterp2D.h:computeWeights", "cpp/SgNodeInterp2D.h:apply", "cpp/SgConserveInterp2D.h:computeWeights", "cpp/SgFlowInterp2D.h:computeWeights", "cpp/SgFlowInterp2D.h:apply"]}
