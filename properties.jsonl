{"id": "C01", "title": "Resizing one cell's list touches only that cell", "statement": "Each per-cell `Initialize...(cell, n)` call of the mesh store (Cell2DInitializeVertices, Cell0DInitializeNeighbourCell1Ds, ...) leaves the list of every other cell exactly as it was; the resized cell keeps its first min(old, n) entries and any added entries carry the default value.", "quantifier": "all offset/element storages, all cells, all old and new sizes, all contents", "why_tests_cant": "A test checks a handful of sizes; an off-by-one in the shift of later offsets or in the rotate/erase range shows only for particular positions of the cell relative to later non-empty rows.", "anchors": ["GeDiM/src/Mesh/MeshMatricesDAO.cpp: ResizeNumberVectorWithNewNumberElements", "GeDiM/src/Mesh/MeshMatricesDAO.cpp: Cell2DInitializeVertices", "GeDiM/src/Mesh/MeshMatricesDAO.cpp: Cell0DInitializeNeighbourCell1Ds"]}
{"id": "C02", "title": "List storage stays well formed under every call sequence", "statement": "After any sequence of store calls the number vector of every per-cell list starts at 0, never decreases, has one entry more than there are cells, and its last entry is the length of the element vector, so no in-range getter reads outside the element vector.", "quantifier": "all finite sequences of Initialize/Append/Remove/per-cell-resize/insert calls from an empty mesh", "why_tests_cant": "The property is an invariant of unbounded histories; a test runs finitely many of them.", "anchors": ["GeDiM/src/Mesh/MeshMatricesDAO.cpp: Cell0DsInitialize", "GeDiM/src/Mesh/MeshMatricesDAO.cpp: Cell2DAppend", "GeDiM/src/Mesh/MeshMatricesDAO.cpp: Cell2DRemove", "GeDiM/src/Mesh/MeshMatricesDAO.cpp: ResizeNumberVectorWithNewNumberElements"]}
{"id": "C03", "title": "Removing a cell removes that cell and nothing else", "statement": "After CellXDRemove(i) the mesh has one cell fewer and, for every j, what the getters report for new cell j (coordinates, extremes, marker, state, vertex/edge/neighbour lists, properties) is what they reported for old cell j (j < i) or j+1 (j >= i), up to the renumbering of references to X-dimensional cells.", "quantifier": "all well-formed meshes, all dimensions X, all removed indices i and all remaining cells", "why_tests_cant": "The renumbering runs over about a dozen parallel arrays with two storage layouts; tests inspect small meshes and few arrays.", "anchors": ["GeDiM/src/Mesh/MeshMatricesDAO.cpp: Cell0DRemove", "GeDiM/src/Mesh/MeshMatricesDAO.cpp: Cell1DRemove", "GeDiM/src/Mesh/MeshMatricesDAO.cpp: Cell2DRemove", "GeDiM/src/Mesh/MeshMatricesDAO.cpp: Cell3DRemove"]}
{"id": "C04", "title": "References to surviving cells follow them through a removal", "statement": "After CellXDRemove(i) every stored reference (extreme, vertex, edge, face, neighbour, original cell, sub-division vertex) to an existing X-cell j != i denotes the same physical cell (j or j-1), and every reference that pointed at i is reported as absent (outside the index range).", "quantifier": "all well-formed meshes, all removed indices, every stored reference", "why_tests_cant": "Requires looking at every reference holder for every removal; any forgotten array is silent until that array is used.", "anchors": ["GeDiM/src/Mesh/MeshMatricesDAO.cpp: AlignContainerHigherElements", "GeDiM/src/Mesh/MeshMatricesDAO.cpp: Cell0DRemove", "GeDiM/src/Mesh/MeshMatricesDAO.cpp: Cell2DRemove", "GeDiM/src/Mesh/MeshMatricesDAO.cpp: Cell2DSubDivision"]}
{"id": "C05", "title": "A reference to a removed cell never denotes another cell later", "statement": "Once CellXDRemove has invalidated a reference, later CellXDAppend calls do not make that reference denote one of the appended cells.", "quantifier": "all meshes, all removals followed by any number of appends", "why_tests_cant": "Needs an interleaving of removal and append with a dangling reference left in place; ordinary tests repair or never look at it.", "anchors": ["GeDiM/src/Mesh/MeshMatricesDAO.cpp: Cell0DRemove", "GeDiM/src/Mesh/MeshMatricesDAO.cpp: Cell0DAppend", "GeDiM/src/Mesh/MeshMatricesDAO.cpp: AlignContainerHigherElements"]}
{"id": "C06", "title": "Append leaves existing cells alone and adds blank cells", "statement": "CellXDAppend(n) returns the old number of cells, every getter on an old cell answers as before, and each new cell is inactive, has marker 0, no neighbours, no vertices/edges and no original cell.", "quantifier": "all well-formed meshes, all n (including 0), all getters", "why_tests_cant": "std::vector::resize over a dozen arrays; a wrong default or a missing array appears only when that array is read later.", "anchors": ["GeDiM/src/Mesh/MeshMatricesDAO.cpp: Cell0DAppend", "GeDiM/src/Mesh/MeshMatricesDAO.cpp: Cell1DAppend", "GeDiM/src/Mesh/MeshMatricesDAO.cpp: Cell2DAppend", "GeDiM/src/Mesh/MeshMatricesDAO.cpp: Cell3DAppend"]}
{"id": "C07", "title": "UpdatedCells returns exactly the leaves of the refinement forest", "statement": "CellXDUpdatedCellXDs(c) terminates and appends exactly the final descendants of c (cells without updated cells reachable through updated-cell links); it reports 'no updated cells' exactly when c itself has none.", "quantifier": "all update relations in which updated cells have larger indices than the cell they replace (the way every caller builds them), all cells", "why_tests_cant": "Refinement histories are unbounded in depth and branching.", "anchors": ["GeDiM/src/Mesh/MeshMatricesDAO.cpp: Cell2DUpdatedCell2Ds", "GeDiM/src/Mesh/MeshMatricesDAO.cpp: Cell2DHasUpdatedCell2Ds", "GeDiM/src/Mesh/MeshMatricesDAO.cpp: Cell2DInsertUpdatedCell2D"]}
{"id": "C08", "title": "Original-cell links and updated-cell links agree", "statement": "Through any sequence of insert-updated calls and appends, whenever a cell reports an original cell p, that cell is among the updated cells of p; consequently MeshCell2DRoots ends at a cell without original.", "quantifier": "all sequences of appends and insert-updated calls with the new cell index larger than the old one", "why_tests_cant": "Invariant over unbounded histories.", "anchors": ["GeDiM/src/Mesh/MeshMatricesDAO.cpp: Cell2DInsertUpdatedCell2D", "GeDiM/src/Mesh/MeshMatricesDAO.cpp: Cell2DOriginalCell2D", "GeDiM/src/Mesh/MeshUtilities2D.cpp: MeshCell2DRoots"]}
{"id": "C09", "title": "Double properties behave as an independent array per (property, cell)", "statement": "After CellXDInsertDoublePropertyValue(c, p, k, v), reading (c, p, k) returns v and every other (cell, property, slot) reads as before; initialising values of one cell keeps the values of all others.", "quantifier": "all property sets, all sizes, all cells and slots in range", "why_tests_cant": "All values of a property live in one flat array addressed by offsets; aliasing shows only for specific size combinations.", "anchors": ["GeDiM/src/Mesh/MeshMatricesDAO.cpp: Cell0DInsertDoublePropertyValue", "GeDiM/src/Mesh/MeshMatricesDAO.cpp: Cell0DInitializeDoublePropertyValues", "GeDiM/src/Mesh/MeshMatricesDAO.cpp: Cell0DDoublePropertyValue"]}
{"id": "C10", "title": "ExtractActiveMesh keeps exactly the active cells, in order, with inverse index maps", "statement": "ExtractActiveMesh leaves exactly the active cells of every dimension in their original order; NewToOld and OldToNew are mutually inverse on them, OldToNew is defined on no inactive cell, and references between active cells denote the same cells as before through these maps.", "quantifier": "all well-formed meshes and all activity patterns", "why_tests_cant": "The loop removes cells one by one while renumbering the whole mesh each time; correctness for every activity pattern is an induction.", "anchors": ["GeDiM/src/Mesh/MeshUtilities.cpp: ExtractActiveMesh", "GeDiM/src/Mesh/MeshMatricesDAO.cpp: Cell0DRemove"]}
{"id": "C11", "title": "Find queries return the first match, or the count when there is none", "statement": "Cell2DFindVertex/Cell2DFindEdge/Cell2DFindEdgeByExtremes/Cell1DByExtremes return a position p smaller than the number of entries iff the searched item is stored at p and at no smaller position; otherwise they return the number of entries.", "quantifier": "all meshes, cells and searched items", "why_tests_cant": "Callers use the result as an index after comparing with the count; the equivalence has to hold for all lists, including those with repetitions.", "anchors": ["GeDiM/src/Mesh/MeshMatricesDAO.cpp: Cell2DFindVertex", "GeDiM/src/Mesh/MeshMatricesDAO.cpp: Cell2DFindEdge", "GeDiM/src/Mesh/MeshMatricesDAO.cpp: Cell2DFindEdgeByExtremes", "GeDiM/src/Mesh/MeshMatricesDAO.cpp: Cell1DByExtremes"]}
{"id": "C12", "title": "Resetting a neighbour slot makes it absent and touches nothing else", "statement": "After ResetNeighbour(cell, slot) the slot reports no neighbour whatever the number of cells, every other slot of every cell is unchanged, and a later removal of any cell does not make the slot report a neighbour.", "quantifier": "all well-formed storages with fewer than 2^32-1 cells, all slots in range, all later removals", "why_tests_cant": "Absence is encoded by a sentinel number that the renumbering code also decrements; whether it ever becomes a valid index depends on the whole history.", "anchors": ["GeDiM/src/Mesh/MeshMatricesDAO.cpp: Cell0DResetNeighbourCell1D", "GeDiM/src/Mesh/IMeshDAO.hpp: Cell0DHasNeighbourCell1D", "GeDiM/src/Mesh/MeshMatricesDAO.cpp: AlignContainerHigherElements"]}
{"id": "C13", "title": "Depth-first search visits exactly the reachable part, once", "statement": "DepthFirstSearch(v) started with nothing visited terminates and appends exactly the vertices reachable from v, each once, and marks exactly those; started with a visited set it appends exactly the vertices reachable by paths avoiding that set.", "quantifier": "all directed graphs whose adjacency entries are vertices, all start vertices, all visited sets", "why_tests_cant": "Reachability ranges over paths of every length.", "anchors": ["GeDiM/src/MpiTools/GraphUtilities.cpp: DepthFirstSearch"]}
{"id": "C14", "title": "Breadth-first search visits exactly the reachable part, by distance", "statement": "BreadthFirstSearch(v) terminates and returns exactly the vertices reachable from v, each once, ordered by non-decreasing number of hops from v.", "quantifier": "all directed graphs whose adjacency entries are vertices, all start vertices", "why_tests_cant": "Order and completeness over all graphs cannot be sampled.", "anchors": ["GeDiM/src/MpiTools/GraphUtilities.cpp: BreadthFirstSearch"]}
{"id": "C15", "title": "Adjacency transpose reverses every edge with its multiplicity", "statement": "ComputeAdjacencyTranspose(G) has the same vertices and contains v -> u as many times as G contains u -> v; transposing twice gives back the same multigraph.", "quantifier": "all directed multigraphs with in-range entries", "why_tests_cant": "Multiplicities and self loops are rarely exercised.", "anchors": ["GeDiM/src/MpiTools/GraphUtilities.cpp: ComputeAdjacencyTranspose"]}
{"id": "C16", "title": "Strongly connected components are computed correctly", "statement": "ComputeStronglyConnectedComponents returns a partition of the vertices in which two vertices are in the same class iff each is reachable from the other.", "quantifier": "all directed graphs with in-range entries", "why_tests_cant": "Correctness of the two-pass algorithm is a statement about finishing orders in all graphs.", "anchors": ["GeDiM/src/MpiTools/GraphUtilities.cpp: ComputeStronglyConnectedComponents", "GeDiM/src/MpiTools/GraphUtilities.cpp: FillOrder"]}
{"id": "C17", "title": "ExtractSubGraph yields the induced subgraph", "statement": "For an injective numbering f of a vertex subset onto 0..k-1, ExtractSubGraph(G, f) has the edge f(u) -> f(w) as often as G has u -> w for kept u, w, and nothing else.", "quantifier": "all graphs, all bijective filters", "why_tests_cant": "The iteration order of an unordered_map is unspecified, so the result must be right for every order.", "anchors": ["GeDiM/src/MpiTools/GraphUtilities.cpp: ExtractSubGraph"]}
{"id": "C18", "title": "Edge list and adjacency list convert back and forth", "statement": "GraphConnectivityToGraphAdjacency (directed) followed by GraphAdjacencyToGraphConnectivity returns the same multiset of edges; the edge index stored next to each adjacent vertex identifies an edge joining the two vertices, and in the undirected case each edge is listed at both ends.", "quantifier": "all edge lists with end points in range", "why_tests_cant": "All multigraphs including parallel edges and loops.", "anchors": ["GeDiM/src/MpiTools/GraphUtilities.cpp: GraphConnectivityToGraphAdjacency", "GeDiM/src/MpiTools/GraphUtilities.cpp: GraphAdjacencyToGraphConnectivity"]}
{"id": "C19", "title": "Metis adjacency format is lossless", "statement": "MetisAdjacencyToGraphAdjacency(GraphAdjacencyToMetisAdjacency(G)) = G for every adjacency list G.", "quantifier": "all adjacency lists, including empty rows and the empty graph", "why_tests_cant": "Offsets of empty rows are the classic corner; the round trip has to hold for all.", "anchors": ["GeDiM/src/MpiTools/MetisUtilities.cpp: GraphAdjacencyToMetisAdjacency", "GeDiM/src/MpiTools/MetisUtilities.cpp: MetisAdjacencyToGraphAdjacency"]}
{"id": "C20", "title": "PartitionCheckConstraints separates every constrained pair", "statement": "In the partition returned by PartitionCheckConstraints the two ends of every constrained edge (not a self loop) carry different labels, and two vertices with equal new labels had equal old labels.", "quantifier": "all networks with matching constraint vectors, all input partitions", "why_tests_cant": "Later label changes could undo earlier ones; freedom from that is an invariant of the loop.", "anchors": ["GeDiM/src/MpiTools/MetisUtilities.cpp: PartitionCheckConstraints"]}
{"id": "C21", "title": "PartitionCheckConnectedComponents makes every part connected", "statement": "In the partition returned by PartitionCheckConnectedComponents any two vertices with the same label are connected inside that label, and vertices with equal new labels had equal old labels.", "quantifier": "all networks and all input partitions", "why_tests_cant": "Depends on SCC correctness for every induced subgraph and on labels never colliding.", "anchors": ["GeDiM/src/MpiTools/MetisUtilities.cpp: PartitionCheckConnectedComponents"]}
{"id": "C22", "title": "Partition labels are made contiguous without merging parts", "statement": "The final renumbering in NetworkPartition maps labels to a gap-free range starting at 0 (master process used) or 1 and never merges or splits parts.", "quantifier": "all label vectors within the range the partitioner may return, all numbers of parts", "why_tests_cant": "The loop runs a fixed number of iterations; sufficiency is a potential-function argument.", "anchors": ["GeDiM/src/MpiTools/MetisUtilities.cpp: NetworkPartition"]}
{"id": "C23", "title": "Printing and parsing containers round-trips", "statement": "Printing a vector (set) of unsigned values with the library's operator<< and parsing the text with StringsUtilities::Parse yields the same vector (set).", "quantifier": "all vectors and sets of values the parser accepts element-wise", "why_tests_cant": "Round trips quantify over all container contents and sizes.", "anchors": ["GeDiM/src/IO/StringsUtilities.cpp: Parse", "GeDiM/src/IO/IOStream.hpp: operator<<"]}
{"id": "C24", "title": "Split cuts at separators and loses nothing else", "statement": "StringsUtilities::Split(s, c) returns exactly the maximal separator-free pieces of s in order: joining them with c gives back s, and no piece contains c (up to the treatment of empty pieces that the implementation documents).", "quantifier": "all strings and separators", "why_tests_cant": "Corner cases (leading, trailing, doubled separators, empty input) combine arbitrarily.", "anchors": ["GeDiM/src/IO/StringsUtilities.cpp: Split"]}
{"id": "C25", "title": "1D mesh union contains exactly the points of both meshes, once, sorted", "statement": "CreateUnionMesh produces points whose coordinates are exactly the union of the two input coordinate sets (up to the 1D tolerance), strictly increasing, each labelled First, Second or Both according to which inputs contain it, with the right index into that input.", "quantifier": "all pairs of increasing coordinate lists whose points are pairwise well separated or equal", "why_tests_cant": "All interleavings of the two lists.", "anchors": ["GeDiM/src/Mesh/UnionMeshSegment.cpp: CreateUnionMesh", "GeDiM/src/Mesh/UnionMeshSegment.cpp: InsertNewIntersection"]}
{"id": "C26", "title": "1D union segments know the input segment that contains them", "statement": "Every union segment spans two consecutive union points, and the input-segment index recorded for each input mesh is the input segment that contains it (or none outside that input's range).", "quantifier": "all pairs of well separated coordinate lists", "why_tests_cant": "All interleavings of two meshes, including disjoint and nested ranges.", "anchors": ["GeDiM/src/Mesh/UnionMeshSegment.cpp: CreateUnionSegments", "GeDiM/src/Mesh/UnionMeshSegment.cpp: CreateUnionPoints"]}
{"id": "C27", "title": "Tolerance comparators are mutually exclusive and exhaustive", "statement": "For a fixed ordered pair exactly one of AreValuesEqual, IsValueGreater, IsValueLower holds, the weak versions are their unions, and comparison agrees with the exact order whenever it does not report equality.", "quantifier": "all pairs of values and all tolerances", "why_tests_cant": "Real-valued input space with three case splits.", "anchors": ["GeDiM/src/Geometry/GeometryUtilities.cpp: CompareValues", "GeDiM/src/Geometry/GeometryUtilities.hpp: IsValueGreater", "GeDiM/src/Geometry/GeometryUtilities.hpp: IsValueLower"]}
{"id": "C28", "title": "Comparison does not depend on argument order", "statement": "CompareValues(a, b, tol) reports 'first before second' iff CompareValues(b, a, tol) reports 'second before first', and equality is symmetric.", "quantifier": "all pairs of values and tolerances", "why_tests_cant": "The comparison is relative to the first argument; the asymmetric window is a thin set of inputs.", "anchors": ["GeDiM/src/Geometry/GeometryUtilities.cpp: CompareValues"]}
{"id": "C29", "title": "Point/segment and point/plane classification is right and total", "statement": "PointSegmentPosition(coordinate) returns before/origin/inside/end/after exactly according to where the curvilinear coordinate lies relative to 0 and 1 within tolerance. PointPlanePosition(distance) returns on plane exactly within tolerance, and otherwise the side given by the sign of the distance.", "quantifier": "all coordinates and tolerances below one half", "why_tests_cant": "Real-valued input; ordering of the tests matters at the borders.", "anchors": ["GeDiM/src/Geometry/GeometryUtilities_Point.cpp: PointSegmentPosition", "GeDiM/src/Geometry/GeometryUtilities_Point.cpp: PointPlanePosition"]}
{"id": "C30", "title": "Affine reference maps are invertible with the advertised inverse", "statement": "For MapTriangle, MapParallelogram, MapTetrahedron and MapParallelepiped built from a non-degenerate element, F sends reference vertices to the element vertices, FInv(F(x)) = x and F(FInv(y)) = y, and DetJ is the factor relating measures.", "quantifier": "all non-degenerate elements and all points, over any field", "why_tests_cant": "Identity over all real inputs.", "anchors": ["GeDiM/src/Geometry/MapTriangle.cpp: Compute", "GeDiM/src/Geometry/MapTetrahedron.cpp: Compute", "GeDiM/src/Geometry/MapParallelogram.cpp: Compute", "GeDiM/src/Geometry/MapParallelepiped.cpp: Compute"]}
{"id": "C31", "title": "Bilinear and trilinear maps interpolate the vertices and have the stated Jacobian", "statement": "For MapQuadrilateral and MapHexahedron the shape functions sum to 1 and are 1/0 at the reference vertices, so F maps reference vertices to element vertices, and J is the derivative of F.", "quantifier": "all vertex positions and reference points, over any field", "why_tests_cant": "Polynomial identity over all inputs.", "anchors": ["GeDiM/src/Geometry/MapQuadrilateral.cpp: Psi", "GeDiM/src/Geometry/MapQuadrilateral.cpp: dPsi", "GeDiM/src/Geometry/MapHexahedron.cpp: Psi", "GeDiM/src/Geometry/MapHexahedron.cpp: dPsi"]}
{"id": "C32", "title": "Polygon area does not depend on start vertex or position and flips with orientation", "statement": "PolygonArea is unchanged by choosing another first vertex and by translation, changes sign under ChangePolygonOrientation, and equals the sum of the areas of the triangles returned by PolygonTriangulationByFirstVertex.", "quantifier": "all polygons with at least three vertices, convex or not", "why_tests_cant": "Holds for every vertex count and position.", "anchors": ["GeDiM/src/Geometry/GeometryUtilities_Polygon.cpp: PolygonArea", "GeDiM/src/Geometry/GeometryUtilities_Polygon.cpp: PolygonTriangulationByFirstVertex", "GeDiM/src/Geometry/GeometryUtilities.hpp: ChangePolygonOrientation"]}
{"id": "C33", "title": "Polygon normal points to the side given by vertex orientation", "statement": "PolygonNormal of a counter-clockwise planar polygon points to +z, of a clockwise one to -z.", "quantifier": "all simple planar polygons", "why_tests_cant": "The formula visits a wrong 'previous' vertex for the first corner unless the vertex count divides 2^32, and sums corner products instead of areas.", "anchors": ["GeDiM/src/Geometry/GeometryUtilities_Polygon.cpp: PolygonNormal"]}
{"id": "C34", "title": "Barycentric coordinates are inverse to interpolation", "statement": "PointToBarycentricCoordinates2D followed by BarycentricCoordinatesToPoint2D is the identity for non-degenerate triangles, and the coordinates sum to one.", "quantifier": "all points and non-degenerate triangles", "why_tests_cant": "Identity over all reals.", "anchors": ["GeDiM/src/Geometry/GeometryUtilities_Point.cpp: PointToBarycentricCoordinates2D"]}
{"id": "C35", "title": "MakeConcatenation returns a maximal chain that uses each segment at most once", "statement": "The result is a list of (vertex, segment) pairs in which every segment is incident to its vertex, consecutive pairs are joined by the segment, no segment repeats, and no unused segment touches the end of the chain.", "quantifier": "all segment lists and start vertices", "why_tests_cant": "Cyclic scanning with a counter; termination and maximality hold for all inputs or not at all.", "anchors": ["GeDiM/src/Geometry/GeometryUtilities_Point.cpp: MakeConcatenation"]}
{"id": "C36", "title": "ComputeMesh2DCell1Ds numbers each undirected edge once and links polygons to it", "statement": "The returned edge list contains each undirected edge of the polygons exactly once with origin < end, and the edge id stored for side v of a polygon is the edge joining vertices v and v+1.", "quantifier": "all polygon lists without degenerate sides", "why_tests_cant": "All polygon soups; relies on sparse-matrix duplicate handling.", "anchors": ["GeDiM/src/Mesh/MeshUtilities2D.cpp: ComputeMesh2DCell1Ds"]}
{"id": "C37", "title": "CreateRectangleMesh builds a consistent grid", "statement": "Every cell side is the edge joining consecutive cell vertices, every edge joins two distinct grid points, each edge belongs to one (border) or two (interior) cells, and border markers are on exactly the border cells.", "quantifier": "all grid sizes with at least two points per direction", "why_tests_cant": "All grid sizes; index arithmetic.", "anchors": ["GeDiM/src/Mesh/MeshUtilities_MeshGenerators.cpp: CreateRectangleMesh"]}
{"id": "C38", "title": "Computed neighbour lists are exactly the incidences", "statement": "After ComputeCell0DCell1DNeighbours (Cell0DCell2D, Cell1DCell2D in 3D) the neighbour list of each cell is exactly the list of active cells having it in their boundary, in index order.", "quantifier": "all meshes with in-range references and all activity patterns", "why_tests_cant": "All meshes.", "anchors": ["GeDiM/src/Mesh/MeshUtilities2D.cpp: ComputeCell0DCell1DNeighbours", "GeDiM/src/Mesh/MeshUtilities2D.cpp: ComputeCell0DCell2DNeighbours", "GeDiM/src/Mesh/MeshUtilities2D.cpp: ComputeCell1DCell2DNeighbours"]}
{"id": "C39", "title": "Splitting a cell keeps vertex-to-cell neighbour lists complete", "statement": "After SplitCell2D(c, subs) every vertex of a sub-cell that listed c as neighbour lists each sub-cell containing that vertex, and no active neighbour entry refers to c.", "quantifier": "all meshes and all subdivisions", "why_tests_cant": "A vertex shared by several sub-cells has only one slot to be rewritten.", "anchors": ["GeDiM/src/Mesh/MeshUtilities2D.cpp: SplitCell2D"]}
{"id": "C40", "title": "FindCell2DsCommonVertices returns exactly the common vertices", "statement": "The result is the set of vertices belonging to every listed polygon.", "quantifier": "all lists of polygons, of every length", "why_tests_cant": "Lengths above three take an assertion path that tests only one candidate.", "anchors": ["GeDiM/src/Mesh/MeshUtilities2D.cpp: FindCell2DsCommonVertices"]}
{"id": "C41", "title": "Adding a cell's list stores exactly that list", "statement": "Cell2DAddVertices, Cell2DAddEdges, Cell3DAddVertices/Edges/Faces and the neighbour setters given a whole list make the cell report exactly that list, change no other cell's list and nothing else, and stop at an assertion when the list names a cell that does not exist.", "quantifier": "all well-formed meshes, cells and lists", "why_tests_cant": "The list is stored by resizing in the middle of a packed array and then overwriting; isolation must hold for all neighbours of all sizes.", "anchors": ["GeDiM/src/Mesh/MeshMatricesDAO.cpp: Cell2DAddVertices", "GeDiM/src/Mesh/MeshMatricesDAO.cpp: Cell2DAddEdges", "GeDiM/src/Mesh/MeshMatricesDAO.cpp: Cell3DAddVertices"]}
{"id": "C42", "title": "The master process gets no elements unless it is used", "statement": "NetworkPartition with MasterWeight = 0 never returns label 0, for every number of parts and whether or not METIS is available; with MasterWeight > 0 labels start at 0.", "quantifier": "all networks, all numbers of parts, all partitioner answers", "why_tests_cant": "Tests fix the number of parts and the answer of the partitioner; the claim is about all of them, including one part and the build without METIS.", "anchors": ["GeDiM/src/MpiTools/MetisUtilities.cpp: NetworkPartition"]}
{"id": "C43", "title": "The configuration store is a typed map", "statement": "After AddProperty(id, value) the property exists with that value and is readable only under its own type; SetPropertyValue with the right type replaces the value and with another type or an unknown id throws; RemoveProperty removes it; NumberProperties counts the stored ids; no call affects another id.", "quantifier": "all stores reachable by any sequence of calls, all ids, all values of the supported types", "why_tests_cant": "The store is spread over one type map and one map per type; agreement between them must hold after every sequence of calls.", "anchors": ["GeDiM/src/IO/Configurations.hpp: AddProperty", "GeDiM/src/IO/Configurations.hpp: SetPropertyValue", "GeDiM/src/IO/Configurations.cpp: RemoveProperty"]}
{"id": "C44", "title": "Configuration CSV round trip", "statement": "ExportToCsv followed by InitializeFromCsv on an empty store with the same separator gives the same properties, types, values and descriptions.", "quantifier": "all reachable stores, all separators", "why_tests_cant": "Values are arbitrary; a test tries a handful of them.", "anchors": ["GeDiM/src/IO/Configurations.cpp: ExportToCsv", "GeDiM/src/IO/Configurations.cpp: InitializeFromCsv"]}
{"id": "C45", "title": "Configuration INI round trip", "statement": "ExportToIni followed by InitializeFromIni on an empty store gives the same properties, types and values.", "quantifier": "all reachable stores, all section texts", "why_tests_cant": "Values are arbitrary; a test tries a handful of them.", "anchors": ["GeDiM/src/IO/Configurations.cpp: ExportToIni", "GeDiM/src/IO/Configurations.cpp: InitializeFromIni"]}
{"id": "C46", "title": "Property type names round trip", "statement": "The name PropertyTypeToString(t) is mapped back to t by the reverse conversion, in any letter case.", "quantifier": "all property types, all letter cases", "why_tests_cant": "The number of letter cases is exponential in the length; and the claim that no other text gives a type concerns all texts.", "anchors": ["GeDiM/src/IO/Configurations.hpp: PropertyTypeToString"]}
{"id": "C47", "title": "A failed conversion changes nothing", "statement": "When ConvertPropertyFromString throws, because the type is unknown or the text cannot be parsed, the store is as before.", "quantifier": "all reachable stores, ids, types and texts", "why_tests_cant": "All failing inputs on all stores are meant, not a sample.", "anchors": ["GeDiM/src/IO/Configurations.cpp: ConvertPropertyFromString"]}
{"id": "C48", "title": "Command line arguments are taken apart as the format says", "statement": "With the format id?type?value the argument id?type?value sets property id to the value read from the text, id?value sets a string, and other arguments leave the store unchanged.", "quantifier": "all separators, all ids, types and values without separators, empty values included", "why_tests_cant": "Separator characters and texts are arbitrary.", "anchors": ["GeDiM/src/IO/Configurations.cpp: Initialize", "GeDiM/src/IO/StringsUtilities.cpp: FindSeparator"]}
{"id": "C49", "title": "MapHexahedron carries edges of the reference cube to edges of the hexahedron", "statement": "The vertex order built by MapHexahedron::Compute makes F send every edge of the reference cube to an edge of the hexahedron, so that the map of a convex hexahedron does not fold.", "quantifier": "all hexahedra and all choices of first face", "why_tests_cant": "The vertices off the first face are numbered by increasing index, which fits only particular numberings; tests use the numbering of the library's own generator.", "anchors": ["GeDiM/src/Geometry/MapHexahedron.cpp: Compute"]}
{"id": "C50", "title": "Area in space is independent of vertex choice, position and direction", "statement": "PolygonArea3D gives the same value for every first vertex, after translation, after ChangePolygonOrientation and after rotation; on the plane z = 0 it is the absolute value of PolygonArea, and for a triangle half the length of the vector product of two sides.", "quantifier": "all vertex lists, planar or not, all translations and rotations", "why_tests_cant": "Holds for every number of vertices and every position in space.", "anchors": ["GeDiM/src/Geometry/GeometryUtilities_Polygon.cpp: PolygonArea3D"]}
{"id": "C51", "title": "Polygon centroid is the centre of mass", "statement": "PolygonCentroid called with the result of PolygonArea does not depend on the first vertex or the orientation, moves with the polygon, and is the mean of the centroids of the triangles joining any point with the edges, weighted with their signed areas.", "quantifier": "all polygons of the plane with nonzero area, convex or not, all translations, all reference points", "why_tests_cant": "Universally quantified over polygons and reference points.", "anchors": ["GeDiM/src/Geometry/GeometryUtilities_Polygon.cpp: PolygonCentroid", "GeDiM/src/Geometry/GeometryUtilities_Polygon.cpp: PolygonArea"]}
{"id": "C52", "title": "MakeConcatenation goes once around a closed loop", "statement": "If every vertex is an end of two segments or none and the segments hang together, MakeConcatenation started at a vertex of the loop returns every segment exactly once, in an order that leads back to the start vertex.", "quantifier": "all closed loops, of every length, with the segments in any order and direction", "why_tests_cant": "All orders and directions of the segments of loops of any length.", "anchors": ["GeDiM/src/Geometry/GeometryUtilities_Point.cpp: MakeConcatenation", "GeDiM/src/Mesh/MeshUtilities2D.cpp: AgglomerateCell2Ds"]}
{"id": "C53", "title": "Edge neighbours in the plane are the polygons on the two sides", "statement": "After ComputeCell1DCell2DNeighbours on a mesh of dimension 2, slot 1 of an edge holds the active polygon that has the edge as a side in its own direction, slot 0 the active polygon that has it in the opposite direction, and a slot without such a polygon is empty.", "quantifier": "all meshes of proper polygons with at most one active polygon per direction of an edge, all activity patterns", "why_tests_cant": "All meshes; tests compute neighbours once on a fresh mesh.", "anchors": ["GeDiM/src/Mesh/MeshUtilities2D.cpp: ComputeCell1DCell2DNeighbours", "GeDiM/src/Mesh/MeshMatricesDAO.cpp: Cell1DsInitializeNeighbourCell2Ds"]}
{"id": "C54", "title": "FindCell2DsCommonEdges returns exactly the common edges", "statement": "The result is the set of edges belonging to every listed polygon.", "quantifier": "all lists of polygons, of every length", "why_tests_cant": "Lists of three or more polygons with a common edge need a mesh of dimension 3.", "anchors": ["GeDiM/src/Mesh/MeshUtilities2D.cpp: FindCell2DsCommonEdges"]}
{"id": "C55", "title": "CreateStructuredTriangularMesh builds a consistent triangulation of the grid", "statement": "Every triangle side is the edge joining consecutive triangle vertices, every edge joins two distinct grid points and no two edges join the same points, each edge belongs to one (border) or two (interior) triangles, border markers are on exactly the border cells, triangles 2c and 2c+1 halve rectangle c with the same orientation, and points - edges + triangles = 1.", "quantifier": "all grid sizes with at least two points per direction, all coordinates", "why_tests_cant": "All grid sizes; index arithmetic of three families of edges.", "anchors": ["GeDiM/src/Mesh/MeshUtilities_MeshGenerators.cpp: CreateStructuredTriangularMesh"]}
{"id": "C56", "title": "FillMesh1D/2D/3D store exactly the given cells", "statement": "On an empty mesh, FillMesh1D stores the points origin + coordinate * tangent with one edge between consecutive points and markers 1 and 2 on the ends; FillMesh2D and FillMesh3D store the given points, edges, polygons and polyhedra in the given order, active and without marker, neighbours or properties; a cell naming a cell that does not exist is refused by an assertion.", "quantifier": "all lists of points, edges, polygons and polyhedra, of any length and any row sizes", "why_tests_cant": "Arbitrary numbers of cells and row lengths, and the refusal of every list with a dangling index, are not enumerable.", "anchors": ["GeDiM/src/Mesh/MeshUtilities1D.cpp: FillMesh1D", "GeDiM/src/Mesh/MeshUtilities2D.cpp: FillMesh2D", "GeDiM/src/Mesh/MeshUtilities3D.cpp: FillMesh3D"]}
{"id": "C57", "title": "FilterMesh and ExtractMesh return the restriction of a mesh to selected cells", "statement": "FilterMesh1D/2D/3D return the active cells among the given ones in order, together with the increasing sets of all cells they name. ExtractMesh1D/2D/3D on an empty mesh, for existing selected cells without repetitions, return the mesh of the selected cells with the same coordinates, the same extremes, vertices, edges and faces up to the renumbering, the same markers and states, and a pair of mutually inverse maps; a selection that misses a cell named by a selected cell is refused by an assertion.", "quantifier": "all well-formed meshes, all selections, cells with any number of vertices, edges and faces", "why_tests_cant": "All meshes and all subsets of their cells; the refusal depends on every reference of every selected cell.", "anchors": ["GeDiM/src/Mesh/MeshUtilities1D.cpp: FilterMesh1D, ExtractMesh1D", "GeDiM/src/Mesh/MeshUtilities2D.cpp: FilterMesh2D, ExtractMesh2D", "GeDiM/src/Mesh/MeshUtilities3D.cpp: FilterMesh3D, ExtractMesh3D"]}
{"id": "C58", "title": "The Gauss rule on the segment integrates the polynomials of its order", "statement": "Quadrature_Gauss1D::FillPointsAndWeights(o) returns, for every order up to 31, o/2+1 points of the unit segment with positive weights such that the sum of weight times value equals the integral for every polynomial of degree o or less (relative error at most 2e-15); higher orders throw.", "quantifier": "all supported orders, all polynomials of the degree, all unsupported orders", "why_tests_cant": "The space of polynomials is infinite and its dimension grows with the order; a test samples a few polynomials and orders, with a tolerance that hides a rule of too low an order.", "anchors": ["GeDiM/src/Quadrature/Quadrature_Gauss1D.hpp: FillPointsAndWeights"]}
{"id": "C59", "title": "The Gauss-Lobatto rule on the segment integrates the polynomials of its order", "statement": "Quadrature_GaussLobatto1D::FillPointsAndWeights(o) returns, for every order up to 43, o/2+2 points of the unit segment including both end points, with positive weights, such that every polynomial of degree o or less is integrated (relative error at most 1e-14), and all three coordinates of every point are defined; higher orders throw.", "quantifier": "all supported orders, all polynomials of the degree, all unsupported orders", "why_tests_cant": "Rows left uninitialised often happen to be zero in a test; the space of polynomials is infinite.", "anchors": ["GeDiM/src/Quadrature/Quadrature_GaussLobatto1D.hpp: FillPointsAndWeights"]}
{"id": "C60", "title": "The rule on the triangle integrates the polynomials of its order", "statement": "Quadrature_Gauss2D_Triangle::FillPointsAndWeights(o) returns, for every order up to 30, points of the reference triangle with positive weights such that every polynomial of total degree o or less is integrated over the triangle (relative error at most 1e-12); higher orders throw.", "quantifier": "all supported orders, all polynomials in two variables of the degree, all unsupported orders", "why_tests_cant": "For order 30 there are 496 monomials and the rules of too low a degree are still nearly exact on smooth functions; a test with a few functions does not see the missing degree.", "anchors": ["GeDiM/src/Quadrature/Quadrature_Gauss2D_Triangle.cpp: FillPointsAndWeights"]}
{"id": "C61", "title": "The rule on the square integrates the polynomials of its order in each variable", "statement": "Quadrature_Gauss2D_Square::FillPointsAndWeights(o) returns, for every order up to 31, (o/2+1)^2 points of the unit square with positive weights such that every polynomial of degree o or less in each variable is integrated (relative error at most 1e-14); higher orders throw.", "quantifier": "all supported orders, all polynomials in two variables of the degree, all unsupported orders", "why_tests_cant": "The space of polynomials is infinite; a misplaced constant among thousands changes few results noticeably.", "anchors": ["GeDiM/src/Quadrature/Quadrature_Gauss2D_Square.cpp: FillPointsAndWeights"]}
{"id": "C62", "title": "The rule on the tetrahedron integrates the polynomials of its order", "statement": "Quadrature_Gauss3D_Tetrahedron::FillPointsAndWeights(o) returns, for every order up to 15, points of the reference tetrahedron such that every polynomial of total degree o or less is integrated over the tetrahedron (relative error at most 1e-13); higher orders throw.", "quantifier": "all supported orders, all polynomials in three variables of the degree, all unsupported orders", "why_tests_cant": "For order 15 there are 816 monomials; a test samples a few functions.", "anchors": ["GeDiM/src/Quadrature/Quadrature_Gauss3D_Tetrahedron.cpp: FillPointsAndWeights"]}
{"id": "C63", "title": "The rule with positive weights on the tetrahedron integrates the polynomials of its order", "statement": "Quadrature_Gauss3D_Tetrahedron_PositiveWeights::FillPointsAndWeights(o) returns, for the orders 0 to 4 and the even orders up to 14, points of the reference tetrahedron with positive weights such that every polynomial of total degree o or less is integrated (relative error at most 1e-14); all other orders throw, no rule of a lower order is returned.", "quantifier": "all orders, all polynomials in three variables of the degree", "why_tests_cant": "Hundreds of monomials per order; the sign of every weight matters, not only the integral.", "anchors": ["GeDiM/src/Quadrature/Quadrature_Gauss3D_Tetrahedron_PositiveWeights.cpp: FillPointsAndWeights"]}
{"id": "C64", "title": "The rule on the hexahedron integrates the polynomials of its order in each variable", "statement": "Quadrature_Gauss3D_Hexahedron::FillPointsAndWeights(o) returns, for every order up to 15, (o/2+1)^3 points of the unit cube with positive weights such that every polynomial of degree o or less in each variable is integrated (relative error at most 1e-14); higher orders throw.", "quantifier": "all supported orders, all polynomials in three variables of the degree, all unsupported orders", "why_tests_cant": "The space of polynomials is infinite; a misplaced constant among thousands changes few results noticeably.", "anchors": ["GeDiM/src/Quadrature/Quadrature_Gauss3D_Hexahedron.cpp: FillPointsAndWeights"]}
{"id": "C65", "title": "The intersection of two segments is the point or the overlap they have in common", "statement": "IntersectionSegmentSegment aborts exactly for segments shorter than the tolerance; two segments that are not parallel up to the tolerance get the coordinates of the mutually nearest points of their lines, and these are a single intersection exactly if they are on both segments and the segments are coplanar; collinear segments that are apart get no intersection, collinear segments that overlap get the two ends of the overlap on both segments, and the relation says which end of the second segment lies where on the first.", "quantifier": "all four points in space, all tolerances", "why_tests_cant": "The result is a case distinction over real numbers with tolerances (parallel, coplanar, order of the ends); the failing inputs lie in thin regions and on the boundaries between the cases.", "anchors": ["GeDiM/src/Geometry/GeometryUtilities_Intersection.cpp: IntersectionSegmentSegment", "GeDiM/src/Geometry/GeometryUtilities_Intersection.cpp: AreLineCoplanar"]}
{"id": "C66", "title": "The intersection of a segment and a plane is the point of the line in the plane", "statement": "IntersectionSegmentPlane aborts if the normal is not a unit vector or the segment is degenerate, up to the tolerance. If the segment is not parallel to the plane up to the tolerance it reports the only point of the line in the plane, with the exact coordinate except that a coordinate within the tolerance of 0 or 1 is replaced by 0 or 1; the point is reported inside the segment only if the ends are strictly on opposite sides, and outside only if they are strictly on the same side. A segment in the plane is reported as multiple intersections, a parallel segment beyond the tolerance as none.", "quantifier": "all segments, planes and tolerances", "why_tests_cant": "The sides of the plane and the position on the segment are decided from one quotient of two dot products, for all real inputs.", "anchors": ["GeDiM/src/Geometry/GeometryUtilities_Intersection.cpp: IntersectionSegmentPlane"]}
{"id": "C67", "title": "The intersections of a segment and a circle are the points of the line on the circle", "statement": "IntersectionSegmentCircle reports two intersections only if the line meets the circle in exactly two points, and then reports their coordinates in increasing order, the points between them being inside; it reports none only if all points of the line are outside the circle; it reports a tangent only with the point of the line nearest to the centre, if its distance from the circle is within the tolerance. PointCirclePosition says inside, on the border, or outside according to the distance and the tolerance.", "quantifier": "all segments, circles, points and tolerances", "why_tests_cant": "The number of roots is decided from a discriminant with a tolerance; the failing inputs are small circles and near tangents.", "anchors": ["GeDiM/src/Geometry/GeometryUtilities_Intersection.cpp: IntersectionSegmentCircle", "GeDiM/src/Geometry/GeometryUtilities_Point.cpp: PointCirclePosition"]}
{"id": "C68", "title": "The side of a segment on which a point lies follows the projection and the sign of the area", "statement": "PointSegmentPosition places a point on the line of the segment, up to the tolerance on the squared sine of the angle, by the coordinate of its projection: before the origin, at the origin, inside, at the end, after the end, with tolerance; this holds in the plane and in space. In the plane any other point is left or right of the segment according to the sign of the area of the triangle. In space, a point off the line whose direction or segment leaves the plane z = const by more than the tolerance stops the call. A segment of length zero gives after-the-end.", "quantifier": "all points, segments and tolerances", "why_tests_cant": "Seven answers depend on comparisons with three different tolerances; tests choose a few points of each kind.", "anchors": ["GeDiM/src/Geometry/GeometryUtilities_Point.cpp: PointSegmentPosition"]}
{"id": "C69", "title": "A point is reported inside a convex polygon exactly if it is left of all edges", "statement": "For a convex polygon PointPolygonPosition always answers. A point that is reported outside is right of an edge and no convex combination of the vertices; a point that is not right of any edge is never reported outside; a point that is reported inside is left of all edges; a point reported on an edge or vertex is there up to the tolerance, and the points of an edge and the vertices are reported with the right index.", "quantifier": "all convex polygons, all points of their plane, all tolerances", "why_tests_cant": "Skipped edges, on whose lines the point is beyond the ends, decide the answer only in thin polygons.", "anchors": ["GeDiM/src/Geometry/GeometryUtilities_Point.cpp: PointPolygonPosition"]}
{"id": "C70", "title": "Ray casting reports a point inside exactly if the ray crosses an odd number of edges", "statement": "PointPolygonPosition_RayCasting reports a point off the border inside exactly if a ray from the point meets the border an odd number of times, also if the ray passes through vertices and if the polygon is not convex; for strictly convex polygons this is the same as being left of all edges, and agrees with PointPolygonPosition. A point that is reported on an edge or vertex is there up to the tolerance.", "quantifier": "all polygons with at least three vertices, all points, all tolerances", "why_tests_cant": "The rays through vertices are the cases in which crossings are counted twice or never, and the parity argument holds for all numbers of vertices.", "anchors": ["GeDiM/src/Geometry/GeometryUtilities_Point.cpp: PointPolygonPosition_RayCasting"]}
{"id": "C71", "title": "A point is reported inside a polyhedron exactly if it is behind all faces", "statement": "IsPointInsideTetrahedron answers true for points with non-negative barycentric coordinates and false if one is negative, beyond the tolerance. PointPolyhedronPosition reports a point inside only if it is behind all faces by more than the tolerance, outside only if it is before a face or in its plane but outside its polygon, and on a face, edge or vertex only if the polygon of a face places it there; the index is the number of this face, edge or vertex. A convex combination of the vertices of a convex polyhedron is never reported outside.", "quantifier": "all polyhedra, all points, all tolerances", "why_tests_cant": "The answer combines a signed distance for each face with a position on its polygon in rotated coordinates.", "anchors": ["GeDiM/src/Geometry/GeometryUtilities_Point.cpp: PointPolyhedronPosition", "GeDiM/src/Geometry/GeometryUtilities_Point.cpp: IsPointInsideTetrahedron", "GeDiM/src/Geometry/GeometryUtilities_Point.cpp: PointPlanePosition"]}
{"id": "C72", "title": "Bounding boxes never miss an intersection, and searches in sets of points are complete", "statement": "PointsBoundingBox gives the smallest box with all points. IsPointInBoundingBox and BoundingBoxesIntersects answer true for points in the box and boxes with a common point, and false if a coordinate is apart by more than the tolerance; in particular, if the convex hulls of two sets of points meet, their boxes are reported to intersect. PointsMaxDistance is the largest distance up to the tolerance, and FindPointInPoints gives all points within the tolerance, in order. UnalignedPoints gives the points that are not aligned with their two neighbours, in order, cut after the desired number.", "quantifier": "all lists of points, all boxes, all tolerances", "why_tests_cant": "A missed intersection of boxes silently drops an intersection of cells; the property is about all pairs of hulls.", "anchors": ["GeDiM/src/Geometry/GeometryUtilities_Point.cpp: PointsBoundingBox", "GeDiM/src/Geometry/GeometryUtilities_Point.cpp: IsPointInBoundingBox", "GeDiM/src/Geometry/GeometryUtilities_Point.cpp: BoundingBoxesIntersects", "GeDiM/src/Geometry/GeometryUtilities_Point.cpp: PointsMaxDistance", "GeDiM/src/Geometry/GeometryUtilities_Point.cpp: FindPointInPoints", "GeDiM/src/Geometry/GeometryUtilities_Point.cpp: UnalignedPoints"]}
{"id": "C73", "title": "The equality form of a linear program is equivalent to the program", "statement": "The constructor of Simplex writes a linear program with bounds and constraints of the kinds <=, >= and = in equality form with non-negative variables: every feasible point of the equality form gives a feasible point of the program with the same value, every feasible point of the program arises in this way, and the slack variables form a basis exactly if no constraint is an equality.", "quantifier": "all linear programs: all sizes, bounds (also infinite ones), kinds of constraints, coefficients", "why_tests_cant": "The transformation distinguishes five cases for each variable and adds rows and columns with running counters; tests use programs with one or two variables.", "anchors": ["GeDiM/src/Algebra/LPUtilities.cpp: Simplex::Simplex"]}
{"id": "C74", "title": "The simplex method gives an optimal vertex", "statement": "From a feasible basis, solve_primal_simplex on a program in equality form never does anything undefined; SUCCESS comes with a feasible point whose value is the largest (up to the tolerance times the sum of the variables), UNBOUNDED is only reported if the values are not bounded, and if no feasible point is degenerate the method ends before the limit as soon as the limit is at least the number of possible bases. The tolerance must not hide pivots, which holds for the tolerance zero.", "quantifier": "all programs in equality form, all feasible starting bases, all limits of the iterations", "why_tests_cant": "Optimality is a statement about all feasible points; a wrong ratio test still gives plausible points.", "anchors": ["GeDiM/src/Algebra/LPUtilities.cpp: Simplex::solve_primal_simplex"]}
{"id": "C75", "title": "A linear program is solved: the point returned is feasible and optimal", "statement": "For a linear program, the constructor of Simplex followed by solve_primal_simplex gives, with SUCCESS, a feasible point of the program with the largest value and this value; UNBOUNDED is only reported if the values are not bounded; the program is refused exactly if one of its constraints is an equality.", "quantifier": "all linear programs, all limits of the iterations, all tolerances", "why_tests_cant": "There is no check of the result in the code; a wrong point is returned with SUCCESS.", "anchors": ["GeDiM/src/Algebra/LPUtilities.cpp: Simplex::Simplex", "GeDiM/src/Algebra/LPUtilities.cpp: Simplex::solve_primal_simplex"]}
{"id": "C76", "title": "The Chebyshev centre is the centre of the largest circle in the polygon", "statement": "If a circle fits into the intersection of the half-planes of the edges of a polygon, the circle returned by PolygonChebyshevCenter fits, respects the bound of the radius if one is given, and no circle that fits is larger, wherever the polygon is. The function throws only if circles of any size fit or the limit of the iterations is reached; for a closed polygon with outward normals only the latter is possible.", "quantifier": "all polygons with unit normals, all limits of the iterations, all tolerances below one that hide no entries of the tableaux", "why_tests_cant": "The simplex method starts at the origin, which need not be in the polygon; that the result is still the largest circle depends on the special form of the program.", "anchors": ["GeDiM/src/Geometry/GeometryUtilities_Polygon.cpp: PolygonChebyshevCenter", "GeDiM/src/Algebra/LPUtilities.cpp: Simplex::solve_primal_simplex"]}
{"id": "C77", "title": "Two triangles intersect exactly if they share a point", "statement": "CheckTrianglesIntersection tells whether two triangles of the plane share a point, or share an interior point if touching is not admitted. If it says no, no point is shared; if it says yes, there is a point on the inner side of all six edges, up to the tolerance.", "quantifier": "all pairs of triangles, all tolerances", "why_tests_cant": "That one of the six edges separates two disjoint triangles is a theorem on convex sets; finitely many pairs do not show it.", "anchors": ["GeDiM/src/Geometry/GeometryUtilities_Polygon.cpp: CheckTrianglesIntersection"]}
{"id": "C78", "title": "Equispaced and random coordinates have the number, the ends and the distances asked for", "statement": "EquispaceCoordinates returns as many coordinates as asked for, and together with the ends they go from one end to the other in equal steps; with a step the number of parts is the rounded number of steps. RandomCoordinates returns as many coordinates as asked for, in the unit segment, with both ends or none of them, at least the given distance apart, whatever the generator of random numbers.", "quantifier": "all numbers of coordinates, all ends, all steps, all distances, all permutations as results of the shuffle", "why_tests_cant": "The coordinate that is inserted when the draw hits an end appears only for some draws.", "anchors": ["GeDiM/src/Geometry/GeometryUtilities.cpp: EquispaceCoordinates, RandomCoordinates", "GeDiM/src/Common/CommonUtilities.cpp: RandomArrayNoRepetition"]}
{"id": "C79", "title": "The rotation of a plane takes the plane of the first two coordinates to the plane", "statement": "For a unit normal PlaneRotationMatrix is a rotation. It takes points of the plane of the first two coordinates to points of the plane through the translation with that normal, keeps distances, takes the third axis to the normal, and RotatePointsFrom3DTo2D brings the points back.", "quantifier": "all unit normals, all translations, all points", "why_tests_cant": "The normals close to the third axis are a separate branch; the sign of the normal matters only there.", "anchors": ["GeDiM/src/Geometry/GeometryUtilities.cpp: PlaneRotationMatrix", "GeDiM/src/Geometry/GeometryUtilities.hpp: RotatePointsFrom2DTo3D, RotatePointsFrom3DTo2D"]}
{"id": "C80", "title": "The reflection through a plane is the reflection", "statement": "The map given by PlaneReflectionMatrix and PlaneReflectionTranslation fixes the points of the plane, moves the others along the normal to the same height on the other side, keeps distances and is its own inverse. Normals shorter than the tolerance are refused.", "quantifier": "all normals longer than the tolerance, of any length, all origins, all points", "why_tests_cant": "The factors depend on the length of the normal and on the place of the plane.", "anchors": ["GeDiM/src/Geometry/GeometryUtilities.cpp: PlaneReflectionMatrix, PlaneReflectionTranslation"]}
{"id": "C81", "title": "The triangle of a plane lies on the plane and has its normal", "statement": "PlaneToPolygon returns a triangle on the plane with a right angle at the origin of the plane and two sides of length one, and the normal of the triangle is the normalized normal of the plane.", "quantifier": "all normals different from zero, all origins", "why_tests_cant": "The auxiliary vector is chosen by the third component of the normal, without its absolute value.", "anchors": ["GeDiM/src/Geometry/GeometryUtilities.cpp: PlaneToPolygon"]}
{"id": "C82", "title": "The convex hull contains the points and has the points of its boundary as vertices", "statement": "ConvexHull returns different indices. The points with these indices form, in the order of the result, a convex polygon that runs counter clockwise, and every point is a convex combination of them. Without the aligned points, the polygon is strictly convex unless all points are on one line. With the aligned points, the points that are not returned are strictly inside the polygon.", "quantifier": "all finite sets of different points of the plane, with and without the aligned points", "why_tests_cant": "The result depends on the order of all points around the lowest one, on the points in the last direction and on the removals from the stack; a wrong order shows only for special positions of the points, and aligned points reach the element before the first.", "anchors": ["GeDiM/src/Geometry/GeometryUtilities.cpp: ConvexHull", "GeDiM/src/Geometry/GeometryUtilities.hpp: PolarAngle"]}
{"id": "C83", "title": "The orientation of a polygon is found from its convex hull", "statement": "PolygonOrientation of the indices of the convex hull, without the aligned points, is counter clockwise for a polygon whose vertices are given counter clockwise and clockwise for a polygon whose vertices are given clockwise.", "quantifier": "all polygons in the plane, with any first vertex and any number of vertices", "why_tests_cant": "The function compares the two indices after the smallest one, which are not the smallest indices in general; an error shows only for some first vertices of the hull.", "anchors": ["GeDiM/src/Geometry/GeometryUtilities_Polygon.cpp: PolygonOrientation", "GeDiM/src/Geometry/GeometryUtilities.cpp: ConvexHull"]}
{"id": "C84", "title": "The check of the convexity accepts the convex polygons", "statement": "PolygonIsConvex with the convex hull of the vertices is true for every convex polygon and false for every polygon that is not convex.", "quantifier": "all polygons in the plane without self-intersections", "why_tests_cant": "Vertices are tested against the border of the hull; a wrong position for a vertex on a side or in a corner shows only for special polygons.", "anchors": ["GeDiM/src/Geometry/GeometryUtilities_Polygon.cpp: PolygonIsConvex"]}
{"id": "C85", "title": "Ear clipping splits a simple polygon into triangles", "statement": "PolygonTriangulationByEarClipping of a simple polygon given counter clockwise returns triples of its vertices that run counter clockwise, do not overlap and cover the polygon, so that their areas add up to the area of the polygon; with fewer than three vertices it aborts, and it always ends.", "quantifier": "all simple polygons in the plane, convex or not, with any number of vertices and any aligned vertices", "why_tests_cant": "The choice of the ears depends on all vertices and on the order in which earlier ears were cut; a wrong test leaves overlaps or a search that never ends only for some shapes.", "anchors": ["GeDiM/src/Geometry/GeometryUtilities_Polygon.cpp: PolygonTriangulationByEarClipping"]}
{"id": "C86", "title": "Splitting an edge replaces it by its sub-edges everywhere", "statement": "SplitCell1D on an edge with a list of sub-edges appends one edge per sub-edge with the given end points; the edge becomes inactive and knows the new edges as its updated edges, each new edge is active, has the edge as original, and takes over its marker and its lists of neighbour polygons and polyhedra. In the list of edges of each vertex the split edge is replaced by the sub-edges that end there. All other cells keep all their data.", "quantifier": "all well formed meshes, all edges and all lists of sub-edges between existing vertices", "why_tests_cant": "The replacement must be right for every combination of end points and neighbour lists; tests look at one edge cut in two and read only the counts and the extremes of the new edges.", "anchors": ["GeDiM/src/Mesh/MeshUtilities1D.cpp:220-291", "GeDiM/src/Mesh/MeshMatricesDAO.hpp"]}
{"id": "C87", "title": "Bisection of a triangle keeps the mesh conforming", "statement": "In a conforming mesh of triangles (every side of an active triangle is an active edge that has the triangle in the neighbour slot of the right side, and every neighbour slot of an active edge is empty or holds an active triangle with this side), RefineTriangleCell_ByEdge followed by RefineTriangleCell_UpdateNeighbours at one side leaves a conforming mesh. The side has a new vertex in its middle. The triangle and its neighbour across the side become inactive and are each replaced by two active triangles with half the area. All other triangles and all old vertices are unchanged. A bisection that is given up leaves the mesh as it was.", "quantifier": "all conforming meshes of triangles, all active triangles and sides, all tolerances", "why_tests_cant": "The neighbour relations of edges and cells after the call depend on the orientation of the triangle and of its neighbour along the edge, and on numerical checks of each of the four halves; tests look at a few meshes with well shaped triangles, and a hanging vertex or a lost neighbour entry shows only in later refinements.", "anchors": ["GeDiM/src/Mesh/RefinementUtilities2D.cpp:428-541", "GeDiM/src/Mesh/RefinementUtilities2D.cpp:1066-1138", "GeDiM/src/Mesh/RefinementUtilities2D.cpp:1140-1197", "GeDiM/src/Mesh/RefinementUtilities.cpp:26-49"]}
{"id": "C88", "title": "CheckMesh2D accepts the meshes with the properties it tests and stops at the others", "statement": "CheckMesh2D comes back exactly if the mesh has dimension two and every property holds whose test is switched on: the vertices lie in the plane, different vertices are different points, no two edges join the same two vertices, every edge has neighbour slots and the polygons in them have the edge, every edge has a positive length, the edges of every polygon go round its vertices in their order, no two polygons have the same vertices or the same edges, every polygon without its aligned vertices is convex, and every polygon has a positive area. Otherwise it stops at an assertion.", "quantifier": "for all well-formed meshes of any size, all configurations, all tolerances with the stated bounds, all square roots and all sorting functions", "why_tests_cant": "the tests of the repository call CheckMesh2D on a few correct meshes only; that every incorrect mesh of any size is refused, and that no correct one is, cannot be tested by examples", "anchors": ["GeDiM/src/Mesh/MeshUtilities2D.cpp:269-413", "GeDiM/src/Mesh/MeshUtilities.hpp:25-36"]}
{"id": "C89", "title": "The mesh of a polygon is that polygon", "statement": "Mesh2DFromPolygon on an empty mesh, for at least three vertices, stores exactly the vertices in order, the edge from each vertex to the next one, and one polygon with these vertices and edges, which is the left neighbour of all edges. All cells are active; the markers are the given ones if there are as many as vertices or edges, and consecutive numbers otherwise. Edges, polygon and neighbours fit together, and for a convex polygon with small integer coordinates CheckMesh2D accepts the mesh with any choice of its tests. With fewer than three vertices the call stops at an assertion.", "quantifier": "for every number of vertices, all points, all marker vectors of any length", "why_tests_cant": "a test builds a few polygons; the wrap at the last vertex and the markers of wrong length depend on the number of vertices.", "anchors": ["GeDiM/src/Mesh/MeshUtilities2D.cpp:500-555"]}
{"id": "C90", "title": "Marking a line or a segment marks exactly the vertices on it and the edges between them", "statement": "SetMeshMarkersOnLine gives the marker to the vertices within the tolerance of the line and to the edges with both ends there, and changes nothing else in the mesh. SetMeshMarkersOnSegment does the same for the vertices within the tolerance of the segment.", "quantifier": "all well-formed meshes whose edges end at existing vertices, all lines and segments of positive length, all tolerances", "why_tests_cant": "the tests mark one side of a square; vertices near the tolerance and vertices out of the plane are not tried", "anchors": ["GeDiM/src/Mesh/MeshUtilities2D.cpp:557-637", "GeDiM/src/Geometry/GeometryUtilities_Point.cpp:99-138"]}
{"id": "C91", "title": "The integrals over a polygon are those of its area", "statement": "The lengths, tangents, centroids and normals of the edges are listed edge by edge; the normals have length one and point out of a convex counter clockwise polygon. The integral over the boundary computed from them with a rule exact for polynomials of degree one is the area, the centroid computed from them is the centroid, the integral over triangles is the sum of their areas, the centroid put together from triangles is the centroid, and the mass and inertia matrices are the second moments, up to the error of the decimal numbers in the quadrature rules.", "quantifier": "all polygons with at least three vertices in the plane, convex or not, with any number of vertices; all quadrature rules; all triangulations", "why_tests_cant": "the tests compare the values for a few polygons with tolerances; the divergence theorem holds for every polygon, also self-intersecting or with repeated vertices", "anchors": ["GeDiM/src/Geometry/GeometryUtilities_Polygon.cpp:92-236", "GeDiM/src/Geometry/GeometryUtilities_Polygon.cpp:280-323", "GeDiM/src/Geometry/GeometryUtilities_Polygon.cpp:1384-1495", "GeDiM/src/Geometry/GeometryUtilities.hpp:1164-1186", "GeDiM/src/Geometry/GeometryUtilities.hpp:1734-1766"]}
{"id": "C92", "title": "The in radius of a polygon is the radius of a disc inside it", "statement": "The distances of a point from the vertices and from the lines of the edges are the Euclidean distances; PolygonInRadius is the least distance from the edges, and for a point in a convex counter clockwise polygon the disc of that radius around the point is in the polygon.", "quantifier": "all polygons of the plane with at least three vertices whose neighbouring vertices differ, all points", "why_tests_cant": "the tests compare the distances for two polygons; that no larger value is returned for any polygon is a statement on all of them", "anchors": ["GeDiM/src/Geometry/GeometryUtilities_Polygon.cpp:325-358", "GeDiM/src/Geometry/GeometryUtilities.hpp:1044-1047", "GeDiM/src/Geometry/GeometryUtilities.hpp:1797-1800"]}
{"id": "C93", "title": "The geometric data of a mesh of convex polygons are those of its polygons", "statement": "For a mesh whose active polygons have as many edges as vertices, all in the plane z = 0, FillMesh2DGeometricData comes back with one entry for each polygon. The entry of an active polygon has its vertices in order, the smallest box around them, the largest distance of two of them up to the tolerance, the exact area and centroid also if some of the vertices are aligned, triangles with corners among the vertices whose signed areas add up to the area and which are all proper if the polygon is convex, and for each edge its middle, length, tangent and right normal, and the flag that says whether the edge runs from its vertex to the next one in the mesh.", "quantifier": "for every mesh, every set of active polygons, every polygon of any number of vertices with an area different from zero, aligned vertices included", "why_tests_cant": "a test compares numbers for a few meshes; the effect of aligned vertices, of edges entered backwards and of polygons that are not active depends on the mesh.", "anchors": ["GeDiM/src/Mesh/MeshUtilities2D.cpp:655-743", "GeDiM/src/Mesh/MeshUtilities.hpp:148-164"]}
{"id": "C94", "title": "The check of the geometric data in the plane tests every active polygon", "statement": "CheckMeshGeometricData2D accepts data exactly if for each active polygon the configured tests hold: every length is positive, the area obtained from the lengths, tangents and normals of the edges agrees with the area, the area is positive, and the areas of the triangles add up to it, all within the tolerances.", "quantifier": "for every mesh, all data, every choice of the four tests", "why_tests_cant": "the unit tests only run the check on data that are right, so that a check that accepts everything passes them.", "anchors": ["GeDiM/src/Mesh/MeshUtilities2D.cpp:415-497"]}
{"id": "C95", "title": "The dual graph joins exactly the cells that share a side", "statement": "Mesh2DToDualGraph and Mesh3DToDualGraph return a network with one vertex for each cell, in which the number of connections from v to w labelled with the edge or face e is the number of pairs of different neighbour slots of e that hold v and w, so that an inner edge or face gives one connection each way and a boundary one none. Each connection carries the constraint flag of its e; its weight is the given one without constraints, and with a constraint for each e it is one if some constrained e joins v and w and the given weight plus the number of connections otherwise. MeshToGraph has as many connections from v to w of weight x as there are such edges, counting the reversed edges for an undirected graph.", "quantifier": "all well-formed meshes with any neighbour lists, all constraint lists, weight matrices and vertex weights; all edge lists between existing vertices with no weights or at least one per edge", "why_tests_cant": "the graph is handed to a partitioner whose answer is only judged by its quality; tests compare the vectors of a few conforming meshes and do not see a lost parallel connection, a wrong weight on a constrained pair or a junction of three cells", "anchors": ["GeDiM/src/MpiTools/MetisUtilities.cpp:33-128", "GeDiM/src/MpiTools/MetisUtilities.cpp:130-190", "GeDiM/src/MpiTools/MetisUtilities.cpp:231-326"]}
{"id": "C96", "title": "Polyhedra built from corners, by extrusion and from facets are consistent and closed", "statement": "CreateTetrahedronWithVertices and CreateTetrahedronWithOrigin give a tetrahedron with four triangles and six edges, CreateParallelepipedWithOrigin gives one with eight vertices at all sums of the origin and some of the sides, twelve edges and six parallelograms; CreatePolyhedronWithExtrusion of a polygon with n ≥ 3 vertices gives 2n vertices (the polygon, then the shifted polygon), 3n edges, two faces with n vertices and n faces with four, and fails an assertion if the number of shifts differs. In each of them the edge at a position of a face joins the vertex of the position with the next one, edges join different vertices, no two edges join the same, and each edge is the side of exactly two faces. FacetsToPolyhedron of facets whose identifiers are columns of the points has as vertices the points of the identifiers, each once and in the order of their first appearance, as faces the facets with identifiers replaced by positions, and as edges the sides of the facets, each once; an edge is on as many faces as there are facet sides with its ends, so the polyhedron is closed exactly if each facet side appears twice. PolyhedronToFacets gives back facets that are numbered in the order of appearance. An identifier beyond the points is undefined.", "quantifier": "for all corners, origins, sides, polygons with shifts, points and facets", "why_tests_cant": "tests build a few polyhedra; that a table of vertices and edges or an extrusion with any number of sides is closed, and that facets in any order give one edge per side, needs all of them", "anchors": ["GeDiM/src/Geometry/GeometryUtilities_Polyhedron.cpp:26-208", "GeDiM/src/Geometry/GeometryUtilities_Polyhedron.cpp:1525-1626", "GeDiM/src/Geometry/GeometryUtilities.hpp:676-681"]}
{"id": "C97", "title": "Orientation and data of the faces of a polyhedron", "statement": "ChangePolyhedronFaceOrientation of a face with vertices keeps its first vertex and reverses the others, reverses the edges, keeps the face consistent and done twice gives the face back (a face without vertices is undefined); ChangePolyhedronFacesOrientation changes exactly the faces whose direction is false and throws if a direction is missing. For a consistent polyhedron the edge centroids are the middles of the ends, the edge lengths their distances, the edge tangents their differences; PolyhedronFaceVertices gives the points of the columns, PolyhedronFaceEdgeDirections tells whether the edge begins at the vertex of the column, and PolyhedronFaceEdgeTangents gives the difference of the next vertex of the face and this one. PolyhedronCoordinateSystem gives vertex 0 and three different vertices joined with it, and fails an assertion if fewer than three edges are at vertex 0.", "quantifier": "for all faces, all consistent polyhedra and all direction lists", "why_tests_cant": "tests use cubes and tetrahedra with few orientations; a shift by one between vertices and edges after the reversal shows only on faces with other numbers of vertices", "anchors": ["GeDiM/src/Geometry/GeometryUtilities_Polyhedron.cpp:336-428", "GeDiM/src/Geometry/GeometryUtilities_Polyhedron.cpp:1079-1102", "GeDiM/src/Geometry/GeometryUtilities_Polyhedron.cpp:1628-1662"]}
{"id": "C98", "title": "The two volumes of a polyhedron are right and agree", "statement": "For faces given by triangles in the plane, a rotation, a translation, a unit normal (the image of the third axis) and a direction, whose triangles in space close up, PolyhedronVolumeByBoundaryIntegral with a valid rule on the reference triangle gives the signed volume of the cone over the surface, which is the same for every apex; it does not depend on the order of the corners of the triangles in the plane. PolyhedronVolumeByInternalIntegral with a valid rule on the reference tetrahedron gives the sum of the volumes of the tetrahedra. With the default rules the two agree when the tetrahedra join the triangles of the surface to a point that lies outside of none of them. Both functions work for rules with any number of points.", "quantifier": "for all faces, triangles, placements, rules and apexes", "why_tests_cant": "a test compares the volume of a few solids with default rules; rules of several points and the independence from apex and orientation concern all surfaces", "anchors": ["GeDiM/src/Geometry/GeometryUtilities_Polyhedron.cpp:210-277", "GeDiM/src/Geometry/GeometryUtilities.hpp:2128-2142"]}
{"id": "C99", "title": "The centroid of a polyhedron is its first moment divided by the volume", "statement": "For the faces of C98 with counter-clockwise triangles within the tolerance of the plane, and corners with coordinates at most D, the result of PolyhedronCentroid times the volume passed to it differs, in each coordinate, from the first moment of the polyhedron (the sum over the tetrahedra to any apex of volume times mean of the corners) by at most 1e-16 D² times the area of the surface. Triangles off the plane fail an assertion.", "quantifier": "for all closed surfaces, placements, directions of normals and volumes different from zero", "why_tests_cant": "the integral of the square of a coordinate over the boundary is exact only with the right points, weights and signs; a test on a symmetric solid does not see an error in them", "anchors": ["GeDiM/src/Geometry/GeometryUtilities_Polyhedron.cpp:279-334"]}
{"id": "C100", "title": "Mass and inertia of a polyhedron are the second moments of its tetrahedra", "statement": "PolyhedronMass gives the symmetric matrix of the integrals of (p_i - c_i)(p_j - c_j) over the tetrahedra; PolyhedronInertia gives on the diagonal the sum of the two other second moments and outside of it the mixed moments with negative sign. Each entry is exact up to 2.34e-16 D² times the sum of the determinants (twice that on the diagonal of the inertia), where D bounds the distance of the coordinates of the corners from the point c. Flat tetrahedra and both orientations are allowed.", "quantifier": "for all points c and all lists of tetrahedra", "why_tests_cant": "the rule with four points in sixteen decimals must integrate all ten quadratic monomials; a test on one solid at its own centroid checks few of them", "anchors": ["GeDiM/src/Geometry/GeometryUtilities_Polyhedron.cpp:523-678"]}
{"id": "C101", "title": "Tetrahedra are built over the triangles of the faces", "statement": "PolyhedronTetrahedronsByFaceTriangulations gives for each triangle of each face, in order, the three vertices of the polyhedron at the positions of the triangle in the face, and the number of vertices; ExtractTetrahedronPoints gives the three points and the point inside of the polyhedron. The versions with a point in each face replace the first corner of each triangle by the point of the face, numbered after the vertices in the order of the faces, and the last number is the number of vertices plus the number of faces.", "quantifier": "for all polyhedra, all triangulations with positions inside of their faces, all points", "why_tests_cant": "wrong offsets between faces, or between local and global numbers, give right results on a tetrahedron", "anchors": ["GeDiM/src/Geometry/GeometryUtilities_Polyhedron.cpp:986-1077"]}
{"id": "C102", "title": "The directions of the face normals of a polyhedron point away from its inside", "statement": "PolyhedronFaceNormalDirections with a point inside reports true for a face exactly if the point is on the side of the face opposite to its normal, so that the normal, turned if its direction is false, points away from the point; it aborts if the point is in the plane of a face up to the tolerance. Without a point, a ray runs from an internal point of each face along its normal, and the direction is true exactly if the ray passes through an even number of the other faces.", "quantifier": "for all lists of faces with unit normals (with a point: any normals different from zero) and all points", "why_tests_cant": "a wrong direction depends on the position of the rays of all faces relative to all other faces, and the state shared between the rays shows only if two rays meet the same edge", "anchors": ["GeDiM/src/Geometry/GeometryUtilities_Polyhedron.cpp:762-781", "GeDiM/src/Geometry/GeometryUtilities_Polyhedron.cpp:783-899"]}
{"id": "C103", "title": "PolyhedronIsConvex accepts convex polyhedra and rejects the others", "statement": "For a point inside, PolyhedronIsConvex returns true if all faces are convex polygons and all vertices are on the inner side of the planes of all faces. It returns false if a vertex of a face is in the interior of the hull of the face, or if a face lies, with a vertex strictly, on the outer side of another face.", "quantifier": "for all polyhedra with outgoing normals given by normal and direction, and all points inside", "why_tests_cant": "whether the segments from the point to the points of the faces cross a plane depends on all pairs of faces and the position of the point", "anchors": ["GeDiM/src/Geometry/GeometryUtilities_Polyhedron.cpp:697-760"]}
{"id": "C104", "title": "The lines of the edges of a polyhedron", "statement": "For the vertices and the edges of a polyhedron whose edge graph is connected and simple, with the tangents of the edges and the tolerance small enough to tell the vertices on the line of an edge from the others, AlignedPolyhedronEdges returns lines such that each edge is in one line and there once, two edges are in the same line exactly if both are on one line in space, the vertices of a line are listed in their order along it, and the k-th edge of a line joins its k-th and (k+1)-th vertex.", "quantifier": "all vertex lists, edge lists, tangents, orders of the vertices that std::sort may give, and tolerances meeting the stated conditions", "why_tests_cant": "The grouping goes with a breadth first search whose order depends on the numbers of the vertices, and the search for the edge between two neighbours on a line assumes that the line has no gap; the test of the function has one tetrahedron with divided edges, where the edges of a line touch each other.", "anchors": ["GeDiM/src/Geometry/GeometryUtilities_Polyhedron.cpp:1388-1524", "GeDiM/src/Geometry/GeometryUtilities_Point.cpp:655-671"]}
{"id": "C105", "title": "The cells of a mesh that contain a point", "statement": "For a mesh whose active polygons are strictly convex and run counter clockwise in the plane, given with their vertices and bounding boxes, and a point that the tolerances resolve with respect to the lines and the ends of the edges, FindPointCell2D returns exactly the active polygons with the point in their inside or on their border, each once, in the cyclic order from the starting cell, with the exact position of the point; with find_only_first_cell2D it returns the first of them. FindPointMeshPosition then gives for each of these polygons the vertex, the edge or the polygon with the point in its relative interior, which is the same cell for all if the relative interiors of the cells do not meet. For polyhedra FindPointCell3D returns exactly the active polyhedra whose box has the point and for which PointPolyhedronPosition is not outside, convex polyhedra with the point in their hull among them, and FindPointMeshPosition gives a vertex, edge or face of the polyhedron, or the polyhedron, with the point in its relative interior.", "quantifier": "all meshes, points, starting cells and tolerances meeting the stated conditions", "why_tests_cant": "That the boxes hide no cell, that all cells sharing the point report the same vertex or edge, and that the start in the middle of the list loses no cell are statements about all points and meshes; a test has a few points in one mesh.", "anchors": ["GeDiM/src/Mesh/MeshUtilities2D.cpp:2388-2465", "GeDiM/src/Mesh/MeshUtilities3D.cpp:2195-2289"]}
{"id": "C106", "title": "The edges, faces and marks of a mesh of tetrahedra read from a file", "statement": "Given tetrahedra with four different vertices each, ComputeVtkMesh3D gives a mesh with one edge for each pair of vertices of a tetrahedron and one face for each triangle of a tetrahedron, none twice, whatever the order in which the tetrahedra name the vertices; the edges of a face join its vertices in order; each cell has the vertices given, its six edges and its four faces, all different; a face is marked 1 iff it is a face of exactly one tetrahedron, a vertex or an edge iff it is on such a face, the rest and the cells are marked 0. A cell of another type is refused with an exception, a tetrahedron with another number of vertices stops the program.", "quantifier": "for every number of vertices and every list of tetrahedra with four different vertices below that number", "why_tests_cant": "the test reads one file; that an edge or face is found again depends on the order of its vertices in each of the cells and on all cells before", "anchors": ["GeDiM/src/Mesh/VtkMeshInterface.cpp:38-183"]}
{"id": "C107", "title": "Combinations with repetition are all listed, each once", "statement": "CombinationWithRepetition(n, k) returns every choice of k of the numbers 0 to n - 1 with repetition, written with the larger numbers first, each exactly once, ordered by the numbers read from the last one; there are BinomialCoefficient(n + k - 1, k) of them for n > 0. With n below 1 there are none, unless k is zero. With k = -1 the program reads outside a vector, with a smaller k it throws.", "quantifier": "for all int n and k except the smallest n and the largest k, for which n-- and k + 1 overflow", "why_tests_cant": "no test calls the function; the loop with carries has a list of results that grows without bound in n and k", "anchors": ["GeDiM/src/Common/CommonUtilities.cpp:19-48"]}
{"id": "C108", "title": "Binomial coefficients and the slope of a regression line", "statement": "BinomialCoefficient(n, k) is the number of subsets with k elements of a set with n elements. If two of the first n points differ in their first coordinate, Slope returns the slope of the line with the least sum of squared vertical distances from them, and every line with that sum has this slope; if none differ the result is no number.", "quantifier": "for all n and k; for every list of points, over every ordered field", "why_tests_cant": "a least value over all lines, and a recursion, are not covered by single values", "anchors": ["GeDiM/src/Common/CommonUtilities.hpp:68-96"]}
{"id": "C109", "title": "A line meets exactly the listed edges of a polygon", "statement": "LinePolygonPosition lists, in the order of the edges, exactly the edges of the polygon that have a point on the line: Parallel if the whole edge is on the line, otherwise the coordinate of the only common point with OnEdgeOrigin, OnEdgeEnd or InsideEdge according to its place on the edge. The type is Intersecting exactly if the list is not empty. The answer depends on the line only, not on the point chosen as its origin. A direction shorter than the tolerance is refused.", "quantifier": "for every polygon with any number of vertices and every line, over every ordered field with a square root; the exact answer for edges and lines away from the limits of the tolerances", "why_tests_cant": "the tests use three lines and one triangle, and the only line along an edge starts at an end of this edge", "anchors": ["GeDiM/src/Geometry/GeometryUtilities_Polygon.cpp:1587-1672", "GeDiM/src/Geometry/GeometryUtilities_Intersection.cpp:50-250"]}
{"id": "C110", "title": "Markers of a mesh of a polygon", "statement": "ChangePolygonMeshMarkers on a mesh of dimension 2 keeps marker 0, replaces the marker v + 1 (v below the number n of polygon vertices) of a vertex by cell0DMarkers[v] and the marker n + 1 + e of a vertex or an edge by cell1DMarkers[e], and changes nothing else; with any other marker it throws. SetPolygonMeshMarkers, for a mesh and a polygon in the plane, gives to a mesh vertex the marker of the last polygon side that it is on up to the tolerances: cell0DMarkers[e] at the origin of side e, cell1DMarkers[e] in its interior, nothing from its end; an edge with both ends on a side gets the marker of the last such side; all the rest is unchanged. So a mesh vertex at a polygon vertex gets the marker of that vertex, a mesh vertex inside a side that of the side, a mesh edge on a side that of the side, and what is away from the boundary keeps its marker.", "quantifier": "all consistent meshes of dimension 2, all polygons with sides of positive length, all vectors of markers, all tolerances below 1/2", "why_tests_cant": "The test TestCreateTriangleMesh checks six markers of one mesh of the square after ChangePolygonMeshMarkers, and SetPolygonMeshMarkers is not tested; that nothing else changes, which side wins at a corner and what happens with unknown markers concern all cells of all meshes.", "anchors": ["GeDiM/src/Mesh/MeshUtilities2D.cpp:2016-2046", "GeDiM/src/Mesh/MeshUtilities2D.cpp:2048-2115"]}
{"id": "C111", "title": "Joining edges replaces them by one edge", "statement": "The information for AgglomerateCell1Ds of two or more edges lists every end of the edges once: as removed exactly if the vertex has two or more edges and all its edges are among them, otherwise as a vertex of the union. AgglomerateCell1Ds of two or more edges appends one edge with the two given ends, active, with the greatest marker and with the polygons and polyhedra of the joined edges, each once or, if the order of the sides is kept, in the same slot; it makes the joined edges and the removed vertices inactive, gives the new edge the original edges of all joined ones, and afterwards each end lists the new edge and none of the joined edges. Everything else is kept.", "quantifier": "all well-formed meshes, all sets of two or more edges, all pairs of different ends, all removed vertices and all orders of iteration of the hash tables", "why_tests_cant": "The only test of the function joins all three edges of a mesh of a line and checks the number returned and the original edges; it looks at no neighbours, so the wrong lists at the ends of the line are not seen, and meshes with polygons or markers are not joined.", "anchors": ["GeDiM/src/Mesh/MeshUtilities1D.cpp:293-480"]}
{"id": "C112", "title": "Joining polygons replaces them by one polygon", "statement": "AgglomerateCell2Ds of two or more polygons appends one polygon with the given vertices and edges, active, with the greatest marker and with the polyhedra of the joined polygons, each once; it makes the joined polygons and the removed vertices and edges inactive and gives the new polygon the original polygons of all joined ones. Afterwards the edges of the new polygon list it in the places of the joined polygons, and each of its vertices lists the new polygon and none of the joined ones. Everything else is kept. For fewer polygons nothing changes and the polygon, or the number of polygons, is returned.", "quantifier": "all well-formed meshes, all sets of two or more polygons, all lists of different vertices and edges, all removed vertices and edges and all orders of iteration", "why_tests_cant": "the test joins pairs of polygons of one mesh in which the vertices list no polygons, and checks the number and the original polygons of the result only", "anchors": ["GeDiM/src/Mesh/MeshUtilities2D.cpp:2281-2386"]}
{"id": "C113", "title": "Joining polyhedra replaces them by one polyhedron", "statement": "The information for AgglomerateCell3Ds of two or more polyhedra lists every face, edge and vertex of them once, as removed exactly if it is inside the union: a face with two or more neighbours that are all joined, an edge all of whose faces are removed, a vertex all of whose edges are removed (in a mesh with all lists of neighbours filled). AgglomerateCell3Ds appends one polyhedron with the given vertices, edges and faces, active, with the greatest marker; it makes the joined polyhedra and the removed cells inactive and gives the new polyhedron the original polyhedra of all joined ones. Afterwards the faces of the new polyhedron list it in the places of the joined polyhedra, and each of its vertices and edges lists it and none of the joined ones. Everything else is kept. For fewer polyhedra nothing changes.", "quantifier": "all well-formed meshes, all sets of two or more polyhedra, all lists of different vertices, edges and faces, all removed cells and all orders of iteration", "why_tests_cant": "the tests join a few polyhedra of one mesh and check the information and the number of the result; no test looks at the neighbours afterwards", "anchors": ["GeDiM/src/Mesh/MeshUtilities3D.cpp:2557-2720", "GeDiM/src/Mesh/MeshUtilities3D.cpp:2722-2838"]}
{"id": "C114", "title": "Cutting a polygon along a chord gives two polygons that share the chord", "statement": "SplitPolygon_NoNewVertices, _NewVertexFrom, _NewVertexTo and _NewVertices cut the polygon along the chord between two of its vertices or new vertices on its (already split) sides. If both parts have an area and the chord a length above the tolerances, one edge and two polygons are appended: the boundary of the polygon, with split sides replaced by their halves, is divided in two at the ends of the chord, and each new polygon has one of the two pieces closed by the new edge. Both are active, have the marker and the original of the old polygon, which becomes inactive and points to them; the new edge has one of them on each side and the lists of neighbours name the new polygon in place of the old one. If the boundary encloses the polygon, then the new boundaries enclose the new polygons, and their areas add up to the old area. Otherwise nothing is changed and no split is reported.", "quantifier": "all well-formed meshes, all polygons with as many edges as vertices, all pairs of different vertices or sides, all directions of the halves, all tolerances", "why_tests_cant": "the tests call these functions only through RefinePolygonCell_ByDirection on a few meshes and compare the numbers of cells; the neighbours, the order of the vertices and the cuts that have to be refused are not looked at", "anchors": ["GeDiM/src/Mesh/RefinementUtilities2D.cpp:177-203", "GeDiM/src/Mesh/RefinementUtilities2D.cpp:205-308", "GeDiM/src/Mesh/RefinementUtilities2D.cpp:310-426", "GeDiM/src/Mesh/RefinementUtilities2D.cpp:428-541", "GeDiM/src/Mesh/RefinementUtilities2D.cpp:543-668"]}
{"id": "C115", "title": "A new vertex on an edge is passed on to all polygons of the edge", "statement": "UpdateCell2D_NewVertex replaces a polygon by one with the new vertex between the ends of the split edge and with the two halves in the place of the edge, in the order of the polygon; the old polygon becomes inactive and points to the new one, which takes over marker, original and the places in the lists of neighbours. RefinePolygonCell_UpdateNeighbours does this for every polygon of the edge except the refined one and those replaced before, and reports each of them once with its replacement. Afterwards no active polygon has the edge, so the vertex is not a hanging one; the new boundaries enclose the polygons they replace, and have the same area if the vertex is on the edge. Everything else is kept.", "quantifier": "all well-formed meshes, all polygons with as many edges as vertices, all edges, all numbers and orders of neighbours and all directions", "why_tests_cant": "the tests call RefinePolygonCell_UpdateNeighbours after RefinePolygonCell_ByDirection on a few meshes and compare the numbers of cells; the order of the vertices and edges of the replaced neighbours and the lists of neighbours are not looked at", "anchors": ["GeDiM/src/Mesh/RefinementUtilities.cpp:50-85", "GeDiM/src/Mesh/RefinementUtilities2D.cpp:1696-1765"]}
{"id": "C116", "title": "An edge is split only if no polygon of it objects, and the objectors are named", "statement": "RefinePolygonCell_IsCell1DToSplit allows to split an edge exactly if it is met in its interior, half of it has a length, half of it is as long as every polygon of the edge asks for by its quality, and as long as the weighted mean length, after the split, of the edges on the same line of every polygon of the edge. The flags tell for each polygon of the edge, for the refined polygon and for all of them if the test is passed. The type names the first test that failed and whether only the refined polygon, only its neighbours or both object.", "quantifier": "all well-formed meshes, all edges, all numbers and orders of the polygons of the edge, all weights, qualities, lengths and lines, all tolerances", "why_tests_cant": "no test calls the function, and the types it returns are only set by hand in a test of another function; it runs only inside refinements of a few meshes whose numbers of cells are compared", "anchors": ["GeDiM/src/Mesh/RefinementUtilities2D.cpp:866-1004", "GeDiM/src/Mesh/RefinementUtilities.hpp:82-109"]}
{"id": "C117", "title": "The chord for the refinement by a direction joins ends or middles of the two sides met by the line", "statement": "SplitPolygon_CheckSplitType always answers. In polygons that are not triangles a new vertex is put on exactly the sides that are to be split. If no side is to be split, the two chosen vertices are ends of the two sides: the ones nearer to the intersections if they give a cut, otherwise one of them is replaced by the other end of its side, and an intersection in a vertex is kept. The chord between the chosen vertices cuts the polygon (the last point is violated).", "quantifier": "all polygons, all pairs of intersected sides, all verdicts about the sides, all tolerances", "why_tests_cant": "the tests of the refinement run a few fixed meshes with fixed directions and do not call the choice of the chord on its own", "anchors": ["GeDiM/src/Mesh/RefinementUtilities2D.cpp:18-139", "GeDiM/src/Mesh/RefinementUtilities.cpp:87-110"]}
{"id": "C118", "title": "The refinement of a polygon by a direction cuts it in two parts with the same total area", "statement": "RefinePolygonCell_ByDirection with a polygon to be split either reports why it did not split it, or halves the sides that get a new vertex at their middles and cuts the polygon along a chord between the two sides met by the line; the ends of the chord are the new vertices or ends of the two sides, and a corner on the line of the halved side is not used. A successful result reports exactly the new vertices, the halved edges with their halves, the new edge and the two new cells. The boundaries of the new cells are closed paths of edges with the cells as neighbours on the proper sides, and their areas add up to the area of the old cell. If the polygon is not split, the mesh is as before (the last point is violated).", "quantifier": "all well-formed meshes, all polygons with distinct edges, all pairs of sides, all verdicts about the sides, all tolerances", "why_tests_cant": "the tests refine a few fixed meshes and compare the numbers of cells; the ends of the chord, the directions of the halves and the lists after a refinement that is given up depend on the mesh", "anchors": ["GeDiM/src/Mesh/RefinementUtilities2D.cpp:1332-1694", "GeDiM/src/Mesh/RefinementUtilities2D.cpp:141-175"]}
{"id": "C119", "title": "The two sides for the refinement by a direction are the first two different intersections with the line", "statement": "RefinePolygonCell_CheckRefinement reports a polygon that was split before, one whose half area is zero within the tolerance, and one that is not met by the line or has a side on the line before the second intersection, each by its own type. Otherwise it names the side of the first intersection and the side of the first later intersection that is not an end of the first side, with their edges, their coordinates and the answers if they are to be split. Both intersections are points of the line, they are different points, and a line that only touches a vertex is reported as not inside (the last two points are violated for lines through a vertex of the polygon).", "quantifier": "all well-formed meshes, all polygons, all lines, all numbers of intersections, all tolerances", "why_tests_cant": "all tests of the refinement use fixed meshes with lines that cut the polygon and expect the type Cell2DToBeSplitted; the other types and lines which only touch a vertex do not occur", "anchors": ["GeDiM/src/Mesh/RefinementUtilities2D.cpp:1200-1330"]}
{"id": "C120", "title": "Triangles around a vertex are put together to the polygon around them", "statement": "AgglomerateTriangles of triangles that have one vertex in common and follow each other counter clockwise around it returns the polygon they cover. Its vertices are the common vertex and the vertices opposite to it, in order. Its edges are the first spoke, the edges opposite to the common vertex and the last spoke, and each runs from a vertex to the next. The spokes between two of the triangles are returned as removed. No vertex or edge of the polygon occurs twice, no edge is both kept and removed, every edge of a triangle is one or the other, and the area of the polygon is the sum of the areas of the triangles.", "quantifier": "for all meshes, all numbers of triangles and all positions at which the vertices and edges of a triangle start", "why_tests_cant": "The test of the repository puts five triangles of one mesh together and compares the lists; the test with random triangles takes one triangle less than there are around the vertex and checks no polygon.", "anchors": ["GeDiM/src/Mesh/MeshUtilities2D.cpp:1401-1466", "GeDiM/src/Mesh/MeshUtilities.hpp:1134-1140"]}
{"id": "C121", "title": "Groups of triangles in a mesh become polygons", "statement": "AgglomerateMeshFromTriangularMesh of groups of three or more triangles, each with one vertex in common and in counter clockwise order, appends one active polygon per group, with the vertices and edges around the group. The triangles of the groups and the edges between two triangles of a group become inactive, every such triangle names its polygon as its updated cell, and all other cells stay as they were. The result lists the polygons with their triangles in the order of the groups, and the removed edges and triangles in ascending order. A triangle or inner edge that is inactive or belongs to two groups is refused. Active edges name active polygons as their neighbours afterwards.", "quantifier": "for all meshes, all numbers of groups and all numbers of triangles in a group", "why_tests_cant": "The test of the repository puts two groups of one mesh together and compares the removed cells, the numbers of the polygons and their triangles. It does not check the mesh, its states or its neighbours, and no group that is refused.", "anchors": ["GeDiM/src/Mesh/MeshUtilities2D.cpp:1468-1525", "GeDiM/src/Mesh/MeshUtilities.hpp:266-278"]}
{"id": "C122", "title": "Markers on a plane", "statement": "SetMeshMarkersOnPlane gives the marker to exactly the vertices that are within the tolerance of the plane, the edges with both ends there and the faces with all vertices there. All other markers and all other data of the mesh stay as they were. The length and the orientation of the normal do not matter.", "quantifier": "for all meshes whose edges and faces have vertices of the mesh, all planes with a normal that is not zero and all markers", "why_tests_cant": "The test of the repository marks one plane of one mesh with a unit normal and looks at the markers of cells on the plane only. It does not look at the cells that must keep their markers.", "anchors": ["GeDiM/src/Mesh/MeshUtilities3D.cpp:649-697", "GeDiM/src/Mesh/MeshUtilities.hpp:591-600"]}
{"id": "C123", "title": "Markers on the boundary faces with a given normal", "statement": "SetMeshMarkersByFaceNormal gives the marker to exactly the faces that have one polyhedron of the mesh as neighbour and a normal parallel to the given direction up to the tolerance, in either orientation, and to their vertices and edges. All other markers and all other data of the mesh stay as they were. A face with one neighbour and without a normal ends in an exception.", "quantifier": "for all meshes whose faces have vertices and edges of the mesh, all lists of normals that are not too short, all directions and all markers", "why_tests_cant": "The test of the repository uses one mesh and one direction and looks at cells that get the marker only. It does not look at inner faces with the same normal or at cells that must keep their markers.", "anchors": ["GeDiM/src/Mesh/MeshUtilities3D.cpp:699-741"]}
{"id": "C124", "title": "Lines along which a cell is cut", "statement": "The longest edge of a triangle or tetrahedron is the first of the edges with the greatest length, and the opposite vertices are the vertices that are not on it, in rising order. The line of a triangle starts in the vertex opposite to a longest edge and leads to the middle of that edge, so that both sides have half of the area; the line by inertia of a triangle is the same with a tangent of length one. The line by the diameter goes through the given point, at a right angle to the segment between two vertices at the greatest distance. A tetrahedron without six edges and six lengths, a single point and points outside the plane are refused.", "quantifier": "for all lengths, all triangles, all numbers of points in the plane and all given points", "why_tests_cant": "The tests of the repository pass the lines on to the refinement of a mesh and do not look at them; two of the tests replace them in the first refinement.", "anchors": ["GeDiM/src/Mesh/RefinementUtilities2D.cpp:670-699", "GeDiM/src/Mesh/RefinementUtilities2D.cpp:1006-1041", "GeDiM/src/Mesh/RefinementUtilities3D.cpp:18-48", "GeDiM/src/Geometry/GeometryUtilities_Point.cpp:28-47"]}
{"id": "C125", "title": "Labels of edges during a refinement", "statement": "RefinePolygonCell_InitializeGeometricData gives every edge of a mesh that was not refined a label of its own. RefinePolygonCell_UpdateGeometricData gives a label to every edge of the given polygons: an edge that is a piece of another gets the label of that edge, any other edge without a label gets a new one. Labels that were there never change, and the edges of other polygons keep theirs. So two edges have the same label exactly if they are pieces of the same edge. A piece takes over the state of its edge, new edges that are no pieces are checked for quality, and all other states stay.", "quantifier": "for all meshes, all lists of polygons whose pieces belong to edges with a label, and all labels that fit to the mesh", "why_tests_cant": "The tests of the repository use the labels within refinements of some meshes and compare the numbers of cells. They do not compare the label of any edge.", "anchors": ["GeDiM/src/Mesh/RefinementUtilities2D.cpp:701-717", "GeDiM/src/Mesh/RefinementUtilities2D.cpp:754-865", "GeDiM/src/Mesh/RefinementUtilities.hpp:280-292"]}
{"id": "C126", "title": "Splitting a polyhedron keeps the neighbour lists complete", "statement": "SplitCell3D(c, subs) makes c inactive and adds the sub-cells as new active polyhedra with the given vertices, edges and faces, the marker of c and c as their original; all other cells stay as they were. Every vertex, edge and face of a sub-cell that listed c as neighbour lists each sub-cell that has it, and no longer c. Lists of sub-cells of different lengths are refused.", "quantifier": "for all meshes, all polyhedra and all lists of sub-cells made of vertices, edges and faces of the mesh", "why_tests_cant": "The one test of the repository splits a cube into two prisms and compares the neighbours of faces, which belong to one sub-cell each. It does not look at the neighbours of vertices and edges, where the sub-cells meet.", "anchors": ["GeDiM/src/Mesh/MeshUtilities3D.cpp:2481-2555", "GeDiM/src/Mesh/MeshUtilities.hpp:985-996"]}
{"id": "C127", "title": "A triangulation becomes a mesh of quadrilaterals", "statement": "CreateQuadrilateralMeshFromTriangularMesh on a mesh of triangles writes, into an empty mesh, the vertices of the triangulation, the middles of its edges and the barycenters of its triangles, the two halves of every edge and the three lines from each barycenter to the middles of the sides, and three quadrilaterals per triangle, one at each corner. Vertices and edges that come from a vertex or an edge keep its marker; what is inside a triangle has the marker 0. The edges of every quadrilateral go round it, whichever way the edges of the triangulation point. Each quadrilateral has the orientation of its triangle and a third of its area.", "quantifier": "every well-formed mesh whose polygons are triangles with three different corners and whose edges join vertices, over every ordered field", "why_tests_cant": "No test calls the function; and the choice between the two halves of an edge depends on the direction of each of the three edges of each triangle, which a mesh made by one generator does not vary.", "anchors": ["GeDiM/src/Mesh/MeshUtilities_MeshGenerators.cpp:2198-2310", "GeDiM/src/Mesh/MeshUtilities.hpp", "GeDiM/src/Geometry/GeometryUtilities.hpp:1710-1714"]}
{"id": "C128", "title": "A new vertex on an edge is passed on to the polyhedra of the edge", "statement": "RefinePolyhedronCell_UpdateEdgeNeighbours replaces every polyhedron of the split edge, except the refined one and those replaced before, by a polyhedron with the new vertex, with the two halves in the place of the edge, and with the same marker. Every face of these polyhedra with the edge is replaced by a polygon with the new vertex at its place, one time only: polyhedra with a common face get the same new polygon, and a face that the table passed by the caller already knows gets the polygon of the table. Neither a new polyhedron nor a face of it has the edge any more. The replaced cells are inactive and name their successors, the result lists the pairs of old and new polyhedra, the table is extended by the pairs of old and new faces, and the vertices, edges and other cells keep their data.", "quantifier": "every well-formed mesh, every edge, every list of polyhedra of the edge with gaps, every table, and every choice of the direction of the edge in the faces", "why_tests_cant": "The enabled test counts the cells of one refined mesh of 22 tetrahedra and does not look at what the new polyhedra consist of; the test that also checks the mesh is skipped. No test shows that a common face is replaced one time only for every number of polyhedra around an edge.", "anchors": ["GeDiM/src/Mesh/RefinementUtilities3D.cpp:539-633", "GeDiM/src/Mesh/RefinementUtilities.hpp:444", "GeDiM/test/Mesh/test_refinementUtilities3D.hpp"]}
{"id": "C129", "title": "The name of a file is taken apart in folder, name and extension", "statement": "GetFilePath gives the folder with its last separator, the name, and the extension without its dot, for every text: the parts put together are the text, the name and the extension have no separator, and the extension begins behind the last dot of the part behind the folder. A dot in the name of a folder is not taken for the beginning of an extension. If there is no folder or no extension, the corresponding argument becomes empty.", "quantifier": "every text shorter than 2^64 characters and every value of the arguments before the call", "why_tests_cant": "No test calls the function. Its only caller passes the path of a csv file, and the length of the name is computed by a subtraction of unsigned numbers that is negative when the last dot is in the folder.", "anchors": ["GeDiM/src/IO/IOUtilities.cpp:136-156", "GeDiM/src/IO/IOUtilities.hpp:64-65", "GeDiM/src/Mesh/MeshFromCsvUtilities.cpp:924-926"]}
{"id": "C130", "title": "A folder is made together with the folders on the way to it", "statement": "CreateFolder asks for folders in such an order that afterwards the folder with the given path and all folders on the way to it exist, whatever existed before, and no other folder is made. Empty names and the name \".\" in the path have no effect, and a path that begins or ends with a separator is allowed.", "quantifier": "every path without the name \"..\", and every set of existing folders that contains the folder the path starts from", "why_tests_cant": "The tests call the function for a few fixed relative paths in order to write files there, and do not look at what was made.", "anchors": ["GeDiM/src/IO/IOUtilities.cpp:87-120", "GeDiM/src/IO/IOUtilities.hpp:58-61"]}
{"id": "C131", "title": "The text of an OFF mesh and the mesh say the same", "statement": "The lines that are written for an OFF mesh are the word OFF, the numbers of vertices, polygons and edges in this order, one line of coordinates per vertex and one line per polygon with the number of its vertices and the vertices. Reading these lines, also with a different first line or with further lines behind them, gives the mesh back. A text with fewer lines or fewer words than it announces is refused.", "quantifier": "every OFF mesh whose numbers of vertices and polygons are those of its matrices, and every text", "why_tests_cant": "The test reads one mesh of 100 vertices, writes it and compares the lines. It does not read a text that is cut off, nor one with other lines behind the polygons.", "anchors": ["GeDiM/src/Mesh/ObjectFileFormatInterface.cpp:28-70", "GeDiM/src/Mesh/ObjectFileFormatInterface.cpp:72-102", "GeDiM/src/Mesh/ObjectFileFormatInterface.hpp:23-31"]}
{"id": "C132", "title": "A mesh that goes through a file format keeps its vertices and polygons", "statement": "A mesh of polygons that is exported to an OFF or OBJ mesh and imported into an empty mesh has the same vertices and the same polygons, in the same order and with the same states. The edges of the imported mesh are exactly the sides of the polygons, each one time, from the smaller to the larger vertex, and each polygon lists for every side the edge that joins its two vertices. The new mesh has no markers, neighbours or properties.", "quantifier": "every well-formed mesh whose polygons have vertices of the mesh and no vertex twice in a row", "why_tests_cant": "The tests import one file per format whose cells are all active and whose edges are all sides; the OBJ test compares only numbers of cells and lines.", "anchors": ["GeDiM/src/Mesh/ObjectFileFormatInterface.cpp:104-124", "GeDiM/src/Mesh/ObjectFileFormatInterface.cpp:126-172", "GeDiM/src/Mesh/WavefrontOBJInterface.cpp:129-149", "GeDiM/src/Mesh/WavefrontOBJInterface.cpp:151-197"]}
{"id": "C133", "title": "An OBJ text is read as the format says", "statement": "Reading an OBJ text gives one vertex per line of a vertex and one polygon per line of a polygon, in the order of the lines. A positive index counts the vertices from 1, a negative one counts back from the last vertex before the line. Other lines change nothing. A polygon with a word that is not an integer ends with an exception, and an index that names no vertex is refused. What is written for a mesh is read as the same mesh.", "quantifier": "every list of lines, with vertices and polygons in any order, and every mesh", "why_tests_cant": "The test reads one file with positive indices and compares numbers of cells; negative indices, whose meaning depends on the place of the line, do not occur in it.", "anchors": ["GeDiM/src/Mesh/WavefrontOBJInterface.cpp:28-98", "GeDiM/src/Mesh/WavefrontOBJInterface.cpp:100-127"]}
{"id": "C134", "title": "A mesh of polyhedra that goes through an OVM mesh stays the same", "statement": "A mesh of polyhedra that is exported to an OVM mesh and imported into an empty mesh has the same vertices, edges and polygons and polyhedra with the same faces, in the same order and with the same states. The vertices and edges of an imported polyhedron are those of its faces, each one time. The orientations of the faces that are given to the export are those the import returns. The half edges of the OVM mesh begin at the vertices of the polygons, whatever the direction of the edges.", "quantifier": "every well-formed mesh whose polygons and polyhedra refer to cells of the mesh and have as many edges as vertices, every choice of orientations, every order in which the sets of vertices and edges are gone through", "why_tests_cant": "The test takes one file through reading and writing, with all cells active; the order of an unordered set depends on the standard library, and other directions of edges than those in the file do not occur.", "anchors": ["GeDiM/src/Mesh/OpenVolumeMeshInterface.cpp:176-262", "GeDiM/src/Mesh/OpenVolumeMeshInterface.cpp:264-354"]}
{"id": "C135", "title": "An OVM text is read as the mesh it was written from", "statement": "The text of an OVM mesh has the four parts of the format, vertices, edges, faces and polyhedra, each with its number of cells and one line for every cell, and nothing else. Reading it gives the mesh back, and what the lines between the parts say makes no difference. A text with fewer lines or a line with fewer words than announced is refused.", "quantifier": "every OVM mesh whose half edges, half faces and numbers fit together, every text of it, every text with too few lines", "why_tests_cant": "The test reads one correct file of one mesh; texts that end early or have short lines are infinitely many and do not occur.", "anchors": ["GeDiM/src/Mesh/OpenVolumeMeshInterface.cpp:28-114", "GeDiM/src/Mesh/OpenVolumeMeshInterface.cpp:116-174"]}
{"id": "C136", "title": "The mesh of one polyhedron has its vertices, edges and faces", "statement": "Making a mesh of one polyhedron in an empty mesh gives a mesh of dimension 3 with the given vertices, edges and faces, in the same order, and one polyhedron that has all of them. All cells are active. The markers are the given ones if there are as many as cells; otherwise vertices, edges and faces are counted together from 1; the polyhedron has marker 0. There are no neighbours, properties or old cells. Fewer than four vertices, or a face with an index that names no vertex or edge, stop the call at an assertion; the ends of the edges are stored as they are.", "quantifier": "every list of vertices, edges and faces and every list of markers", "why_tests_cant": "The test makes the mesh of one cube with markers for all cells and compares three numbers of cells; missing markers and wrong indices do not occur.", "anchors": ["GeDiM/src/Mesh/MeshUtilities3D.cpp:565-648"]}
{"id": "C137", "title": "A polyhedron of a mesh is given with local indices", "statement": "Taking a polyhedron out of a mesh gives its vertices in the order of the mesh's list, and edges and faces that refer to places in the lists of the polyhedron: edge i joins the local vertices of the ends of edge i, and column j of a face names vertex j and edge j of that face. If an edge or a face has a vertex or edge that the polyhedron has not, the call ends with an exception. The polyhedron of a mesh made from one polyhedron is that polyhedron.", "quantifier": "every well-formed mesh and every polyhedron in it, also with indices far from the local ones", "why_tests_cant": "No test calls the function on its own; the tests that use it do so in meshes whose polyhedra are complete.", "anchors": ["GeDiM/src/Mesh/MeshUtilities3D.cpp:2411-2451"]}
{"id": "C138", "title": "The intersections between segments list each crossing for both segments", "statement": "For segments longer than the tolerance, given with their middle points and lengths, IntersectionsBetweenSegments ends and gives one list for each segment. The list of a segment has one coordinate for each other segment that touches it in a single point, in the order of the segments, and none for itself. If segment s has a coordinate for t, then t has one for s, the two points are nearest to each other on the lines, on both segments up to the tolerance, and no farther apart than the tolerance allows. Two segments with a common point whose directions differ have exactly the coordinates of this point; in particular the test of the two spheres never drops a pair with a common point.", "quantifier": "every number of segments in space, all lengths above the tolerance and all positions", "why_tests_cant": "The tests hand the result on to the conforming of a mesh and do not look at it; the segments are two fixed ones or random ones, all in the plane, where nearly parallel segments hardly occur.", "anchors": ["GeDiM/src/Geometry/GeometryUtilities_Intersection.cpp:251-290", "GeDiM/src/Geometry/GeometryUtilities.hpp:1220-1228"]}
{"id": "C139", "title": "A polyhedron of a mesh is given as vertices and faces for the export", "statement": "MeshCell3DToVTPPolyhedron gives the points of the vertices of a polyhedron in the order of the mesh's list and, for each of its faces in order, the places in this list of the vertices of the face, in the order of the face. If a face has a vertex that the polyhedron has not, the call ends with an exception. The edges of the polyhedron do not matter.", "quantifier": "every well-formed mesh and every polyhedron whose vertices and faces are cells of the mesh, in any order", "why_tests_cant": "The test exports the polyhedra of one mesh to a file and does not compare the faces; a missing vertex does not occur.", "anchors": ["GeDiM/src/Mesh/MeshUtilities3D.cpp:2452-2479"]}
{"id": "C140", "title": "The intersection of a mesh with a segment begins at 0 and ends at 1", "statement": "Given two or more intersection points of a segment with a mesh, by increasing coordinates on the segment up to the tolerance, the check of the ends keeps their number, their order and the cells that each point has. The first point is moved to coordinate 0 and the last to 1, unless they are there up to the tolerance; no other point moves. With fewer than two points the call stops at an assertion.", "quantifier": "every tolerance below one half and every map of points with coordinates on the segment, also when the segment begins or ends outside of the mesh", "why_tests_cant": "The tests compare numbers of points and cells for a few fixed segments; they do not vary where the segment leaves the mesh or how near the first point is to the tolerance.", "anchors": ["GeDiM/src/Mesh/IntersectorMesh2DSegment.cpp:61-89", "GeDiM/src/Mesh/IntersectorMesh2DSegment.cpp:441-466", "GeDiM/src/Mesh/IntersectorMesh2DSegment.cpp:616"]}
{"id": "C141", "title": "The segments between intersection points have the common cells of their ends", "statement": "For one or more points there is exactly one segment between each point and the next, in order, with their coordinates as ends. Its polygons and edges are exactly those that both points have, each once. Without points the call ends with an exception. The same holds for the conformed mesh of a segment.", "quantifier": "every map of points with any sets of cells", "why_tests_cant": "The tests compare the numbers of cells of the segments for a few meshes, not which cells they are, and never have a map without points.", "anchors": ["GeDiM/src/Mesh/IntersectorMesh2DSegment.cpp:405-439", "GeDiM/src/Mesh/ConformerMeshSegment.cpp:153-187"]}
{"id": "C142", "title": "The conformed mesh of a segment has the points of the union with the cells of the own mesh", "statement": "Given the intersection of a mesh with a segment and the union with another one, whose points are farther apart than the tolerance, begin and end with points of the own mesh and have all of them, the conformed mesh has exactly the points of the union. A point of the own mesh is marked original and has the vertices, edges and polygons of its intersection point; a point of only the other mesh is marked inherited, has no vertices, and has the edges and polygons of the own segment in which it is. If the first point of the union is only of the other mesh, the call stops at an assertion.", "quantifier": "every number of points, every distribution of the points on the two meshes, both positions of the own mesh", "why_tests_cant": "The tests compare numbers of cells for a few segments; how the points of the two meshes alternate is not varied, and a union that begins with the other mesh does not occur.", "anchors": ["GeDiM/src/Mesh/ConformerMeshSegment.cpp:72-95", "GeDiM/src/Mesh/ConformerMeshSegment.cpp:97-151"]}
{"id": "C143", "title": "RemoveRow and RemoveColumn leave the other rows and columns", "statement": "With the number of a row (column) of the matrix, Eigen_Utilities::RemoveRow (RemoveColumn) leaves a matrix with one row (column) less: those before the removed one are unchanged, those after it come one place earlier, and the entries within them do not change. The number is not checked: with a number that no column has, RemoveColumn loses the last column.", "quantifier": "all matrices, all row and column numbers", "why_tests_cant": "The source and the target of the copy overlap, so the result depends on the order of the copy for every size and position; tests try a few small matrices.", "anchors": ["GeDiM/src/Algebra/Eigen_Utilities.cpp:61-70", "GeDiM/src/Algebra/Eigen_Utilities.cpp:72-81"]}
{"id": "C144", "title": "MarkCells gives each cell the largest mark of its points", "statement": "MeshUtilities::MarkCells returns one mark for each cell, in order: the default mark for a cell without points, otherwise the largest of the marks that the marking function gives to the points of the cell. The marking function is not called for a cell without points.", "quantifier": "all marking functions, all lists of cells and default marks", "why_tests_cant": "The largest int is stored in an unsigned int; tests use only marks that are not negative.", "anchors": ["GeDiM/src/Mesh/MeshUtilities.cpp:1125-1144"]}
{"id": "C145", "title": "The cells in a UCD file are the points, segments, polygons or polyhedra given", "statement": "ExportPoints, ExportSegments, ExportPolygons and ExportPolyhedra of UCDUtilities write one cell line for each element, in order, numbered from 1, with the label of a shape that has the dimension and the number of points of the element, the points of the element numbered from 1, and its material if there are as many materials as elements, otherwise material 0. A polygon that is not a triangle or a quadrilateral, or a polyhedron without 4 or 8 points, ends the call with an exception before the file is opened.", "quantifier": "all lists of elements with point numbers below 2^32 - 1 and all lists of materials that are not negative", "why_tests_cant": "The exporter has no reader; the tests write files and do not check what is in them.", "anchors": ["GeDiM/src/IO/UCDUtilities.cpp:94-170", "GeDiM/src/IO/UCDUtilities.cpp:204-214", "GeDiM/src/IO/UCDUtilities.cpp:280-303", "GeDiM/src/IO/UCDUtilities.hpp:31-57"]}
