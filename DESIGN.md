# Design of the formal model

The model covers parts of the GeDiM library (`/repo/GeDiM/src`).
It is written in Lean 4 and lives in `lean/Verif`.
The C++ code is read as text only; it is neither built nor run.

## How the model is organised

* For each topic there are up to four files:
  `XModel.lean` (functions that follow the C++ line by line, each with a
  comment naming file and lines), `XSpec.lean` (a small specification written
  without the model's helpers), `XLemmas.lean` (helper lemmas) and
  `XProps.lean` (the property theorems and, beside each, an `example` that
  meets its hypotheses).
* Property theorems are named `cNN_...`, where `CNN` is the id in
  `properties.jsonl`.
  A theorem that covers only part of a property ends in `_partial`.
  A theorem that shows that the code violates a property ends in `_violated`.

## Outcomes

A C++ call can end in five ways and the model keeps them apart
(`Verif.Res`, file `Basic.lean`):

* `ok a`   the call returns `a`;
* `abort`  `Gedim::Output::Assert` failed and the program called `abort()`
  (`IO/IOUtilities.hpp:125-133`);
* `throw`  a C++ exception leaves the call;
* `ub`     undefined behaviour: reading or writing a `std::vector` out of
  range, `front()` of an empty container, and so on;
* `loop`   the call did not return within the given amount of fuel.
  Recursions and loops without an evident bound take a fuel argument.
  Theorems about them name a bound and hold for every amount of fuel above it.

Theorems that speak of a result state that the outcome is `ok`.
They never rely on a default value for an out-of-range read.

## Numbers

* `unsigned int` is modelled by `Nat`.
  The sentinel `std::numeric_limits<unsigned int>::max()` is the constant
  `UINT_MAX = 2^32 - 1`.
  Sums and sizes are assumed not to exceed `2^32 - 1`; where the code relies on
  wrap-around (for instance `(i - 1) % n` at `i = 0`) the wrap is modelled
  explicitly.
* `double` is modelled by an arbitrary (ordered) field, by the rationals or by
  the reals.
  Rounding is not modelled.
  Theorems about formulas are therefore statements about the formula, not about
  its floating point evaluation.
* `std::unordered_map`/`unordered_set` are association lists / lists.
  Where iteration order matters the theorem holds for every order.
* `std::map` and `std::set` are sorted lists.

## Trusted base

* The Lean 4 kernel and the Mathlib modules that are imported.
* Axioms: at most `propext`, `Classical.choice` and `Quot.sound`.
  No axiom is added, nothing is left unproved, and no compiled evaluation is
  trusted.
* The reading of the C++ source by which the model was written.
  The comment at each definition says which lines it follows and where it is
  simpler than the code.
* The tables of the quadrature rules were transcribed from the source by a
  script; the decimal constants are kept exactly, their rounding to doubles
  is left out.
* Not modelled: floating point rounding, memory and performance, the
  C++ standard library itself (`std::rotate`, `std::sort`, `stoi`, `getline`,
  ... are modelled by their documented effect), Eigen (matrices are lists or
  functions), MPI, Metis, Triangle, Tetgen, VTK, LAPACK, PETSc.

## Properties

| id | what is modelled | how it is proved |
|----|------------------|------------------|
| C01 | `ResizeNumberVectorWithNewNumberElements` on (offsets, elements) | refinement to a list of rows; the operation is `List.set` of one row |
| C02 | all list storages under Initialize/Append/Remove/resize/insert | invariant by induction over call sequences; a witness where `CellXDsInitialize` on a non-empty mesh breaks it |
| C03 | `CellXDRemove` on the whole mesh record | every array is shown to be `eraseIdx` of the old one, lists through the row refinement |
| C04 | `AlignContainerHigherElements` and the arrays it is applied to | renumbering function with its specification; witness for the sub-division array that is not renumbered |
| C05 | remove followed by append | witness, and a theorem for references that use the `UINT_MAX` sentinel |
| C06 | `CellXDAppend` | arrays are shown to be old arrays followed by defaults |
| C07 | recursive `CellXDUpdatedCellXDs` | induction on a rank that decreases along updated-cell links; a cycle, which the store accepts, makes the recursion run forever (`c07_cycle_does_not_return`) |
| C08 | insert-updated, original-cell links, `MeshCell2DRoots` | invariant by induction over call sequences |
| C09 | property size and value arrays | row refinement of C01 |
| C10 | `ExtractActiveMesh` loops | induction over the list of removed cells, composition of renumberings |
| C11 | the find loops | induction on the scanned list |
| C12 | neighbour slots with sentinel | sentinel value never falls below the number of cells as long as that number is below `2^32 - 1` |
| C13 | recursive depth-first search with fuel, fuel shown sufficient | white-path theorem |
| C14 | queue loop of breadth-first search | loop invariant on queue levels |
| C15 | two-pass transpose | counting lemma |
| C16 | both passes of the component algorithm | finishing-order argument on top of C13 |
| C17 | loop over the filter map in any order | counting lemma, independent of order |
| C18 | both conversions | permutation of edge lists |
| C19 | offset format and back | induction on rows |
| C20 | constraint loop | invariant: new labels are fresh |
| C21 | sub-graph loop using C16 and C17 | invariant over parts |
| C22 | renumbering loop of `NetworkPartition`; METIS is an argument with its documented contract | invariant: labels below the control value are all used, the rest fits in the rounds left |
| C23 | `operator<<`, `Split`, `Parse` on character lists | string lemmas; witness for sets |
| C24 | `Split` by `getline` | induction on characters; witness for a trailing separator |
| C25 | map insertions of `CreateUnionPoints` | invariant over the inserted list; witness for coordinate -1 |
| C26 | running indices of `CreateUnionSegments` | invariant over the union points |
| C27 | `CompareValues` and the comparators | case analysis over an ordered field |
| C28 | the same | witness for asymmetry; symmetric region as a partial theorem |
| C29 | `PointSegmentPosition(coordinate)` | case analysis |
| C30 | `Compute`, `F`, `FInv`, `J`, `DetJ` of the four affine maps, with the order tests of tetrahedron and parallelepiped; square root is a parameter | linear algebra; case analysis over the orders that are tried |
| C31 | shape functions, `F`, `J`, `JInv`, `DetJ` of both maps and `MapHexahedron::Compute` | polynomial identities; the derivative is stated as the exact change of `F` along one coordinate |
| C32 | shoelace sum, triangulations by first vertex and by inner point, orientation reversal | sums over cyclic lists; error bound for the fan, which skips triangles, and witness of unbounded loss |
| C33 | `PolygonNormal` with the wrapped index | two simple polygons, counter-clockwise by `PolygonArea`, with normal `-z`; partial theorem for convex polygons in any plane |
| C34 | barycentric formulas | field identities |
| C35 | scanning loop with its counter | loop invariant |
| C36 | edge matrix and the two numbering passes | sorted duplicate-free list of pairs |
| C37 | `CreateRectangleMesh`, all calls on the mesh store | the loops are shown to write an explicit list of cells; index arithmetic |
| C38 | `ComputeCell0DCell1DNeighbours` and the five similar functions on the mesh store | the lists after the loops as functions of the cell, refinement to rows |
| C39 | `SplitCell2D` neighbour update | witness; partial theorem |
| C40 | sorted intersections and the check loop | merging loop on sorted lists; witnesses for four polygons; partial theorem |
| C41 | `addRow`: resize then overwrite one list | row refinement of C01 |
| C42 | all branches of `NetworkPartition` that assign labels | C22; witnesses for one part and for no METIS |
| C43 | `Configurations` as one type map and one map of values | invariant over all call sequences; witness for `SetPropertyValue(const char*)` |
| C44 | `ExportToCsv`, `InitializeFromCsv` on character lists; `double` text is a parameter | induction on rows using the string lemmas; witnesses |
| C45 | `ExportToIni`, `InitializeFromIni` | the same |
| C46 | both conversions of type names | case analysis; witness for matrices |
| C47 | `ConvertPropertyFromString` | invariant of C43; witness |
| C48 | `Initialize` and `FindSeparator` | string lemmas; witness for empty values |
| C49 | vertex order of `MapHexahedron::Compute` | case analysis over all first faces; witness |
| C50 | `PolygonArea3D` | area vector as a cyclic sum |
| C51 | `PolygonCentroid` with `PolygonArea` | cyclic sums of moments, exact differences telescope |
| C52 | `MakeConcatenation` on closed loops | parity of degrees along the chain, connectedness |
| C53 | `ComputeCell1DCell2DNeighbours` in dimension 2 | list of slot writes; witness for stale slots; partial theorem |
| C54 | `FindCell2DsCommonEdges` | as C40; witness for three polygons; partial theorem |
| C55 | `CreateStructuredTriangularMesh`, all calls on the mesh store | as C37 |
| C56 | `FillMesh1D`, `FillMesh2D`, both overloads of `FillMesh3D`, `Cell0DsInsertCoordinates`, `Cell1DsInsertExtremes`, on the mesh store | exact result of every loop on a cell-by-cell description of the store; characterisation of the lists that are refused; violated (dangling extremes) for the vector overload |
| C57 | `FilterMesh1D/2D/3D`, `ExtractMesh1D/2D/3D` with both maps, on the mesh store and on top of the fill functions | invariant of the renumbering loop (inverse map), relation between old and new cells kept through the fill; violated (markers and states lost) in 1D |
| C58 | the tables of the source as decimal constants, selection by order | reduction to monomials by linearity of the integral, moments of the table evaluated by the kernel in exact integer arithmetic |
| C59 | as C58, with entries that are never written | as C58; violated for the orders from 16 on (two rows of the points never written) |
| C60 | the tables of the source as decimal constants, selection by order | iterated integrals of monomials (Beta function), moments evaluated by the kernel; violated for order 21 (rule of degree 20) |
| C61 | the tables of the source as decimal constants, selection by order | the table is the product of the table on the segment up to rounding (kernel), product of moments |
| C62 | the tables of the source as decimal constants, selection by order | iterated integrals of monomials, moments evaluated by the kernel |
| C63 | the tables of the source as decimal constants, selection by order | as C62, signs checked |
| C64 | the tables of the source as decimal constants, selection by order | the table is the triple product of the table on the segment up to rounding (kernel) |
| C65 | IntersectModel | partial: nearest points, aborts, collinear cases proved; near-parallel crossings, relation near the origin and touching segments violated |
| C66 | IntersectModel | proved |
| C67 | IntersectModel | partial: proved up to the tolerance of the discriminant; small circles crossed through the centre are reported tangent |
| C68 | PointPosModel | proved |
| C69 | PointPosModel | partial: the inside answer fails for thin triangles |
| C70 | PointPosModel | partial: even-odd rule proved for edges clear of the ray; fails if the ray passes a vertex within the tolerance |
| C71 | PointPosModel | partial: proved off the planes of the faces; on a face only up to C69 |
| C72 | PointPosModel | proved |
| C73 | LPModel.lean, LPProps.lean | partial: a variable without lower bound and with a negative upper bound is excluded, the value differs by `trasl_cost`; both violated by the code |
| C74 | LPModel.lean, LPProps.lean | proved |
| C75 | LPModel.lean, LPProps.lean | partial: the starting point must be feasible, no negative upper bound without lower bound, the tolerance must not hide entries, the value is relative to the starting point; without these the code violates the property |
| C76 | LPModel.lean, ChebyshevProps.lean | proved |
| C77 | OverlapModel.lean, OverlapSpec.lean, OverlapProps.lean | partial: for counter-clockwise triangles; for clockwise triangles the negation is proved |
| C78 | CoordsModel.lean, CoordsSpec.lean, CoordsProps.lean | partial: the equispaced coordinates and the random ones without ends completely; with the ends half of the distance; the negations of the rest are proved |
| C79 | PlaneModel.lean, PlaneSpec.lean, PlaneProps.lean | partial: all but the image of the third axis, which is proved except for normals opposite to it; there the negation is proved |
| C80 | PlaneModel.lean, PlaneSpec.lean, PlaneProps.lean | proved |
| C81 | PlaneModel.lean, PlaneProps.lean | partial: for all normals but those along the third axis with a component less than 0.9; for the opposite of the third axis the negation is proved |
| C82 | HullModel.lean, HullSpec.lean, HullProps.lean | partial: for points that the tolerances tell apart, in particular for all points with integer coordinates up to 2^20 with the default tolerances; for points on one line, with the aligned points, the negation is proved |
| C83 | OrientModel.lean, OrientProps.lean | partial: for convex polygons with any aligned vertices; for other polygons if the vertices of the hull are in the order of the polygon |
| C84 | OrientModel.lean, OrientProps.lean | partial: true for convex polygons that the tolerances tell apart, false if a vertex is away from the lines of all edges of the hull; the vertices of a convex polygon in any order are accepted as well, which is proved |
| C85 | EarModel.lean, EarSpec.lean, EarCycleLemmas.lean, EarThinLemmas.lean, EarModelLemmas.lean, EarWindLemmas.lean, EarRunLemmas.lean, EarRunLemmas2.lean, EarProps.lean | partial: the function returns or aborts for all polygons in the plane; the triangles it returns have areas that add up to the area of the polygon and cover every point as many times as the polygon winds around it; all but the last are counter clockwise; for strictly convex polygons a triangulation with n - 2 counter clockwise triangles is returned; not proved: that an ear is found in every simple polygon and that the last triangle is counter clockwise |
| C86 | CutModel.lean, CutSpec.lean, CutLemmas.lean, CutProps.lean | partial: proved for the new edges, the split edge and all other cells; in the list of edges of a vertex the edge is replaced by the first sub-edge that ends there only, and the list of a vertex between two sub-edges is not completed (`_violated`) |
| C87 | BisectModel.lean | partial, violated: the result is conforming if and only if a neighbour, when there is one, is split as well; sufficient conditions for this, met by meshes with even integer coordinates; a neighbour below the tolerance is left with a hanging vertex and a bisection that is given up loses neighbour entries |
| C88 | CheckModel.lean (`GeoCfg.checkMesh2D`) | partial: c88_sound_partial (everything tested holds), c88_complete (correct meshes pass), c88_convex, c88_grid (integer coordinates with the default tolerances), c88_answers (a verdict is returned); violations: c88_side_violated, c88_counts_violated, c88_star_violated |
| C89 | `Mesh2DFromPolygon` | loop invariants for points, edges and the polygon; the mesh read back through the getters |
| C90 | `SetMeshMarkersOnLine`, `SetMeshMarkersOnSegment`, `IsPointOnLine` | loop invariants over vertices and edges; the test of a point is the distance from the line. Partial: on a segment a second test in the angle loses vertices within the tolerance, or stops in space (`c90_segment_violated`, `c90_space_violated`) |
| C91 | `PolygonEdgeLengths`, `PolygonEdgeTangents`, `PolygonEdgesCentroid`, `PolygonEdgeNormals`, `PolygonAreaByBoundaryIntegral`, `PolygonAreaByInternalIntegral`, `PolygonCentroidByIntegral`, `PolygonCentroid` of triangles, `PolygonMass`, `PolygonInertia` | divergence theorem edge by edge; integrals of Mathlib over the triangles for the second moments; bounds on the error of the decimals. Partial: the integral over triangles is undefined for rules of several points (`c91_internal_violated`) |
| C92 | `PolygonCentroidVerticesDistance`, `PolygonCentroidEdgesDistance`, `PolygonInRadius` | Lagrange's identity for the distance from a line; minimum of a list |
| C93 | `FillMesh2DGeometricData`, `UnalignedPoints`, `PolygonTriangulationByFirstVertex`, `FindEdge` | leaving out an aligned vertex changes neither the area nor the moments (sums over closed paths); induction over the polygons |
| C94 | `CheckMeshGeometricData2D` | violated: the loops run to the number of polyhedra; exact for the polygons with an index below it; the data of convex polygons pass the tests |
| C95 | `Mesh2DToDualGraph`, `Mesh3DToDualGraph`, `MeshToGraph` | proved, counting the pushes of every pair of slots |
| C96 | `CreateTetrahedronWithVertices`, `CreateTetrahedronWithOrigin`, `CreateParallelepipedWithOrigin`, `CreatePolyhedronWithExtrusion`, `FacetsToVertices`, `FacetsToEdges`, `FacetsToPolyhedron`, `PolyhedronToFacets` | proved for all inputs; counting of sides by position, insertion into the maps by induction |
| C97 | `ChangePolyhedronFaceOrientation`, `ChangePolyhedronFacesOrientation`, `PolyhedronEdgesCentroid`, `PolyhedronEdgesLength`, `PolyhedronEdgeTangents`, `PolyhedronFaceVertices`, `PolyhedronFaceEdgeDirections`, `PolyhedronFaceEdgeTangents`, `PolyhedronCoordinateSystem` | proved for all inputs over an ordered field |
| C98 | `PolyhedronVolumeByBoundaryIntegral`, `PolyhedronVolumeByInternalIntegral` | cancellation over the sides of a closed surface. Partial: rules with another number of points than one are undefined (`c98_boundary_violated`, `c98_internal_violated`) |
| C99 | `PolyhedronCentroid` | divergence theorem for quadratic functions, triangle by triangle; bound on the error of the decimals |
| C100 | `PolyhedronMass`, `PolyhedronInertia` | integrals of Mathlib over the reference tetrahedron; bounds on the error of the decimals |
| C101 | `PolyhedronTetrahedronsByFaceTriangulations`, `ExtractTetrahedronPoints` | proved for all inputs |
| C102 | NormalModel | partial: full statement with a point inside, and with rays that stay away from the borders of the faces; a box whose faces are split in halves gets wrong directions, because an edge met by an earlier ray is not counted (`c102_rays_violated`) |
| C103 | NormalModel | partial: exact verdict if the point is inside of the planes of all faces and away from them; for a point in the plane of a face the call throws for a polyhedron that is not convex (`c103_throws_violated`) |
| C104 | AlignModel.lean, AlignSpec.lean | partial: c104_lines_partial if no line has a gap; c104_gap_violated: two edges on one line with a gap between them make the call undefined |
| C105 | FindModel | proved: `c105_find`, `c105_position`, `c105_find3D`, `c105_position3D`; with integer coordinates and the default tolerances `c105_grid` |
| C106 | VtkModel | proved: `c106_mesh`, `c106_other_types`, `c106_wrong_number` |
| C107 | CombModel | proved: `c107_combinations`, `c107_count`, `c107_negative` |
| C108 | CombModel | proved: `c108_binomial`, `c108_slope`, `c108_slope_undefined` |
| C109 | LinePosModel | partial; an edge on the line away from the segment between the origin and origin plus direction is left out (`c109_parallel_violated`) |
| C110 | PolyMarkModel | proved; the tolerances are those of `IsPointOnLine` and `PointSegmentPosition` (distance and angle), as in C90 |
| C111 | JoinModel | proved for the information and the new edge and everything kept; the lists of the ends proved where an end has other edges; for ends without other edges the claim is false and the negation proved with a mesh of two segments (`c111_ends_violated`) |
| C112 | MergeModel | everything but the lists of vertices without other polygons (`c112_join_partial`, `c112_join_small`); at these the property is violated (`c112_vertices_violated`) |
| C113 | MergeModel | the information (`c113_information`); the join except for the lists of vertices and edges without other polyhedra (`c113_join_partial`, `c113_join_small`); at these the property is violated (`c113_ends_violated`) |
| C114 | ChordModel | the four cuts (`c114_corner_to_corner_partial`, `c114_side_to_corner_partial`, `c114_corner_to_side_partial`, `c114_side_to_side_partial`), the new boundaries and areas (`c114_encloses`, `c114_area`), the area test (`c114_area_test`); a part whose points are all on one line stops the program (`c114_flat_violated`) |
| C115 | PassModel | one polygon (`c115_add_vertex`), all polygons of the edge (`c115_pass`), no active polygon keeps the edge (`c115_edge_gone`), the new boundaries and areas (`c115_encloses`, `c115_area`) |
| C116 | SideCheckModel | the first tests (`c116_not_inside`, `c116_short`), the answers and the verdict (`c116_verdict_partial`), when the edge is split (`c116_split_iff`); if only the refined polygon objects the verdict is that both do (`c116_quality_violated`, `c116_aligned_violated`) |
| C117 | DirectionModel | partial: answer, new vertices, choice of the vertices; the choice can be a side of the polygon although another choice would cut (witness) |
| C118 | DirectionModel | partial: outcome, definedness, report, closed boundaries, areas; a refinement that is given up after a side was halved restores the cells but loses neighbour entries (witness) |
| C119 | CheckRefModel | partial: the types, the choice of the sides and its converse, the input for C118, the points are different unless both are the first vertex; a touching line gives a cut or an exception (c119_touch_violated) |
| C120 | FanModel | partial: the polygon, its edges, the removed edges and the area proved for triangles that do not go all around the vertex; violated for triangles all around a vertex; one or two triangles are refused |
| C121 | FanMeshModel | proved for the polygons, the states and the result; the refusals; violated for the neighbours of the edges |
| C122 | PlaneMarkModel | proved |
| C123 | PlaneMarkModel | proved for directions and normals whose lengths multiply to more than twice the tolerance |
| C124 | CutLineModel | proved for any ordered field with a square root; the branch of the inertia for more than three vertices (an eigenvalue solver) is not modelled |
| C125 | EdgeLabelModel | proved; the data of the polygons computed in the same loop is left out |
| C126 | Split3Model | partial: everything but the lists of vertices and edges of several sub-cells, which name only the first (c126_shared_violated); complete for one sub-cell (c126_single) |
| C127 | QuadMeshModel | proved for all triangulations; the areas as well |
| C128 | Pass3Model | proved: the run and its results, the edge is gone, common faces stay common; the lists of neighbours are the subject of C126 and not part of it |
| C129 | FilePathModel | partial: the parts and their uniqueness are proved; arguments that keep their value are a violation |
| C130 | FilePathModel | proved: the folders that exist afterwards; `mkdir` makes a folder if the folder it belongs to exists |
| C131 | OffModel | partial: the text is exact and is read back, a text with too few lines for its vertices or polygons stops at an assertion; violated for a text of one line and for a line with too few words, which are undefined behaviour |
| C132 | OffModel | partial: everything except the states; violated for a polygon that is not active, which comes back active |
| C133 | ObjModel | partial: all texts of allowed lines, the exception and the round trip; violated for the index 0, which becomes vertex -1, and for indices beyond the vertices, which are accepted |
| C134 | OvmModel | partial: the states are lost, all cells become active |
| C135 | OvmTextModel | partial: a text that ends before a number is read beyond its end, missing words count as 0 |
| C136 | FromPolyhedronModel | proved, with the cases in which the call stops |
| C137 | FromPolyhedronModel | proved, with the cases of an exception |
| C138 | SegPairsModel | partial: nearly parallel segments that cross are missed (`c138_crossings_violated`) |
| C139 | VtpModel | proved |
| C140 | CutEndsModel | proved |
| C141 | CutEndsModel | proved |
| C142 | ConformPointsModel | proved |
| C143 | DropModel | proved: the overlapping copy and the cut leave every other row and column in order; a number out of range loses the last column |
| C144 | DropModel | partial: proved if each cell with points has a mark that is not negative; otherwise the mark wraps around (`c144_marks_violated`) |
| C145 | UcdModel | proved: the cell lines of the four exports; only the lines of the cells are modelled, not the points and the properties |

## Wrong programs

`seeded/LOG.jsonl` has one line per edit of the model. The edits were made in a copy of the project, which was then built. A
theorem is listed in `failed_theorems` if its own proof or the proof of a lemma it uses (also through other lemmas) was
rejected. This shows that the proof depends on the edited place. It does not show by itself that the statement is false of the
edited program: a proof can also break because it follows the form of the definition. The stronger evidence is in the lines
with an empty `failed_theorems`: there the edit passed unnoticed, and the entry names the theorem that was added, or says why
the edit does not change what the program does.

## Disagreements between the code and the properties

Each entry names the theorem that establishes it.

* **C02** (`c02_initialize_violated`): `CellXDsInitialize(n)` on a mesh whose
  lists are not empty pads the number vectors with 0, so they decrease.
  The new cells report `2^32 - 1` entries and reading one is out of range.
  (`MeshMatricesDAO.cpp`, `CellXDsInitialize`.)
* **C04** (`c04_subdivision_violated`): `Cell0DRemove` renumbers
  `Cell2DVertices` and `Cell3DVertices` but not `Cell2DSubdivision`, so
  sub-division entries above the removed point denote another point.
* **C05** (`c05_extremes_violated`): a removed vertex, edge or face is replaced
  by the number of cells, which the next `CellXDAppend` gives to a new cell.
  Neighbour slots use `2^32 - 1` instead and do not have this problem
  (`c05_neighbours_partial`).
* **C10** (`c10_subdivision_violated`): `ExtractActiveMesh` removes inactive points
  through `Cell0DRemove`, so sub-division entries keep the old numbers and denote
  other points afterwards (same cause as C04).
* **C42** (`c42_one_part_violated`, `c42_no_metis_violated`): with one part and
  `MasterWeight = 0` the code calls `partition.resize(numberElements, 1)` on a
  vector that already has that size, so all labels stay 0 instead of 1
  (`MetisUtilities.cpp:341-350`).  Without METIS the vector stays 0 as well.
* **C23** (`c23_set_violated`, `c23_large_violated`): every set is printed with
  braces, which `Parse` does not accept, so it throws; an `unsigned int` above
  `2^31 - 1` is read with `stoi` and throws.
* **C24** (`c24_trailing_violated`): `Split` by `getline` drops an empty piece
  after the last separator, so joining the pieces does not give the text back.
* **C43** (`c43_c_string_violated`): `SetPropertyValue(id, const char*)` does not
  check the type of the property and casts to a string property, which is
  undefined behaviour for a property of another type.
* **C44** (`c44_csv_violated`): sets and large `unsigned int` values cannot be read
  back; a string with the separator inside is cut without an error.
* **C45** (`c45_ini_violated`): a string with a space is skipped by the import, an
  empty string is skipped by the export.
* **C46** (`c46_matrix_violated`): the lower-cased text is compared with
  "Matrix", so no text denotes the matrix type.
* **C47** (`c47_failed_conversion_violated`): the property is added with the default
  value before the text is parsed, so a text that does not parse resets an existing
  property to 0.
* **C48** (`c48_empty_value_violated`): `path:string=` has two non-empty pieces and is
  taken as id and value, so `path` becomes the text "string".
* **C28** (`c28_exchange_violated`, `c28_every_tolerance_violated`): the tolerance is
  relative to the first argument, so `a` can be lower than `b` while `b` equals `a`.
* **C25** (`c25_minus_one_violated`): `InsertNewIntersection` uses -1.0 as the mark
  for "not found", so a point with coordinate -1 that is in both meshes is recorded
  as a point of the second mesh only.
* **C26** (`c26_gap_violated`, `c26_empty_violated`): if the ranges of the meshes are
  disjoint, the interval between them lies in no segment and the assertion aborts the
  program; for two empty meshes `Points.size() - 1` wraps around and `resize` throws.
* **C49** (`c49_edges_violated`, `c49_cube_numbering_partial`): the vertices off the first
  face are numbered by increasing index, not by the vertex of the first face they are joined to.
  For the cube with the library's own numbering only the first faces `0, 1, 2, 3` and `4, 5, 6, 7`
  give a map that carries edges to edges; with first face `1, 2, 6, 5` the determinant of the
  Jacobian is -1 at one point of the reference cube and 1 at another.
- C32, `PolygonTriangulationByFirstVertex`: triangles are skipped when their corners are aligned, and
  alignment compares the sine of the angle at the first vertex with the tolerance. The lost area is
  therefore not small in absolute terms: for any tolerance there are triangles of any size for which
  the result is empty (`c32_fan_violated`). `c32_fan_partial` bounds the loss by the tolerance times
  the side lengths.
- C33, `PolygonNormal`: the sum of `(next - here) x (previous - here)` over the corners is not a
  multiple of the area, so for a polygon that is not convex the result can point to the wrong side.
  Besides, `(i - 1) % numVertices` is computed with unsigned numbers, and for `i = 0` gives the last
  vertex only if the number of vertices divides 2^32 (`c33_violated`). Convex polygons are right.
- C53, `ComputeCell1DCell2DNeighbours` in dimension 2: `Cell1DsInitializeNeighbourCell2Ds(2)` keeps the
  values of existing slots. When the neighbours are computed again after a polygon was switched off,
  a slot without a new neighbour keeps the old one (`c53_stale_violated`). The theorem
  `c53_edge_sides_partial` asks for a mesh without edge neighbours for the empty slots only.
- C40, `FindCell2DsCommonVertices`: from the fourth polygon on only the smallest common vertex of the
  first three is looked for. If it is missing the program aborts instead of returning the empty list
  (`c40_abort_violated`); if the first three have more vertices in common, vertices that are not in
  the other polygons are returned (`c40_wrong_vertex_violated`).
- C54, `FindCell2DsCommonEdges`: three or more polygons always give the empty list, although polygons
  of a mesh of dimension 3 can share an edge (`c54_three_violated`).
- C39, `SplitCell2D`: the first sub-cell with a vertex takes the slot of the split cell, and the other
  sub-cells with the same vertex are not added (`c39_shared_vertex_violated`).
  `c39_split_partial` says exactly what the lists contain; `c39_neighbours_partial` says that no vertex
  of a sub-cell refers to the split cell any more.
- C56, `FillMesh3D` for vectors (`MeshUtilities3D.cpp:147-154`): the edges are stored with
  `Cell1DInsertExtremes`, which checks the edge but not its extremes, so an edge between points that do
  not exist is accepted; the overload for matrices refuses it (`c56_fill_3d_vectors_violated`).
- C57, `ExtractMesh1D` (`MeshUtilities1D.cpp:83-131`): unlike the functions for 2D and 3D it does not copy
  markers and states, all cells of the result are active and without marker (`c57_extract_1d_violated`).
- C59, `Quadrature_GaussLobatto1D::FillPointsAndWeights` (`Quadrature_GaussLobatto1D.hpp:171-699`): from order 16 on
  the points are sized with `resize(3, n)` instead of `setZero(3, n)` and only the first row is written; the second
  and third coordinates are indeterminate (`c59_unwritten`, `c59_lobatto_violated`).
- C60, `Quadrature_Gauss2D_Triangle::FillPointsAndWeights`: order 21 shares the case of order 20 and gets the rule with
  85 points, which is of degree 20; the relative error on `x^8 y^13` is 2.5e-7 (`c60_order21`,
  `c60_triangle_violated`).
- C63, not a violation: the rule with positive weights on the tetrahedron throws for the orders 5, 7, 9, 11, 13,
  although the rule of the next order would do.
- C65, `IntersectionSegmentSegment` (`GeometryUtilities_Intersection.cpp`): the test for parallel lines compares the
  square of the sine of the angle with the tolerance, which is raised to the minimum of the configuration; segments that
  cross at an angle below about 5 * 10^-8 are treated as parallel and reported as not intersecting
  (`c65_crossing_violated`). For collinear segments the comparison of the ends is relative to the first value, so close to
  the origin of the first segment the relation between the ends is exchanged (`c65_relation_violated`); two collinear
  segments that only touch within the tolerance are reported with the whole first segment as the overlap
  (`c65_touching_violated`).
- C67, `IntersectionSegmentCircle`: the discriminant is compared with the fourth power of the tolerance for lengths, but
  every tolerance is raised to the minimum of the configuration; a circle of radius 2^-26 crossed by a unit segment
  through its centre is reported as tangent, in its centre (`c67_small_circle_violated`).
- C69, `PointPolygonPosition` (`GeometryUtilities_Point.cpp:253-300`): an edge on whose line the point is, beyond the ends,
  is skipped in the belief that another edge decides. The test for the line compares the square of the sine of the angle
  with the tolerance, so in a thin triangle all edges are skipped: the point (3, 0) is reported inside the triangle
  (0, 0), (1, 0), (2, 2^-25) with the default tolerances (`c69_inside_violated`).
- C70, `PointPolygonPosition_RayCasting` (`GeometryUtilities_Point.cpp:302-430`): whether the ray passes a vertex is decided
  for each edge by the coordinate on this edge, so relative to its height. If the ray passes a vertex within the tolerance,
  the two edges of the vertex can disagree and the crossing is not counted: a point well inside the triangle (0, -1/10),
  (1, 0), (0, 1) is reported outside (`c70_violated`).
- C73, `Simplex::Simplex` and `solve_primal_simplex` (`LPUtilities.cpp:22-238`): a variable without lower bound and with a
  negative upper bound is replaced by its negative, but the shift by the bound is added after the sign is changed back: the
  variable with the upper bound -1 comes back as 1 (`c73_sign_violated`). The value that is returned omits `trasl_cost`, which
  is computed and never used: the largest `x` between 1 and 3 has the value 2 (`c73_cost_violated`).
- C75, `solve_primal_simplex`: there is no first phase; if the basis of the slack variables is not feasible, a point that is not
  feasible can be returned with `SUCCESS`, for example `x = 0` for the smallest `x ≥ 0` with `x ≥ 1`
  (`c75_start_violated`). Pivots below the tolerance are ignored, so a bounded program with small coefficients is reported as
  `UNBOUNDED` (`c75_tolerance_violated`). Not a violation: programs with equalities are always refused; the check of the sizes
  in the constructor uses `&&` instead of `||`.
- C77: `CheckTrianglesIntersection` does not check the orientation of the triangles; a clockwise triangle is said not to meet a
  triangle that it contains (`c77_clockwise_violated`).
- C78: `RandomCoordinates` with the ends inserts a middle point when the draw contains `0`, so that coordinates can be as close
  as half of the distance asked for (`c78_distance_violated`); without the ends, `0` can be among the coordinates
  (`c78_origin_violated`), while `EquispaceCoordinates` without the ends never returns an end; two ends at distance one are
  refused for a distance of `2/3` (`c78_two_violated`). The note in the header that a size below two counts as two is not true
  for either function: a size of zero gives no coordinates, a size of one throws.
- C79: `PlaneRotationMatrix` returns the identity also for the opposite of the third axis, so the third column is not the normal
  (`c79_down_violated`). The points still go to the plane, but the orientation is reversed.
- C81: `PlaneToPolygon` compares the third component of the normal with `0.9` without its absolute value; for the opposite of the
  third axis the three vertices coincide (`c81_down_violated`).
- C82: `ConvexHull` with `includeCollinear`, which is the default, looks for the points aligned with the last one from the end of
  the list and checks the index only after it has read the point: if all points are on one line, for instance two points, it reads
  the element before the first (`c82_aligned_violated`). The comparison given to `std::sort` works with tolerances; for points
  closer than the tolerances it need not be a strict weak order, and the sort is not defined.
- C84: `PolygonIsConvex` only checks that every vertex is on the border of the hull. The vertices of a convex polygon in any order
  pass, also if the sides cross (`c84_order_violated`).
- C85: `PolygonTriangulationByEarClipping` does not test the last triangle: a triangle given clockwise is returned as it is. If two
  vertices are at the same place, `UnalignedPoints` drops both. The callers that pass a polygon on have to give it counter clockwise
  and without repeated vertices; nothing checks this.
- C86: `SplitCell1D` puts into the edge list of a vertex only the first sub-edge that ends there and does so only in vertices that had
  the split edge; after the bisection of an edge the list of the middle vertex holds neither half (`c86_middle_vertex_violated`).
- C87: `RefineTriangleCell_UpdateNeighbours` (`RefinementUtilities2D.cpp:1174-1191`) ignores a neighbour for which the split was not possible. The edge is split and inactive, but the neighbour still has it as a side (`c87_neighbour_violated`). When `RefineTriangleCell_ByEdge` gives up after the edge was split (`RefinementUtilities2D.cpp:1112-1118`) it removes the new edges and the new vertex, but the neighbour lists of the end points of the edge, in which the edge had been replaced by its halves, keep an empty entry instead of the edge (`c87_rollback_violated`). `SplitPolygon_IsAreaPositive` only checks that the area is not zero, so that triangles that run clockwise pass.
- C88: `CheckMesh2D` accepts a polygon with four vertices and three edges (`c88_counts_violated`): the loops run over
  the edges only (`MeshUtilities2D.cpp:347-364`), and the numbers are never compared.
- C88: `CheckMesh2D` accepts a mesh in which a triangle is entered as the right neighbour of an edge although it lies on
  its left, and in which an edge of the triangle has no neighbour (`c88_side_violated`): the test that is commented as
  the check of the orientation (`MeshUtilities2D.cpp:318-333`) accepts both directions, whatever the slot.
- C88: `CheckMesh2D` accepts a star with five points, whose edges cross (`c88_star_violated`): the test of the convexity
  only asks that every vertex be on the border of the hull (`MeshUtilities2D.cpp:390-403`).
- C90: `SetMeshMarkersOnSegment` (`MeshUtilities2D.cpp:600-622`) filters the vertices by `IsPointOnLine` (distance
  from the line) and then by `PointSegmentPosition` (angle at the origin of the segment). For a vertex nearer than 1
  to the origin the second test is stricter: a vertex within the tolerance of the segment is not marked, although
  `SetMeshMarkersOnLine` marks it (`c90_segment_violated`). If the vertex is off the line in the direction z, the call
  stops at the assertion "supported only in 2D plane" (`c90_space_violated`).
- C94: the four loops of `CheckMeshGeometricData2D` (`MeshUtilities2D.cpp:422,437,465,477`) run over the polygons but to
  `Cell3DTotalNumber()`. For a mesh in the plane this is zero and the check accepts any data (`c94_violated`).
- C91: `PolygonAreaByInternalIntegral` (`GeometryUtilities_Polygon.cpp:231-232`) calls `DetJ(mapData, x)` with the
  weights in place of the points. `DetJ` gives one entry per column of its argument, and a vector of weights is one
  column, so the product with the weights has operands of different sizes as soon as there is more than one weight: an
  assertion of Eigen, or a read past the end without assertions (`c91_internal_violated`). The default rule has one
  point. An earlier version of the model used one determinant per weight and missed this.
- C98: `PolyhedronVolumeByBoundaryIntegral` and `PolyhedronVolumeByInternalIntegral`
  (`GeometryUtilities_Polyhedron.cpp:237,272`) pass the weights to `DetJ` like C91, and the former adds the translation
  to a matrix with one column per point (`:240`): rules with another number of points than one are undefined
  (`c98_boundary_violated`, `c98_internal_violated`). The volume takes the absolute value of the determinant of a
  triangle, `PolyhedronCentroid` (`:321-329`) its sign: with clockwise triangles the volume is right and the centroid is
  not, so C99 asks for counter-clockwise triangles.
- C102: `PolyhedronFaceNormalDirections` with rays allocates `vertices_intersection` and `edges_intersection`
  (`GeometryUtilities_Polyhedron.cpp:794-795`) once for all faces and does not reset them for the next ray. A vertex or
  an edge met by an earlier ray is therefore not counted for a later one, and the parity is wrong. For a box whose left
  and right sides are split in two halves with internal points at the height of the split, two of eight faces get the
  direction true although all normals point to the inside (`c102_rays_violated`).
- C103: `PolyhedronIsConvex` intersects the segment from the point inside to the point of a face with the planes of the
  other faces. If the point inside and the point of the face are both in the plane of a third face, which happens for
  polyhedra that are not convex, `IntersectionSegmentPlane` reports multiple intersections and the call throws
  "Intersection not expected" (`GeometryUtilities_Polyhedron.cpp:752-754`) instead of returning false
  (`c103_throws_violated`, the prism over an L with the point (1/2, 1, 1/2)).
- C104: `AlignedPolyhedronEdges` groups all edges on one line in space, also if they do not touch each other, and then
  looks up the edge between each two neighbours on the line with `adjacencyVerticesMap[edgeOrigin].find(edgeEnd)->second`
  without a test for `end()` (`GeometryUtilities_Polyhedron.cpp:1512`). A polyhedron that is not convex may have two
  edges on one line with a gap between them, for instance a pyramid over a hexagon with a notch, and then the call is
  undefined (`c104_gap`, `c104_gap_violated`). The search also starts at vertex 0 only, so the edges of a cavity, which
  are not connected to the others, are left out; connectedness is a hypothesis of the theorem.
- C109: `LinePolygonPosition` intersects every edge with the segment from the origin of the line to the origin plus the
  direction and skips parallel edges without common points with this segment (`GeometryUtilities_Polygon.cpp:1608-1610`).
  An edge that is contained in the line but away from this segment is left out, so the answer depends on the point chosen
  as the origin of the line (`c109_parallel_violated`, unit square and the line y = 0 with origin (10, 0) or (0, 0)).
- C111: `AgglomerateCell1Ds` (`MeshUtilities1D.cpp:469-470`) does not update the list of edges of an end of the new edge
  if all edges of the end are joined: the loop goes on with the next end before the list is written. After the two
  segments of a line are joined, its first vertex lists the inactive first segment and not the new edge
  (`c111_ends_violated`); the same happens in the repository's own test, which does not look at the lists.
- `AgglomerateCell2Ds` and `AgglomerateCell3Ds` (C112, C113): a vertex of the new polygon, or a vertex or edge of the new
  polyhedron, all of whose neighbours are joined is skipped because the list of the other neighbours is empty
  (`MeshUtilities2D.cpp:2355-2356`, `MeshUtilities3D.cpp:2781-2782`, `:2805-2806`). It keeps the joined, now inactive cells as
  neighbours and does not get the new one (`c112_vertices_violated`, `c113_ends_violated`). Every corner of the domain that
  belongs to joined cells only is such a vertex.
- `SplitPolygon_IsAreaPositive` (C114): the unaligned points of a part whose points are all on one line are fewer than three,
  and `PolygonTriangulationByFirstVertex` asserts three or more (`RefinementUtilities2D.cpp:190-192`). The cut is not refused
  with the type `NoSplit`; the program stops (`c114_flat_violated`), or, without assertions, goes on with no triangles.
- `RefinePolygonCell_IsCell1DToSplit` (C116): in both loops the second test `if (!IsNeigh…[c2Dn])` is also made for the refined
  polygon itself, just after the first one has set `IsLocal…` to false (`RefinementUtilities2D.cpp:919-937`, `:977-995`). So
  an objection of the refined polygon alone is reported as `BothQualityNotEnough` or `BothAlignedNotRespect`; the types
  `OnlyLocalQualityNotEnough` and `OnlyLocalAlignedNotRespect` are never returned (`c116_quality_violated`,
  `c116_aligned_violated`). `SplitPolygon_CheckIsNotToExtend` treats the types alike, so the refinement is not affected.
- `SplitPolygon_CheckSplitType` (C117): if the nearer ends of the two sides give no cut, only the end on the second side is
  replaced (the one on the first side only if the second is fixed), and the result of the second test is ignored unless the
  polygon is an unaligned triangle (`RefinementUtilities2D.cpp:66-115`). For a line across a corner of a square whose sides
  are not to be split, the ends of a side are returned as `NoNewVertices` (`c117_vertices_violated`) although the other ends
  give a cut; `RefinePolygonCell_ByDirection` then throws "Case to manage".
- `RefinePolygonCell_ByDirection` (C118): when the cut is refused after sides were halved, the halves and the new vertices are
  removed and the sides activated again (`RefinementUtilities2D.cpp:1505-1509`, `:1596-1600`, `:1652-1660`), but the lists of
  edges of the ends of the sides, in which a half had taken the place of the side, keep an empty entry
  (`c118_rollback_violated`), as in C87.
- C119: `RefinePolygonCell_CheckRefinement` looks for a second intersection that is no end of the first side. For an
  intersection at the end of a side it compares the origin of that side (`RefinementUtilities2D.cpp:1276-1282`, the same
  expressions as for an intersection at the origin). A line that only touches the first vertex of a polygon is therefore
  reported as a line to split along, with both intersections in this vertex, and one that only touches another vertex ends
  in the exception "Second edge intersection not found", although there is a type for lines outside the polygon
  (`c119_touch_violated`).
- C120: `AgglomerateTriangles` takes the triangles all around an inner vertex for a fan: the inner vertex becomes a
  vertex of the polygon, and the first spoke is its first and its last edge (`c120_closed_violated`). The header asks
  only for triangles with one vertex in common in counter clockwise order (`MeshUtilities.hpp:1134-1138`). The random
  test of the repository takes one triangle less and so avoids the case.
- C121: `AgglomerateMeshFromTriangularMesh` does not update the neighbours of the edges. An edge between two new polygons
  stays active and still names the two triangles it separated, which are inactive now, and the new polygons are neighbours
  of no edge (`c121_neighbours_violated`). `AgglomerateCell2Ds` of the same class replaces the neighbours (C112).
- C126: `SplitCell3D` has the fault of `SplitCell2D` (C39): the first sub-cell with a vertex, edge or face takes the slot of
  the split polyhedron, the others with the same vertex, edge or face are not added (`c126_shared_violated`).
- C129: `GetFilePath` writes the folder and the extension only if the name has one (`IOUtilities.cpp:141-142`, `:153-154`).
  Otherwise the argument keeps the value from before the call: the folder of "a.txt" is the folder of the file that was
  looked at before, if the same string is passed again (`c129_stale_violated`). The only caller passes new strings.
- C131: `StringsToOFFMesh` asserts that there is at least one line and then reads the second one
  (`ObjectFileFormatInterface.cpp:35-39`), so a file of one line is read beyond its end (`c131_one_line_violated`). The numbers
  in a line are not checked: a polygon with fewer words than it announces has vertices without a value
  (`c131_short_line_violated`).
- C132: `MeshDAOToOFFMesh` and `MeshDAOToOBJMesh` export all cells, also those that are not active, and the import makes all
  cells active (`c132_states_violated`). After a refinement the file contains the refined polygons together with their parts.
- C133: `StringsToOBJMesh` does not check the indices (`WavefrontOBJInterface.cpp:69-77`): 0 becomes vertex -1, and an index
  beyond the vertices is stored as it is (`c133_index_violated`). `ComputeMesh2DCell1Ds` then
  uses it as a row of its sparse matrix.
- C134: `MeshDAOToOVMMesh` exports all cells, also those that are not active, and the import makes all cells active
  (`c134_states_violated`), as in C132.
- C135: `StringsToOVMMesh` asserts that there are at least as many lines as the place of a number and then reads the line at this
  place (`OpenVolumeMeshInterface.cpp:35-37`, also `:52-54`, `:69-71`, `:94-96`), so a text of two lines is read beyond its end
  (`c135_two_lines_violated`). A polygon with fewer words than it announces gets half edge 0 for each missing one (`:83-84`,
  `c135_short_line_violated`), a polyhedron half face 0 (`:108`).
- C138: `IntersectionsBetweenSegments` misses segments that cross at a small angle (`c138_crossings_violated`), as one call for
  these two segments does (C65).
- C144: `MarkCells` takes the largest mark as an `int` and returns it as an `unsigned int`. For a cell whose points all
  have negative marks the result is the mark plus 2^32, which is none of the marks of its points (`c144_marks_violated`).
