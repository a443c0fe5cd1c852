{"claims": [
  {"property": "C01", "status": "proved", "theorems": ["Verif.c01_resize_row", "Verif.c01_row_is_entries", "Verif.c01_mesh_resize_row"], "note": "Storage level and mesh level. Appended default is 0 for the single-cell call, as in the code."},
  {"property": "C02", "status": "partial", "theorems": ["Verif.c02_well_formed_partial", "Verif.c02_no_undefined_behaviour", "Verif.c02_getters_defined", "Verif.c02_initialize_violated"], "note": "True as long as CellXDsInitialize is used while the lists of that dimension are empty. False otherwise: the witness is a second CellXDsInitialize that grows the mesh."},
  {"property": "C03", "status": "proved", "theorems": ["Verif.c03_remove", "Verif.c03_remove_out_of_range"], "note": ""},
  {"property": "C04", "status": "partial", "theorems": ["Verif.c04_references_partial", "Verif.c04_subdivision_violated"], "note": "Proved for extremes, vertices, edges, faces, neighbours, original and updated cells. False for the vertices of sub-divisions: Cell0DRemove does not renumber them."},
  {"property": "C05", "status": "partial", "theorems": ["Verif.c05_neighbours_partial", "Verif.c05_extremes_violated"], "note": "Proved for neighbour slots. False for extremes, vertices, edges and faces: they are set to the number of cells, which the next appended cell receives."},
  {"property": "C06", "status": "proved", "theorems": ["Verif.c06_append"], "note": "Original cell: a new cell has none, except that Cell0D has no original-cell record."},
  {"property": "C07", "status": "proved", "theorems": ["Verif.c07_updated_cells", "Verif.c07_acyclic_of_calls", "Verif.c07_cycle_does_not_return"], "note": "All refinement forests built by calls that link to a larger index; the theorem itself needs only acyclicity. A cycle, which the store accepts, makes the recursion run forever."},
  {"property": "C08", "status": "proved", "theorems": ["Verif.c08_links_agree", "Verif.c08_roots"], "note": "Invariant over every sequence of store calls, and the root loop ends at a cell without original."},
  {"property": "C09", "status": "proved", "theorems": ["Verif.c09_insert_value", "Verif.c09_initialize_values"], "note": ""},
  {"property": "C10", "status": "partial", "theorems": ["Verif.c10_extract_active_partial", "Verif.c10_subdivision_violated", "Verif.c10_filter_active"], "note": "All getters except the sub-division list, whose entries are not renumbered (shown by a witness)."},
  {"property": "C100", "status": "proved", "theorems": ["Verif.c100_mass", "Verif.c100_inertia"], "note": "integrals of Mathlib over the tetrahedra, up to the rounding of the constants"},
  {"property": "C101", "status": "proved", "theorems": ["Verif.c101_tetrahedra", "Verif.c101_face_points"], "note": "numbers and corners of all tetrahedra"},
  {"property": "C102", "status": "partial", "theorems": ["Verif.c102_point", "Verif.c102_point_abort", "Verif.c102_rays_partial", "Verif.c102_rays_violated"], "note": "Complete with a point inside. With rays: proved if no ray meets a vertex or an edge of a face, up to the tolerance, and the places where a ray meets two faces are apart; missing: rays through vertices and edges, where the claim is false for the code as it is (c102_rays_violated)."},
  {"property": "C103", "status": "partial", "theorems": ["Verif.c103_verdict", "Verif.c103_convex_partial", "Verif.c103_concave_partial", "Verif.c103_throws_violated"], "note": "Proved if the point is inside of the planes of all faces and the pairs of faces are resolved by the tolerances; missing: points inside the polyhedron but not inside of all planes; in the plane of a face the code throws (c103_throws_violated)."},
  {"property": "C104", "status": "partial", "theorems": ["Verif.c104_lines_partial", "Verif.c104_gap", "Verif.c104_gap_violated"], "note": "Partial: proved if no line of edges has a gap. With a gap the call is undefined for all inputs (c104_gap), with the pyramid over a hexagon with a notch as a witness."},
  {"property": "C105", "status": "proved", "theorems": ["Verif.c105_find", "Verif.c105_position", "Verif.c105_find3D", "Verif.c105_position3D", "Verif.c105_grid"], "note": "For polygons the cells found are characterised exactly; for polyhedra by the answer of PointPolyhedronPosition (C71), with every convex polyhedron that has the point in its hull found, and the mesh position exact. The tolerances are taken to resolve the point, which integer coordinates up to 2^10 do (c105_grid)."},
  {"property": "C106", "status": "proved", "theorems": ["Verif.c106_mesh", "Verif.c106_other_types", "Verif.c106_wrong_number"], "note": "The cells are given as lists of vertices with the type; the file itself and the coordinates are not modelled."},
  {"property": "C107", "status": "proved", "theorems": ["Verif.c107_combinations", "Verif.c107_count", "Verif.c107_negative"], "note": "The rounds of the outer loop are bounded by a fuel that the theorem takes larger than the number of combinations."},
  {"property": "C108", "status": "proved", "theorems": ["Verif.c108_binomial", "Verif.c108_slope", "Verif.c108_slope_undefined"], "note": "Exact arithmetic: double is Nat for the coefficients and an ordered field for the slope."},
  {"property": "C109", "status": "partial", "theorems": ["Verif.c109_returns", "Verif.c109_position_partial", "Verif.c109_parallel_violated"], "note": "The entries and the type are exactly right for every polygon whose edges are resolved by the tolerances (LineEdgeResolved). Violated for an edge on the line that does not touch the segment from the origin of the line to origin plus direction: no entry for this edge."},
  {"property": "C11", "status": "proved", "theorems": ["Verif.c11_find_entry", "Verif.c11_cell1d_by_extremes", "Verif.c11_find_edge_by_extremes"], "note": "FindEdgeByExtremes needs the listed edges to exist; the code reads outside its array otherwise."},
  {"property": "C110", "status": "proved", "theorems": ["Verif.c110_change", "Verif.c110_change_throws", "Verif.c110_change_polygon", "Verif.c110_set", "Verif.c110_vertices", "Verif.c110_edges"], "note": "Exact arithmetic. The tolerances are those of the two tests the code makes (distance to the line, angle at the origin of the side, coordinate on the side)."},
  {"property": "C111", "status": "partial", "theorems": ["Verif.c111_information", "Verif.c111_information_small", "Verif.c111_join_small", "Verif.c111_join_partial", "Verif.c111_ends_violated"], "note": "The last clause of the property, that each end lists the new edge and none of the joined edges, holds only for ends that have edges outside the set; for other ends it is false of the code, see c111_ends_violated. Keeping the sides is proved if the polygons of the two sides differ. Proved with the orders of iteration of the hash tables arbitrary."},
  {"property": "C112", "status": "partial", "theorems": ["Verif.c112_join_partial", "Verif.c112_join_small", "Verif.c112_vertices_violated"], "note": "A vertex of the new polygon without other polygons keeps its list, with the joined polygons and without the new one; `c112_vertices_violated` is a witness. The rest is proved for all well-formed meshes."},
  {"property": "C113", "status": "partial", "theorems": ["Verif.c113_information", "Verif.c113_information_small", "Verif.c113_join_partial", "Verif.c113_join_small", "Verif.c113_ends_violated"], "note": "A vertex or edge of the new polyhedron without other polyhedra keeps its list; `c113_ends_violated` is a witness. The information and the rest of the join are proved for all well-formed meshes."},
  {"property": "C114", "status": "partial", "theorems": ["Verif.c114_corner_to_corner_partial", "Verif.c114_side_to_corner_partial", "Verif.c114_corner_to_side_partial", "Verif.c114_side_to_side_partial", "Verif.c114_encloses", "Verif.c114_area", "Verif.c114_area_test", "Verif.c114_flat_violated"], "note": "the four cuts, the boundaries and areas of the parts and the area test; violated for a part whose points are all on one line, for which the area test stops the program instead of refusing the cut"},
  {"property": "C115", "status": "proved", "theorems": ["Verif.c115_add_vertex", "Verif.c115_pass", "Verif.c115_edge_gone", "Verif.c115_encloses", "Verif.c115_area"], "note": "model of UpdateCell2D_NewVertex and of the loop over the polygons of the edge"},
  {"property": "C116", "status": "partial", "theorems": ["Verif.c116_not_inside", "Verif.c116_short", "Verif.c116_verdict_partial", "Verif.c116_split_iff", "Verif.c116_quality_violated", "Verif.c116_aligned_violated"], "note": "the decision and all flags are as stated; the types OnlyLocalQualityNotEnough and OnlyLocalAlignedNotRespect are never returned, with two witnesses"},
  {"property": "C117", "status": "partial", "theorems": ["Verif.c117_answers", "Verif.c117_vertices_partial", "Verif.c117_new_vertices", "Verif.c117_triangle", "Verif.c117_vertices_violated"], "note": "the chosen vertices can be the ends of a side of the polygon, witness c117_vertices_violated"},
  {"property": "C118", "status": "partial", "theorems": ["Verif.c118_outcome_partial", "Verif.c118_defined", "Verif.c118_not_to_be_split", "Verif.c118_success", "Verif.c118_encloses", "Verif.c118_area", "Verif.c118_rollback_violated", "Verif.c118_extend"], "note": "When the cut is refused after sides were halved, the cells and all their data are restored (GivenUp in c118_outcome_partial), the lists of the edges at the vertices are not, witness c118_rollback_violated."},
  {"property": "C119", "status": "partial", "theorems": ["Verif.c119_refused", "Verif.c119_along", "Verif.c119_split_partial", "Verif.c119_found", "Verif.c119_input", "Verif.c119_different_partial", "Verif.c119_touch_violated"], "note": "The two intersections are different points only if they are not both the first vertex of the polygon; a line that only touches a vertex is not reported as not inside but gives a cut with both ends in that vertex or an exception (c119_touch_violated)."},
  {"property": "C12", "status": "proved", "theorems": ["Verif.c12_reset", "Verif.c12_absent_after_removals"], "note": ""},
  {"property": "C120", "status": "partial", "theorems": ["Verif.c120_fan_partial", "Verif.c120_around_partial", "Verif.c120_area_partial", "Verif.c120_small", "Verif.c120_closed_violated"], "note": "Proved for three or more triangles of a fan, given as the lists of its outer vertices, spokes and outer edges. One triangle and two triangles are refused. For the triangles all around a vertex, which have one vertex in common as well, the result has the inner vertex, and a vertex and an edge occur twice."},
  {"property": "C121", "status": "partial", "theorems": ["Verif.c121_agglomerate_partial", "Verif.c121_refused", "Verif.c121_neighbours_violated"], "note": "Proved for any number of groups that are fans of three or more triangles: the new polygons, the states, the updated cells, everything left unchanged, and the result. Refusal of inactive and shared triangles and edges proved. The neighbours of the edges are not updated (violated); triangles all around a vertex are excluded (see C120)."},
  {"property": "C122", "status": "proved", "theorems": ["Verif.c122_plane", "Verif.c122_normal"], "note": "Double is an arbitrary ordered field with an exact square root. The plane is described by a point of it within the tolerance of the vertex."},
  {"property": "C123", "status": "proved", "theorems": ["Verif.c123_by_normal", "Verif.c123_parallel", "Verif.c123_missing_normal"], "note": "Double is an arbitrary ordered field with an exact square root. The product of the lengths of the direction and a normal has to exceed twice the tolerance, as it does for unit vectors."},
  {"property": "C124", "status": "proved", "theorems": ["Verif.c124_triangle_edge", "Verif.c124_tetrahedron_edge", "Verif.c124_tetrahedron_refused", "Verif.c124_triangle_line", "Verif.c124_inertia_line", "Verif.c124_diameter_line", "Verif.c124_diameter_refused"], "note": "The branch of ComputePolygonMaxInertiaDirection for more than three vertices calls an eigenvalue solver and is not part of the property."},
  {"property": "C125", "status": "proved", "theorems": ["Verif.c125_update", "Verif.c125_same_label", "Verif.c125_status", "Verif.c125_initial"], "note": "Only the data of the edges; the data of the polygons is computed in the same loop and does not depend on it."},
  {"property": "C126", "status": "partial", "theorems": ["Verif.c126_split_partial", "Verif.c126_neighbours_partial", "Verif.c126_single", "Verif.c126_refused", "Verif.c126_shared_violated"], "note": "New cells, old cell, frame and the exact contents of the neighbour lists are proved; a vertex, edge or face of several sub-cells lists only the first of them (witness). For one sub-cell the lists are complete."},
  {"property": "C127", "status": "proved", "theorems": ["Verif.c127_quads", "Verif.c127_areas"], "note": "For every triangulation the run ends and yields exactly the described mesh; each quadrilateral has a third of the signed area of its triangle."},
  {"property": "C128", "status": "proved", "theorems": ["Verif.c128_pass", "Verif.c128_edge_gone", "Verif.c128_shared"], "note": "Polyhedra with different faces and one occurrence of the edge in the polyhedron and in its faces are assumed; entries of the list that are no polyhedra are assumed to be no number given out during the run. The lists of neighbours of vertices, edges and faces are changed by SplitCell3D (C126) and not described again."},
  {"property": "C129", "status": "partial", "theorems": ["Verif.c129_parts_partial", "Verif.c129_unique_partial", "Verif.c129_stale_violated"], "note": "The folder and the extension are written only if there is one; otherwise the argument keeps the value from before the call (c129_stale_violated). With empty arguments the property holds (c129_unique_partial)."},
  {"property": "C13", "status": "proved", "theorems": ["Verif.c13_depth_first_search", "Verif.c13_from_scratch"], "note": ""},
  {"property": "C130", "status": "proved", "theorems": ["Verif.c130_folders", "Verif.c130_defined", "Verif.c130_start"], "note": "mkdir is described by its effect on a set of folders; permissions, links, files with the name of a folder and the name \"..\" are left out."},
  {"property": "C131", "status": "partial", "theorems": ["Verif.c131_text_partial", "Verif.c131_one_line_violated", "Verif.c131_short_line_violated"], "note": "Words of a line are taken as already converted numbers. Missing: a text of one line and lines with too few words are not refused but read values that do not exist."},
  {"property": "C132", "status": "partial", "theorems": ["Verif.c132_round_trip_partial", "Verif.c132_states_violated"], "note": "The same code converts OBJ meshes. Missing: the states; the formats have no place for them and the export does not leave out inactive cells."},
  {"property": "C133", "status": "partial", "theorems": ["Verif.c133_text_partial", "Verif.c133_index_violated"], "note": "Words of a line are taken as already converted numbers. Missing: the index 0 and indices beyond the vertices are not refused."},
  {"property": "C134", "status": "partial", "theorems": ["Verif.c134_round_trip_partial", "Verif.c134_states_violated"], "note": "Vertices, edges, polygons, faces of polyhedra and orientations survive, for every order of the sets. The states do not: inactive cells are exported and come back active."},
  {"property": "C135", "status": "partial", "theorems": ["Verif.c135_text_partial", "Verif.c135_file", "Verif.c135_two_lines_violated", "Verif.c135_short_line_violated"], "note": "Every text of a consistent OVM mesh is read as the mesh and one is written; a text announcing more vertices than it has lines is refused. A text of two lines is read beyond its end, and missing words of a polygon are read as half edge 0."},
  {"property": "C136", "status": "proved", "theorems": ["Verif.c136_polyhedron_mesh"], "note": "For an empty mesh; the ends of the edges are stored without a check, as in the code."},
  {"property": "C137", "status": "proved", "theorems": ["Verif.c137_local", "Verif.c137_missing_end", "Verif.c137_missing_side", "Verif.c137_back"], "note": "The list of local indices, the exceptions, and the way back from the mesh of one polyhedron."},
  {"property": "C138", "status": "partial", "theorems": ["Verif.c138_crossings_partial", "Verif.c138_crossings_violated"], "note": "Segments that cross at an angle so small that the code takes them for parallel get no coordinates; all other crossings are found exactly."},
  {"property": "C139", "status": "proved", "theorems": ["Verif.c139_vertices_and_faces"], "note": "Both the result and the exception, for every well-formed mesh."},
  {"property": "C14", "status": "proved", "theorems": ["Verif.c14_breadth_first_search", "Verif.c14_outside"], "note": ""},
  {"property": "C140", "status": "proved", "theorems": ["Verif.c140_ends"], "note": "The check of the ends with the assertion before it; how the points are found is not part of the model."},
  {"property": "C141", "status": "proved", "theorems": ["Verif.c141_segments"], "note": "The loop of the intersection and of the conformed mesh, which have the same body."},
  {"property": "C142", "status": "proved", "theorems": ["Verif.c142_points", "Verif.c142_first"], "note": "On a result without points, as in the tests; the union itself is C25."},
  {"property": "C143", "status": "proved", "theorems": ["Verif.c143_column", "Verif.c143_row", "Verif.c143_beyond"], "note": "The overlapping copy is modelled entry by entry in the order of Eigen."},
  {"property": "C144", "status": "partial", "theorems": ["Verif.c144_marks_partial", "Verif.c144_marks_violated"], "note": "Needs a mark that is not negative for each cell with points; a cell with only negative marks gets a mark that wraps around."},
  {"property": "C145", "status": "proved", "theorems": ["Verif.c145_points", "Verif.c145_segments", "Verif.c145_polygons", "Verif.c145_polyhedra", "Verif.c145_other_polygon", "Verif.c145_other_polyhedron"], "note": "The line of a cell is modelled as its words; materials are not negative."},
  {"property": "C15", "status": "proved", "theorems": ["Verif.c15_transpose", "Verif.c15_transpose_twice"], "note": ""},
  {"property": "C16", "status": "proved", "theorems": ["Verif.c16_components"], "note": ""},
  {"property": "C17", "status": "proved", "theorems": ["Verif.c17_sub_graph", "Verif.c17_order_independent"], "note": ""},
  {"property": "C18", "status": "proved", "theorems": ["Verif.c18_round_trip", "Verif.c18_entries"], "note": ""},
  {"property": "C19", "status": "proved", "theorems": ["Verif.c19_round_trip", "Verif.c19_round_trip_network", "Verif.c19_edges"], "note": ""},
  {"property": "C20", "status": "proved", "theorems": ["Verif.c20_constraints", "Verif.c20_no_constraints"], "note": ""},
  {"property": "C21", "status": "proved", "theorems": ["Verif.c21_components", "Verif.c21_connected"], "note": ""},
  {"property": "C22", "status": "proved", "theorems": ["Verif.c22_contiguous"], "note": "METIS itself is an argument with its documented contract."},
  {"property": "C23", "status": "partial", "theorems": ["Verif.c23_vector_int", "Verif.c23_vector_uint_partial", "Verif.c23_large_violated", "Verif.c23_set_violated", "Verif.c23_set_text", "Verif.c23_set_partial", "Verif.c23_set_read"], "note": "Vectors of int round-trip; vectors of unsigned round-trip below 2^31; larger values and all sets throw. Sets are printed completely and are read when written in brackets. Doubles are not modelled."},
  {"property": "C24", "status": "partial", "theorems": ["Verif.c24_split_partial", "Verif.c24_split_trailing", "Verif.c24_split_unique", "Verif.c24_split_many", "Verif.c24_trailing_violated"], "note": "Holds when the text does not end with the separator; a trailing empty piece is dropped."},
  {"property": "C25", "status": "partial", "theorems": ["Verif.c25_points_partial", "Verif.c25_coordinates_partial", "Verif.c25_minus_one_violated"], "note": "Holds for all matchable meshes unless coordinate -1 is in both; -1 is the mark for not found."},
  {"property": "C26", "status": "partial", "theorems": ["Verif.c26_segments_partial", "Verif.c26_containment", "Verif.c26_gap_violated", "Verif.c26_empty_violated"], "note": "Holds for meshes whose ranges overlap; disjoint ranges abort, two empty meshes throw."},
  {"property": "C27", "status": "proved", "theorems": ["Verif.c27_comparators", "Verif.c27_equality_region", "Verif.c27_sign"], "note": ""},
  {"property": "C28", "status": "partial", "theorems": ["Verif.c28_exchange_partial", "Verif.c28_exchange_violated", "Verif.c28_every_tolerance_violated"], "note": "The answer is never reversed; equality depends on the order of the arguments in a thin region, for every tolerance below one half."},
  {"property": "C29", "status": "proved", "theorems": ["Verif.c29_position", "Verif.c29_plane_position"], "note": ""},
  {"property": "C30", "status": "proved", "theorems": ["Verif.c30_triangle", "Verif.c30_parallelogram", "Verif.c30_tetrahedron", "Verif.c30_parallelepiped", "Verif.c30_parallelepiped_exact"], "note": "Over every ordered field; square root is a parameter. The parallelepiped is exact when its edges differ by more than the tolerance and within tolerance otherwise."},
  {"property": "C31", "status": "proved", "theorems": ["Verif.c31_quadrilateral_shape", "Verif.c31_quadrilateral", "Verif.c31_hexahedron_shape", "Verif.c31_hexahedron", "Verif.c31_hexahedron_compute"], "note": "J is characterised by the exact change of F along each reference coordinate; for the quadrilateral this concerns the two plane coordinates."},
  {"property": "C32", "status": "partial", "theorems": ["Verif.c32_start", "Verif.c32_translate", "Verif.c32_orientation", "Verif.c32_internal_point", "Verif.c32_fan_partial", "Verif.c32_fan_violated"], "note": "start vertex, translation and orientation proved with the outcome included; the fan triangulation loses the triangles taken for aligned: error bound proved, exact equality refuted for any positive tolerance"},
  {"property": "C33", "status": "partial", "theorems": ["Verif.c33_convex_partial", "Verif.c33_violated"], "note": "correct for convex polygons in any plane; wrong side for some simple polygons"},
  {"property": "C34", "status": "proved", "theorems": ["Verif.c34_barycentric", "Verif.c34_vertices"], "note": "For triangles with twice the area above Tolerance2D, and points of the plane z = 0."},
  {"property": "C35", "status": "proved", "theorems": ["Verif.c35_maximal_chain"], "note": "termination included"},
  {"property": "C36", "status": "proved", "theorems": ["Verif.c36_edges"], "note": "polygons without a side from a vertex to itself, vertices in range"},
  {"property": "C37", "status": "proved", "theorems": ["Verif.c37_rectangle_mesh"], "note": "Called on an empty mesh. Also gives coordinates, exact markers, cell vertices and the Euler number."},
  {"property": "C38", "status": "proved", "theorems": ["Verif.c38_incidences", "Verif.c38_cell0d_cell1d", "Verif.c38_cell0d_cell2d", "Verif.c38_cell0d_cell3d", "Verif.c38_cell1d_cell2d", "Verif.c38_cell1d_cell3d", "Verif.c38_cell2d_cell3d"], "note": "all six functions; ComputeCell1DCell2DNeighbours in dimension 3, dimension 2 is C53"},
  {"property": "C39", "status": "partial", "theorems": ["Verif.c39_split_partial", "Verif.c39_neighbours_partial", "Verif.c39_shared_vertex_violated"], "note": "SplitCell2D on any well-formed mesh and any list of sub-cells: result, frame and exact content of the neighbour lists; the lists are complete only at vertices of a single sub-cell, a square split along its diagonal violates the property."},
  {"property": "C40", "status": "partial", "theorems": ["Verif.c40_common_vertices_partial", "Verif.c40_wrong_vertex_violated", "Verif.c40_abort_violated"], "note": "proved for up to three polygons, and for more when the first three have no vertex or one vertex, contained in all, in common"},
  {"property": "C41", "status": "proved", "theorems": ["Verif.c41_add_list"], "note": "All lists of the store."},
  {"property": "C42", "status": "partial", "theorems": ["Verif.c42_master_partial", "Verif.c42_one_part_violated", "Verif.c42_no_metis_violated"], "note": "Fails for one part and for a build without METIS."},
  {"property": "C43", "status": "partial", "theorems": ["Verif.c43_add", "Verif.c43_set", "Verif.c43_remove", "Verif.c43_number", "Verif.c43_c_string_violated"], "note": "Holds for all calls except SetPropertyValue(const char*), which does not check the type."},
  {"property": "C44", "status": "partial", "theorems": ["Verif.c44_csv_partial", "Verif.c44_set_partial", "Verif.c44_csv_violated"], "note": "Holds for values that can be read back and texts without separator or line end; printing of doubles is a hypothesis. Sets are exported completely but need brackets in place of braces to be read."},
  {"property": "C45", "status": "partial", "theorems": ["Verif.c45_ini_partial", "Verif.c45_ini_violated"], "note": "Holds for non-empty values without spaces that can be read back."},
  {"property": "C46", "status": "partial", "theorems": ["Verif.c46_type_names_partial", "Verif.c46_matrix_violated"], "note": "Holds for all types except matrices."},
  {"property": "C47", "status": "partial", "theorems": ["Verif.c47_failed_conversion_partial", "Verif.c47_failed_conversion_violated"], "note": "Other properties are unaffected and unknown types change nothing; the property itself is reset."},
  {"property": "C48", "status": "partial", "theorems": ["Verif.c48_arguments_partial", "Verif.c48_untyped_argument", "Verif.c48_empty_value_violated"], "note": "Holds when all parts are non-empty."},
  {"property": "C49", "status": "partial", "theorems": ["Verif.c49_edges_violated", "Verif.c49_edges_partial", "Verif.c49_cube_numbering_partial"], "note": "False in general: witness with the unit cube. Holds exactly for the first faces 0123 and 4567 of the library's numbering."},
  {"property": "C50", "status": "proved", "theorems": ["Verif.c50_start", "Verif.c50_translate", "Verif.c50_orientation", "Verif.c50_plane", "Verif.c50_triangle", "Verif.c50_rotation"], "note": ""},
  {"property": "C51", "status": "proved", "theorems": ["Verif.c51_start", "Verif.c51_value", "Verif.c51_translate", "Verif.c51_orientation"], "note": "area nonzero"},
  {"property": "C52", "status": "proved", "theorems": ["Verif.c52_closed_loop"], "note": ""},
  {"property": "C53", "status": "partial", "theorems": ["Verif.c53_edge_sides_partial", "Verif.c53_stale_violated"], "note": "a slot without polygon keeps an old value when the mesh already had edge neighbours"},
  {"property": "C54", "status": "partial", "theorems": ["Verif.c54_common_edges_partial", "Verif.c54_three_violated"], "note": "three or more polygons always give the empty list"},
  {"property": "C55", "status": "proved", "theorems": ["Verif.c55_triangle_mesh"], "note": "Called on an empty mesh."},
  {"property": "C56", "status": "partial", "theorems": ["Verif.c56_fill_1d", "Verif.c56_fill_1d_nothing", "Verif.c56_fill_2d", "Verif.c56_fill_3d", "Verif.c56_fill_3d_vectors_partial", "Verif.c56_fill_3d_vectors_violated"], "note": "1D, 2D and the matrix overload of 3D are proved in full. The vector overload of FillMesh3D accepts edges with extremes that do not exist (violated); the partial theorem characterises everything else it stores and refuses."},
  {"property": "C57", "status": "partial", "theorems": ["Verif.c57_filter_1d", "Verif.c57_filter_2d", "Verif.c57_filter_3d", "Verif.c57_extract_1d_partial", "Verif.c57_extract_1d_violated", "Verif.c57_extract_2d", "Verif.c57_extract_3d", "Verif.c57_filter_extract_2d", "Verif.c57_filter_extract_3d"], "note": "Filters and the extraction in 2D and 3D are proved in full. ExtractMesh1D loses markers and states (violated); the partial theorem proves the rest of the property for it."},
  {"property": "C58", "status": "proved", "theorems": ["Verif.c58_gauss", "Verif.c58_unsupported"], "note": "Decimal constants of the source, not rounded to doubles."},
  {"property": "C59", "status": "partial", "theorems": ["Verif.c59_lobatto_partial", "Verif.c59_first_row_partial", "Verif.c59_unwritten", "Verif.c59_lobatto_violated", "Verif.c59_unsupported"], "note": "Orders 0 to 15 in full; for 16 to 43 weights and first coordinates only: the other coordinates are never written (violated)."},
  {"property": "C60", "status": "partial", "theorems": ["Verif.c60_triangle_partial", "Verif.c60_order21_partial", "Verif.c60_order21", "Verif.c60_triangle_violated", "Verif.c60_unsupported"], "note": "All orders but 21, for which the rule of degree 20 is returned (violated)."},
  {"property": "C61", "status": "proved", "theorems": ["Verif.c61_square", "Verif.c61_unsupported"], "note": "Decimal constants of the source, not rounded to doubles."},
  {"property": "C62", "status": "proved", "theorems": ["Verif.c62_tetrahedron", "Verif.c62_unsupported"], "note": "Decimal constants of the source, not rounded to doubles."},
  {"property": "C63", "status": "proved", "theorems": ["Verif.c63_positive", "Verif.c63_odd", "Verif.c63_unsupported"], "note": "Decimal constants of the source, not rounded to doubles."},
  {"property": "C64", "status": "proved", "theorems": ["Verif.c64_hexahedron", "Verif.c64_unsupported"], "note": "Decimal constants of the source, not rounded to doubles."},
  {"property": "C65", "status": "partial", "theorems": ["Verif.c65_degenerate", "Verif.c65_nearest_points", "Verif.c65_different_planes", "Verif.c65_crossing_partial", "Verif.c65_crossing_violated", "Verif.c65_collinear_none", "Verif.c65_collinear_partial", "Verif.c65_relation_partial", "Verif.c65_relation_violated", "Verif.c65_touching_violated"], "note": "Coordinates, aborts, skew lines and separated collinear segments are proved. Crossing segments are found if the square of the sine of their angle exceeds the tolerance; nearly parallel crossing segments are reported as not intersecting (violated). The overlap and the relation are proved away from the tolerance of the ends; near them the relation is flipped and touching segments report the whole first segment (violated)."},
  {"property": "C66", "status": "proved", "theorems": ["Verif.c66_cases", "Verif.c66_single", "Verif.c66_in_plane"], "note": "For all segments and planes, with the tolerance made explicit."},
  {"property": "C67", "status": "partial", "theorems": ["Verif.c67_segment_circle", "Verif.c67_number_partial", "Verif.c67_small_circle_violated", "Verif.c67_point_circle"], "note": "What is reported is right for all inputs, up to the tolerance of the discriminant. That tolerance is raised to the configured minimum, so a circle of radius 2^-26 crossed through its centre is reported as tangent in its centre (violated)."},
  {"property": "C68", "status": "proved", "theorems": ["Verif.c68_on_line", "Verif.c68_off_line", "Verif.c68_off_plane"], "note": "double is an ordered field with a square root; the tolerance for lengths is below 1/2"},
  {"property": "C69", "status": "partial", "theorems": ["Verif.c69_outside", "Verif.c69_not_outside", "Verif.c69_off_lines", "Verif.c69_inside_partial", "Verif.c69_inside_exact", "Verif.c69_border", "Verif.c69_on_border", "Verif.c69_inside_violated"], "note": "a point on the line of an edge up to the tolerance, beyond its ends, is not judged by this edge; in a thin triangle a point outside is reported inside (c69_inside_violated); true if no edge has the point on its line only up to the tolerance (c69_inside_exact)"},
  {"property": "C70", "status": "partial", "theorems": ["Verif.c70_even_odd", "Verif.c70_convex", "Verif.c70_agree", "Verif.c70_border", "Verif.c70_on_edge", "Verif.c70_violated"], "note": "true if all edges are clear of the ray with respect to the tolerance; a ray that passes a vertex within the tolerance is miscounted (c70_violated)"},
  {"property": "C71", "status": "partial", "theorems": ["Verif.c71_tetrahedron", "Verif.c71_polyhedron_partial", "Verif.c71_off_planes", "Verif.c71_hull"], "note": "proved for points off the planes of the faces by more than the tolerance or exactly on them; on a face the answer depends on C69"},
  {"property": "C72", "status": "proved", "theorems": ["Verif.c72_box", "Verif.c72_point_in_box", "Verif.c72_boxes", "Verif.c72_no_miss", "Verif.c72_max_distance", "Verif.c72_find", "Verif.c72_unaligned"], "note": "double is an ordered field with a square root"},
  {"property": "C73", "status": "partial", "theorems": ["Verif.c73_equality_form_partial", "Verif.c73_slack_basis", "Verif.c73_sign_violated", "Verif.c73_cost_violated"], "note": "a variable without lower bound whose upper bound is negative is moved with the wrong sign; the value returned omits the constant of the lower bounds"},
  {"property": "C74", "status": "proved", "theorems": ["Verif.c74_simplex", "Verif.c74_exact", "Verif.c74_terminates"], "note": ""},
  {"property": "C75", "status": "partial", "theorems": ["Verif.c75_simplex_partial", "Verif.c75_exact_partial", "Verif.c75_no_slack", "Verif.c75_start_violated", "Verif.c75_tolerance_violated"], "note": "there is no first phase: the starting point must be feasible; the tolerance must not hide entries of the tableaux"},
  {"property": "C76", "status": "proved", "theorems": ["Verif.c76_center", "Verif.c76_fails", "Verif.c76_polygon"], "note": ""},
  {"property": "C77", "status": "partial", "theorems": ["Verif.c77_disjoint_partial", "Verif.c77_touch_partial", "Verif.c77_interior_partial", "Verif.c77_exact_partial", "Verif.c77_clockwise_violated"], "note": "For counter-clockwise triangles. A clockwise triangle is said not to meet a triangle inside it."},
  {"property": "C78", "status": "partial", "theorems": ["Verif.c78_equispace", "Verif.c78_one_extreme", "Verif.c78_step", "Verif.c78_random", "Verif.c78_random_extremes_partial", "Verif.c78_distance_violated", "Verif.c78_origin_violated", "Verif.c78_two_violated"], "note": "With the ends the random coordinates can be closer than asked for; without the ends the origin can be among them."},
  {"property": "C79", "status": "partial", "theorems": ["Verif.c79_rotation", "Verif.c79_on_plane", "Verif.c79_back", "Verif.c79_normal_partial", "Verif.c79_down_violated"], "note": "The third axis is not rotated to the normal if the normal is its opposite."},
  {"property": "C80", "status": "proved", "theorems": ["Verif.c80_reflection", "Verif.c80_refused"], "note": ""},
  {"property": "C81", "status": "partial", "theorems": ["Verif.c81_triangle_partial", "Verif.c81_down_violated"], "note": "Degenerate triangle for the opposite of the third axis."},
  {"property": "C82", "status": "partial", "theorems": ["Verif.c82_hull_partial", "Verif.c82_hull_collinear_partial", "Verif.c82_point", "Verif.c82_grid", "Verif.c82_aligned_violated"], "note": "For points that the tolerances tell apart, of any number: different indices, every point a convex combination of the returned ones, strict convexity without the aligned points, and with them all points of the boundary returned and the others strictly inside every half plane that contains the points; c82_grid has no hypothesis on the tolerances for integer coordinates up to 2^20. With the aligned points, points on one line read the element before the first one: c82_aligned_violated. std::sort is a parameter that sorts if the comparison is a strict weak order, else the outcome is undefined behaviour. Exact arithmetic."},
  {"property": "C83", "status": "partial", "theorems": ["Verif.c83_increasing", "Verif.c83_decreasing", "Verif.c83_small", "Verif.c83_convex_partial"], "note": "Any list of indices that is increasing (decreasing) up to a rotation gives counter clockwise (clockwise), fewer than three are rejected; composed with the model of ConvexHull for convex polygons with any aligned vertices and any first vertex. Missing: that the hull of a polygon that is not convex has its vertices in the order of the polygon. Exact arithmetic."},
  {"property": "C84", "status": "partial", "theorems": ["Verif.c84_convex_partial", "Verif.c84_concave", "Verif.c84_rejects", "Verif.c84_order_violated"], "note": "True for every convex polygon whose points the tolerances tell apart, with the hull computed by ConvexHull; false if a vertex is away from the lines of the edges of the hull; fewer than three vertices and vertices off the plane are rejected. The vertices of a convex polygon in any order are accepted: c84_order_violated. Exact arithmetic."},
  {"property": "C85", "status": "partial", "theorems": ["Verif.c85_terminates", "Verif.c85_triangles_partial", "Verif.c85_cover_partial", "Verif.c85_convex", "Verif.c85_grid"], "note": "Polygons in the plane; the square root is exact, the tolerances are below 1/2. Proved: the function aborts or returns for every polygon, and aborts with at most two vertices; if it returns, the vertices are distinct and the tolerances tell aligned triples apart, the areas of the triangles add up to PolygonArea, the winding number of the polygon around any point is the sum of those of the triangles (so a point off the sides is in exactly as many triangles as the polygon winds around it when all triangles are counter clockwise), all triangles but the last are counter clockwise, none is flat, and no vertex of a later triangle is in an earlier one except on the side that was cut; strictly convex polygons are triangulated with n - 2 counter clockwise triangles. Polygons with integer coordinates up to 1024 meet the hypotheses on the tolerances with the default configuration. Missing: every simple polygon has an ear that the tests accept, and the last triangle of a simple polygon is counter clockwise."},
  {"property": "C86", "status": "partial", "theorems": ["Verif.c86_split_partial", "Verif.c86_neighbours_partial", "Verif.c86_middle_vertex_violated"], "note": "The new edges, the split edge and all other cells are as described; the edge lists of the vertices get only the first sub-edge that ends there, and a vertex between two sub-edges does not get its edges."},
  {"property": "C87", "status": "partial", "theorems": ["Verif.c87_conforming_partial", "Verif.c87_markers", "Verif.c87_report", "Verif.c87_hanging_vertex", "Verif.c87_success", "Verif.c87_half_area", "Verif.c87_grid", "Verif.c87_neighbour_violated", "Verif.c87_rollback_violated"], "note": "The mesh after a successful bisection is conforming, with the stated halves, if the neighbour across the side (if any) is split as well, and not conforming otherwise. Both happen whenever the four halves are triangles within the tolerances; this is shown for vertices with even integer coordinates and the default tolerances. The code violates the full statement: a neighbour whose halves are below the tolerance is left with a hanging vertex although both calls succeed, and a bisection that is given up leaves the end points without the edge in their neighbour lists."},
  {"property": "C88", "status": "partial", "theorems": ["Verif.c88_sound_partial", "Verif.c88_complete", "Verif.c88_convex", "Verif.c88_grid", "Verif.c88_answers", "Verif.c88_side_violated", "Verif.c88_counts_violated", "Verif.c88_star_violated"], "note": "Acceptance is equivalent to the tested properties. Partial because the code does not test the number of edges of a polygon, the side on which a neighbour is or that both neighbours are entered, and accepts polygons with self-intersections (witnesses in c88_counts_violated, c88_side_violated, c88_star_violated); the test of the convexity is treated in exact arithmetic for vertices that the tolerances tell apart."},
  {"property": "C89", "status": "proved", "theorems": ["Verif.c89_polygon_mesh", "Verif.c89_fits", "Verif.c89_check"], "note": "Mesh2DFromPolygon for every polygon and every marker vector: what is stored, that edges and polygon fit together, and that convex polygons on a grid pass CheckMesh2D with the default tolerances."},
  {"property": "C90", "status": "partial", "theorems": ["Verif.c90_line", "Verif.c90_segment_partial", "Verif.c90_exact", "Verif.c90_segment_violated", "Verif.c90_space_violated"], "note": "The line is fully proved. For the segment the code first tests the distance from the line and then the angle at the origin of the segment; the theorem states the conjunction. Vertices within the tolerance can be missed in the plane, and in space the call can stop at an assertion; both are proved with witnesses."},
  {"property": "C91", "status": "partial", "theorems": ["Verif.c91_edges", "Verif.c91_outward", "Verif.c91_boundary", "Verif.c91_mid", "Verif.c91_centroid", "Verif.c91_internal_partial", "Verif.c91_internal_violated", "Verif.c91_half", "Verif.c91_parts", "Verif.c91_mass", "Verif.c91_inertia", "Verif.c91_barycenter", "Verif.c91_rejects"], "note": "The divergence theorem on every polygon for the area and the centroid; the second moments against integrals of Mathlib over the triangles. The decimals of the quadrature rules are taken as written and their error is bounded. Violated for the integral over triangles with a rule of several points, which is undefined (c91_internal_violated); with one point, as by default, it is the sum of the areas."},
  {"property": "C92", "status": "proved", "theorems": ["Verif.c92_distances", "Verif.c92_in_radius"], "note": "Euclidean distances from the vertices and the lines of the edges; the disc with the in radius lies on the inner side of every edge."},
  {"property": "C93", "status": "proved", "theorems": ["Verif.c93_fill", "Verif.c93_grid", "Verif.c93_polygon"], "note": "All fields for every mesh that meets the conditions; the tolerance must not judge vertices aligned that are not, which holds for points with small integer coordinates (c93_grid). The diameter is exact up to the tolerance of the comparison."},
  {"property": "C94", "status": "partial", "theorems": ["Verif.c94_partial", "Verif.c94_filled", "Verif.c94_violated"], "note": "The code violates the property: all loops run to the number of polyhedra, which is zero for a mesh in the plane (c94_violated). Proved: what is accepted, with the tests for the polygons below that number."},
  {"property": "C95", "status": "proved", "theorems": ["Verif.c95_dual", "Verif.c95_symmetric", "Verif.c95_inner", "Verif.c95_graph", "Verif.c95_short"], "note": "With some weights but fewer than edges MeshToGraph reads past the end (c95_short). The matrix of weights is a function: its size is not checked by the code. Unsigned overflow of weights is left out."},
  {"property": "C96", "status": "proved", "theorems": ["Verif.c96_tetrahedron", "Verif.c96_tetrahedron_origin", "Verif.c96_parallelepiped", "Verif.c96_extrusion", "Verif.c96_extrusion_abort", "Verif.c96_facets", "Verif.c96_round_trip", "Verif.c96_facets_ub"], "note": "All vectors, polygons, points and facets."},
  {"property": "C97", "status": "proved", "theorems": ["Verif.c97_reverse", "Verif.c97_reverse_empty", "Verif.c97_orientations", "Verif.c97_orientations_throw", "Verif.c97_edges", "Verif.c97_faces", "Verif.c97_coordinates", "Verif.c97_coordinates_abort"], "note": "All faces and consistent polyhedra."},
  {"property": "C98", "status": "partial", "theorems": ["Verif.c98_boundary_partial", "Verif.c98_default", "Verif.c98_boundary_violated", "Verif.c98_internal_partial", "Verif.c98_internal_violated", "Verif.c98_agree"], "note": "the default rules of one point give the volume for all placements and apexes; rules of several points are undefined because the weights are passed to DetJ"},
  {"property": "C99", "status": "proved", "theorems": ["Verif.c99_centroid", "Verif.c99_abort"], "note": "first moment up to the rounding of the constants of the rule, for all closed surfaces"}
]}
