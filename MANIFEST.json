{
 "claims": [
  {
   "property": "C01",
   "status": "proved",
   "theorems": [
    "B3d.CyclicBuffer.C01_cyclic_buffer_last_items",
    "B3d.CyclicBuffer.C01_cyclic_buffer_capacity",
    "B3d.CyclicBuffer.C01_cyclic_buffer_pointers_in_range"
   ],
   "note": ""
  },
  {
   "property": "C02",
   "status": "proved",
   "theorems": [
    "B3d.Util.C02_rollBack_spec",
    "B3d.Util.C02_rollForward_spec",
    "B3d.Util.C02_roll_is_rotation",
    "B3d.Util.C02_rolls_inverse",
    "B3d.Util.C02_roll_n_times_identity"
   ],
   "note": ""
  },
  {
   "property": "C03",
   "status": "proved",
   "theorems": [
    "B3d.Util.C03_random_id",
    "B3d.Util.C03_random_between",
    "B3d.Util.C03_random_within"
   ],
   "note": ""
  },
  {
   "property": "C04",
   "status": "proved",
   "theorems": [
    "B3d.Hier.C04_names"
   ],
   "note": ""
  },
  {
   "property": "C05",
   "status": "proved",
   "theorems": [
    "B3d.Hier.C05_add_rejected",
    "B3d.Hier.C05_add_error_changes_nothing",
    "B3d.Hier.C05_add_fresh"
   ],
   "note": ""
  },
  {
   "property": "C06",
   "status": "partial",
   "theorems": [
    "B3d.Hier.C06_replace_success",
    "B3d.Hier.C06_replace_unknown",
    "B3d.Hier.C06_replace_collision_partial",
    "B3d.Hier.C06_replace_not_atomic"
   ],
   "note": "Atomicity is false of the code: a name collision among the replacements raises after the old child has been deleted (C06_replace_not_atomic). Proved: full effect of a successful replacement, KeyError leaves the container unchanged, exact state after a collision."
  },
  {
   "property": "C07",
   "status": "partial",
   "theorems": [
    "B3d.Hier.C07_get_own_path_partial",
    "B3d.Hier.C07_shared_object_lost",
    "B3d.Hier.C07_lost_after_failed_constructor",
    "B3d.Hier.C07_no_building"
   ],
   "note": "Proved for every history in which no object is put into two containers; false without that hypothesis (C07_shared_object_lost, C07_lost_after_failed_constructor)."
  },
  {
   "property": "C08",
   "status": "proved",
   "theorems": [
    "B3d.Hier.C08_get_sound",
    "B3d.Hier.C08_paths_unique",
    "B3d.Hier.C08_get_errors",
    "B3d.Hier.C08_get_vertex",
    "B3d.Hier.C08_vertex_exact"
   ],
   "note": ""
  },
  {
   "property": "C09",
   "status": "proved",
   "theorems": [
    "B3d.Hier.C09_building_polygon_paths",
    "B3d.Hier.C09_listing_is_concatenation"
   ],
   "note": ""
  },
  {
   "property": "C10",
   "status": "proved",
   "theorems": [
    "B3d.Hier.C10_polygon_graph_exact",
    "B3d.Hier.C10_polygon_graph_symmetric",
    "B3d.Hier.C10_graph_of_one_polygon"
   ],
   "note": ""
  },
  {
   "property": "C11",
   "status": "proved",
   "theorems": [
    "B3d.Hier.C11_level_graph_exact",
    "B3d.Hier.C11_level_graph_given_or_computed"
   ],
   "note": ""
  },
  {
   "property": "C12",
   "status": "partial",
   "theorems": [
    "B3d.Hier.C12_fresh_graph_partial",
    "B3d.Hier.C12_graph_of_some_moment_partial",
    "B3d.Hier.C12_cached_graph_is_stale"
   ],
   "note": "False of the code for new=False with a cached graph (C12_cached_graph_is_stale). Proved: fresh computation is right, and any answer is the graph of an earlier query moment."
  },
  {
   "property": "C13",
   "status": "partial",
   "theorems": [
    "B3d.Mesh.C13_vstack_union",
    "B3d.Mesh.C13_vstack_sizes",
    "B3d.Mesh.C13_vstack_mismatch",
    "B3d.Mesh.C13_wall_mesh",
    "B3d.Mesh.C13_solid_mesh_partial",
    "B3d.Mesh.C13_zone_mesh_partial",
    "B3d.Mesh.C13_building_mesh_partial",
    "B3d.Mesh.C13_empty_wall_corrupts_mesh"
   ],
   "note": "Walls: full. Solids, zones, buildings: proved when no container inside is empty; false otherwise (C13_empty_wall_corrupts_mesh): an empty part between two others makes vstack_mesh overwrite earlier rows."
  },
  {
   "property": "C14",
   "status": "proved",
   "theorems": [
    "B3d.ArrayFormat.C14_array_format"
   ],
   "note": ""
  },
  {
   "property": "C15",
   "status": "proved",
   "theorems": [
    "B3d.ArrayFormat.C15_round_trip",
    "B3d.ArrayFormat.C15_round_trip_complete",
    "B3d.ArrayFormat.C15_no_solids"
   ],
   "note": ""
  },
  {
   "property": "C16",
   "status": "proved",
   "theorems": [
    "B3d.Files.C16_round_trip",
    "B3d.Files.C16_every_polygon",
    "B3d.Files.C16_exact",
    "B3d.Files.C16_no_polygons"
   ],
   "note": ""
  },
  {
   "property": "C17",
   "status": "proved",
   "theorems": [
    "B3d.Files.C17_round_trip",
    "B3d.Files.C17_every_polygon",
    "B3d.Files.C17_foreign",
    "B3d.Files.C17_ragged",
    "B3d.Files.C17_dangling_element",
    "B3d.Files.C17_unused_mesh",
    "B3d.Files.C17_missing_mesh",
    "B3d.Files.C17_repeated_name"
   ],
   "note": ""
  },
  {
   "property": "C18",
   "status": "proved",
   "theorems": [
    "B3d.Stl.C18_round_trip",
    "B3d.Stl.C18_counts"
   ],
   "note": ""
  },
  {
   "property": "C19",
   "status": "partial",
   "theorems": [
    "B3d.Stl.C19_accepted_partial",
    "B3d.Stl.C19_wellformed",
    "B3d.Stl.C19_needs_solid",
    "B3d.Stl.C19_line_breaks",
    "B3d.Stl.C19_facet_after_endsolid",
    "B3d.Stl.C19_unclosed_solid_dropped",
    "B3d.Stl.C19_second_endsolid_repeats",
    "B3d.Stl.C19_one_number_vertex"
   ],
   "note": "proved: accepted texts consist of segments opened by a solid line with complete facet blocks and matching closing lines, and the result is described exactly; well-formed files are read completely; facets or closing lines before any solid raise. False of the code and refuted with witnesses: a facet after endsolid is accepted, an unclosed solid is dropped silently, a second endsolid repeats the solid, a one-number vertex line is accepted"
  },
  {
   "property": "C20",
   "status": "proved",
   "theorems": [
    "B3d.Triangles.C20_winding",
    "B3d.Polygon.C20_encloses",
    "B3d.Triangles.C20_triangulate_valid",
    "B3d.Triangles.C20_triangulate_edges",
    "B3d.Triangles.C20_triangulate_uses_every_vertex",
    "B3d.Triangles.C20_triangulate_area"
   ],
   "note": ""
  },
  {
   "property": "C21",
   "status": "proved",
   "theorems": [
    "B3d.Triangles.C21_triangulate_terminates",
    "B3d.Triangles.C21_triangulate_only_triangulation_error",
    "B3d.Triangles.C21_triangulate_outcome",
    "B3d.Triangles.C21_triangulate_bad_normal"
   ],
   "note": ""
  },
  {
   "property": "C22",
   "status": "proved",
   "theorems": [
    "B3d.Polygon.C22_polygon_edges",
    "B3d.Polygon.C22_polygon_edges_chain",
    "B3d.Polygon.C22_polygon_edge_vectors_sum_zero",
    "B3d.Polygon.C22_polygon_edges_empty"
   ],
   "note": ""
  },
  {
   "property": "C23",
   "status": "proved",
   "theorems": [
    "B3d.Polygon.C23_polygon_area_spec",
    "B3d.Polygon.C23_polygon_area_nonneg",
    "B3d.Polygon.C23_polygon_area_translate",
    "B3d.Polygon.C23_polygon_area_renumber",
    "B3d.Polygon.C23_polygon_area_insert_vertex",
    "B3d.Polygon.C23_polygon_area_scale",
    "B3d.Polygon.C23_polygon_area_is_half_vector_length",
    "B3d.Triangles.C23_polygon_area_of_triangulation"
   ],
   "note": ""
  },
  {
   "property": "C24",
   "status": "partial",
   "theorems": [
    "B3d.Triangles.C24_polygon_centroid_scaled_partial",
    "B3d.Triangles.C24_polygon_centroid_unit_area_partial",
    "B3d.Triangles.C24_polygon_centroid_translate_partial",
    "B3d.Triangles.C24_polygon_centroid_not_in_plane"
   ],
   "note": "The weighted sum is not divided by the total area: the full property is refuted by C24_polygon_centroid_not_in_plane. Proved: the result is (total area) times a point of the convex hull; it is in the hull when the total area is 1; the exact effect of translation. With rounding: C121."
  },
  {
   "property": "C25",
   "status": "proved",
   "theorems": [
    "B3d.Bboxes.C25_bounding_box_tight",
    "B3d.Bboxes.C25_inside_bbox"
   ],
   "note": ""
  },
  {
   "property": "C26",
   "status": "proved",
   "theorems": [
    "B3d.Bboxes.C26_overlap_symmetric",
    "B3d.Bboxes.C26_overlap_iff_common_point",
    "B3d.Bboxes.C26_no_false_negative"
   ],
   "note": ""
  },
  {
   "property": "C27",
   "status": "proved",
   "theorems": [
    "B3d.Points.C27_distance_point_to_edge"
   ],
   "note": ""
  },
  {
   "property": "C28",
   "status": "proved",
   "theorems": [
    "B3d.Rotation.C28_rotation",
    "B3d.Rotation.C28_axis_and_angle",
    "B3d.Rotation.C28_additive",
    "B3d.Rotation.C28_zero",
    "B3d.Rotation.C28_rigid",
    "B3d.Rotation.C28_points",
    "B3d.Rotation.C28_small_angle",
    "B3d.Rotation.C28_not_unit",
    "B3d.Rotation.C28_noop_matrix_wrong"
   ],
   "note": "All parts proved for exact unit axes over the reals. C28_noop_matrix_wrong records that the matrix returned together with unrotated points is all ones, not the identity."
  },
  {
   "property": "C29",
   "status": "partial",
   "theorems": [
    "B3d.Rotation.C29_moves_partial",
    "B3d.Rotation.C29_plane_partial",
    "B3d.Rotation.C29_parallel_not_moved",
    "B3d.Rotation.C29_parallel_not_restored"
   ],
   "note": "Proved for a unit target normal not parallel to the normal of the points: rigid motion, target normal, plane u.x = u.anchor + d. False for (anti)parallel normals: C29_parallel_not_moved, C29_parallel_not_restored."
  },
  {
   "property": "C30",
   "status": "proved",
   "theorems": [
    "B3d.Triangles.C30_triangle_area",
    "B3d.Triangles.C30_triangle_laws",
    "B3d.Triangles.C30_tetrahedron_volume",
    "B3d.Triangles.C30_tetrahedron_laws"
   ],
   "note": ""
  },
  {
   "property": "C31",
   "status": "partial",
   "theorems": [
    "B3d.Solids.C31_box_partial",
    "B3d.Solids.C31_far"
   ],
   "note": "The theorem covers boxes of at least a millimetre whose sides are not smaller than a ten thousandth of the largest coordinate; a room at UTM coordinates is proved to raise TriangulationError (C31_far). With rounding: C120."
  },
  {
   "property": "C32",
   "status": "partial",
   "theorems": [
    "B3d.Solids.C32_names",
    "B3d.Solids.C32_wrong_names",
    "B3d.Solids.C32_empty",
    "B3d.Solids.C32_prism_partial",
    "B3d.Solids.C32_reflex",
    "B3d.Solids.C32_rectangle",
    "B3d.Solids.C32_arrow",
    "B3d.Solids.C32_convex",
    "B3d.Solids.C32_corridor",
    "B3d.Solids.C32_ell",
    "B3d.Solids.C32_ell_reflex"
   ],
   "note": "Names, error cases, the prism (outlines, outward normals, closed, every edge once, volume) for plans whose first and last corners are convex, and unconditional success for convex plans whose walls are not too narrow (C32_convex, C32_rectangle) are proved. False in general: with a reflex first or last corner floor and ceiling get the same normal and the surface is not closed (C32_reflex, C32_arrow); a simple rectilinear plan raises TriangulationError (C32_corridor). The floor or the ceiling polygon gets a random name (flip() without a name). Rotations and translations up to 1e-8 are ignored. L-shaped plans, drawn anywhere and in either direction, give a closed solid of the right volume if the reflex corner is neither the first nor the last (C32_ell); otherwise floor_plan gives a solid that is not closed (C32_ell_reflex)."
  },
  {
   "property": "C33",
   "status": "partial",
   "theorems": [
    "B3d.Polygon.C33_flip_partial",
    "B3d.Polygon.C33_twice_partial",
    "B3d.Polygon.C33_flip_reflex",
    "B3d.Polygon.C33_flip_straight",
    "B3d.Polygon.C33_arrow"
   ],
   "note": "Holds when the last corner of the polygon is convex (C33_flip_partial, C33_twice_partial). False otherwise: with a reflex last corner the result has the normal and points of the original (C33_flip_reflex, witness C33_arrow), with a straight last corner flip raises AssertionError (C33_flip_straight). That flip succeeds is a hypothesis, met by convex outlines (C84_convex_flip)."
  },
  {
   "property": "C34",
   "status": "partial",
   "theorems": [
    "B3d.Polygon.C34_sound_partial",
    "B3d.Polygon.C34_exact_partial",
    "B3d.Polygon.C34_symmetric_partial",
    "B3d.Polygon.C34_not_symmetric",
    "B3d.Polygon.C34_different_shape"
   ],
   "note": "Facing implies nearly opposite normals, nearly equal area and an injective matching of the points (C34_sound_partial). With clearly separated points and equal numbers of points it is exact and symmetric. Symmetry is false in general (C34_not_symmetric), and facing polygons need not have the same shape (C34_different_shape)."
  },
  {
   "property": "C35",
   "status": "partial",
   "theorems": [
    "B3d.Points.C35_points_equal_partial",
    "B3d.Points.C35_points_equal_not_symmetric",
    "B3d.Points.C35_points_equal_not_translation_invariant",
    "B3d.Points.C35_points_equal_not_transitive"
   ],
   "note": "Reflexivity, acceptance of absolutely close points and a quantified near-symmetry are proved; symmetry, transitivity and translation invariance are refuted by concrete points (the default relative tolerance of np.allclose is relative to the second argument)."
  },
  {
   "property": "C36",
   "status": "partial",
   "theorems": [
    "B3d.Points.C36_collinear_complete_partial",
    "B3d.Points.C36_collinear_fails_on_repeated_point",
    "B3d.Points.C36_coplanar_complete",
    "B3d.Points.C36_coplanar_sound_partial",
    "B3d.Points.C36_coplanar_accepts_noncoplanar"
   ],
   "note": "Coplanarity completeness proved in full; soundness proved when a non-degenerate consecutive triple exists; collinearity completeness when no point repeats the first one. Counterexamples proved: repeated first point is 'not collinear', doubled points make a non-planar set 'coplanar'."
  },
  {
   "property": "C37",
   "status": "partial",
   "theorems": [
    "B3d.Points.C37_sound_partial",
    "B3d.Points.C37_lines",
    "B3d.Points.C37_complete_partial",
    "B3d.Points.C37_parallel"
   ],
   "note": "Sound up to the tolerances of the code (C37_sound_partial), complete for lines that are neither too short nor nearly parallel (C37_complete_partial), parallel lines never intersect (C37_parallel). Exact for points without doubtful positions: C116."
  },
  {
   "property": "C38",
   "status": "partial",
   "theorems": [
    "B3d.Points.C38_point_on_segment_complete",
    "B3d.Points.C38_point_on_segment_sound_partial",
    "B3d.Points.C38_degenerate_segment_accepts_everything"
   ],
   "note": "Completeness proved in full; soundness for non-degenerate segments; counterexample: a degenerate segment accepts every point."
  },
  {
   "property": "C39",
   "status": "proved",
   "theorems": [
    "B3d.Points.C39_pairs",
    "B3d.Points.C39_error",
    "B3d.Points.C39_enough",
    "B3d.Points.C39_instance"
   ],
   "note": ""
  },
  {
   "property": "C40",
   "status": "partial",
   "theorems": [
    "B3d.Points.C40_matrix",
    "B3d.Points.C40_geometry_partial"
   ],
   "note": "The matrix is symmetric, has ones on the diagonal and agrees with the pairwise test (C40_matrix). Geometrically an edge that touches one of the points or is parallel to the line never blocks (C40_geometry_partial). Exact for points without doubtful positions: C116."
  },
  {
   "property": "C41",
   "status": "partial",
   "theorems": [
    "B3d.Slice.C41_points",
    "B3d.Slice.C41_cut_partial",
    "B3d.Slice.C41_closing_edge",
    "B3d.Slice.C41_sums",
    "B3d.Slice.C41_polygons_partial",
    "B3d.Slice.C41_cover_partial",
    "B3d.Slice.C41_slice",
    "B3d.Slice.C41_slice_partial"
   ],
   "note": "Proved: the slicing points that are kept are the given ones or crossings; if the line runs from boundary to boundary through the inside (and, when both ends are on the closing edge, in one direction), the two results are the two parts of the outline cut along the line (C41_cut_partial); then their areas add up to the polygon's, the normals are the same and every point off the edges is covered by exactly one part (C41_polygons_partial, C41_cover_partial, C41_slice_partial). False: a notch that starts and ends on the closing edge is inserted at the wrong place (C41_closing_edge: areas 1 and 13 of a square of 16)."
  },
  {
   "property": "C42",
   "status": "proved",
   "theorems": [
    "B3d.Slice.C42_order",
    "B3d.Slice.C42_contains",
    "B3d.Slice.C42_outside",
    "B3d.Slice.C42_named",
    "B3d.Slice.C42_no_points",
    "B3d.Slice.C42_ambiguous",
    "B3d.Slice.C42_make_polygons"
   ],
   "note": "Proved as decision logic for all names and reference points. Remarks proved as well: a reference point on the cut, inside both parts, raises RuntimeError; with equal names the point is ignored. For chords of convex polygons C111_named says in addition which points are in which part."
  },
  {
   "property": "C43",
   "status": "partial",
   "theorems": [
    "B3d.Slice.C43_outcome",
    "B3d.Slice.C43_in_order",
    "B3d.Slice.C43_first_pass",
    "B3d.Slice.C43_single_pass_partial",
    "B3d.Slice.C43_straight",
    "B3d.Slice.C43_touching",
    "B3d.Slice.C43_start_matters",
    "B3d.Slice.C43_along_edge",
    "B3d.Slice.C43_cut_lost",
    "B3d.Slice.C43_remove_redundant"
   ],
   "note": "Proved: which points are kept, and that the kept points are one run inside the polygon with at most its ends on the boundary. False: a line that only touches, the start of the slicing outline matters, adjacent vertices kept as a cut, a cut lost when the outline goes on along the second edge."
  },
  {
   "property": "C44",
   "status": "proved",
   "theorems": [
    "B3d.Sim.C44_lookup",
    "B3d.Sim.C44_complete",
    "B3d.Sim.C44_no_polygon_missing",
    "B3d.Sim.C44_sound",
    "B3d.Sim.C44_lookup_sound"
   ],
   "note": ""
  },
  {
   "property": "C45",
   "status": "proved",
   "theorems": [
    "B3d.Sim.C45_found_iff",
    "B3d.Sim.C45_nearest",
    "B3d.Sim.C45_order_independent"
   ],
   "note": ""
  },
  {
   "property": "C46",
   "status": "proved",
   "theorems": [
    "B3d.Sim.C46_energy",
    "B3d.Sim.C46_unit_interval",
    "B3d.Sim.C46_surface_loss"
   ],
   "note": "With rounding errors: C117."
  },
  {
   "property": "C47",
   "status": "proved",
   "theorems": [
    "B3d.Sim.C47_dead_rays_stay",
    "B3d.Sim.C47_dead_rays_unchanged"
   ],
   "note": ""
  },
  {
   "property": "C48",
   "status": "proved",
   "theorems": [
    "B3d.Sim.C48_hits",
    "B3d.Sim.C48_total"
   ],
   "note": ""
  },
  {
   "property": "C49",
   "status": "proved",
   "theorems": [
    "B3d.Sim.C49_reflection_law",
    "B3d.Sim.C49_speed"
   ],
   "note": "With rounding errors: C117."
  },
  {
   "property": "C50",
   "status": "proved",
   "theorems": [
    "B3d.Sim.C50_schedule_independent",
    "B3d.Sim.C50_complete",
    "B3d.Sim.C50_sequential"
   ],
   "note": ""
  },
  {
   "property": "C51",
   "status": "proved",
   "theorems": [
    "B3d.Sim.C51_bound",
    "B3d.Sim.C51_terminates",
    "B3d.Sim.C51_fuel_irrelevant",
    "B3d.Sim.C51_zero_absorption_hangs"
   ],
   "note": "C51_zero_absorption_hangs shows that the hypothesis of positive absorption is needed. With rounding errors: C117."
  },
  {
   "property": "C52",
   "status": "partial",
   "theorems": [
    "B3d.Sim.C52_batches_partial",
    "B3d.Sim.C52_run_partial",
    "B3d.Sim.C52_differs"
   ],
   "note": "Equality of the dumped files is proved for runs in which, at every batch end but the last, each ray with energy moved in the last step or is not at a polygon when tested with direction zero. Missing: the case without this proviso, where the statement is false (C52_differs): the velocity handed to the next batch is recomputed from two positions and is zero for a ray standing exactly at the reflection distance."
  },
  {
   "property": "C53",
   "status": "proved",
   "theorems": [
    "B3d.Buffers.C53_roundtrip",
    "B3d.Buffers.C53_batches",
    "B3d.Buffers.C53_complete",
    "B3d.Buffers.C53_run"
   ],
   "note": ""
  },
  {
   "property": "C54",
   "status": "proved",
   "theorems": [
    "B3d.Config.C54_set",
    "B3d.Config.C54_unknown_path",
    "B3d.Config.C54_unknown_param",
    "B3d.Config.C54_failure",
    "B3d.Config.C54_initial",
    "B3d.Config.C54_history",
    "B3d.Config.C54_array",
    "B3d.Config.C54_array_unnumbered",
    "B3d.Hier.C54_vertex"
   ],
   "note": "Silently accepted unknown parameters for objects without polygons are part of C54_unknown_param."
  },
  {
   "property": "C55",
   "status": "partial",
   "theorems": [
    "B3d.Config.C55_settings_ignored",
    "B3d.Config.C55_unset_partial"
   ],
   "note": "False of the code: Simulation fills surf_absorption with the default value and never calls surface_params_to_array (C55_settings_ignored). What holds is proved for polygons without a value of their own (C55_unset_partial)."
  },
  {
   "property": "C56",
   "status": "partial",
   "theorems": [
    "B3d.Hier.C56_find_transparent_partial",
    "B3d.Hier.C56_cached_result_is_stale",
    "B3d.Hier.C56_same_solid_reported"
   ],
   "note": "First call proved exact; cached answers go stale (C56_cached_result_is_stale) and same-solid faces are reported too (C56_same_solid_reported)."
  },
  {
   "property": "C57",
   "status": "partial",
   "theorems": [
    "B3d.Output.C57_normalised_partial",
    "B3d.Output.C57_errors",
    "B3d.Output.C57_time",
    "B3d.Output.C57_time_wrong"
   ],
   "note": "Row count, columns, normalisation and error branches proved. The times of the rows are not multiples of the time step: np.linspace includes the end point, so the spacing is N*dt/(N-1) (C57_time, C57_time_wrong)."
  },
  {
   "property": "C58",
   "status": "proved",
   "theorems": [
    "B3d.Output.C58_lines",
    "B3d.Output.C58_plot",
    "B3d.Output.C58_too_many_rays"
   ],
   "note": ""
  },
  {
   "property": "C59",
   "status": "partial",
   "theorems": [
    "B3d.Wildcard.C59_numbers",
    "B3d.Wildcard.C59_fill",
    "B3d.Wildcard.C59_roundtrip_partial",
    "B3d.Wildcard.C59_names",
    "B3d.Wildcard.C59_sound",
    "B3d.Wildcard.C59_wildcard_first",
    "B3d.Wildcard.C59_adjacent_wildcards",
    "B3d.Wildcard.C59_name_clash"
   ],
   "note": "Round trip proved for paths that begin with a character other than a dot or digit, have wildcards separated by non-digits and no name clashes; false otherwise (C59_wildcard_first, C59_adjacent_wildcards, C59_name_clash). Paths with other special characters of regular expressions are outside the model."
  },
  {
   "property": "C60",
   "status": "proved",
   "theorems": [
    "B3d.Wildcard.C60_filter",
    "B3d.Wildcard.C60_error",
    "B3d.Wildcard.C60_complete",
    "B3d.Wildcard.C60_unknown_name"
   ],
   "note": ""
  },
  {
   "property": "C61",
   "status": "partial",
   "theorems": [
    "B3d.Hier.C61_stitch_visits_partial",
    "B3d.Hier.C61_same_names_skipped"
   ],
   "note": "Proved when solid names are distinct in the building; false otherwise (C61_same_names_skipped). The geometric effect of stitching one pair is not part of this claim."
  },
  {
   "property": "C62",
   "status": "proved",
   "theorems": [
    "B3d.Hier.C62_find_location"
   ],
   "note": ""
  },
  {
   "property": "C63",
   "status": "proved",
   "theorems": [
    "B3d.Solids.C63_volume",
    "B3d.Solids.C63_translation",
    "B3d.Solids.C63_sum"
   ],
   "note": "Volume of polygons made by the constructor from exactly flat points, up to the regularisation 1e-6/12 per triangle."
  },
  {
   "property": "C64",
   "status": "proved",
   "theorems": [
    "B3d.Polygon.C64_projection_plane",
    "B3d.Polygon.C64_plane_coefficients"
   ],
   "note": ""
  },
  {
   "property": "C65",
   "status": "proved",
   "theorems": [
    "B3d.Points.C65_new_point_between",
    "B3d.Points.C65_many_new_points"
   ],
   "note": ""
  },
  {
   "property": "C66",
   "status": "proved",
   "theorems": [
    "B3d.Wildcard.C66_named"
   ],
   "note": ""
  },
  {
   "property": "C67",
   "status": "proved",
   "theorems": [
    "B3d.Sim.C67_fate",
    "B3d.Sim.C67_outside"
   ],
   "note": ""
  },
  {
   "property": "C68",
   "status": "proved",
   "theorems": [
    "B3d.Config.C68_start",
    "B3d.Config.C68_existing",
    "B3d.FileSystem.C68_directories",
    "B3d.FileSystem.C68_same_directory"
   ],
   "note": ""
  },
  {
   "property": "C69",
   "status": "partial",
   "theorems": [
    "B3d.Output.C69_frames_partial",
    "B3d.Output.C69_colours_partial",
    "B3d.Output.C69_colours_wrong"
   ],
   "note": "Frames, their order, points and trails proved; colours of the trails proved for one ray or trails of one point. With two rays and two times or more the energies are attached in time order to points listed ray by ray (C69_colours_wrong). The first row and the last row are never shown."
  },
  {
   "property": "C70",
   "status": "proved",
   "theorems": [
    "B3d.Polygon.C70_orientation",
    "B3d.Polygon.C70_reflex_first_corner",
    "B3d.Polygon.C70_given"
   ],
   "note": ""
  },
  {
   "property": "C71",
   "status": "partial",
   "theorems": [
    "B3d.Polygon.C71_total",
    "B3d.Polygon.C71_accepts_partial",
    "B3d.Polygon.C71_accepts_edge_partial",
    "B3d.Polygon.C71_sound_partial",
    "B3d.Polygon.C71_off_plane",
    "B3d.Polygon.C71_boundary",
    "B3d.Polygon.C71_margin",
    "B3d.Polygon.C71_interior_point",
    "B3d.Polygon.C71_contains_partial",
    "B3d.Polygon.C71_contains_nonconvex",
    "B3d.Polygon.C71_far_from_origin",
    "B3d.Polygon.C71_rejects_inner_point"
   ],
   "note": "Proved: no exceptions; points well inside a triangle (a micrometre and 1/10000 of the longest edge away from its edges), points on an edge away from the other edges, and all corners are accepted; accepted points are within 1e-4*M+2e-7 of the covered region (M: distance of the corners from the origin); points off the plane are rejected; the versions without boundary and with margin; interior point. False: a point inside a triangle 1e-5 from a corner is rejected (C71_rejects_inner_point); far from the origin points a metre outside are accepted (C71_far_from_origin); contains_polygon looks only at corners (C71_contains_nonconvex). Exact for points without doubtful positions: C113."
  },
  {
   "property": "C72",
   "status": "partial",
   "theorems": [
    "B3d.Polygon.C72_distance_attained",
    "B3d.Polygon.C72_distance_in_front",
    "B3d.Polygon.C72_distance_minimal_partial",
    "B3d.Polygon.C72_own_normal",
    "B3d.Polygon.C72_inner_point"
   ],
   "note": "Proved for the normal of the first corner (as the simulation passes it): the result is a number, attained in the polygon up to 1e-4*(M+|k|)+1e-7 (C72_distance_attained), equal to the distance to the projection when that falls well inside a triangle (C72_distance_in_front), and minimal whenever the projection is outside the polygon, on its outline or well inside a triangle (C72_distance_minimal_partial). Missing: projections in the polygon within the tolerance of an edge between two triangles. False in general: with the polygon's own normal and a reflex first corner the result is wrong (C72_own_normal), and an inner point near a corner gets a positive distance (C72_inner_point). Exact for points without doubtful positions: C113_distance."
  },
  {
   "property": "C73",
   "status": "partial",
   "theorems": [
    "B3d.Polygon.C73_total",
    "B3d.Polygon.C73_hit_partial",
    "B3d.Polygon.C73_sound_partial",
    "B3d.Polygon.C73_parallel"
   ],
   "note": "Proved: never raises; a forward hit well inside a triangle or at a corner is reported; a reported hit is within 1e-4*M+1e-7 of the polygon, forward if fwd_only; almost parallel rays hit exactly if they start in the polygon. Missing: hits within the tolerance of an edge of a triangle, polygons whose first corner is straight. Exact for points without doubtful positions, also on edges of triangles: C113_ray."
  },
  {
   "property": "C74",
   "status": "partial",
   "theorems": [
    "B3d.Solids.C74_total",
    "B3d.Solids.C74_boundary_partial",
    "B3d.Solids.C74_any_ray",
    "B3d.Solids.C74_enclosed_partial",
    "B3d.Solids.C74_box_enclosed",
    "B3d.Solids.C74_box_partial",
    "B3d.Solids.C74_ray_through_edge"
   ],
   "note": "Proved for any solid of planar polygons: no exceptions and False outside the bounding box (C74_total); for a closed surface the parity of crossings is the same for all rays that meet no edge (C74_any_ray); if the ray of the code crosses each face well inside a triangle or clearly misses it and the point is not within the tolerance of the surface, the answer is whether the point is enclosed (C74_enclosed_partial); points well inside a triangle of a face, on its edges, and corners count as inside (C74_boundary_partial). For boxes: what is enclosed is the open box (C74_box_enclosed), and the code's answer is right unless its ray leaves near an edge or diagonal (C74_box_partial). False: a point 10 cm inside a unit cube whose ray leaves through an edge is said to be outside (C74_ray_through_edge). Missing: rays almost through edges, points within the tolerance of the surface. Exact for points without doubtful positions, also for rays through edges between triangles of a face: C114."
  },
  {
   "property": "C75",
   "status": "partial",
   "theorems": [
    "B3d.Slice.C75_points",
    "B3d.Slice.C75_kept",
    "B3d.Slice.C75_same_outline_partial",
    "B3d.Slice.C75_once_partial",
    "B3d.Slice.C75_order"
   ],
   "note": "Proved: the exact result (C75_points: after each point, one point for each edge of the other outline that crosses the edge, in the order of the other outline's edges), no point lost (C75_kept), the same closed line if the crossings come in order along the edge, in particular with one crossing per edge (C75_same_outline_partial, C75_once_partial). False in general: the points are not sorted along the edge (C75_order)."
  },
  {
   "property": "C76",
   "status": "partial",
   "theorems": [
    "B3d.Polygon.C76_total",
    "B3d.Polygon.C76_sound_partial",
    "B3d.Polygon.C76_complete_partial",
    "B3d.Polygon.C76_outlines_apart",
    "B3d.Polygon.C76_same",
    "B3d.Polygon.C76_inside_reported",
    "B3d.Polygon.C76_overlap_missed",
    "B3d.Polygon.C76_apart_reported"
   ],
   "note": "Proved: an answer is always given; True means that a point of the outline of one is in the other up to the tolerance (C76_sound_partial); True if two edges meet and one of their ten sample points is well inside the other polygon (C76_complete_partial); False if the outlines are apart (C76_outlines_apart) and for the same outline (C76_same). False in general: two bars which form a cross are missed as no sample is in the common square metre (C76_overlap_missed), a square inside another one sharing a part of an edge is reported (C76_inside_reported), and triangles a kilometre from the origin and a centimetre apart are reported (C76_apart_reported). Exact without doubtful positions: C118."
  },
  {
   "property": "C77",
   "status": "partial",
   "theorems": [
    "B3d.Polygon.C77_total",
    "B3d.Polygon.C77_sound_partial",
    "B3d.Polygon.C77_complete_partial",
    "B3d.Polygon.C77_apart",
    "B3d.Polygon.C77_same",
    "B3d.Polygon.C77_overlap_reported",
    "B3d.Polygon.C77_not_symmetric",
    "B3d.Polygon.C77_crossing_edges"
   ],
   "note": "Proved: an answer is always given; True means that a corner of one is on the outline of the other up to the tolerance and no corner or quarter point of an edge is well inside the other (C77_sound_partial); True if a corner is on the other outline, all these points are on the other outline or clearly outside, and the first polygon has a corner of its own (C77_complete_partial); False if the corners are away from the other outline (C77_apart) and if the corners of the first are corners of the second (C77_same). False in general: bars overlapping in a square metre are reported touching (C77_overlap_reported), the answer depends on the order of the arguments (C77_not_symmetric), edges that cross in space are not found (C77_crossing_edges). Exact without doubtful positions: C118."
  },
  {
   "property": "C78",
   "status": "partial",
   "theorems": [
    "B3d.Polygon.C78_total",
    "B3d.Polygon.C78_sound_partial",
    "B3d.Polygon.C78_complete_partial",
    "B3d.Polygon.C78_misses",
    "B3d.Polygon.C78_in_plane",
    "B3d.Polygon.C78_cube_total",
    "B3d.Polygon.C78_cube_sound_partial",
    "B3d.Polygon.C78_cube_complete_partial",
    "B3d.Polygon.C78_straight_corner"
   ],
   "note": "Proved: an answer is always given; True for a segment means that one of its points is in the polygon up to the tolerance (C78_sound_partial), True if there is a common point which is not too close to an edge of a triangle and the segment is not parallel to the polygon (C78_complete_partial), False if the segment is away from it (C78_misses). The same for boxes (C78_cube_sound_partial, C78_cube_complete_partial): that looking at the corners of the polygon, its triangles' edges against the faces and the box's edges against the polygon is enough is proved (triangle_meets_box). False in general: no segment in the plane of the polygon is reported (C78_in_plane), and no segment at all if the first corner of the polygon is straight (C78_straight_corner). Exact for segments without doubtful positions: C113_segment."
  },
  {
   "property": "C79",
   "status": "partial",
   "theorems": [
    "B3d.Solids.C79_total",
    "B3d.Solids.C79_interface_adjacent",
    "B3d.Solids.C79_interface_sound_partial",
    "B3d.Solids.C79_adjacent_sound_partial",
    "B3d.Solids.C79_apart",
    "B3d.Solids.C79_boxes",
    "B3d.Solids.C79_interface_one_pair",
    "B3d.Solids.C79_overlap_missed"
   ],
   "note": "Proved: both questions are always answered, a correct interface implies adjacency, True means that polygons meet up to the tolerance (C79_adjacent_sound_partial) or have the same corners and area and opposite normals (C79_interface_sound_partial), solids away from each other are not adjacent (C79_apart), equal boxes side by side along any axis are adjacent with a correct interface (C79_boxes). False in general: one facing pair is enough for a correct interface, even if other polygons cross (C79_interface_one_pair), and walls overlapping in a square metre can be missed (C79_overlap_missed)."
  },
  {
   "property": "C80",
   "status": "partial",
   "theorems": [
    "B3d.Polygon.C80_same_length",
    "B3d.Polygon.C80_lengths_raise",
    "B3d.Polygon.C80_congruent",
    "B3d.Polygon.C80_refl",
    "B3d.Polygon.C80_symmetric_partial",
    "B3d.Polygon.C80_rotated"
   ],
   "note": "Proved: for the same number of corners the answer is the comparison corner by corner (C80_same_length), a polygon equals itself and every polygon with the same outline (C80_refl, C80_congruent), symmetric up to the tolerance, which is relative to the second polygon (C80_symmetric_partial). False in general: polygons with different numbers of corners raise ValueError (C80_lengths_raise), the same square starting at another corner is different (C80_rotated)."
  },
  {
   "property": "C81",
   "status": "partial",
   "theorems": [
    "B3d.Solids.C81_pieces",
    "B3d.Solids.C81_returns",
    "B3d.Solids.C81_nothing",
    "B3d.Solids.C81_again",
    "B3d.Solids.C81_stuck",
    "B3d.Solids.C81_endless",
    "B3d.Solids.C81_run",
    "B3d.Solids.C81_name_taken",
    "B3d.Solids.C81_same_name",
    "B3d.Solids.C81_surface_partial",
    "B3d.Solids.C81_window"
   ],
   "note": "Proved: whatever the outcome, both solids are changed only by slicing polygons and replacing them by their two named parts (C81_pieces, for names that are apart); if it returns, no pair crosses or contains as far as the library's tests see (C81_returns); stitching again changes nothing (C81_again); good cuts keep area, surface and volume up to the regularisation (C81_surface_partial); a complete run is C81_run. False in general: a strip across a square wall makes the recursion endless (C81_endless, C81_stuck); a polygon is lost if the name of the part is taken (C81_name_taken); polygons of the same name in other walls are replaced, too (C81_same_name)."
  },
  {
   "property": "C82",
   "status": "partial",
   "theorems": [
    "B3d.Sim.C82_noticed",
    "B3d.Sim.C82_walls",
    "B3d.Sim.C82_room",
    "B3d.Sim.C82_leak",
    "B3d.Sim.C82_code_partial",
    "B3d.Sim.C82_exit_partial",
    "B3d.Sim.C82_convex_closes",
    "B3d.Sim.C82_box",
    "B3d.Sim.C82_small_voxels",
    "B3d.Sim.C82_files_partial"
   ],
   "note": "Proved for all runs: a ray never comes to a point of an opaque polygon that the tests notice (C82_noticed); with tests that are right no ray passes a wall and all rays stay in a closed room (C82_walls, C82_room), e.g. in boxes of all sizes (C82_box); with the tests of the code a ray can only pass near an edge of a triangle, almost parallel to the polygon, or starting right in front of a seam (C82_code_partial, C82_exit_partial; for the files of a run in batches C82_files_partial). Needed: cells of the grid of at least the length of a step, which is not checked (C82_small_voxels). Missing: the points near the edges, where a ray does pass (C82_leak)."
  },
  {
   "property": "C83",
   "status": "partial",
   "theorems": [
    "B3d.Solids.C83_pairs",
    "B3d.Solids.C83_pieces",
    "B3d.Solids.C83_matched_partial",
    "B3d.Solids.C83_graph_stale",
    "B3d.Solids.C83_run"
   ],
   "note": "Proved: the visited pairs are stitched one after the other (C83_pairs, with C61 for which they are); whatever the outcome, same solids at the same paths, each only cut, solids without neighbours unchanged (C83_pieces); the faces of a pair match if neither solid is in a later pair (C83_matched_partial). Missing: pairs cut again later. False: the graph afterwards is that of the building before (C83_graph_stale)."
  },
  {
   "property": "C84",
   "status": "partial",
   "theorems": [
    "B3d.Polygon.C84_ell_partial",
    "B3d.Polygon.C84_convex_partial",
    "B3d.Polygon.C84_convex_any_start",
    "B3d.Polygon.C84_convex_flip",
    "B3d.Polygon.C84_star_partial",
    "B3d.Polygon.C84_convex_is_star",
    "B3d.Polygon.C84_simple_fails",
    "B3d.Polygon.C84_depends_on_start"
   ],
   "note": "Proved for convex outlines in any plane, with any number of corners and any first corner, including flipping (C84_convex_partial, C84_convex_any_start, C84_convex_flip), and for outlines with any number of reflex corners which are seen from their last corner (C84_star_partial, which includes the convex ones: C84_convex_is_star). L-shaped outlines of any size and in any plane become polygons whichever corner except the reflex one comes first, and can be flipped unless the reflex corner is the first or last (C84_ell_partial). False for simple outlines: the counter of failed corners is never reset, so a simple outline with 8 corners and a rectilinear one with 16 are rejected with TriangulationError although their first corner is convex (C84_simple_fails), and the same outlines are accepted if they start elsewhere (C84_depends_on_start). Missing: accepted outlines not seen from their last corner."
  },
  {
   "property": "C85",
   "status": "partial",
   "theorems": [
    "B3d.Display.C85_drawn_partial",
    "B3d.Display.C85_errors",
    "B3d.Display.C85_single_colour",
    "B3d.Display.C85_rays"
   ],
   "note": "Proved for two objects or more and for calls without colours (C85_drawn_partial), errors (C85_errors), the ray plotter (C85_rays). False for a single object with a colour: it is drawn white (C85_single_colour)."
  },
  {
   "property": "C86",
   "status": "partial",
   "theorems": [
    "B3d.PointKey.C86_key_partial",
    "B3d.PointKey.C86_ties",
    "B3d.PointKey.C86_equal_points",
    "B3d.PointKey.C86_unequal_points"
   ],
   "note": "Proved: nearest multiples, ties to even, distance of points with the same tuple, same hash, idempotence (C86_key_partial, C86_ties). False in both directions for points_equal: its relative tolerance makes points with different tuples equal (C86_equal_points), and near the origin it separates points with the same tuple (C86_unequal_points)."
  },
  {
   "property": "C87",
   "status": "partial",
   "theorems": [
    "B3d.Buffers.C87_stopped_partial",
    "B3d.Buffers.C87_completed_lost"
   ],
   "note": "Proved exactly (C87_stopped_partial): reading succeeds if and only if no file is cut off, a step has been written and the stop was not inside the files of a new step, and then gives the beginning of the full result. The last sentence is false: after a stop inside a step nothing can be read, and a stop in the first file of a later batch destroys a step that was already complete (C87_completed_lost). Starting again in the directory left is refused (C68_existing)."
  },
  {
   "property": "C88",
   "status": "partial",
   "theorems": [
    "B3d.Stl.C88_cut_partial",
    "B3d.Stl.C88_silent"
   ],
   "note": "Proved for every cut (C88_cut_partial): an exception, or whole solids from the beginning, none of the complete ones lost. The last sentence is false: for every k a file cut after k solids is read without an exception as a building of k solids (C88_silent), and a cut between two facets drops the solid silently (example)."
  },
  {
   "property": "C89",
   "status": "partial",
   "theorems": [
    "B3d.Polygon.C89_exact_tests",
    "B3d.Polygon.C89_placement_partial",
    "B3d.Polygon.C89_far"
   ],
   "note": "Proved for every outline whose corners are at least m >= 1 mm and at most 70 m apart, whose triples are exactly on a line or span an area of at least m^2/2, and whose coordinates are at most 10000 m (C89_placement_partial, through C89_exact_tests: the tests give the exact answer); outlines with whole-number coordinates (crisp_int) are covered. False without the bound on the coordinates: a rectangular floor at least 100000 times its size away from both axes is rejected (C89_far). Missing: outlines with nearly straight corners and of more than 70 times their smallest distance."
  },
  {
   "property": "C90",
   "status": "partial",
   "theorems": [
    "B3d.Solids.C90_same_outcome_partial",
    "B3d.Solids.C90_corridor"
   ],
   "note": "Proved for every plan whose corners are at least m >= 1 mm and at most 70 m apart and whose triples of corners are exactly on a line or span an area of at least m^2/2, with the first and last corner not straight, heights between m and 50 m, and coordinates up to 10000 m (C90_same_outcome_partial). A plan rejected at the origin is rejected everywhere (C90_corridor). Missing: places further away, where C89_far shows that floors are rejected; nearly straight corners."
  },
  {
   "property": "C91",
   "status": "partial",
   "theorems": [
    "B3d.Hier.C91_rooms_partial",
    "B3d.Hier.C91_no_exception",
    "B3d.Hier.C91_two_rooms"
   ],
   "note": "Proved end to end with the real geometric tests for buildings of rooms made with box whose walls are either the same or at least 1 mm apart (C91_rooms_partial); the tests raise no exception (C91_no_exception); for two rooms side by side exactly the two halves of the common wall are transparent (C91_two_rooms). Solids that are not boxes: C104. Missing: corners that nearly coincide."
  },
  {
   "property": "C92",
   "status": "partial",
   "theorems": [
    "B3d.Hier.C92_locate_partial",
    "B3d.Hier.C92_not_found"
   ],
   "note": "Proved end to end with the real test for points: never a wrong room, RuntimeError outside all rooms, the right room or RuntimeError in the interior, and the right room if the ray used by the code leaves the room away from edges and diagonals (C92_locate_partial). False for all interior points: C92_not_found gives a point more than 10 cm from the walls of a 1 m room for which RuntimeError is raised. Rooms that are not boxes: C104."
  },
  {
   "property": "C93",
   "status": "proved",
   "theorems": [
    "B3d.Hier.C93_setup"
   ],
   "note": "C93_setup: for all histories, polygons and settings; the absorption is the default one for every polygon, as in the code."
  },
  {
   "property": "C94",
   "status": "partial",
   "theorems": [
    "B3d.Hier.C94_rooms",
    "B3d.Hier.C94_zone_partial",
    "B3d.Hier.C94_room_partial",
    "B3d.Hier.C94_passes",
    "B3d.Hier.C94_two_rooms",
    "B3d.Hier.C94_run_partial"
   ],
   "note": "Proved end to end from the history of construction calls to the rows of the buffers, with the real geometric tests: the simulation can be prepared and the transparent polygons are those shared by two rooms of their zone (C94_rooms); rays leave the zone, or the room if the search is off, only near an edge of a triangle, almost parallel to a wall or right in front of a diagonal (C94_zone_partial, C94_room_partial; for a whole run in batches, which is proved to finish, C94_run_partial); shared walls do not stop or deflect a ray (C94_passes); a concrete run through a wall (C94_two_rooms). Rooms that are not boxes: C105. Missing: in the cases named rays do leave (C82_leak)."
  },
  {
   "property": "C95",
   "status": "partial",
   "theorems": [
    "B3d.Polygon.C95_no_overlap_partial",
    "B3d.Polygon.C95_winding_partial",
    "B3d.Polygon.C95_crisp_partial",
    "B3d.Polygon.C95_crossing_sides"
   ],
   "note": "C95_no_overlap_partial and C95_winding_partial (all points off the outline): for all accepted simple outlines for whose corners the (tolerance based) test is_point_inside does not overlook a corner in a triangle; C95_crisp_partial: for all outlines without doubtful cases at any scale of at least a millimetre, e.g. all outlines with whole-number coordinates, in any plane, this holds. C95_crossing_sides: the constructor also accepts outlines whose sides cross, and then triangles overlap. Missing: outlines with corners so close to a diagonal that the test is wrong."
  },
  {
   "property": "C96",
   "status": "partial",
   "theorems": [
    "B3d.Solids.C96_encloses_partial",
    "B3d.Solids.C96_inside_partial",
    "B3d.Solids.C96_simple_partial"
   ],
   "note": "C96_encloses_partial: for every plan whose first and last corner are convex, by parity of the winding number; C96_simple_partial: for plans without self-crossings and doubtful cases the winding number is not zero; C96_inside_partial: the answer of is_point_inside if its ray hits or clearly misses each face (as in C74). Missing: plans with a reflex or straight first or last corner, whose rooms may have no closed surface (C32_reflex), and rays near edges (false in general, C74_ray_through_edge)."
  },
  {
   "property": "C97",
   "status": "partial",
   "theorems": [
    "B3d.DefaultDict.C97_history",
    "B3d.DefaultDict.C97_raises",
    "B3d.DefaultDict.C97_read_back",
    "B3d.DefaultDict.C97_convert_partial",
    "B3d.DefaultDict.C97_convert_keys",
    "B3d.DefaultDict.C97_convert_history_partial",
    "B3d.DefaultDict.C97_convert_numbers"
   ],
   "note": "C97_history, C97_raises, C97_read_back: the whole claim for the default dictionaries. C97_convert_partial, C97_convert_history_partial: the conversion if all keys are strings. Missing, because false: the conversion with other keys, which become strings (C97_convert_numbers). defaultdict and json.dumps/json.loads are modelled, numbers as whole numbers."
  },
  {
   "property": "C98",
   "status": "partial",
   "theorems": [
    "B3d.FileSystem.C98_mkdir",
    "B3d.FileSystem.C98_found_partial",
    "B3d.FileSystem.C98_trailing_slash",
    "B3d.FileSystem.C98_relative"
   ],
   "note": "C98_mkdir: the effect of mkdir on any file system, for all paths. C98_found_partial: finding again, for good paths (C59) of proper components. Missing, because false: paths with a final slash (C98_trailing_slash), double slashes or `.`; and the documented absolute return value (C98_relative). pathlib and os functions are modelled without symbolic links, permissions, other processes and `..`."
  },
  {
   "property": "C99",
   "status": "proved",
   "theorems": [
    "B3d.FileSystem.C99_write",
    "B3d.FileSystem.C99_raises",
    "B3d.FileSystem.C99_read_back",
    "B3d.FileSystem.C99_b3d"
   ],
   "note": "C99_write, C99_raises, C99_read_back, C99_b3d. The content of a file is the document or text as in C16-C18; a file is written as a whole (no crash in between); pathlib and open are modelled without symbolic links, permissions, other processes and `..`. The restriction of dotbimpy to paths ending in .bim is not modelled."
  },
  {
   "property": "C100",
   "status": "proved",
   "theorems": [
    "B3d.Polygon.C100_read",
    "B3d.Polygon.C100_same",
    "B3d.Polygon.C100_stable",
    "B3d.Polygon.C100_normal",
    "B3d.Polygon.C100_reflex_first_corner",
    "B3d.Files.C100_b3d",
    "B3d.Files.C100_dotbim",
    "B3d.Files.C100_arrays"
   ],
   "note": "C100_read, C100_same, C100_stable, C100_normal, and for whole buildings C100_b3d, C100_dotbim, which discharge the hypothesis of C16 and C17 that the constructor accepts the polygons. The round trip of the normal is false for polygons made with a given normal whose first corner is reflex: C100_reflex_first_corner."
  },
  {
   "property": "C101",
   "status": "proved",
   "theorems": [
    "B3d.Files.C101_b3d",
    "B3d.Files.C101_b3d_exact",
    "B3d.Files.C101_dotbim",
    "B3d.Files.C101_empty_wall",
    "B3d.Hier.C101_simulation"
   ],
   "note": "C101_b3d, C101_b3d_exact, C101_dotbim, C101_simulation. With an empty wall the numbers of walls change: C101_empty_wall. That the transparent polygons are the same after reading is a hypothesis of C101_simulation when they are searched for (their normals may change, C100)."
  },
  {
   "property": "C102",
   "status": "proved",
   "theorems": [
    "B3d.Tolerance.C102_points",
    "B3d.Tolerance.C102_in_array",
    "B3d.Tolerance.C102_segment",
    "B3d.Tolerance.C102_facing",
    "B3d.Tolerance.C102_normal",
    "B3d.Tolerance.C102_corner",
    "B3d.Tolerance.C102_same_side",
    "B3d.Tolerance.C102_lines",
    "B3d.Tolerance.C102_edge",
    "B3d.Tolerance.C102_polygons",
    "B3d.Tolerance.C102_rotation",
    "B3d.Tolerance.C102_plan",
    "B3d.Tolerance.C102_plane"
   ],
   "note": "All numbers are written out in the theorems, so none of them changes with a constant of the model."
  },
  {
   "property": "C103",
   "status": "partial",
   "theorems": [
    "B3d.Solids.C103_floor_plan_partial",
    "B3d.Solids.C103_convex",
    "B3d.Solids.C103_box",
    "B3d.Solids.C103_volume_changes",
    "B3d.Solids.C103_notch"
   ],
   "note": "C103_box, C103_floor_plan_partial, C103_convex. Missing: plans whose first or last corner is reflex (floor_plan does not give closed solids for them, C32_reflex). False in general: C103_volume_changes (a closed room with outward normals has the volume 9 before and 3 after), C103_notch (a polygon made without a normal)."
  },
  {
   "property": "C104",
   "status": "partial",
   "theorems": [
    "B3d.Solids.C104_facing_partial",
    "B3d.Hier.C104_transparent_partial",
    "B3d.Hier.C104_locate_partial",
    "B3d.Hier.C104_wedges",
    "B3d.Hier.C104_wedge_located"
   ],
   "note": "C104_facing_partial, C104_transparent_partial, C104_locate_partial; two wedge-shaped rooms with a common diagonal wall: C104_wedges, C104_wedge_located. Missing: polygons that nearly coincide (C34_not_symmetric), polygons with several other sides, points whose ray runs near an edge (false for them in general: C92_not_found)."
  },
  {
   "property": "C105",
   "status": "partial",
   "theorems": [
    "B3d.Hier.C105_surface",
    "B3d.Hier.C105_rooms",
    "B3d.Hier.C105_prepared",
    "B3d.Hier.C105_zone_partial",
    "B3d.Hier.C105_room_partial",
    "B3d.Hier.C105_passes",
    "B3d.Hier.C105_run_partial"
   ],
   "note": "C105_surface, C105_rooms, C105_prepared, C105_zone_partial, C105_room_partial, C105_run_partial (whole runs in batches), C105_passes, for arbitrary closed solids; the hypotheses are shown for two wedge-shaped rooms (wedge_shapes). Missing: in the cases named rays do leave (C82_leak)."
  },
  {
   "property": "C106",
   "status": "proved",
   "theorems": [
    "B3d.Polygon.C106_distinct",
    "B3d.Polygon.C106_outcome",
    "B3d.Polygon.C106_triangulation_error",
    "B3d.Solids.C106_plan",
    "B3d.Hier.C106_names",
    "B3d.Points.C106_collinear"
   ],
   "note": "C106_outcome, C106_triangulation_error, C106_distinct, C106_plan, C106_names, C106_collinear."
  },
  {
   "property": "C107",
   "status": "proved",
   "theorems": [
    "B3d.Slice.C107_exceptions",
    "B3d.Slice.C107_undocumented"
   ],
   "note": "C107_exceptions; that the documented exception is not the only one: C107_undocumented."
  },
  {
   "property": "C108",
   "status": "proved",
   "theorems": [
    "B3d.Logger.C108_content",
    "B3d.Logger.C108_rest",
    "B3d.Logger.C108_succeeds",
    "B3d.Logger.C108_failed_call_ends_logging",
    "B3d.Logger.C108_failed_directory"
   ],
   "note": "C108_content, C108_rest, C108_succeeds, C108_failed_directory. A call that fails because the log file is a directory ends the logging to the old file (C108_failed_call_ends_logging). logging.basicConfig is modelled after CPython."
  },
  {
   "property": "C109",
   "status": "partial",
   "theorems": [
    "B3d.Rounded.C109_axis_planes_partial",
    "B3d.Rounded.C109_convex",
    "B3d.Rounded.C109_rectangle",
    "B3d.Rounded.C109_ell",
    "B3d.Rounded.C109_grid",
    "B3d.Rounded.C109_refused",
    "B3d.Rounded.C109_slanted_fails"
   ],
   "note": "C109_axis_planes_partial, with C109_convex, C109_rectangle, C109_ell, C109_grid, C109_refused, for planes parallel to two coordinate axes. Missing: slanted planes, for which the claim is false (C109_slanted_fails: a wall at 45 degrees one kilometre from the origin is refused with 53 binary digits); three corners on a slanted line; overflow and underflow; centroid and plane coefficients (the area is C110). Points in polygons with rounding: C119."
  },
  {
   "property": "C110",
   "status": "partial",
   "theorems": [
    "B3d.Rounded.C110_area",
    "B3d.Rounded.C110_polygon_partial",
    "B3d.Rounded.C110_rectangle",
    "B3d.Rounded.C110_far_area"
   ],
   "note": "C110_area: for all points and all normals within 1e-13 of the exact one. C110_polygon_partial and C110_rectangle: for polygons made by the constructor, in planes parallel to two coordinate axes as in C109. Missing: polygons in slanted planes, for which C109 gives no bound on the normal. C110_far_area shows that the factor R^2 matters: with 53 binary digits a triangle of area 129/256 at (12000002, 12000002) gets the area 17/32."
  },
  {
   "property": "C111",
   "status": "proved",
   "theorems": [
    "B3d.SliceConvex.C111_chord",
    "B3d.SliceConvex.C111_sides",
    "B3d.SliceConvex.C111_named",
    "B3d.SliceConvex.C111_outside"
   ],
   "note": "C111_chord, C111_sides, C111_named, C111_outside. Lines of more than two points, or with ends outside the polygon, are not covered by these theorems (see C38 to C43)."
  },
  {
   "property": "C112",
   "status": "proved",
   "theorems": [
    "B3d.Hier.C112_split",
    "B3d.Hier.C112_join",
    "B3d.Hier.C112_names"
   ],
   "note": "The ValueError that split_path documents for an empty path is never raised, because str.split always returns at least one part."
  },
  {
   "property": "C113",
   "status": "proved",
   "theorems": [
    "B3d.PairsExact.C113_inside_drawn",
    "B3d.PairsExact.C113_ray_drawn",
    "B3d.PairsExact.C113_segment_drawn",
    "B3d.PairsExact.C113_distance_drawn",
    "B3d.PointExact.C113_inside",
    "B3d.PointExact.C113_ray",
    "B3d.PointExact.C113_distance",
    "B3d.PointExact.C113_convex",
    "B3d.PointExact.C113_contains",
    "B3d.PointExact.C113_segment"
   ],
   "note": "Complements C71, C72 and C73, which hold for all positions but only up to tolerances. The axes of the drawing are chosen such that they fit the normal of the polygon (hypothesis on P.vn). C113_ray, C113_segment and C113_distance need a first corner that is not straight (CornerNormal); C113_ray and C113_segment need a ray or segment that is not almost parallel; C113_distance is for the normal of the first corner and needs the moved corners to be within range too. With the polygon's own normal and a reflex first corner the distance is wrong (C72_own_normal). Points in polygons with rounding: C119. The theorems ending in _drawn hold for both directions of the normal."
  },
  {
   "property": "C114",
   "status": "proved",
   "theorems": [
    "B3d.Solids.C114_tests",
    "B3d.Solids.C114_sharp",
    "B3d.Solids.C114_surface",
    "B3d.Solids.C114_boundary"
   ],
   "note": "Complements C74, which asks the ray to pass well inside one triangle of a face or far from it. Rays through the outline of a face are excluded because the answer is then wrong (C74_ray_through_edge)."
  },
  {
   "property": "C115",
   "status": "proved",
   "theorems": [
    "B3d.SliceConvex.C115_across",
    "B3d.SliceConvex.C115_sides",
    "B3d.SliceConvex.C115_corner",
    "B3d.SliceConvex.C115_from",
    "B3d.SliceConvex.C115_to"
   ],
   "note": "Together with C111, which is about lines that end on the outline. The refused positions (C115_corner, C115_to, second part of C115_from) are part of the statement, since this is what the code does; they are listed as findings in DESIGN.md."
  },
  {
   "property": "C116",
   "status": "proved",
   "theorems": [
    "B3d.SegmentsExact.C116_segments",
    "B3d.SegmentsExact.C116_visible",
    "B3d.SegmentsExact.C116_matrix"
   ],
   "note": "An edge on the line between two points does not hide them from each other, even if it lies between them, and an edge that starts or ends at one of the points never does; this is part of the statement. Complements C37 and C40, which have no condition on the positions."
  },
  {
   "property": "C117",
   "status": "proved",
   "theorems": [
    "B3d.SimRounded.C117_normal",
    "B3d.SimRounded.C117_reflection",
    "B3d.SimRounded.C117_energy",
    "B3d.SimRounded.C117_speed",
    "B3d.SimRounded.C117_stops_short",
    "B3d.SimRounded.C117_terminates",
    "B3d.SimRounded.C117_run"
   ],
   "note": "The arithmetic is a parameter with the error bounds of IEEE 754 (an instance with 53 binary digits is given). Between batches the code recomputes the velocity from two positions; this is not part of the statement (see C52). Complements C46, C49 and C51, which are about exact arithmetic."
  },
  {
   "property": "C118",
   "status": "proved",
   "theorems": [
    "B3d.PairsExact.C118_touching_drawn",
    "B3d.PairsExact.C118_crossing_drawn",
    "B3d.PairsExact.C118_touching",
    "B3d.PairsExact.C118_touching_convex",
    "B3d.PairsExact.C118_crossing",
    "B3d.PairsExact.C118_not_crossing"
   ],
   "note": "Complements C76 and C77, which hold for all positions but only up to tolerances and where the witnesses are which show that overlapping polygons can be missed or reported as touching. For polygons made from their points alone nothing is asked of the normal (C118_touching_drawn, C118_crossing_drawn); with a given normal it must be one of the two normals of the plane (hypothesis Normal)."
  },
  {
   "property": "C119",
   "status": "proved",
   "theorems": [
    "B3d.Rounded.C119_inside",
    "B3d.Rounded.C119_outline",
    "B3d.Rounded.C119_beside",
    "B3d.Rounded.C119_convex"
   ],
   "note": "Complements C113 (the same in exact arithmetic, any plane). Planes not parallel to two axes are not covered with rounding, for the reason given at C109."
  },
  {
   "property": "C120",
   "status": "partial",
   "theorems": [
    "B3d.Rounded.C120_tetrahedron_partial",
    "B3d.Rounded.C120_solid_partial",
    "B3d.Rounded.C120_number_partial",
    "B3d.Rounded.C120_box_partial",
    "B3d.Rounded.C120_box_number_partial",
    "B3d.Rounded.C120_nan"
   ],
   "note": "The claim is false of the code as a whole: with 53 binary digits the volume of a box on the origin with a floor of 4 m by 4 m is NaN, for every height between 1 m and 50 m (C120_nan; ties are rounded away from zero there, the one tie that occurs is rounded to the same number by the rule of even digits). Proved: C120_tetrahedron_partial (when it is a number, and how far off); C120_number_partial and C120_box_number_partial (any solid and any box of the sizes covered by C109: NaN, or off by at most 3e-7 R^3 per triangle); C120_solid_partial (a number, and a better bound, if every tetrahedron with the origin has at least 1e-6 of the volume of the cube around everything); C120_box_partial (the same for boxes away from the three coordinate planes: 5e-5 M^3 at most h m^2, with the largest coordinate M, the distance h from the planes and the smallest size m). Missing: which solids with faces in planes through the origin give a number."
  },
  {
   "property": "C121",
   "status": "partial",
   "theorems": [
    "B3d.Rounded.C121_area_partial",
    "B3d.Rounded.C121_plump_partial",
    "B3d.Rounded.C121_centroid_partial",
    "B3d.Rounded.C121_rectangle_partial",
    "B3d.Rounded.C121_nan"
   ],
   "note": "The claim is false of the code as a whole: with 53 binary digits the area of a triangle with sides of about 87 m, 43 m and 43 m whose third corner is a quarter of a micrometre off the line is NaN, and so is the centroid of a polygon with this triangle (C121_nan; no intermediate result is halfway between two numbers, so the rule for ties does not matter). Proved: C121_area_partial (when it is a number, and how far off), C121_plump_partial and C121_centroid_partial (triangles with at least 2e-6 of the area of the square around them), C121_rectangle_partial (rectangles in planes parallel to two axes, with the polygon made with rounded numbers). Missing: which thin triangles give a number."
  },
  {
   "property": "C122",
   "status": "partial",
   "theorems": [
    "B3d.Rounded.C122_noticed_partial",
    "B3d.Rounded.C122_noticed_binary_partial",
    "B3d.Rounded.C122_away_partial",
    "B3d.Rounded.C122_passed_partial",
    "B3d.Rounded.C122_wall_noticed_partial",
    "B3d.Rounded.C122_wall_noticed_binary_partial",
    "B3d.Rounded.C122_wall_away_partial",
    "B3d.Rounded.C122_wall_passed_partial",
    "B3d.Rounded.C122_missed"
   ],
   "note": "The claim is false of the code: with 53 binary digits a ray straight up with the speed 343 does not notice a ceiling of 4 m by 4 m although it meets it 2 m from its edges, because the point is 1.3 mm from the seam of the two triangles (C122_missed; no intermediate result is halfway between two numbers). Proved for polygons perpendicular to any of the three axes, R bounding the coordinates: rays are noticed which meet a triangle at least 0.23 R from the lines of its edges (any arithmetic) or 0.026 R (53 binary digits); for level polygons 0.18 R and 0.02 R. Rays that go away from the plane, and rays that meet the plane at least R/1000 beside every triangle, are never noticed. Missing: points nearer to the edges of the triangles, slanted polygons."
  },
  {
   "property": "C123",
   "status": "partial",
   "theorems": [
    "B3d.SimRounded.C123_noticed_partial",
    "B3d.SimRounded.C123_distance_partial",
    "B3d.SimRounded.C123_distance_least",
    "B3d.SimRounded.C123_crossing_partial",
    "B3d.SimRounded.C123_not_crossed_partial",
    "B3d.SimRounded.C123_parallel",
    "B3d.SimRounded.C123_leak",
    "B3d.SimRounded.C123_run_partial"
   ],
   "note": "The claim is false of the code: in a closed room of 4 m by 4 m by 2 m a ray straight up is above the ceiling after one step of 1/128 s, with its whole energy, whatever the grid (C123_leak), because the ceiling is not noticed 1.3 mm from the seam of its triangles. Proved for simulations of any length: if the way of a moving ray meets a surface, the point is not deeper inside a triangle of it than R/1900 plus three steps (C123_crossing_partial); a ray whose line meets the surface deeper than R/1800 plus three steps stays strictly on its side (C123_not_crossed_partial). The parts: near a surface flat rays down to 1 : 1 000 000 are noticed (C123_noticed_partial), distances are the rounded difference of the heights (C123_distance_partial) and are never too small (C123_distance_least, no restriction to the inside), rays parallel to the surface and more than 11 mm away do not notice it (C123_parallel). Missing: points near the edges and seams of the triangles, slanted polygons, rays approaching with less than 2 mm/s. C123_run_partial says the same of the files of whole runs with any number of batches within the bound of C131."
  },
  {
   "property": "C124",
   "status": "proved",
   "theorems": [
    "B3d.Sim.C124_three",
    "B3d.Sim.C124_ends",
    "B3d.Sim.C124_step",
    "B3d.Sim.C124_on_surface",
    "B3d.Sim.C124_never_ends"
   ],
   "note": "Exact reals. C124_three bounds the chain of reflections, C124_ends the loop (four iterations always suffice), C124_step says the same of every step of a simulation of any length, with the energy. C124_on_surface and C124_never_ends: rays that start on a surface."
  },
  {
   "property": "C125",
   "status": "proved",
   "theorems": [
    "B3d.Sim.C125_directions",
    "B3d.Sim.C125_moves",
    "B3d.Sim.C125_height"
   ],
   "note": "Exact reals. C125_directions, C125_moves, C125_height. The velocity handed to the next batch is recomputed from two positions (C52)."
  },
  {
   "property": "C126",
   "status": "proved",
   "theorems": [
    "B3d.Sim.C126_period",
    "B3d.Sim.C126_early",
    "B3d.Sim.C126_arrives",
    "B3d.Sim.C126_stuck"
   ],
   "note": "Exact reals. C126_period: the state after 2 m N steps; C126_early: the time against that of a ray which reaches the walls; C126_arrives: the way to the first wall from any height; C126_stuck: the ray that stands still."
  },
  {
   "property": "C127",
   "status": "partial",
   "theorems": [
    "B3d.Sim.C127_never_in",
    "B3d.Sim.C127_not_missed_partial",
    "B3d.Sim.C127_caught",
    "B3d.Sim.C127_missed",
    "B3d.Sim.C127_missed_default"
   ],
   "note": "Exact reals. C127_not_missed_partial: ways in the ball at least as long as a step are not missed; C127_caught: the distance from the centre; C127_never_in: the steps themselves; C127_missed and C127_missed_default: rays that jump through an absorber. Missing: shorter ways, where the property is false."
  },
  {
   "property": "C128",
   "status": "proved",
   "theorems": [
    "B3d.Sim.C128_not_before",
    "B3d.Sim.C128_direct",
    "B3d.Sim.C128_response"
   ],
   "note": "Exact reals. C128_not_before: for every room and every ray; C128_direct: the direct ray among any other rays; C128_response: the impulse response of one ray, with its times (C57_time)."
  },
  {
   "property": "C129",
   "status": "proved",
   "theorems": [
    "B3d.Sim.C129_files",
    "B3d.Sim.C129_step",
    "B3d.Sim.C129_energy",
    "B3d.Sim.C129_dead",
    "B3d.Sim.C129_total",
    "B3d.Sim.C129_not_further",
    "B3d.Sim.C129_not_before",
    "B3d.Sim.C129_finishes"
   ],
   "note": "Any ordered field. C129_files, C129_step (one step, also across the end of a batch), C129_energy, C129_dead, C129_total, C129_not_further, C129_not_before; C129_finishes. Unlike C52 there is no proviso on the rays at the ends of the batches."
  },
  {
   "property": "C130",
   "status": "proved",
   "theorems": [
    "B3d.Sim.C130_response",
    "B3d.Sim.C130_silent"
   ],
   "note": "Any ordered field. C130_response composes C129 (the run), C53 (files) and C57 (normalisation). What a ray caught means is defined by Heard and handedTo. The times given to the rows are wrong (C57_time_wrong), and hits are one row late (C128); nothing is claimed about them here."
  },
  {
   "property": "C131",
   "status": "proved",
   "theorems": [
    "B3d.SimRounded.C131_total",
    "B3d.SimRounded.C131_hits",
    "B3d.SimRounded.C131_caught",
    "B3d.SimRounded.C131_run",
    "B3d.SimRounded.C131_stops_short",
    "B3d.SimRounded.C131_energy",
    "B3d.SimRounded.C131_not_further",
    "B3d.SimRounded.C131_not_before"
   ],
   "note": "Real numbers with rounded operations (Model/SimRounded.lean); binary64 with 53 digits is an instance. Overflow and underflow are left out, as is the geometry, which is a parameter (C123_run_partial puts the rounded geometry in). A living ray that did not move in the last step of a batch has velocity zero from then on, as in the exact model (C52)."
  },
  {
   "property": "C132",
   "status": "proved",
   "theorems": [
    "B3d.OutputRounded.C132_outcome",
    "B3d.OutputRounded.C132_values",
    "B3d.OutputRounded.C132_times",
    "B3d.OutputRounded.C132_increasing",
    "B3d.SimRounded.C132_run",
    "B3d.SimRounded.C132_silent"
   ],
   "note": "Real numbers with rounded operations (Model/OutputRounded.lean, Model/SimRounded.lean); NumPy's sum is any function whose result is a sum in some order with one rounding per addition; the branch of np.linspace for a step of zero is not modelled, and overflow and underflow are left out. That the times are not multiples of the time step is the finding of C57."
  },
  {
   "property": "C133",
   "status": "partial",
   "theorems": [
    "B3d.SimRounded.C133_lookup_partial",
    "B3d.SimRounded.C133_made_partial",
    "B3d.SimRounded.C133_all_or_error",
    "B3d.SimRounded.C133_only",
    "B3d.SimRounded.C133_binary64_partial",
    "B3d.SimRounded.C133_millimetres",
    "B3d.SimRounded.C133_lost",
    "B3d.SimRounded.C133_run_partial"
   ],
   "note": "Real numbers with rounded operations (Model/SimGridRounded.lean); np.arange is the start plus a multiple of the step, each operation rounded, as in compiled code. Missing: buildings whose lower end less the margin is within a millionth of a cell of a side of a cell; there the statement is false (C133_lost), since cells of the grid are left out. C133_run_partial has the conditions of C123_run_partial, except that the surface is near."
  },
  {
   "property": "C134",
   "status": "partial",
   "theorems": [
    "B3d.Rounded.C134_positions",
    "B3d.Rounded.C134_on_segment_partial",
    "B3d.Rounded.C134_off_segment"
   ],
   "note": "Real numbers with rounded operations (Model/RoundedBetween.lean, Model/RoundedPoints.lean). Missing: long segments; there the second sentence is false (C134_off_segment)."
  },
  {
   "property": "C135",
   "status": "proved",
   "theorems": [
    "B3d.RotationRounded.C135_axes",
    "B3d.RotationRounded.C135_positions",
    "B3d.RotationRounded.C135_distances",
    "B3d.RotationRounded.C135_heights"
   ],
   "note": "Real numbers with rounded operations and a rounded sine (Model/RoundedRotation.lean). Axes between 1e-6 and 2e-5 from unit length and angles below 1e-12 are left open: there the decision depends on the rounding."
  },
  {
   "property": "C136",
   "status": "proved",
   "theorems": [
    "B3d.RotationRounded.C136_upright",
    "B3d.RotationRounded.C136_bottom",
    "B3d.RotationRounded.C136_positions",
    "B3d.RotationRounded.C136_direction"
   ],
   "note": "Points and search of floor_plan with rounded operations (Model/RoundedPlan.lean); the exact statements use rounding to 53 binary digits with products summed from left to right (Proofs/Binary.lean)."
  },
  {
   "property": "C137",
   "status": "proved",
   "theorems": [
    "B3d.RotationRounded.C137_counter_clockwise",
    "B3d.RotationRounded.C137_clockwise",
    "B3d.RotationRounded.C137_area",
    "B3d.RotationRounded.C137_wall_refused"
   ],
   "note": "Polygons of floor and ceiling and the test of the walls' direction; rounding to 53 binary digits. Making the polygons of the side walls is not part of the claim: in planes parallel to two axes they are covered by C109, in others they can be refused (C137_wall_refused)."
  }
 ]
}