{"id": "C01", "title": "Cyclic buffer keeps the most recent items in order", "statement": "After any sequence of writes into a cyclic buffer of size N >= 1 (starting from head = tail = 0), reading it as a contiguous array returns exactly the last min(k, N-1) written elements, oldest first; in particular a buffer of size N never holds more than N-1 elements.", "quantifier": "every buffer size N >= 1, every element type, every finite history of writes", "why_tests_cant": "The behaviour depends on the number of wrap-arounds, i.e. on the whole write history; tests only cover a couple of wraps for one size, and reading back is untested (a TODO in the test file).", "anchors": ["building3d/types/cyclic_buffer.py: cyclic_buf, convert_to_contiguous"]}
{"id": "C02", "title": "Rolling points is a cyclic rotation that loses nothing", "statement": "Rolling a list of points forward or backward by one returns a permutation of it that keeps cyclic order; the two rolls are inverse to each other and rolling n times a list of n points is the identity. Rolling back an empty list raises IndexError.", "quantifier": "every list of points of every length", "why_tests_cant": "Universal over list length and contents.", "anchors": ["building3d/util/roll_back.py: roll_back", "building3d/geom/points/__init__.py: roll_forward"]}
{"id": "C03", "title": "Random identifiers have the requested length or are rejected", "statement": "random_id(size) returns an identifier of exactly `size` characters when 1 <= size <= 32, a 36-character one when no size is given, and raises ValueError for every other size; random_between(a, b) lies between a and b whatever their order, and random_within(lim) lies within [-lim, lim].", "quantifier": "every integer size, every outcome of the random source, every pair of limits", "why_tests_cant": "Quantifies over all outcomes of a random source.", "anchors": ["building3d/random/__init__.py: random_id, random_between, random_within"]}
{"id": "C04", "title": "Names stay unique and separator-free in every reachable model", "statement": "After any sequence of constructor, add_* and replace_* calls (successful or failing), in every wall/solid/zone/building: sibling names are pairwise distinct and no name contains the path separator.", "quantifier": "every finite sequence of public mutating calls, including failing ones", "why_tests_cant": "Invariant over unbounded histories of operations.", "anchors": ["building3d/geom/wall/__init__.py: Wall.add_polygon, Wall.replace_polygon", "building3d/geom/solid/__init__.py: Solid.add_wall, Solid.replace_wall", "building3d/geom/zone/__init__.py: Zone.add_solid", "building3d/geom/building/__init__.py: Building.add_zone", "building3d/geom/paths/validate_name.py: validate_name"]}
{"id": "C05", "title": "A rejected add changes nothing", "statement": "Adding a child whose name is already taken raises GeometryError and leaves the container exactly as it was; adding a child with a fresh name succeeds, appends it last and leaves every other child in place.", "quantifier": "every container state and every child", "why_tests_cant": "Must hold for every state in which the failure can happen.", "anchors": ["building3d/geom/wall/__init__.py: Wall.add_polygon", "building3d/geom/solid/__init__.py: Solid.add_wall", "building3d/geom/zone/__init__.py: Zone.add_solid", "building3d/geom/building/__init__.py: Building.add_zone"]}
{"id": "C06", "title": "Replacing a child removes it and installs the replacements atomically", "statement": "replace_polygon / replace_wall with an existing name and fresh, pairwise distinct replacement names removes exactly the old child and adds exactly the replacements, leaving the others untouched in order; with an unknown name or a name collision it raises and leaves the container unchanged.", "quantifier": "every container state, every old name, every list of replacements", "why_tests_cant": "Atomicity concerns every failure point in the middle of the operation.", "anchors": ["building3d/geom/wall/__init__.py: Wall.replace_polygon", "building3d/geom/solid/__init__.py: Solid.replace_wall"]}
{"id": "C07", "title": "Every object can be looked up by its own path", "statement": "In every reachable building, for every zone, solid, wall and polygon, looking up the object's own path returns that very object. A lookup that is asked of an object outside of any building ends in a RecursionError.", "quantifier": "every reachable building and every object in it", "why_tests_cant": "Ranges over all buildings and names (any strings without the separator, including the empty one).", "anchors": ["building3d/geom/building/__init__.py: Building.get", "building3d/geom/paths/split_path.py: split_path", "building3d/geom/polygon/__init__.py: Polygon.path", "building3d/geom/wall/__init__.py: Wall.path"]}
{"id": "C08", "title": "A lookup that succeeds returns the object with that path, everything else is an error", "statement": "If looking up a path of 1 to 5 components succeeds, the path of the returned object is the given path, so no two objects share a path; a wrong building name raises AssertionError, an unknown component KeyError, and more than six components ValueError; a sixth component selects the vertex with that index, counted from behind if it is negative, and raises ValueError if it is not an integer and IndexError if there is no such vertex.", "quantifier": "every reachable building and every string", "why_tests_cant": "Ranges over every string; absence of wrong answers cannot be sampled.", "anchors": ["building3d/geom/building/__init__.py: Building.get, Building.__getitem__", "building3d/geom/paths/split_path.py: split_path"]}
{"id": "C09", "title": "Polygon path listing is complete and duplicate free", "statement": "get_polygon_paths of a building lists the path of every polygon exactly once, grouped in zone / solid / wall order; each listed path resolves to that polygon; listings of a zone, solid or wall are the corresponding contiguous parts.", "quantifier": "every reachable building", "why_tests_cant": "Completeness over all nesting shapes.", "anchors": ["building3d/geom/building/__init__.py: Building.get_polygon_paths", "building3d/geom/zone/__init__.py: Zone.get_polygon_paths", "building3d/geom/solid/__init__.py: Solid.get_polygon_paths", "building3d/geom/wall/__init__.py: Wall.get_polygon_paths"]}
{"id": "C10", "title": "The polygon adjacency graph is symmetric, loop-free and duplicate-free, and exact", "statement": "graph_polygon of a building with at least two polygons has every polygon path as a key; q is listed under p iff p and q are different polygons whose bounding boxes overlap and one of the requested relations (facing, overlapping, touching) holds between them in either argument order; adjacency is symmetric, irreflexive and lists each neighbour once.", "quantifier": "every building and every combination of relation flags", "why_tests_cant": "Quantifies over all pairs of polygons in all buildings, and over visiting orders of an optimisation that marks pairs as checked.", "anchors": ["building3d/geom/building/graph.py: graph_polygon"]}
{"id": "C11", "title": "Wall/solid/zone graphs are exact projections of the polygon graph", "statement": "In graph_wall / graph_solid / graph_zone, object B is listed under A iff A differs from B and some polygon in A is adjacent to some polygon in B in the polygon graph; every A that contains a polygon is a key and no neighbour is repeated; the projections are symmetric and loop-free.", "quantifier": "every polygon graph and every level", "why_tests_cant": "All graphs, all nesting levels.", "anchors": ["building3d/geom/building/graph.py: graph_wall, graph_solid, graph_zone, strip_graph, remove_last"]}
{"id": "C12", "title": "A requested graph answers the requested query", "statement": "get_graph(level, facing, overlapping, touching) returns the graph for those flags and for the present geometry of the building.", "quantifier": "every history of get_graph and mutating calls", "why_tests_cant": "Depends on the call history because of the cache.", "anchors": ["building3d/geom/building/__init__.py: Building.get_graph"]}
{"id": "C13", "title": "Meshes of composite objects are exactly the union of their parts", "statement": "The mesh of a wall, solid, zone or building has as many vertices and faces as its polygons together, the k-th face of the i-th part refers to the same coordinates in the combined mesh as in the part, and all face indices are in range.", "quantifier": "every composite object", "why_tests_cant": "Index-offset bugs show only for particular sequences of part sizes.", "anchors": ["building3d/geom/mesh/__init__.py: vstack_mesh", "building3d/geom/wall/get_mesh.py", "building3d/geom/solid/get_mesh.py", "building3d/geom/zone/get_mesh.py", "building3d/geom/building/get_mesh.py"]}
{"id": "C14", "title": "Array format numbers every object consistently", "statement": "to_array_format yields arrays in which every face refers to existing points and names its polygon, every polygon its wall, every wall its solid, every solid its zone; numbers are consecutive from 0 in traversal order; all polygons with the same number belong to one object and each object carries its number afterwards.", "quantifier": "every building", "why_tests_cant": "Offset arithmetic over arbitrary nesting.", "anchors": ["building3d/io/arrayformat.py: to_array_format, count_objects"]}
{"id": "C15", "title": "Array format round trip restores the geometry", "statement": "Converting a building to array format and back gives a building with the same tree shape and, for every polygon, the same vertices in the same order and the same triangles, provided each vertex is used by a triangle; only zones after the last zone with a solid are lost, and a building without any solid is rejected (ValueError).", "quantifier": "every building", "why_tests_cant": "Round trip over all buildings.", "anchors": ["building3d/io/arrayformat.py: to_array_format, from_array_format, get_polygon_points_and_faces"]}
{"id": "C16", "title": "B3D files round trip", "statement": "Writing a building to a B3D file and reading it restores names, order, vertices and triangles of every polygon; containers without polygons are dropped and a building without any polygon cannot be read back (KeyError).", "quantifier": "every building", "why_tests_cant": "Round trip over all buildings, including degenerate nesting.", "anchors": ["building3d/io/b3d.py: write_b3d, read_b3d", "building3d/types/recursive_default_dict.py"]}
{"id": "C17", "title": "dotbim files round trip", "statement": "Writing a building to a .bim file and reading it restores names, uids, order, vertices and triangles of every polygon; containers without polygons are dropped; a file not generated by this package is rejected, as are files with ragged meshes (ValueError), with elements without mesh or meshes without element (KeyError), and with siblings of the same name but different uids (GeometryError).", "quantifier": "every building", "why_tests_cant": "Round trip over all buildings; grouping by (uid, name) must not merge or split objects.", "anchors": ["building3d/io/dotbim.py: write_dotbim, read_dotbim"]}
{"id": "C18", "title": "STL files round trip as triangle soups", "statement": "Writing a building to STL and reading it back gives one zone with one solid per written solid, in order, each with one wall whose polygons are exactly the triangles of the original solid, in order with the same vertices; if the polygon constructor refuses a triangle its error is raised.", "quantifier": "every building whose solid uids contain no line break", "why_tests_cant": "Round trip over all buildings through a line-based parser.", "anchors": ["building3d/io/stl.py: write_stl, read_stl"]}
{"id": "C19", "title": "The STL reader never accepts a structurally broken file silently", "statement": "read_stl either raises or every facet it returns comes from a complete facet block (outer loop, three vertices, endloop) inside a solid, in file order.", "quantifier": "every list of text lines", "why_tests_cant": "Ranges over every input file.", "anchors": ["building3d/io/stl.py: read_stl"]}
{"id": "C20", "title": "Triangulation of a polygon has n-2 valid triangles covering all vertices", "statement": "Whenever triangulate succeeds on n >= 3 points it returns the same points (possibly reversed) and n-2 triangles, each with three distinct valid vertex indices in cyclic vertex order, using every vertex; each outline edge is used exactly once and each internal edge once in each direction; every triangle has positive area around the normal and the triangle areas add up to the area of the polygon.", "quantifier": "every polygon, every outcome of the convexity / containment tests", "why_tests_cant": "Ear clipping state evolves for arbitrary polygons; correctness is an invariant over the whole run.", "anchors": ["building3d/geom/triangles.py: triangulate"]}
{"id": "C21", "title": "Triangulation always terminates", "statement": "For every input, also non-simple polygons and whatever the convexity and containment tests answer, one call of triangulate makes at most two passes of at most 2n+2 loop iterations; with a unit normal vector it either returns a triangulation or raises TriangulationError, with a zero normal it raises TriangulationError and with any other normal AssertionError.", "quantifier": "every input polygon", "why_tests_cant": "Termination.", "anchors": ["building3d/geom/triangles.py: triangulate"]}
{"id": "C22", "title": "Polygon edges form the closed outline", "statement": "polygon_edges of n >= 1 points returns n edges, the k-th from point k to point k+1 (mod n): edges chain end to end, each point starts exactly one edge, and the edge vectors add up to zero.", "quantifier": "every list of points", "why_tests_cant": "Universal over lengths.", "anchors": ["building3d/geom/polygon/edges.py: polygon_edges"]}
{"id": "C23", "title": "Polygon area does not depend on the description", "statement": "polygon_area is non-negative, equals the absolute value of the sum of the signed triangle areas of any triangulation, and does not change under translation, cyclic renumbering of the vertices, reversal of orientation, or insertion of a vertex on an edge; it scales quadratically; it is 0 for fewer than three points.", "quantifier": "every planar polygon with unit normal", "why_tests_cant": "Algebraic laws over all polygons.", "anchors": ["building3d/geom/polygon/area.py: polygon_area"]}
{"id": "C24", "title": "Polygon centroid is the area-weighted mean of the triangle centroids", "statement": "polygon_centroid lies in the polygon's plane and inside the convex hull of its vertices and moves with the polygon under translation.", "quantifier": "every triangulated polygon", "why_tests_cant": "Algebraic law over all polygons and all areas; existing tests use unit total area only.", "anchors": ["building3d/geom/polygon/centroid.py: polygon_centroid"]}
{"id": "C25", "title": "Bounding boxes are tight", "statement": "bounding_box contains all points and is contained in every axis-aligned box that contains them; a point of the set is always inside the box test with any non-negative tolerance.", "quantifier": "every non-empty point set", "why_tests_cant": "Universal over sets.", "anchors": ["building3d/geom/bboxes.py: bounding_box, is_point_inside_bbox"]}
{"id": "C26", "title": "Bounding-box overlap is symmetric and never rejects polygons with a common point", "statement": "are_bboxes_overlapping is symmetric, holds iff the two closed boxes have a common point, and therefore holds whenever the two point sets' triangles share a point.", "quantifier": "every pair of non-empty point sets", "why_tests_cant": "It is used as a pre-filter: a single false negative silently loses adjacency.", "anchors": ["building3d/geom/bboxes.py: are_bboxes_overlapping"]}
{"id": "C27", "title": "Distance from a point to an edge is the true minimum", "statement": "distance_point_to_edge returns the minimum over all points of the closed segment of the Euclidean distance to the point; for a degenerate edge it raises ZeroDivisionError instead of returning a wrong number.", "quantifier": "every point and segment", "why_tests_cant": "Minimum over a continuum of points.", "anchors": ["building3d/geom/points/distance.py: distance_point_to_edge"]}
{"id": "C28", "title": "Rotation is rigid", "statement": "The matrix returned by rotation_matrix for a unit axis is orthogonal with determinant 1, fixes the axis, turns perpendicular vectors by the given angle, composes additively in the angle, so rotating points preserves all distances and angles; rotating by zero is the identity.", "quantifier": "every unit axis, every angle, every point set", "why_tests_cant": "Continuum of angles and axes.", "anchors": ["building3d/geom/rotation.py: rotation_matrix, rotate_points_around_vector"]}
{"id": "C29", "title": "Rotating points to a plane puts them in the plane rigidly", "statement": "rotate_points_to_plane moves a planar point set rigidly so that all of its points satisfy the target plane's equation.", "quantifier": "every planar point set and every target plane", "why_tests_cant": "Continuum, with special cases when the normals are (anti)parallel.", "anchors": ["building3d/geom/rotation.py: rotate_points_to_plane"]}
{"id": "C30", "title": "Tetrahedron volume and triangle area are the exact geometric values", "statement": "Apart from the fixed 1e-12 regularisation under the square root, tetrahedron_volume equals |det|/6 and triangle_area half the cross product norm; both are invariant under vertex permutations and translation, and the regularisation error is bounded.", "quantifier": "all quadruples / triples of points", "why_tests_cant": "Algebraic identity over the reals.", "anchors": ["building3d/geom/tetrahedrons.py: tetrahedron_volume, tetrahedron_centroid", "building3d/geom/triangles.py: triangle_area, triangle_centroid"]}
{"id": "C31", "title": "box() produces a closed solid with outward normals and the right volume", "statement": "For positive sizes and any translation, box() has six faces in six walls, each face is planar with a normal pointing away from the centre, each edge of the box is shared by exactly two faces in opposite directions, the face areas sum to 2(xy+yz+zx), the bounding box is the given one, and the volume is x*y*z (up to the regularisation of the tetrahedron formula).", "quantifier": "all positive dimensions and translations", "why_tests_cant": "Continuum of dimensions.", "anchors": ["building3d/geom/solid/box.py: box", "building3d/geom/solid/__init__.py: Solid.volume"]}
{"id": "C32", "title": "floor_plan() produces a closed solid with the requested walls", "statement": "For any simple plan with n >= 3 vertices and height h > 0, floor_plan gives n walls plus floor and ceiling; each directed edge of each face is matched by the opposite edge of exactly one other face; wall names are the requested or default ones; wrong or duplicate names and an empty plan raise ValueError.", "quantifier": "every floor plan, name list, height", "why_tests_cant": "Universal over polygons and name lists.", "anchors": ["building3d/geom/solid/floor_plan.py: floor_plan"]}
{"id": "C33", "title": "Flipping a polygon reverses its normal and nothing else", "statement": "flip gives a polygon with the same points in reverse order, the opposite normal, the same area and the same number of triangles (all counter-clockwise around the new normal); flipping twice gives back the original polygon.", "quantifier": "every polygon", "why_tests_cant": "Algebraic law over all polygons.", "anchors": ["building3d/geom/polygon/__init__.py: Polygon.flip"]}
{"id": "C34", "title": "Facing is a symmetric relation", "statement": "is_facing_polygon(a, b) iff is_facing_polygon(b, a); facing polygons have opposite normals, equal area and the same vertex set.", "quantifier": "every pair of polygons", "why_tests_cant": "Universal over pairs.", "anchors": ["building3d/geom/polygon/facing.py: are_polygons_facing"]}
{"id": "C35", "title": "Point equality is an equivalence usable for matching", "statement": "points_equal is reflexive and symmetric, and translation does not change it.", "quantifier": "every pair of points", "why_tests_cant": "Continuum; the tolerance is relative so small samples do not reveal asymmetry.", "anchors": ["building3d/geom/points/__init__.py: points_equal"]}
{"id": "C36", "title": "Collinearity and coplanarity tests agree with geometry", "statement": "In exact arithmetic, are_points_coplanar accepts exactly the sets lying in one plane, independently of point order, and are_points_collinear exactly the sets lying on one line.", "quantifier": "every list of points", "why_tests_cant": "Universal; depends on which points come first.", "anchors": ["building3d/geom/points/__init__.py: are_points_coplanar, are_points_collinear"]}
{"id": "C37", "title": "Segment intersection points lie on both segments", "statement": "Whenever line_segment_intersection returns a point, it lies on both segments; if two non-parallel coplanar segments cross, their common point is returned; parallel lines give no point.", "quantifier": "every pair of segments", "why_tests_cant": "Continuum.", "anchors": ["building3d/geom/points/intersections.py: line_intersection, line_segment_intersection"]}
{"id": "C38", "title": "A point on a segment is recognised", "statement": "is_point_on_segment accepts exactly the convex combinations of the end points (in exact arithmetic, with zero tolerance).", "quantifier": "every point and segment", "why_tests_cant": "Continuum.", "anchors": ["building3d/geom/points/__init__.py: is_point_on_segment"]}
{"id": "C39", "title": "Closest-pair matching uses every point at most once", "statement": "find_close_pairs returns n pairs (or raises ValueError if there are fewer than n points in either set), no index used twice on either side, in order of non-decreasing distance, each pair being a closest one among the indices unused at that moment.", "quantifier": "every pair of point sets and every n", "why_tests_cant": "Greedy algorithm over arbitrary distance tables with ties.", "anchors": ["building3d/geom/points/find_close_pairs.py: find_close_pairs"]}
{"id": "C40", "title": "Visibility matrices are symmetric with unit diagonal", "statement": "visibility_matrix is symmetric, each point sees itself, and the entry (i, j) is 1 iff no blocking polygon crosses the segment between the points.", "quantifier": "every point set, every set of blocking polygons", "why_tests_cant": "Universal over sets.", "anchors": ["building3d/geom/points/visibility.py: visibility_matrix, are_points_visible"]}
{"id": "C41", "title": "Slicing a polygon preserves its area", "statement": "When a polygon is sliced, both parts use only original vertices and slicing points, the slicing line occurs once in each part in opposite directions, and the signed area vectors of the two parts add up to that of the polygon.", "quantifier": "every polygon and every slicing polyline in each of the four placement cases", "why_tests_cant": "Index arithmetic with wrap-around over arbitrary polygons and slices.", "anchors": ["building3d/geom/polygon/slice/get_point_arrays.py: get_point_arrays", "building3d/geom/polygon/slice/__init__.py: slice_polygon"]}
{"id": "C42", "title": "Sliced parts get the names they were requested with", "statement": "If a reference point is given for a name, the part that contains the point gets that name and the other part the other name; if neither part contains it an error is raised.", "quantifier": "every slice result and reference point", "why_tests_cant": "Decision table over all geometric outcomes.", "anchors": ["building3d/geom/polygon/slice/__init__.py: make_polygons"]}
{"id": "C43", "title": "Redundant slicing points are removed but nothing is invented", "statement": "remove_redundant_points returns a contiguous (cyclic) part of the slicing points, in order, that starts and ends on the polygon's boundary with only interior points between, or reports that the slice is impossible; it terminates.", "quantifier": "every slicing polyline and every classification of its points", "why_tests_cant": "State-dependent trimming over arbitrary sequences.", "anchors": ["building3d/geom/polygon/slice/remove_redundant_points.py: remove_redundant_points"]}
{"id": "C44", "title": "The voxel grid loses no nearby polygon", "statement": "For every position within the grid, every polygon having a point within one cell size on every axis of the position is among the polygons returned by the 27-cell neighbourhood lookup; the grid contains every polygon.", "quantifier": "every position, polygon set, bounding box and step", "why_tests_cant": "A lost polygon makes a ray pass through a wall only at particular positions.", "anchors": ["building3d/sim/rays/voxel_grid.py: make_voxel_grid", "building3d/sim/rays/find_nearby_polygons.py: find_nearby_polygons"]}
{"id": "C45", "title": "The target surface is the nearest opaque polygon ahead of the ray", "statement": "find_target_surface returns a non-transparent polygon hit by the ray with minimal distance among all non-transparent polygons hit, or -1 iff there is none; the distance does not depend on the order in which polygons are examined.", "quantifier": "every polygon set, transparent set, position and direction", "why_tests_cant": "Minimum over arbitrary sets with ties.", "anchors": ["building3d/sim/rays/find_target.py: find_target_surface"]}
{"id": "C46", "title": "Ray energy never increases and never goes negative", "statement": "In the energy buffer, each ray's energy starts at 1, is non-increasing in time, stays within [0, 1], and once zero remains zero for the rest of the simulation.", "quantifier": "every building, configuration with non-negative absorption, number of steps and rays", "why_tests_cant": "Invariant over unbounded executions.", "anchors": ["building3d/sim/rays/simulation_loop.py: simulation_loop"]}
{"id": "C47", "title": "Dead rays stay where they are", "statement": "A ray whose energy is zero never changes position or velocity again.", "quantifier": "every execution", "why_tests_cant": "Invariant over unbounded executions.", "anchors": ["building3d/sim/rays/simulation_loop.py: simulation_loop"]}
{"id": "C48", "title": "Absorbers account for energy exactly", "statement": "Per step, the energy recorded by the absorbers equals the energy removed from rays by the absorbers; a ray is absorbed by at most one absorber over its lifetime; total recorded energy never exceeds the initial energy of all rays.", "quantifier": "every execution, any number of absorbers (overlapping too)", "why_tests_cant": "Conservation over whole executions.", "anchors": ["building3d/sim/rays/simulation_loop.py: simulation_loop"]}
{"id": "C49", "title": "Reflections preserve ray speed", "statement": "A ray's speed stays constant over its lifetime; each reflection reverses the velocity component normal to the surface and keeps the tangential one.", "quantifier": "every execution, unit surface normals", "why_tests_cant": "Invariant over executions and continuum of directions.", "anchors": ["building3d/sim/rays/simulation_loop.py: simulation_loop"]}
{"id": "C50", "title": "Results do not depend on the parallel schedule", "statement": "Positions, energies and velocities after a step are the same for every order (interleaving) in which the rays of the parallel loop are processed.", "quantifier": "every schedule of the parallel loop", "why_tests_cant": "Quantifies over all schedules.", "anchors": ["building3d/sim/rays/simulation_loop.py: simulation_loop (prange)"]}
{"id": "C51", "title": "Every reflection loop ends", "statement": "Within one step the reflect-again loop of a ray ends after at most ceil(energy / smallest positive absorption) reflections, so a step always finishes when every absorption is positive.", "quantifier": "every geometry, including corners where the ray bounces repeatedly", "why_tests_cant": "Termination.", "anchors": ["building3d/sim/rays/simulation_loop.py: simulation_loop"]}
{"id": "C52", "title": "Simulation results do not depend on the batch size", "statement": "Running the simulation in batches gives the same dumped sequence of positions, energies and hits as running all steps in one batch.", "quantifier": "every divisor batch size, every execution", "why_tests_cant": "Depends on what happens at batch boundaries.", "anchors": ["building3d/sim/rays/simulation.py: Simulation.run", "building3d/sim/rays/simulation_loop.py: simulation_loop"]}
{"id": "C53", "title": "Dumped buffers can be read back exactly", "statement": "Dumping rows (for instance consecutive batches whose last row is the first row of the next) with dump_buffers into a directory without matching files and reading them with read_buffers and the same configuration returns exactly the dumped rows in step order, boundary rows once and, if a step is dumped twice, its last row. If read_buffers succeeds, the three files of every returned step exist and there is no file of a later step, so a missing file never goes unnoticed; otherwise it raises.", "quantifier": "every number of batches and steps, every usable triple of file names (the default ones among them), every order of directory listing", "why_tests_cant": "History of dumps.", "anchors": ["building3d/sim/rays/dump_buffers.py: dump_buffers, read_buffers"]}
{"id": "C54", "title": "Setting a surface parameter affects exactly the addressed polygons", "statement": "set_surface_param(param, path, value) for a known parameter and the path of any object of the building gives the value to exactly the polygons at or below that object and changes nothing else; so after any history of calls a polygon has the value of the last call whose path is its own or that of an object containing it, and the default if there is none. Unknown paths raise, the path of a vertex raises TypeError; unknown parameters raise KeyError if there is a polygon at or below the object (otherwise the call is a no-op); a call that raises changes nothing. surface_params_to_array puts each polygon's value at that polygon's number and raises if a polygon has no number.", "quantifier": "every building, history of settings", "why_tests_cant": "History-dependent; last write wins for every polygon.", "anchors": ["building3d/sim/rays/simulation_config.py: SimulationConfig.set_surface_param, surface_params_to_array"]}
{"id": "C55", "title": "The simulation uses the configured surface parameters", "statement": "A simulation run with absorption set for a polygon through set_surface_param uses that value when a ray hits the polygon.", "quantifier": "every configuration", "why_tests_cant": "All configurations.", "anchors": ["building3d/sim/rays/simulation.py: Simulation.__init__, Simulation.run", "building3d/sim/rays/simulation_config.py: surface_params_to_array"]}
{"id": "C56", "title": "Transparent polygons are exactly internal faces of a zone", "statement": "find_transparent returns exactly the polygons which face a polygon of another solid in the same zone, and always in pairs, for the building as it is at the time of the call.", "quantifier": "every building and every history of calls and edits", "why_tests_cant": "All buildings; cache makes it history-dependent.", "anchors": ["building3d/sim/rays/find_transparent.py: find_transparent"]}
{"id": "C57", "title": "Impulse response is normalised and keeps timing", "statement": "impulse_response has one row per time step at multiples of the time step and values normalised to at most 1.", "quantifier": "every hit buffer", "why_tests_cant": "All buffers.", "anchors": ["building3d/sim/rays/impulse_response.py: impulse_response"]}
{"id": "C58", "title": "Ray trails are connected polylines", "statement": "The line arrays built from a position buffer contain one polyline per ray which visits that ray's positions in time order and no other ray's positions.", "quantifier": "every buffer shape and trail length", "why_tests_cant": "Index arithmetic over all shapes.", "anchors": ["building3d/sim/rays/ray_buff_plotter.py: RayBuffPlotter.get_lines", "building3d/sim/rays/movie_from_buffer.py: position_buffer_to_lines"]}
{"id": "C59", "title": "Wildcard paths round trip", "statement": "Filling a wildcard path with numbers puts the numbers in place of the wildcards, and matching the result against the same wildcard path returns those numbers; wrong or missing names raise ValueError or KeyError. Every listed file ends in an instance of the path with the listed values.", "quantifier": "every wildcard path and all natural numbers", "why_tests_cant": "Round trip over all patterns and values.", "anchors": ["building3d/paths/wildcardpath.py: WildcardPath.fill, get_matching_paths_dict_values"]}
{"id": "C60", "title": "Wildcard filtering is sound and complete", "statement": "get_matching_paths with keyword filters returns exactly the matching paths whose wildcard values equal all filter values, in listing order; without filters all matching paths; a filter name that is not in the path gives an empty list.", "quantifier": "every set of paths and filters", "why_tests_cant": "All filters and directory listings.", "anchors": ["building3d/paths/wildcardpath.py: WildcardPath.get_matching_paths"]}
{"id": "C61", "title": "Stitching visits every adjacent pair of solids", "statement": "stitch_solids of a building processes every pair of solids which have facing-candidate (overlapping) faces exactly once.", "quantifier": "every building", "why_tests_cant": "All buildings.", "anchors": ["building3d/geom/building/__init__.py: Building.stitch_solids"]}
{"id": "C62", "title": "Point location returns a solid that contains the point", "statement": "find_location returns the path of a solid of the building containing the point whenever there is one, whatever hints are given, and raises RuntimeError otherwise; hints only change which one is preferred.", "quantifier": "every building, point and list of hints", "why_tests_cant": "Search over all buildings and hints.", "anchors": ["building3d/geom/building/find_location.py: find_location"]}
{"id": "C63", "title": "Solid volume is translation invariant and additive", "statement": "For a closed solid with consistently outward faces the volume equals the signed-tetrahedra volume, does not depend on the reference point, and the volume of a building/zone is the sum of the volumes of its parts.", "quantifier": "every solid", "why_tests_cant": "Algebraic law over all solids.", "anchors": ["building3d/geom/solid/__init__.py: Solid.volume", "building3d/geom/zone/__init__.py: Zone.volume", "building3d/geom/building/__init__.py: Building.volume"]}
{"id": "C64", "title": "Plane projection and point-in-plane tests are exact", "statement": "projection_coefficients/plane_coefficients of a polygon give a plane equation satisfied by all polygon points and the normal is orthogonal to all edges; scaling the normal does not change the plane.", "quantifier": "every planar polygon", "why_tests_cant": "Continuum.", "anchors": ["building3d/geom/polygon/plane.py"]}
{"id": "C65", "title": "Points inserted between two points are exact and evenly spaced", "statement": "new_point_between_2_points returns the point at the given fraction of the edge (the end points for 0 and 1); many_new_points_between_2_points returns num + 2 points from the first to the second point, consecutive ones equally far apart on the straight line.", "quantifier": "every pair of points, every fraction and every number of points", "why_tests_cant": "Continuum of points and unbounded number of points.", "anchors": ["building3d/geom/points/__init__.py: new_point_between_2_points, many_new_points_between_2_points"]}
{"id": "C66", "title": "Value tuples map to matching paths", "statement": "get_matching_paths_namedtuple_keys has exactly one entry for every tuple of wildcard values found among the matching files, and it maps to the last file listed with these values.", "quantifier": "every wildcard path and directory listing", "why_tests_cant": "All listings, including several files with the same values.", "anchors": ["building3d/paths/wildcardpath.py: WildcardPath.get_matching_paths_namedtuple_keys"]}
{"id": "C67", "title": "Every ray meets one of six fates in a step", "statement": "In every simulation step a ray without energy rests; a ray inside an absorber loses all energy to it; a ray outside the bounding box by more than the tolerance loses its energy; otherwise it bounces off nearest opaque surfaces within the reflection distance and then has spent its energy, moves by one time step (if no opaque surface ahead is within the reflection distance) or waits (surface exactly at that distance).", "quantifier": "every simulation state and step", "why_tests_cant": "Complete case analysis over all states.", "anchors": ["building3d/sim/rays/simulation_loop.py: simulation_loop"]}
{"id": "C68", "title": "A simulation starts only with consistent step numbers and a new buffer directory", "statement": "Constructing a Simulation succeeds (as far as steps and directories are concerned) iff num_steps is a positive multiple of batch_size, the buffer directory does not exist (also not after making the project directory) and no file is in the way; then the directory exists and is empty. A non-empty directory raises RuntimeError, an existing empty one FileExistsError, so the buffers of two runs are never mixed. Nothing that exists is changed, whether or not an exception is raised.", "quantifier": "all numbers of steps, batch sizes, states of the two directories and file systems around them", "why_tests_cant": "The check must refuse every existing directory; tests use fresh temporary directories.", "anchors": ["building3d/sim/rays/simulation.py: Simulation.__init__, Simulation.make_dirs"]}
{"id": "C69", "title": "Movie frames show rays and energies of the same time", "statement": "The movie made from the buffers has its frames in time order; each frame shows every ray at one time with its energy at that time, followed by a trail of the configured number of last positions whose points are coloured by the energy of that ray at the time of the point.", "quantifier": "every pair of buffers, every number of rays and every trail length", "why_tests_cant": "The order of flattened arrays over all shapes.", "anchors": ["building3d/sim/rays/movie_from_buffer.py: make_movie_from_buffer, position_buffer_to_lines"]}
{"id": "C70", "title": "A polygon's points run counter-clockwise around its normal", "statement": "A polygon constructed from points has these points in the given or in reverse order; its triangles (n-2 of them) and its outline run counter-clockwise around its normal, which is the given one if one was given, and its area is positive and equals the signed area of the outline. The order is kept exactly if the outline runs counter-clockwise around the normal; if no normal is given and the first corner is reflex, the points are reversed.", "quantifier": "every list of points, with and without a given normal, for which the constructor succeeds", "why_tests_cant": "Universal over all outlines; depends on the interplay of the normal, the ear clipping and its retry with reversed points.", "anchors": ["building3d/geom/polygon/__init__.py: Polygon.__init__", "building3d/geom/triangles.py: triangulate"]}
{"id": "C71", "title": "Points inside polygons", "statement": "For every polygon made by the constructor whose corners lie in one plane: asking whether a point is inside never raises an exception; a point that lies in the area enclosed by the outline and not close to the edges of a triangle is inside, and so is every corner; a point reported inside lies in that area up to the tolerance; a point off the plane is not inside. Without the boundary, outline points are outside. With a margin, a point is inside exactly if it is inside and at least the margin away from every point of the outline. The interior point of a polygon is strictly inside. A polygon is contained in another one exactly if it covers only points of the other one.", "quantifier": "every polygon the constructor accepts, every point, tolerance and margin", "why_tests_cant": "There are infinitely many polygons and points; the answer combines bounding boxes, tolerances relative to coordinates, collinearity tests and triangles, and the failures sit in thin bands next to corners or far from the origin.", "anchors": ["building3d/geom/polygon/ispointinside.py: is_point_inside, is_point_at_boundary, is_point_inside_margin", "building3d/geom/triangles.py: is_point_inside, is_point_on_same_side", "building3d/geom/polygon/__init__.py: Polygon.is_point_inside, get_some_interior_point, contains_polygon"]}
{"id": "C72", "title": "The distance from a polygon is the distance to its nearest point", "statement": "distance_point_to_polygon returns the Euclidean distance from the point to the nearest point of the polygon: the perpendicular distance when the point is in front of (or behind) the polygon, otherwise the distance to the nearest point of the outline.", "quantifier": "every polygon accepted by the constructor with planar points, every point", "why_tests_cant": "The nearest point depends on the position relative to every triangle and edge; non-convex outlines and points whose projection falls near inner edges are not covered by finitely many points.", "anchors": ["building3d/geom/polygon/distance.py:distance_point_to_polygon", "building3d/geom/polygon/ispointinside.py:is_point_inside_ortho_projection", "building3d/sim/rays/find_target.py:find_target_surface"]}
{"id": "C73", "title": "A ray hits a polygon exactly if it meets it going forward", "statement": "is_point_inside_projection is true exactly if the ray from the point along the vector meets the polygon; with fwd_only=False the whole line counts; a ray parallel to the plane hits only if it starts in the polygon.", "quantifier": "every polygon accepted by the constructor with planar points, every start point, direction and tolerance, both values of fwd_only", "why_tests_cant": "The set of rays is a continuum, and the answer must also be right for grazing rays and non-convex polygons.", "anchors": ["building3d/geom/polygon/ispointinside.py:is_point_inside_projection", "building3d/sim/rays/find_target.py:find_target_surface", "building3d/geom/solid/__init__.py:Solid.is_point_inside"]}
{"id": "C74", "title": "A point is inside a solid exactly if its surface encloses it", "statement": "Solid.is_point_inside returns True exactly for the points enclosed by the surface of the solid or lying on it: every ray from an enclosed point crosses the surface an odd number of times, whatever its direction. It never raises, and points outside the bounding box are not inside.", "quantifier": "every solid with a closed surface made of planar polygons, every point", "why_tests_cant": "The answer comes from counting crossings along one fixed ray; that the count says anything about being enclosed is a topological fact about all closed surfaces, and the rays that pass through edges are a null set no sampling finds.", "anchors": ["building3d/geom/solid/__init__.py:Solid.is_point_inside", "building3d/geom/solid/__init__.py:Solid.is_point_at_boundary", "building3d/geom/polygon/ispointinside.py:is_point_inside_projection"]}
{"id": "C75", "title": "Adding crossing points keeps two outlines the same lines", "statement": "add_intersection_points(pts1, pts2) returns both outlines with the points added where an edge of one crosses an edge of the other: every original point is kept, in order, a point is added to an edge exactly for each edge of the other outline that crosses it (not at an end of either), and each outline is still the same closed line.", "quantifier": "all pairs of outlines in space, any number of points and crossings", "why_tests_cant": "The number of crossings per edge and their order along it range over all arrangements of two outlines; examples in tests have one crossing per edge or a lucky direction.", "anchors": ["building3d/geom/polygon/slice/add_intersection_points.py: add_intersection_points", "building3d/geom/points/intersections.py: line_segment_intersection"]}
{"id": "C76", "title": "Crossing polygons are found", "statement": "are_polygons_crossing(p1, p2) returns True exactly if the polygons lie in one plane and overlap in part: a point of an edge of one is inside the other, and neither contains the other. It never raises for polygons, returns False for polygons whose outlines are apart and for a polygon and itself.", "quantifier": "all pairs of polygons in space", "why_tests_cant": "Overlaps can be arbitrarily thin and at any place along an edge; the code samples ten points per edge, so any finite set of tests can hit the samples.", "anchors": ["building3d/geom/polygon/crossing.py: are_polygons_crossing"]}
{"id": "C77", "title": "Touching polygons are found", "statement": "are_polygons_touching(p1, p2) returns True exactly if the polygons have a point in common but no inner point of one is in the other. It does not depend on the order of the arguments, never raises for polygons, and returns False for polygons that are apart and for a polygon and itself.", "quantifier": "all pairs of polygons in space", "why_tests_cant": "The ways two outlines can meet range over all positions in space; tests only look at rectangles with a common edge or corner.", "anchors": ["building3d/geom/polygon/touching.py: are_polygons_touching, are_all_points_same, check_poly_a_against_b"]}
{"id": "C78", "title": "Segments through polygons and polygons through boxes are found", "statement": "is_line_segment_crossing_polygon returns True exactly if the segment has a point in common with the polygon. is_polygon_crossing_cube returns True exactly if the polygon has a point in common with the box, or a corner of the polygon is within eps of it. Neither raises for polygons.", "quantifier": "all polygons and segments in space, all boxes", "why_tests_cant": "A polygon can pass through a box in ways no test lists: without a corner in the box, through a corner of the box, along a face. Completeness quantifies over all of them.", "anchors": ["building3d/geom/polygon/crossing.py: is_line_segment_crossing_polygon, is_polygon_crossing_cube", "building3d/geom/bboxes.py: cube_edges, cube_polygons"]}
{"id": "C79", "title": "Adjacent solids are found and their interface is checked", "statement": "is_adjacent_to_solid is True exactly if a polygon of one solid and a polygon of the other overlap or face each other; has_correct_interface is True exactly if the solids are adjacent and every two polygons that overlap face each other (are stitched). Neither raises; a correct interface implies adjacency; solids away from each other are not adjacent; a box and the same box next to it are adjacent with a correct interface.", "quantifier": "all pairs of solids with any number of walls and polygons", "why_tests_cant": "Ranges over all pairs of polyhedra and all ways their faces can meet; the answer depends on every pair of polygons.", "anchors": ["building3d/geom/solid/__init__.py: Solid.is_adjacent_to_solid, Solid.has_correct_interface"]}
{"id": "C80", "title": "Polygons can be compared", "statement": "P == Q is True exactly if the polygons have the same corners in the same cyclic order up to the tolerance, False otherwise; it is reflexive and symmetric and never raises.", "quantifier": "all pairs of polygons, with any numbers of corners and any first corner", "why_tests_cant": "The comparison must agree with geometric equality for all representations of the outline; tests compare only copies.", "anchors": ["building3d/geom/polygon/__init__.py: Polygon.__eq__"]}
{"id": "C81", "title": "Stitching two solids cuts their faces until they match", "statement": "Solid.stitch_solids / stitch_solids(s1, s2) returns for all solids; afterwards no polygon of one solid overlaps a polygon of the other without facing it. It only slices polygons: each polygon that disappears is replaced in its wall by its two parts, so the surface, its area and the volume of both solids stay the same; stitching stitched solids changes nothing.", "quantifier": "all pairs of solids with any number of walls and polygons, any number of rounds, any point at which an exception stops it", "why_tests_cant": "The rounds depend on which pairs cross after the previous cuts; the claim is about every sequence of cuts, including the ones interrupted by an exception.", "anchors": ["building3d/geom/solid/stitch.py: stitch_solids, next_adjacent_polygons, slice_both_and_replace, slice_one_and_replace, replace_polygon, get_sup_cut, remove_outside_points", "building3d/geom/wall/__init__.py: Wall.replace_polygon"]}
{"id": "C82", "title": "Sound rays do not pass through walls", "statement": "In a ray simulation no ray passes through a polygon that is not transparent: the straight way between its positions in two successive rows of the buffers has no point in common with such a polygon. So if the walls close a room and the source is in the room, all positions of all rays in all files written by the run are in the room.", "quantifier": "all buildings, rooms, sources, directions, numbers of rays, steps and batches; all parameters of the configuration", "why_tests_cant": "A leak needs one ray in one step of one run; whether a wall is noticed depends on the position, the direction, the grid and the tests of all polygons around, and one missed reflection is enough.", "anchors": ["building3d/sim/rays/simulation_loop.py: simulation_loop", "building3d/sim/rays/simulation.py: Simulation.run", "building3d/sim/rays/find_target.py: find_target", "building3d/sim/rays/find_nearby_polygons.py: find_nearby_polygons", "building3d/sim/rays/voxel_grid.py: make_voxel_grid", "building3d/geom/polygon/ispointinside.py: is_point_inside_projection", "building3d/geom/polygon/distance.py: distance_point_to_polygon"]}
{"id": "C83", "title": "Stitching a building stitches its solids and nothing else", "statement": "Building.stitch_solids() stitches every visited pair of solids: afterwards the building has the same solids at the same paths, every solid differs only by polygons cut into their parts, solids without neighbours are untouched, the faces of visited pairs match, and the graph of the building is that of the stitched polygons.", "quantifier": "all buildings, all numbers of solids and pairs, all outcomes including exceptions in the middle", "why_tests_cant": "A solid can be in many pairs, each pair is cut by a recursion of unknown depth, and an exception may stop the work anywhere.", "anchors": ["building3d/geom/building/__init__.py: Building.stitch_solids, Building.get_graph", "building3d/geom/solid/stitch.py: stitch_solids"]}
{"id": "C84", "title": "Every simple outline is accepted as a polygon, whichever corner comes first", "statement": "Polygon(points) succeeds for the corners of every simple flat outline without thin corners whose first corner is convex: the corners stay in order, the normal is the one around which they run counter-clockwise; the result does not depend on which convex corner comes first, and the polygon can be flipped.", "quantifier": "all simple outlines, all numbers of corners, all planes, all first corners", "why_tests_cant": "There are infinitely many shapes; whether ear clipping gives up depends on a counter which runs through the whole history of failed corners.", "anchors": ["building3d/geom/polygon/__init__.py: Polygon.__init__, Polygon.flip", "building3d/geom/triangles.py: triangulate"]}
{"id": "C85", "title": "Plotting shows every object completely and in its colour", "statement": "plot_objects(objects, colors) draws every object in the order given, with all triangles of its mesh, all its lines and all its points, as far as it provides them, each in the colour given for the object (random ones if none are given); no objects or a wrong number of colours raise ValueError, objects without anything to plot AssertionError; RayBuffPlotter.plot shows the building in white, the path of every ray and its last position in red.", "quantifier": "all tuples of objects, meshes, lines and colours", "why_tests_cant": "The flat arrays passed on must decode to the faces and lines for every mesh; the cases for colours depend on the number of objects.", "anchors": ["building3d/display/plot_objects.py: plot_objects", "building3d/sim/rays/ray_buff_plotter.py: RayBuffPlotter.plot, get_points, get_lines"]}
{"id": "C86", "title": "Points as dictionary keys agree with equality of points", "statement": "point_to_tuple rounds each coordinate to the nearest multiple of 10^-decimals; points with the same tuple have the same hash and are within 10^-decimals of each other; rounding again changes nothing; points which points_equal takes for equal have the same tuple and vice versa.", "quantifier": "all points, all numbers of decimals", "why_tests_cant": "Rounding boundaries lie between any two sampled points.", "anchors": ["building3d/geom/points/__init__.py: point_to_tuple, point_to_hash, points_equal"]}
{"id": "C87", "title": "A simulation stopped at any point leaves buffers that are read correctly or refused", "statement": "If Simulation.run is stopped between any two file writes or inside one, read_buffers on its buffer directory either returns exactly the rows of all the steps written completely so far - the same rows the uninterrupted run would have given for these steps - or raises an exception; it never returns a mixture, zeros in place of missing data or rows of steps not finished. All steps written completely can be read.", "quantifier": "all simulations (batches, steps, rays), all stopping points, all listing orders of the directory", "why_tests_cant": "The stop can come at any of the many writes of a run, and the last step of each batch is written twice; tests read finished runs only.", "anchors": ["building3d/sim/rays/dump_buffers.py: dump_buffers, read_buffers", "building3d/sim/rays/simulation.py: Simulation.run"]}
{"id": "C88", "title": "An STL file cut off at any character is never read as a damaged building", "statement": "If writing an STL file is stopped (or the disk is full) after any number of characters, read_stl on the file raises an exception, or it returns the first solids of the building, each with exactly all its triangles and corners; solids whose lines are all in the file are not lost. A file that is not complete is refused with an exception.", "quantifier": "all buildings, all numbers of characters at which the file ends, all number formats that can be parsed back", "why_tests_cant": "The file can end inside any number, keyword or name of any line; tests write complete files.", "anchors": ["building3d/io/stl.py: write_stl, read_stl"]}
{"id": "C89", "title": "A polygon does not depend on where, in which plane and how large its outline is drawn", "statement": "Draw the same outline twice, in two planes, at two positions and in two sizes. Polygon(...) accepts both or rejects both with the same exception; if it accepts them, the triangles (corner numbers), the order of the corners and the side to which the normal points are the same.", "quantifier": "all outlines (convex or not, accepted or not) without doubtful cases, all pairs of planes, positions and scales", "why_tests_cant": "The ear clipping takes different paths for each outline and its tests use absolute and relative tolerances, a bounding box and rounding; tests draw a few outlines in a few planes.", "anchors": ["building3d/geom/polygon/__init__.py: Polygon.__init__", "building3d/geom/triangles.py: triangulate, is_point_inside, is_corner_convex"]}
{"id": "C90", "title": "Whether a floor plan can be built does not depend on where and in which direction it is built", "statement": "floor_plan(plan, height, translate, rot_angle) has the same outcome for every translation and every rotation angle: it returns a solid for all of them, or it raises the same exception for all of them.", "quantifier": "all plans (convex or not, clockwise or not, accepted or not) without doubtful cases, all pairs of translations and rotation angles", "why_tests_cant": "Every translation and rotation gives other coordinates to the tests with absolute and relative tolerances in the triangulation of floor and ceiling, in the flips and in the comparison of wall and floor points; tests use a few angles.", "anchors": ["building3d/geom/solid/floor_plan.py: floor_plan", "building3d/geom/polygon/__init__.py: Polygon.__init__, Polygon.flip", "building3d/geom/triangles.py: triangulate"]}
{"id": "C91", "title": "In a building of rooms exactly the walls between two rooms of a zone are transparent", "statement": "In a building whose solids are rooms made with box(), standing side by side without overlapping, find_transparent() returns exactly the paths of those polygons for which another polygon of the same zone has the same corners; outer walls, walls that are only partly shared and walls shared with another zone are not returned.", "quantifier": "all histories of construction calls that give such a building, all numbers and sizes of rooms up to the size limits, all names", "why_tests_cant": "The result depends on geometric tests with tolerances for every pair of polygons of the building, on the tree of names and on dictionary order; tests use two or three rooms.", "anchors": ["building3d/sim/rays/find_transparent.py: find_transparent", "building3d/geom/building/graph.py: graph_polygon", "building3d/geom/polygon/facing.py: are_polygons_facing", "building3d/geom/solid/box.py: box"]}
{"id": "C92", "title": "A point is located in the room that contains it", "statement": "find_location(p, building, *hints) in a building of rooms made with box() returns only paths of rooms that contain p, raises RuntimeError for a point outside all rooms, and finds the room of a point in its interior, whichever rooms are given as hints.", "quantifier": "all histories of construction calls that give such a building, all points, all lists of hints", "why_tests_cant": "The answer comes from a ray that must meet an odd number of faces, with tolerances; tests check a few points, and those for which the ray runs through an edge or a diagonal are rare.", "anchors": ["building3d/geom/building/find_location.py: find_location", "building3d/geom/solid/__init__.py: Solid.is_point_inside", "building3d/geom/solid/box.py: box"]}
{"id": "C93", "title": "The simulation works on the polygons of the building", "statement": "For a building whose polygons use all of their points, Simulation(building, config) hands to its loop exactly the polygons of the building: polygon number k of the loop has the points and triangles of the k-th path of get_polygon_paths(), the voxel grid and the bounding box are those of these polygons, and the numbers treated as transparent are exactly the numbers of the polygons that find_transparent() returns (none if the search is switched off).", "quantifier": "all histories of construction calls that give a building, all polygons and settings", "why_tests_cant": "Numbers are handed out while the building is flattened into arrays, written back into the objects, looked up again by path and used as indices; a test sees a shift or a swap only if the building is large and irregular enough.", "anchors": ["building3d/sim/rays/simulation.py: Simulation.__init__, Simulation.run, Simulation.get_transparent_polygon_numbers", "building3d/io/arrayformat.py: to_array_format, get_polygon_points_and_faces", "building3d/sim/rays/simulation_loop.py: simulation_loop", "building3d/sim/rays/voxel_grid.py: make_voxel_grid"]}
{"id": "C94", "title": "Rays stay in the zone of their source and pass freely between its rooms", "statement": "In the simulation of a building of rooms made with box(), a ray that is in a room of a zone stays in the rooms of that zone; with the search for transparent polygons it passes through the walls between two rooms of the zone without losing energy or changing direction, and without the search it stays in its room.", "quantifier": "all histories of construction calls that give such a building, all sources, directions, settings with cells not smaller than a step, numbers of steps", "why_tests_cant": "It combines the tree of names, the search for transparent polygons, the numbering, the voxel grid and the geometric tests over all steps; tests run one small building for some steps.", "anchors": ["building3d/sim/rays/simulation.py: Simulation", "building3d/sim/rays/simulation_loop.py: simulation_loop", "building3d/sim/rays/find_transparent.py: find_transparent", "building3d/sim/rays/find_target.py: find_target_surface"]}
{"id": "C95", "title": "The triangles of a simple polygon do not overlap", "statement": "If the outline of a polygon is simple (sides meet only in the corner between them) and the constructor accepts it, then no point is strictly inside two of its triangles, and the outline runs around every point of the plane that is not on it once if the point is in the polygon and not at all otherwise. So areas, centroids and surface samples computed triangle by triangle count no part twice.", "quantifier": "all simple outlines of any number of corners, in any plane, for which the constructor succeeds; all points", "why_tests_cant": "Ear clipping looks at one corner at a time; that the local tests add up to a partition of the inside is a topological fact about all simple polygons.", "anchors": ["building3d/geom/triangles.py: triangulate, is_point_inside, is_corner_convex", "building3d/geom/polygon/__init__.py: Polygon.__init__"]}
{"id": "C96", "title": "A room over a floor plan encloses what is over the plan", "statement": "A solid made by floor_plan() from an outline whose first and last corners are convex has as its inside exactly the points above the floor and below the ceiling that the outline, turned and moved as requested, runs around; every point not on the floor, ceiling or outline walls is off the surface. is_point_inside() gives this answer when its ray does not come within the tolerance of an edge.", "quantifier": "all floor plans of any number of corners, heights, translations and rotations for which the function returns; all points", "why_tests_cant": "Inside and outside of a non-convex prism are global facts about all rays; tests check a few points of one or two plans.", "anchors": ["building3d/geom/solid/floor_plan.py: floor_plan", "building3d/geom/solid/__init__.py: Solid.is_point_inside"]}
{"id": "C97", "title": "Nested default dictionaries store what was assigned, and nothing else", "statement": "After any sequence of assignments d[k1]...[kn] = v and look-ups d[k1]...[kn] on a recursive_default_dict(), a look-up returns the last value assigned under these keys if it has not been overwritten, and a dictionary otherwise; a look-up never changes a stored value; assignments and look-ups raise (TypeError) exactly if they go through a stored value. recursive_default_dict_to_dict() returns plain dictionaries at all levels with exactly the stored values.", "quantifier": "all sequences of assignments and look-ups with keys that are strings, whole numbers, booleans or None; all depths", "why_tests_cant": "It is about every history of uses at any depth, including look-ups that create entries; tests show two or three assignments.", "anchors": ["building3d/types/recursive_default_dict.py: recursive_default_dict, recursive_default_dict_to_dict"]}
{"id": "C98", "title": "Directories made for wildcard values are found again", "statement": "WildcardPath.mkdir(parent, **values) makes the directory named by the filled path and the missing directories above it and changes nothing else; repeating it changes nothing; it raises exactly if a file is in the way, and then makes nothing. The directory is found again by get_matching_paths_dict_values(parent) with exactly the values given, and everything found before is still found.", "quantifier": "all file systems of directories and files, all parent directories (relative or absolute), all values, all wildcard paths for which matching inverts filling (C59)", "why_tests_cant": "The claim is about every content of the file system before the call and every path; tests make one or two directories in an empty temporary directory.", "anchors": ["building3d/paths/wildcardpath.py: WildcardPath.mkdir, WildcardPath.get_matching_paths_dict_values, WildcardPath.fill"]}
{"id": "C99", "title": "Writing a file touches nothing else and can be read back", "statement": "write_b3d, write_dotbim and write_stl with parent_dirs make the missing parent directories, put the content into the file and change nothing else; they raise exactly if a file is in the way, the path is a directory, or the parent directory is missing and not to be made, and then nothing has changed. After any further writes to other paths, successful or not, the file has the content written to it; for B3D files read_b3d returns the building.", "quantifier": "all file systems of directories and files, all paths, all contents, all sequences of further writes", "why_tests_cant": "It is about every state of the file system and every history of writes; tests write one file into a fresh temporary directory.", "anchors": ["building3d/io/b3d.py: write_b3d, read_b3d", "building3d/io/dotbim.py: write_dotbim", "building3d/io/stl.py: write_stl"]}
{"id": "C100", "title": "A saved polygon comes back as it was", "statement": "A polygon made from points and saved to a B3D, dotbim or array file is accepted by the reader and comes back with the same vertices, triangles, centroid and plane coefficients. If it was made without a normal and kept the order of its points, it comes back exactly as it was, with the same normal and area. In general the normal that comes back is the one at its first vertex: for exactly plane polygons this is the original normal if the outline turns left there, the opposite one if it turns right, and NaN (and the area with it) if it is straight there. What was read once is read the same ever after.", "quantifier": "all polygons the constructor accepts, with or without a given normal; all buildings made of them with distinct names", "why_tests_cant": "The normal is not stored but derived from the first corner; tests save buildings with convex walls only, so no finite set of them shows for which polygons the derived normal differs.", "anchors": ["building3d/io/b3d.py: read_b3d", "building3d/io/dotbim.py: read_dotbim", "building3d/io/arrayformat.py: from_array_format", "building3d/geom/polygon/__init__.py: Polygon.__init__"]}
{"id": "C101", "title": "Saving and reading a building keeps what the simulation works on", "statement": "After saving a building to a B3D or dotbim file and reading it, to_array_format gives the same points, faces and polygon numbers of the faces, and the same number of polygons; if no wall, solid or zone is empty, all six arrays are the same. A simulation gets the same arguments for two buildings with the same polygons in the same order, if the search for transparent polygons is off or finds the same numbers.", "quantifier": "all buildings with distinct valid names whose polygons the constructor accepts; all simulation configurations", "why_tests_cant": "It is about every nesting of zones, solids, walls and polygons, with empty ones anywhere.", "anchors": ["building3d/io/arrayformat.py: to_array_format", "building3d/io/b3d.py: write_b3d, read_b3d", "building3d/io/dotbim.py: write_dotbim, read_dotbim", "building3d/sim/rays/simulation.py: Simulation"]}
{"id": "C102", "title": "Comparisons decide at exactly the configured tolerances", "statement": "Two points are equal exactly if each coordinate differs by at most 1e-13 plus 1e-5 of the size of the second one's; the searches of points in arrays and on segments use the same tolerance. Normals exist for cross products longer than 1e-8. Corners, sides of lines, facing normals and areas, crossing lines, points on edges of sliced polygons, equality of polygons, coplanarity, rotation axes and angles, and the rotation and translation of floor plans are decided at the configured absolute and relative tolerances, the boundary included or excluded as written.", "quantifier": "all points, vectors, polygons, angles and translations (exact numbers)", "why_tests_cant": "A tolerance is a statement about every pair of values, in particular those at its boundary; tests use values far from it.", "anchors": ["building3d/config.py: GEOM_ATOL, GEOM_RTOL, EPSILON", "building3d/geom/points/__init__.py: points_equal, is_point_in_array, is_point_on_segment, are_points_coplanar", "building3d/geom/vectors.py: normal", "building3d/geom/triangles.py: is_corner_convex, is_point_on_same_side", "building3d/geom/polygon/facing.py: are_polygons_facing", "building3d/geom/points/intersections.py: line_intersection", "building3d/geom/polygon/slice/locate_slicing_points.py: locate_point_on_polygon", "building3d/geom/polygon/__init__.py: Polygon.__eq__", "building3d/geom/rotation.py: rotation_matrix, rotate_points_around_vector", "building3d/geom/solid/floor_plan.py: floor_plan"]}
{"id": "C103", "title": "A saved solid comes back as it was", "statement": "A solid made by box (of ordinary size) or by floor_plan (from a plan with convex first and last corners whose corners are apart, and in particular from every convex plan with walls that are not too narrow), saved and read again, comes back exactly as it was in every attribute of every polygon, so with the same volume, bounding box and normals. This is false for polygons made with a given normal because their first corner is reflex, and for polygons made from points alone whose first and last corners are both reflex: their normals come back reversed, and the volume of a room made of them changes.", "quantifier": "all boxes of ordinary size, all floor plans with the stated corners, heights, translations and angles", "why_tests_cant": "It is about every plan; tests save boxes only, whose corners are all convex.", "anchors": ["building3d/io/b3d.py: write_b3d, read_b3d", "building3d/geom/solid/box.py: box", "building3d/geom/solid/floor_plan.py: floor_plan", "building3d/geom/solid/__init__.py: Solid.volume"]}
{"id": "C104", "title": "Rooms of any shape: shared walls are transparent and points are located in the room around them", "statement": "In a building whose solids have any shape, with polygons made by the constructor and exactly flat, two polygons that are the two sides of one (the same corners in the opposite order, from any corner on, and opposite normals) are facing, and polygons that clearly are not (a corner away from all corners of the other, or normals that are not opposite) are not; find_transparent() returns exactly the paths of the polygons whose other side is a polygon of the same zone; find_location() returns only paths of solids that enclose the point and raises RuntimeError exactly if no solid does, for points whose ray meets the faces away from edges and diagonals.", "quantifier": "all histories of construction calls that give such a building, all shapes of solids with closed surfaces, all points with a clear ray, all hints", "why_tests_cant": "It is about every shape; tests use boxes and a few floor plans.", "anchors": ["building3d/sim/rays/find_transparent.py: find_transparent", "building3d/geom/polygon/facing.py: are_polygons_facing", "building3d/geom/building/find_location.py: find_location", "building3d/geom/solid/__init__.py: Solid.is_point_inside"]}
{"id": "C105", "title": "Rays stay in a zone of rooms of any shape", "statement": "In a building of rooms of any shape with closed surfaces, the polygons of a zone whose other side is not in the zone form a closed surface; it encloses the points that an odd number of the solids of the zone enclose (if the solids do not overlap: the points enclosed by one of them), and a segment from inside to outside meets one of these polygons. In a simulation a ray leaves the zone (or, without the search for transparent polygons, its room) only near an edge of a triangle, almost parallel to a wall or right in front of a diagonal; away from the polygons without another side it flies on unchanged, through the walls between the rooms of its zone.", "quantifier": "all histories of construction calls that give such a building, all shapes of rooms, all sources, directions, settings with cells not smaller than a step, numbers of steps", "why_tests_cant": "It combines the topology of arbitrary closed surfaces, the tree of names, the search for transparent polygons, the voxel grid and the geometric tests over all steps; tests run one small building for some steps.", "anchors": ["building3d/sim/rays/simulation.py: Simulation", "building3d/sim/rays/simulation_loop.py: simulation_loop", "building3d/sim/rays/find_transparent.py: find_transparent", "building3d/sim/rays/find_target.py: find_target_surface"]}
{"id": "C106", "title": "Which outlines are refused, and with which exception", "statement": "Polygon(pts) and Polygon(pts, vn=v), for any list of points and any vector v: AssertionError is raised exactly if the points are not in one plane, there are fewer than three, no normal is given and the first corner is straight or thin (cross product at most 1e-8), or the given normal is neither zero nor of length 1; in all other cases the constructor returns a polygon or raises TriangulationError, and no other exception occurs. A zero normal and an outline in which a corner occurs twice are always refused; so no polygon and no floor plan that was accepted has a repeated corner. Creating any object with a slash in its name raises ValueError and changes nothing.", "quantifier": "all lists of points, all given normals or none, all names", "why_tests_cant": "The cases depend on all coordinates and on the whole run of the triangulation; tests try a few bad outlines.", "anchors": ["building3d/geom/polygon/__init__.py: Polygon.__init__", "building3d/geom/triangles.py: triangulate, is_corner_convex", "building3d/geom/points/__init__.py: are_points_coplanar, are_points_collinear", "building3d/geom/solid/floor_plan.py: floor_plan", "building3d/geom/paths/validate_name.py: validate_name"]}
{"id": "C107", "title": "Which exceptions slicing raises", "statement": "slice_polygon on a polygon made by the constructor, with any non-empty array of slicing points and any names and points for the parts, returns two polygons or raises one of AssertionError, GeometryError, NotImplementedError, ValueError, TriangulationError and RuntimeError; it never divides by zero, indexes out of range or looks up a missing key. The documentation names GeometryError only: slicing points off the plane raise AssertionError, an empty array IndexError.", "quantifier": "all polygons made by the constructor without given triangles, all slicing points, all optional arguments", "why_tests_cant": "The slicing code has many cases with index arithmetic; tests reach each index expression with a few inputs.", "anchors": ["building3d/geom/polygon/slice/__init__.py: slice_polygon, make_polygons", "building3d/geom/polygon/slice/get_point_arrays.py: get_point_arrays", "building3d/geom/polygon/slice/locate_slicing_points.py: locate_slicing_points"]}
{"id": "C108", "title": "The log file holds the messages since it was chosen, and logging touches nothing else", "statement": "Whatever has been logged before, after init_logger(f) has returned the log file holds exactly the lines of the messages of level DEBUG or higher logged from then until the next successful call of init_logger, in order; earlier content of the file is gone, and calls for other files do not change it any more. Any sequence of calls of init_logger and of log messages changes no other file, removes no directory and makes nothing but log files and the directories above them. init_logger(f) succeeds exactly if f is not a directory and no file stands where a directory of its path has to be.", "quantifier": "all file systems, all sequences of init_logger calls and messages, including failing calls", "why_tests_cant": "The state of the root logger and of the files depends on the whole history of calls, some of which fail; tests look at one call each.", "anchors": ["building3d/logger/__init__.py: init_logger", "building3d/config.py: LOG_FILE, LOG_LEVEL"]}
{"id": "C109", "title": "Rounding does not change whether and how an outline becomes a polygon", "statement": "In 64-bit arithmetic Polygon(points) gives the same exception as in exact arithmetic, or a polygon with the same corners in the same order, the same triangles, and a normal that differs by at most 1e-13: in particular convex outlines, rectangles and L-shaped outlines become polygons with the corners as given.", "quantifier": "all rounded arithmetics with relative errors of at most 1e-15 per operation (monotone and odd, as IEEE 754 prescribes), all planes parallel to two coordinate axes, all outlines in them without doubtful cases, of any number of corners and turned in any way, at scales between a millimetre and a thousand kilometres", "why_tests_cant": "Each test fixes one outline and one machine; rounding errors depend on every coordinate and on the order in which a library adds.", "anchors": ["building3d/geom/polygon/__init__.py: Polygon.__init__", "building3d/geom/triangles.py: triangulate, is_point_inside, is_point_on_same_side, is_corner_convex", "building3d/geom/points/__init__.py: are_points_coplanar, are_points_collinear, points_equal", "building3d/geom/vectors.py: normal", "building3d/geom/types.py: FLOAT"]}
{"id": "C110", "title": "Rounding changes the area of a polygon by at most 1e-12 times n squared times the square of the coordinates", "statement": "In 64-bit arithmetic polygon.area differs from the exact area of the outline by at most 1e-12 n^2 R^2, where n is the number of corners and R bounds the coordinates. A rectangle with sides p and q within R of the origin has the area p q up to 16e-12 R^2.", "quantifier": "all rounded arithmetics with relative errors of at most 1e-15 per operation, all outlines of up to 10^12 corners, all R", "why_tests_cant": "Each test fixes one outline near the origin; the error grows with the distance from the origin, and with map coordinates (12 000 km) it is 5 percent of the area of a small triangle.", "anchors": ["building3d/geom/polygon/area.py: polygon_area", "building3d/geom/polygon/__init__.py: Polygon.area", "building3d/geom/types.py: FLOAT"]}
{"id": "C111", "title": "A convex polygon can be sliced along any chord, into two convex parts", "statement": "Slicing a convex polygon along a straight line from one point of its outline (corner or inside of a side) to another one not on the same side always succeeds. The two parts carry the requested names, are convex and face like the polygon. One follows the outline from the start of the line to its end, the other one the rest; their areas are positive and add up to the area of the polygon, and every point on no edge is in as many triangles of the polygon as of the two parts together. Each part is exactly what the polygon has on one side of the line. If a point of the polygon off the line is given for one of two different names, or points on different sides for both, the part with a name is the side with its point; if the only point given is outside the polygon, GeometryError is raised.", "quantifier": "all planes, all strictly convex outlines with any number of corners, all chords, such that corners and ends of the line together are without doubtful cases (no two nearly equal points, no three nearly but not exactly on a line, sizes and coordinates in the range of a building)", "why_tests_cant": "The function distinguishes four cases by the location of the two ends, each with wrap-around of corner numbers, and each depends on nine tolerance tests; tests fix the polygon and the line.", "anchors": ["building3d/geom/polygon/slice/__init__.py: slice_polygon", "building3d/geom/polygon/slice/add_intersection_points.py: add_intersection_points", "building3d/geom/polygon/slice/remove_redundant_points.py: remove_redundant_points", "building3d/geom/polygon/slice/get_point_arrays.py: get_point_arrays"]}
{"id": "C112", "title": "Paths and names convert into each other without loss", "statement": "split_path(p) never raises and gives at least one name (one empty name for the empty path), none of which contains the separator; joined with the separator the names give p. Conversely, joining names that validate_name accepts and splitting gives the names back. validate_name returns a name unchanged if it does not contain the separator and raises ValueError otherwise.", "quantifier": "all strings and all lists of names", "why_tests_cant": "Ranges over all strings, including empty names and repeated separators.", "anchors": ["building3d/geom/paths/split_path.py: split_path", "building3d/geom/paths/validate_name.py: validate_name", "building3d/geom/paths/__init__.py: PATH_SEP"]}
{"id": "C113", "title": "Tests of points are exact when no position is doubtful", "statement": "For a polygon and a point drawn in the same plane without doubtful positions: is_point_inside says exactly whether the point is in the polygon (with boundary_in=False: in it and not on its outline), is_point_at_boundary exactly whether it is on the outline, a ray that meets the plane at the point is reported to hit the polygon exactly if the point is in it (and not behind the start, if only the forward direction counts), is_line_segment_crossing_polygon says of a segment whose line meets the plane at the point exactly whether segment and polygon have a common point, and distance_point_to_polygon for a point above or below it is the exact minimum of the distances to the points of the polygon. For a convex polygon the answers are whether the point is on the left of all sides, and contains_polygon is true exactly if every point of the other polygon is strictly inside.", "quantifier": "all planes, all polygons the constructor accepts (for the last sentence: convex ones, containing any polygon), all points such that point and corners together are without doubtful cases (no two nearly equal points, no three nearly but not exactly on a line, sizes and coordinates in the range of a building), including points on edges between triangles; for rays, segments and distances the first corner of the polygon is not straight, rays and segments are not almost parallel to the polygon (at least the tolerance), and the distance is computed with the normal of the first corner, with the polygon moved to the height of the point still within range", "why_tests_cant": "Every answer depends on the triangulation and on several comparisons with tolerances; tests fix a polygon and a few points.", "anchors": ["building3d/geom/polygon/ispointinside.py: is_point_inside, is_point_at_boundary, is_point_inside_projection, is_point_inside_ortho_projection", "building3d/geom/polygon/distance.py: distance_point_to_polygon", "building3d/geom/polygon/__init__.py: Polygon.contains_polygon", "building3d/geom/polygon/crossing.py: is_line_segment_crossing_polygon"]}
{"id": "C114", "title": "Points in solids are classified exactly when no position is doubtful", "statement": "Solid.is_point_inside returns True exactly if the point is in one of the faces or enclosed by the surface (every ray from it that meets no edge crosses an odd number of triangles), provided no position is doubtful along the direction the code looks in. The ray used by the code may pass through edges between the triangles of a face; it must only stay off the outlines of the faces. A point of a face that is not in a doubtful position is always inside. Solid.is_point_at_boundary returns True exactly if the point is in a face; here the direction used to rule out doubtful positions may be chosen for each face separately.", "quantifier": "all solids with a closed surface (every edge of a face is run through in both directions equally often) and flat faces whose outlines do not meet themselves and whose first corner is not straight, and all points such that for every face: the direction is not almost parallel to it, the point is in its plane or not nearly in it, the place where the ray in front of the point meets the plane is not on the outline and has, together with the corners, no doubtful case (no two nearly equal points, no three nearly but not exactly on a line, sizes and coordinates in the range of a building). The statement about points of a face has no condition on the other faces except that the constructor made them", "why_tests_cant": "The code counts faces hit by a single fixed ray, each hit decided by triangulation and tolerances; whether parity gives the right answer depends on the topology of the whole surface, and tests use a few points in a cube.", "anchors": ["building3d/geom/solid/__init__.py: Solid.is_point_inside, Solid.is_point_at_boundary", "building3d/geom/polygon/ispointinside.py: is_point_inside_projection, is_point_inside"]}
{"id": "C115", "title": "A straight line that extends beyond a convex polygon slices it where it crosses the outline", "statement": "slice_polygon with two points beyond a convex polygon, on a line that enters and leaves it between corners, gives the same result as with the points where the line enters and leaves (in one of the two orders), for all names and points passed with it; the two parts are what the polygon has on either side of the line. A line that starts on the outline and ends beyond the polygon is cut where it leaves. The remaining positions are refused although the line divides the polygon: GeometryError if the line passes a corner beyond which it goes on, NotImplementedError if the line starts beyond the polygon and ends on the outline.", "quantifier": "all convex polygons with any number of corners in any plane, all lines through them with at least one end beyond the polygon, such that the ends of the line, the points where it meets the outline and the corners have no doubtful case (no two nearly equal points, no three nearly but not exactly on a line, sizes in the range of a building) and coordinates up to 100 times the smallest distance", "why_tests_cant": "Crossings are found side by side, filtered by tolerances at corners, put in the order of the sides of the polygon, doubled because the line is treated as a closed outline, and then thinned out again; tests slice a square along a few lines.", "anchors": ["building3d/geom/polygon/slice/__init__.py: slice_polygon", "building3d/geom/polygon/slice/add_intersection_points.py: add_intersection_points", "building3d/geom/polygon/slice/remove_redundant_points.py: remove_redundant_points", "building3d/geom/points/intersections.py: line_segment_intersection"]}
{"id": "C116", "title": "Crossings of segments and visibility are exact when no position is doubtful", "statement": "line_segment_intersection returns the common point of two segments in a plane exactly, and no point if they have none or lie on one line. are_points_visible returns 0 exactly if some blocking edge meets the segment between the points, is not on one line with it and has no end at either point, and 1 otherwise; visibility_matrix has these values for every pair of different points and 1 on the diagonal.", "quantifier": "all segments, points and lists of blocking edges in any plane such that the points and the ends of the edges have no doubtful case (no two nearly equal points, no three nearly but not exactly on a line, sizes in the range of a building) and coordinates up to 100 times the smallest distance; nothing is asked of the places where segments cross", "why_tests_cant": "Crossings are computed by least squares and accepted by several tolerances, some of which grow with the coordinates; tests try a few crossing and parallel segments.", "anchors": ["building3d/geom/points/intersections.py: line_intersection, line_segment_intersection", "building3d/geom/points/visibility.py: are_points_visible, visibility_matrix"]}
{"id": "C117", "title": "The simulation keeps energies and speeds also with rounding errors", "statement": "Calculated with 64-bit numbers, where every operation is rounded, simulation_loop still ends, keeps all energies between 0 and 1 and never lets one grow; each reflection gives the mirror image of the velocity up to two parts in 1e14; however often a ray has been reflected, its speed differs from the given one by at most two parts in 1e6, in every step it stays or moves by the distance of one step up to one part in 1e5, and when it moves, the calculated distance to every opaque surface near and ahead of it is larger than the distance it moves.", "quantifier": "every number of steps and rays, every geometry (what the loop learns about polygons is arbitrary, except that normals are unit vectors up to two parts in 1e14, which is proved of the function that calculates them), every absorption of at least 1e-6 (energies: at least 0), sources and random directions, coordinates up to 1e9 times the distance of a step; no overflow or underflow; one call of simulation_loop (one batch)", "why_tests_cant": "Rounding errors of thousands of reflections add up; a test sees one history, with too few steps for a drift to show.", "anchors": ["building3d/sim/rays/simulation_loop.py: simulation_loop", "building3d/sim/rays/simulation.py: Simulation.run", "building3d/geom/vectors.py: normal"]}
{"id": "C118", "title": "Touching and crossing polygons are told apart when no position is doubtful", "statement": "For two polygons drawn in the same plane, in the same or opposite directions, without doubtful positions: are_polygons_touching returns True exactly if a corner of one is on the outline of the other, no corner or quarter point of an edge of one is inside the other off its outline, and not all corners of the first are corners of the second; are_polygons_crossing returns True exactly if two edges without a common end and with different directions meet and an end or ninth point of one of these edges is inside the other polygon off its outline. For convex polygons without a common inner point this means: they are touching exactly if they have a common point, and they are never said to be crossing.", "quantifier": "all planes and all pairs of polygons the constructor accepts (last sentence: all pairs of convex polygons), such that the corners of both and the points dividing their edges into quarters (touching) or ninths (crossing) together are without doubtful cases (no two nearly equal points, no three nearly but not exactly on a line, sizes and coordinates in the range of a building; for crossing coordinates up to 100 times the smallest distance)", "why_tests_cant": "The answers depend on both triangulations, on the order of the corners and on dozens of comparisons with tolerances; tests fix a few pairs of squares.", "anchors": ["building3d/geom/polygon/touching.py: are_polygons_touching, check_poly_a_against_b, are_all_points_same", "building3d/geom/polygon/crossing.py: are_polygons_crossing"]}
{"id": "C119", "title": "Points in polygons are classified correctly also with rounding errors", "statement": "Calculated with 64-bit numbers, where every operation is rounded: is_point_inside on a polygon that was itself made with rounded numbers raises no exception and says whether a point of its plane is covered by its triangles, also for points on slanted edges and on lines between triangles; for convex polygons this means: on the left of all sides or on them. is_point_at_boundary, and is_point_inside without the boundary, say whether the point is on the outline if it is not on a slanted line through two corners. A point away from the plane by at least one part in 1e9 of the smallest distance is never said to be inside.", "quantifier": "every precision of at least 53 binary digits without overflow and underflow; all outlines in planes parallel to two coordinate axes which the rounded constructor accepts, and all points, such that point and corners together are without doubtful cases (no two nearly equal points, no three nearly but not exactly on a line, sizes and coordinates in the range of a building) and corners on one line are on a line parallel to an axis", "why_tests_cant": "Points on edges are the cases where rounding decides; a test sees one rounding of one point.", "anchors": ["building3d/geom/polygon/ispointinside.py: is_point_inside, is_point_at_boundary", "building3d/geom/points/__init__.py: is_point_on_segment", "building3d/geom/bboxes.py: is_point_inside_bbox"]}
{"id": "C120", "title": "Volumes are right also with rounding errors", "statement": "Calculated with 64-bit numbers, where every operation is rounded: tetrahedron_volume returns a number whose square is off by at most about 1e-13 of the sixth power of the size, Solid.volume returns a number near the enclosed volume, and the volume of a box is near the product of its sizes.", "quantifier": "every precision of at least 53 binary digits without overflow and underflow; tetrahedra of any shape and place; solids with up to 500 triangles; boxes of any size and place", "why_tests_cant": "The formula subtracts large numbers which are nearly equal, so the result depends on the place and shape of the solid, and the root of a slightly negative number is NaN; tests use a few boxes.", "anchors": ["building3d/geom/tetrahedrons.py: tetrahedron_volume", "building3d/geom/solid/__init__.py: Solid.volume", "building3d/geom/solid/box.py: box"]}
{"id": "C121", "title": "Areas of triangles and centroids of polygons are right also with rounding errors", "statement": "Calculated with 64-bit numbers, where every operation is rounded: triangle_area returns a number whose square is off by at most about 2e-12 of the fourth power of the size, and the centroid stored in a polygon is near the sum of the centres of its triangles times their areas.", "quantifier": "every precision of at least 53 binary digits without overflow and underflow; triangles of any shape and place; polygons with up to 1000 triangles", "why_tests_cant": "Heron's formula subtracts numbers which are nearly equal if the triangle is thin, and the root of a slightly negative number is NaN; tests use a few triangles.", "anchors": ["building3d/geom/triangles.py: triangle_area, triangle_centroid", "building3d/geom/polygon/centroid.py: polygon_centroid", "building3d/geom/polygon/__init__.py: Polygon.__init__"]}
{"id": "C122", "title": "The surface a ray will meet is found also with rounding errors", "statement": "Calculated with 64-bit numbers, where every operation is rounded: is_point_inside_projection(p, v, pts, tri, atol=1e-3), with which the simulation looks for the next surface of a ray, returns True if the ray from p along v meets the polygon, and False if it goes away from the plane of the polygon or passes beside the polygon.", "quantifier": "every precision of at least 53 binary digits without overflow and underflow; every polygon perpendicular to one of the axes with coordinates up to 1000 m and every ray which is not flatter than 1 : 1000 (seen against the plane) and does not start in the plane", "why_tests_cant": "The point where the ray meets the plane is off the plane after rounding, and the test of the triangles compares directions with an absolute tolerance of 1e-13, so whether a hit is noticed depends on the last digits; tests use a few rays.", "anchors": ["building3d/geom/polygon/ispointinside.py: is_point_inside_projection, is_point_inside", "building3d/geom/polygon/plane.py: plane_coefficients", "building3d/geom/triangles.py: is_point_inside, is_point_on_same_side", "building3d/sim/rays/find_target.py: find_target_surface"]}
{"id": "C123", "title": "With 64-bit numbers no ray passes through a floor, ceiling or wall", "statement": "Calculated with 64-bit numbers, where every operation of the loop and of the geometric tests is rounded: in every step of a ray simulation a moving ray stays on its side of every opaque surface that is near in the grid; and the surface and the distance on which this decision depends are the true ones near the surface.", "quantifier": "every number of rays, steps and reflections; every grid, set of transparent polygons, absorbers, absorption coefficients and time step with speed * time_step at most a third of the size R of the surface; surfaces perpendicular to one of the axes, with coordinates that are 64-bit numbers up to R between 0.2 m and 100 m; rays that approach the surface with at least 2 mm/s", "why_tests_cant": "A ray passes a surface only for particular combinations of rounding errors in dozens of operations after some number of reflections; tests sample a few rays", "anchors": ["building3d/sim/rays/simulation_loop.py:simulation_loop", "building3d/sim/rays/find_target.py:find_target_surface", "building3d/geom/polygon/ispointinside.py:is_point_inside_projection", "building3d/geom/polygon/distance.py:distance_point_to_polygon"]}
{"id": "C124", "title": "In a room with perpendicular walls a ray is reflected at most three times in a step", "statement": "Let the opaque polygons near a ray be perpendicular to three axes, the ray in none of their planes, no two of them less than the reflection distance (1.01 * speed * time step) away on opposite sides of the ray, and the ray almost parallel only to polygons whose bounding box is more than a centimetre away. Then in one step the ray is reflected at most once for each axis, by polygons perpendicular to different axes, each reflection changes the sign of the velocity along its axis, the loop over reflections ends whatever the absorption, and the ray loses exactly what these polygons absorb (or everything, if no more than eps would be left). But a ray that lies on a surface (not close to the edges of its triangles) is reflected for ever: it never moves, loses all of its energy in the step, and if no surface absorbs energy the step never ends, whatever the direction of the ray.", "quantifier": "every set of polygons, every orientation of the axes, every position and velocity of the ray, every absorption, every number of steps and rays", "why_tests_cant": "The loop over reflections has no bound; tests run it for a few rays with the default absorption, where it ends because the energy is used up", "anchors": ["building3d/sim/rays/simulation_loop.py:simulation_loop", "building3d/sim/rays/find_target.py:find_target_surface", "building3d/geom/polygon/ispointinside.py:is_point_inside_projection", "building3d/geom/polygon/distance.py:distance_point_to_polygon"]}
{"id": "C125", "title": "In a room with perpendicular walls a ray has only eight directions", "statement": "If every opaque polygon is perpendicular to one of three perpendicular axes, then during a whole call of the simulation loop the part of the velocity of each ray along each axis keeps its size; in each step the ray stays or moves along each axis by the same distance as in every other step; and a ray parallel to the walls of one direction keeps its distance from them: a horizontal ray never leaves its height.", "quantifier": "every set of polygons perpendicular to three axes (in any orientation), every grid, time step and absorption, every number of rays and steps, every start position and velocity", "why_tests_cant": "Tests look at a few steps of a few rays; the statement is about all steps of simulations of any length", "anchors": ["building3d/sim/rays/simulation_loop.py:simulation_loop", "building3d/sim/rays/find_target.py:find_target_surface"]}
{"id": "C126", "title": "The echo between two parallel walls is periodic and comes early", "statement": "A ray that goes to and fro at right angles between two parallel opaque walls at the distance L turns at distances t1 and t2 from the walls that are more than 0.01 and less than 1.01 of the length of a step, and needs a whole number m of steps from wall to wall, with t1 + m * speed * time_step + t2 = L. It is at the same place again after every 2 m steps, for the whole simulation, and each wall takes its absorption each time. So N round trips take more than 0.04 and less than 4.04 time steps less for each round trip than 2 L N / speed: the error grows with the number of echoes. A ray that arrives at exactly 1.01 steps from a wall stands still for the rest of the simulation and keeps its energy.", "quantifier": "every distance of the walls, every height, every absorption, every number of round trips for which the energy suffices; walls made by the constructor and flat, the ray not close to the edges of their triangles, no other opaque polygons in the cells along the line, speed at least 1 mm/s", "why_tests_cant": "The deviation in one round trip is smaller than the tolerance of any test of a few steps and accumulates", "anchors": ["building3d/sim/rays/simulation_loop.py:simulation_loop", "building3d/sim/rays/find_target.py:find_target_surface", "building3d/geom/polygon/ispointinside.py:is_point_inside_projection", "building3d/geom/polygon/distance.py:distance_point_to_polygon"]}
{"id": "C127", "title": "A ray that passes through an absorber is absorbed", "statement": "A ray whose way passes through the ball of an absorber is absorbed: it loses its energy and is counted. Proved: a ray that has energy at some step was outside all absorbers at all earlier steps; if it went straight on, no part of its way at least as long as a step lies in an absorber; and it passes the centre of each absorber at a distance h with h^2 + (step/2)^2 at least radius^2. False in general: the ball is tested only at the positions after each step, so a ray can jump through an absorber, with long time steps even through its centre, and with the default radius and time step near the rim.", "quantifier": "every simulation, ray, absorber, radius, time step and straight part of a way of any number of steps, ending at least half a step before and beyond the centre", "why_tests_cant": "Whether a ray is caught depends on where its steps fall; tests see a few starting points", "anchors": ["building3d/sim/rays/simulation_loop.py:simulation_loop"]}
{"id": "C128", "title": "No sound arrives before the direct sound, and the direct sound is recorded one to two steps late", "statement": "In any room, an absorber at the distance D from the source records nothing in the rows j with (j - 1) * speed * time_step at most D - radius: no ray, however reflected, is faster than the direct sound. A ray that goes straight from the source to the centre of an absorber, with nothing in its way and steps shorter than the diameter of the absorber, is in it after q steps, where q is the first number with q * speed * time_step more than D - radius, keeps its energy until then, and its energy is recorded in row q + 1. If it is the only ray and the absorber the only one, the impulse response of n steps is zero but for this row, where it is one, and gives it the time (q + 1) * time_step * (n + 1) / n, more than one time step after the sound reaches the absorber.", "quantifier": "every room, grid, absorption, number of rays and steps, every source, direction, absorber, radius and time step; unit normals and directions, one call of the simulation loop", "why_tests_cant": "Where the first hit is depends on the distance, the radius and the time step; tests compare a few arrivals with themselves", "anchors": ["building3d/sim/rays/simulation_loop.py:simulation_loop", "building3d/sim/rays/impulse_response.py:impulse_response"]}
{"id": "C129", "title": "What holds in a batch holds over the whole run", "statement": "After a run of b batches of B steps there are result files of the steps 0 to b * B and of no others, with as many positions and energies as rays and as many hits as absorbers; at step 0 all rays are at the source with energy one. From the files of any step to those of the next one, also across the end of a batch, every ray stays or moves by exactly the distance of one time step at the ray speed; no energy grows or gets negative; rays without energy keep position and energy; every absorber records exactly what the rays inside it had, which then have none. So over the whole run energies stay in [0, 1] and never grow, all recorded hits and what the rays have left are never more than the number of rays, no ray is further from the source than its number of steps, and no absorber records anything before the direct sound can reach it. The run finishes if all absorptions are positive.", "quantifier": "every room, grid, absorption, batch size and number of batches, source, number of rays and absorbers; unit normals and directions, absorptions and epsilon not negative, time step not zero, the loops finish; no other assumption on the rays at the ends of the batches", "why_tests_cant": "Velocities are not handed from batch to batch but recomputed from the last two positions, so results of batches differ from those of a single one (C52); which laws survive this cannot be seen from runs with a few batch sizes", "anchors": ["building3d/sim/rays/simulation.py:Simulation.run", "building3d/sim/rays/simulation_loop.py:simulation_loop", "building3d/sim/rays/dump_buffers.py:dump_buffers"]}
{"id": "C130", "title": "The impulse response of a run tells what the absorbers caught", "statement": "A simulation of b batches of B steps that finishes, started with an empty buffer directory, leaves files from which b * B + 1 rows are read. With at least one absorber, impulse_response of what is read returns a table exactly if in some step before the last one a ray with energy (more than epsilon) was in an absorber; otherwise it raises AssertionError. The table has one row for every step and one column for every absorber; the value at step 0 is zero, and the value at step n + 1 is, up to one positive factor common to all absorbers and steps, the sum of the energies that the rays whose first absorber it is had at step n. The values of an absorber at the distance D from the source are zero in all steps n with (n - 1) * speed * time step <= D - radius, if speed, time step and radius are not negative.", "quantifier": "every room, grid, absorption, batch size and number of batches, source, number of rays and absorbers, every order in which a directory is listed; unit normals and directions, absorptions and epsilon not negative, time step not zero; buffer paths as in C53", "why_tests_cant": "The result depends on the simulation loop, the handling of batches, the files, the order of the directory and the normalisation together; tests call the parts separately with made-up buffers", "anchors": ["building3d/sim/rays/simulation.py:Simulation.run", "building3d/sim/rays/dump_buffers.py:read_buffers", "building3d/sim/rays/impulse_response.py:impulse_response"]}
{"id": "C131", "title": "A whole run keeps speed, energy and surfaces with rounded arithmetic", "statement": "Simulation.run hands the velocities from batch to batch as differences of rounded positions divided by the time step, so every batch adds rounding errors. If the number of batches times the size of the building (plus a step) is at most 10^8 times the distance of one step, a run with rounded arithmetic nevertheless ends and leaves the files of the steps 0 to b * B and no others; from each step to the next, in the same batch or not, every ray stays where it is or moves by the distance of one step up to one part in 10^5, no energy is negative or grows (all are between 0 and 1), and rays without energy stay as they are; after n steps no ray is further from the source than n steps, up to one part in 10^5; and the calculated distance to every opaque surface that is near and ahead of a ray that moves is larger than the distance it moves; an absorber records nothing in the steps in which sound cannot have reached it, up to the same error. Every absorber records in a step what the rays it is the first absorber of had one step before, up to one rounding for each ray, and those rays have no energy in the next step; all records up to any step and what the rays have left there are together not more than the number of rays, up to the same roundings.", "quantifier": "every configuration of ordinary size (C117), every number and length of batches within the bound, every source with stored coordinates, every random directions other than zero, every rounded arithmetic with relative errors up to 1e-15 in which adding zero to a stored number changes nothing", "why_tests_cant": "Rounding errors of many batches add up; tests run few batches and compare with tolerances", "anchors": ["building3d/sim/rays/simulation.py:Simulation.run", "building3d/sim/rays/simulation_loop.py:simulation_loop"]}
{"id": "C132", "title": "Impulse responses are right also with rounding errors", "statement": "With rounded arithmetic and hits that are not negative, impulse_response returns a table or raises the same exception as with exact numbers, in whatever order the hits are added. With up to 10^9 rows every value of the table is the exact one up to 3 (rows + 1) / 10^15 of it, the times are the exact ones up to 6 / 10^15 of them, and with a positive time step they increase. For a whole run with rounded arithmetic under the conditions of C131, with absorbers, at most 10^9 rows and at most 10^9 rays, saved to an empty buffer directory and read back: there is a table exactly if in some step before the last one a ray that is not dead was in an absorber, and AssertionError otherwise; the value at step 0 is zero and the value at step n + 1 is, up to one positive factor common to all absorbers and steps and to a relative error of (6 (rows + 1) + 2 rays) / 10^15, the sum of the energies that the rays whose first absorber it is had at step n. With an absorber radius that is not negative, the values of an absorber at step n are exactly zero as long as n - 1 steps of 1.00001 times the length of a step, plus 1.00000000000001 times the radius, are less than its distance from the source.", "quantifier": "every buffer of hits that are not negative, every number of absorbers, every time step that is not negative, every order of additions; every run as in C131; every rounded arithmetic with relative errors up to 1e-15", "why_tests_cant": "Rounding errors of sums depend on the order of the additions and grow with the number of steps and rays; tests compare short buffers with a tolerance", "anchors": ["building3d/sim/rays/impulse_response.py:impulse_response", "building3d/sim/rays/simulation.py:Simulation.run"]}
{"id": "C133", "title": "The voxel grid loses no nearby polygon also with 64-bit numbers", "statement": "make_voxel_grid with rounded arithmetic makes a grid that contains every polygon, and a polygon with a point within one cell (0.999999 cells) of a position on every axis is among the nearby polygons of this position. Whatever the box, a grid is returned only if it contains every polygon, and the polygons found for a position are polygons of the building with bounding boxes at most 2.000001 cells from it on every axis. In a whole run with 64-bit numbers with this grid and cells greater than 1.00002 times the distance of a step, no ray passes through an opaque floor, ceiling or wall away from the edges of its triangles.", "quantifier": "every building whose polygons are in its box, with 64-bit coordinates of at most a million cells; every 64-bit cell size; every margin between a millionth of a cell and a cell; lower ends of the box that, less the margin, are not within a millionth of a cell of a side of a cell (for example whole millimetres with the default settings); every position; for whole runs the conditions of C123 and C131", "why_tests_cant": "Whether a cell is missing depends on the last bit of products and quotients at the lower end of the building and on every multiple of the cell size; tests use a few buildings at the origin", "anchors": ["building3d/sim/rays/voxel_grid.py:make_voxel_grid", "building3d/sim/rays/find_nearby_polygons.py:find_nearby_polygons", "building3d/sim/rays/simulation_loop.py:simulation_loop"]}
{"id": "C134", "title": "Points made between two points are where they should be and on the segment, also with rounding errors", "statement": "With rounded arithmetic many_new_points_between_2_points(pt1, pt2, num) returns num + 2 points, exactly pt1 first and exactly pt2 last, and every point is in every coordinate at most 6e-15 times the greatest coordinate from the point that divides the segment in the same ratio. is_point_on_segment, with its default tolerance, says of every one of them that it is on the segment.", "quantifier": "all pairs of points (for the second sentence: with coordinates up to M and differences of coordinates up to L metres such that M L + 2 L^2 is at most 4), every number of points, every rounded arithmetic with relative errors up to 1e-15", "why_tests_cant": "Whether a point is on a slanted segment is decided by differences of products that cancel, at 1e-13; it depends on the last bits of every coordinate. Tests use a few points with short decimal coordinates", "anchors": ["building3d/geom/points/__init__.py:many_new_points_between_2_points", "building3d/geom/points/__init__.py:new_point_between_2_points", "building3d/geom/points/__init__.py:is_point_on_segment"]}
{"id": "C135", "title": "Rotating points is right also with rounding errors", "statement": "With rounded arithmetic rotate_points_around_vector(pts, u, phi) carries out the rotation if the length of u is within 1e-6 of one and raises an AssertionError if it is more than 2e-5 from one (and at least 1e-12). It returns as many points as it got, in the same order, each in every coordinate at most 6e-13 times the greatest coordinate from the exactly rotated point; for a unit axis distances between points change by at most 2.4e-12 times the greatest coordinate. With 64-bit numbers, points turned around the axis (0, 0, 1) keep their heights exactly.", "quantifier": "all lists of points, all axes, all angles from 1e-12 up to 10 radians in both directions (for the assertion and the heights: any angle of at least 1e-12), every rounded arithmetic with relative errors up to 1e-15 and every sine with errors up to 1e-15; for the heights: arithmetic rounded to 53 binary digits, heights that are such numbers", "why_tests_cant": "Rounding errors are different for every axis, angle and point; tests compare a few rotations by right angles with a tolerance. Planes of rotated polygons are compared at 1e-13 elsewhere, so a bound for all inputs matters", "anchors": ["building3d/geom/rotation.py:rotate_points_around_vector", "building3d/geom/rotation.py:rotation_matrix", "building3d/geom/rotation.py:rotate_points"]}
{"id": "C136", "title": "Floor plans have exactly level floors and exactly upright walls, also with 64-bit numbers", "statement": "floor_plan(plan, height, translate, rot_angle), with 64-bit numbers: all corners of the floor have exactly the same height, that of the translation (or 0, but only if every coordinate of the translation is at most 2e-8), every corner of the ceiling is exactly above a corner of the floor, and the comparison with == by which floor_plan looks for the corners of a side wall on the floor finds exactly the two of them, in order. So a side wall with its corners in the order of the plan is kept if the polygon of the floor has them in the opposite order, and turned round if it has them in the same order. With any rounded arithmetic, every corner is in every coordinate at most 1e-12 times the greatest coordinate from the corner of the plan turned around the vertical axis through the origin and translated.", "quantifier": "all non-empty plans, all heights, translations and rotation angles, the height and the vertical translation being 64-bit numbers; for the search: heights that are not zero and vertical translations of at most 1e14 times the height; for the direction: the same, and the conditions for the positions, and at least three corners which are at least 5e-5 times the greatest coordinate apart; for the positions: angles that are zero or between 2e-8 and 10 radians, translations that are zero or at least 2e-8 in some coordinate, every rounded arithmetic with relative errors up to 1e-15 and sines with errors up to 1e-15", "why_tests_cant": "The comparison of heights with == after a rotation by a matrix of rounded numbers would fail for one last bit, and the wall would raise an IndexError or be turned inside out. Tests use a few angles", "anchors": ["building3d/geom/solid/floor_plan.py:floor_plan", "building3d/geom/rotation.py:rotate_points_around_vector"]}
{"id": "C137", "title": "Turned convex floor plans get a floor that looks down and a ceiling that looks up, and side walls are told apart by direction, also with 64-bit numbers", "statement": "floor_plan with 64-bit numbers on a convex plan that is not too thin: the polygons of floor and ceiling are made and cut into n - 2 triangles, the normal of the floor differs from (0, 0, -1) and that of the ceiling from (0, 0, 1) by at most 1e-13 per coordinate. For corners in counter-clockwise order the floor gets them reversed, the ceiling keeps them, and the test of the direction of the side walls keeps every wall; for clockwise order the floor keeps them, the ceiling gets them reversed, and the test asks for every wall to be flipped. The areas computed for floor and ceiling differ from that of the plan by at most 2e-5 n^2 m^2.", "quantifier": "all plans, in either order, with any number n >= 3 of corners, any two corners between sqrt(2) m and 70 m apart and any three making a triangle of at least m^2, for any m from 0.001 to 10^6; coordinates, height and translation at most 1000 m; height and vertical translation being 64-bit numbers, height not zero, vertical translation at most 1e14 times the height; angles that are zero or between 2e-8 and 10 radians; translations that are zero or at least 2e-8 in some coordinate; every sine with errors up to 1e-15; for the areas: n up to 10^12", "why_tests_cant": "After a rotation no corner is where it should be, and the tests on collinearity, coplanarity, convexity and on the normals all compare rounded numbers. Tests use a few plans and angles", "anchors": ["building3d/geom/solid/floor_plan.py:floor_plan", "building3d/geom/polygon/__init__.py:Polygon.flip", "building3d/geom/triangles.py:triangulate"]}
