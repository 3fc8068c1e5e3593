# Design of the formal model of building3d

## What is here

* `properties.jsonl` - the semantic properties (C01, C02, ...).
* `lean/Verif/Model/*.lean` - the model: Lean functions that follow the Python code function by
  function. Each definition cites the file and lines it models and says where it simplifies.
* `lean/Verif/Spec/*.lean` - small specifications written without the model's helpers.
* `lean/Verif/Proofs/*.lean` - auxiliary lemmas.
* `lean/Verif/Props/*.lean` - the property theorems, each followed by a concrete case that meets
  its hypotheses.
* `lean/Verif/Conformance/Tests.lean` - assertions of the project's own unit tests (`/repo/tests`) restated about the
  model. They are tests of the model's fidelity on a few inputs, not proofs, and no claim rests on them.
* `MANIFEST.json` - property -> theorems -> status, with a note on what is missing.
* `seeded/LOG.jsonl` - the record of wrong programs the theorems were tried against. `result` is `detected` (a named theorem failed), `survived`, or `inconclusive` (the prover ended before any theorem failed).

A theorem is named after its property (`C41_...`). The suffix `_partial` says that the theorem covers
a part of the property; its comment or the note in the manifest says what is missing. Where the
property is false of the code, a theorem without the suffix states the negation for a concrete input.

## Modelling conventions

* Python exceptions are values (`Except PyErr`); a failing call returns the exception and, where
  state matters, the state at the time of the exception.
* Loops become structural recursion, folds, or recursion on fuel with a proof that the fuel
  suffices. `numpy` arrays are lists (or functions of the index); `dict` is an association list in
  insertion order with Python's overwrite-in-place semantics.
* Floating point: coordinates live in an arbitrary linearly ordered field `K` (or the reals when
  square roots or trigonometry are needed). Tolerances in the code (`atol`, `rtol`, `eps`) stay in
  the model as explicit terms. Rounding is modelled only for the constructor of polygons and their area (C109, C110,
  module `Rounded`), for the tests of points against polygons (C119, module `RoundedPoints`), for rays and distances to polygons (C122, module `RoundedRays`), for volumes and boxes (C120, module `RoundedVolume`), for areas of triangles and centroids (C121, module `RoundedArea`) for the simulation loop and the batches of a run (C117 and C131, module `SimRounded`; together with the rounded geometry C123, module `SimGeoRounded`), for points between two points (C134, module `RoundedBetween`), for rotations (C135, module `RoundedRotation`, with a sine that is at most 1e-15 off as a parameter), for the corners, floor and ceiling of floor plans (C136, C137, module `RoundedPlan`), for the voxel grid (C133, module `SimGridRounded`) and for impulse responses (C132, module `OutputRounded`); every other geometric theorem is about exact arithmetic. NaN and infinities are modelled only where the code tests for them.
* Randomness (`uuid4`, `np.random`) and external oracles are parameters; theorems quantify over
  every value of them.
* `numba` compilation, logging, plotting, JSON text encoding and file-system details are not
  modelled, except where a property is about them (dump/read of buffers, line formats).

## Trusted base

* The kernel of Lean 4.33.0. No axiom is added; no `sorry`, `native_decide` or `bv_decide`.
* Axioms, for the theorems named in the manifest (as printed by `#print axioms`):

* no axiom: Slice.C42_order.
* only propext: Hier.C05_add_rejected, Hier.C06_replace_unknown, Hier.C06_replace_not_atomic, Hier.C07_shared_object_lost, Hier.C07_lost_after_failed_constructor, Hier.C11_level_graph_given_or_computed, Hier.C12_cached_graph_is_stale, Mesh.C13_vstack_mismatch, Slice.C42_outside, Slice.C42_named, Slice.C42_no_points, Slice.C42_ambiguous, Hier.C56_cached_result_is_stale, Config.C68_existing, Files.C101_empty_wall, Hier.C106_names, Hier.C112_join, Hier.C112_names.
* only propext, Quot.sound: Util.C02_rollBack_spec, Util.C03_random_id, Hier.C04_names, Hier.C05_add_error_changes_nothing, Hier.C05_add_fresh, Hier.C06_replace_success, Hier.C06_replace_collision_partial, Hier.C07_no_building, Hier.C12_fresh_graph_partial, Hier.C12_graph_of_some_moment_partial, Mesh.C13_vstack_sizes, Triangles.C21_triangulate_terminates, Bboxes.C25_bounding_box_tight, Bboxes.C26_overlap_symmetric, Bboxes.C26_overlap_iff_common_point, Slice.C42_contains, Slice.C43_first_pass, Slice.C43_touching, Sim.C44_no_polygon_missing, Sim.C44_sound, Sim.C44_lookup_sound, Sim.C49_reflection_law, Sim.C51_fuel_irrelevant, Output.C57_time, Points.C65_new_point_between, Display.C85_single_colour, Tolerance.C102_points, Tolerance.C102_in_array, Tolerance.C102_facing, Hier.C112_split.
* `propext`, `Classical.choice`, `Quot.sound`: all other theorems named in `MANIFEST.json` (594).

* Mathlib definitions used in statements (reals, `sin`, `cos`, `sqrt`, lists, permutations, rotations
  of lists, finite sums, floor).
* The transcription of the Python code into `Verif/Model`, made by reading (the code cannot be run
  here).
* The semantics of the Python and NumPy primitives named in the comments of the model, in particular:

| area | taken as given |
|------|----------------|
| all geometry | exact arithmetic instead of floating point; `np.isclose(a, b)` is `abs(a-b) <= atol + rtol*abs(b)`; a normal with NaN is `none` |
| rounding (C109, C110, C117) | each operation has a relative error of at most 1e-15, `np.linalg.norm` 8e-15, `np.dot` 4e-15 of the sum of the absolute products (any order of the sums); subtraction and multiplication are odd, multiplication commutes, products with zero do not change a sum, `np.round(x, 8)` is monotone and representable; no overflow or underflow; no operations fused in `np.cross`; for C117 also: 0, 1 and results of subtractions can be stored, and subtracting something not negative from a stored number does not make it larger |
| object tree (C04-C09) | `dict` keeps insertion order; random names are parameters; whether a polygon can be built from its points is a parameter |
| graphs, stitching (C10-C12, C56, C61) | the relations between two polygons (boxes overlap, facing, crossing, touching) are parameters; iteration over a `set` is a parameter |
| meshes, array format (C13-C15) | arrays are lists of rows; an index out of range in compiled code, which is not checked there, is `IndexError` |
| files (C16-C19, C53, C87) | `json.dump`/`json.load` return the same data; printing and parsing one number is a parameter with a round-trip hypothesis (`FloatIO`); `np.save`/`np.load` return the same array, and `np.load` raises an exception for a file cut off by a stop inside `np.save`; `glob` lists the files of one directory |
| file system (C68, C98, C99, C108) | `pathlib.Path`, `os.makedirs`, `open` as in CPython on POSIX; directories and regular files only: no symbolic links, missing permissions, other processes or `..` |
| lines (C37, C75) | `np.linalg.lstsq` solves the normal equations exactly |
| sorting (C39) | `sorted` is a stable sort by the lexicographic order of the tuples |
| simulation (C44-C52, C67) | whether a ray hits a polygon, the distance to it and its normal are parameters (`Geo`); C71-C73 are about the functions that give them; one statement of the loop body is atomic in C50 |
| configuration (C54, C55, C68) | the number of a polygon is a function of its identity |
| wildcards (C59, C60, C66) | the subset of regular expressions that the code generates: literal characters, `.`, `(\d+)`, greedy with backtracking |

### Which code is modelled

| file in `building3d/` | modelled in `Verif/Model/` | not modelled |
|------|------|------|
| `config.py` | `NumpyClose` | - |
| `display/plot_objects.py` | `Display` | PyVista, opacity, size of points |
| `geom/bboxes.py` | `Bboxes`, `RoundedPoints` | - |
| `geom/building/__init__.py`, `geom/zone/__init__.py`, `geom/solid/__init__.py`, `geom/wall/__init__.py` | `Hierarchy`, `Graph`, `Mesh`, `Solids`, `PointInPolygon`, `Crossing`, `RoundedVolume` | `__str__`, `__repr__` |
| `geom/building/find_location.py`, `geom/building/graph.py` | `Graph` | - |
| `geom/*/get_mesh.py`, `geom/mesh/__init__.py` | `Mesh` | - |
| `geom/paths/*` | `Hierarchy`, `Str` | - |
| `geom/points/__init__.py` | `Points`, `PointKey`, `Util`, `RoundedPoints`, `RoundedBetween` | `point_to_str`, Python's `hash` (any function) |
| `geom/points/distance.py`, `find_close_pairs.py`, `intersections.py`, `visibility.py` | `Points`, `Intersect` | - |
| `geom/polygon/__init__.py` | `PolygonObj`, `Hierarchy`, `PointInPolygon`, `Rounded` | `__str__`, `__repr__` |
| `geom/polygon/area.py`, `centroid.py`, `edges.py`, `plane.py` | `PolygonBasic`, `Triangles` | - |
| `geom/polygon/facing.py` | `PolygonObj` | - |
| `geom/polygon/crossing.py`, `touching.py` | `Crossing` (parameters of `Graph`) | |
| `geom/polygon/distance.py`, `ispointinside.py` | `PointInPolygon`, `RoundedPoints`, `RoundedRays` | - |
| `geom/polygon/slice/*` | `Slice` | - |
| `geom/rotation.py`, `geom/vectors.py` | `Rotation`, `RoundedRotation`, `PolygonBasic` | - |
| `geom/solid/box.py`, `floor_plan.py` | `Solids`, `RoundedVolume` (box), `RoundedPlan` (corners of floor plans) | - |
| `geom/solid/stitch.py` | `Stitch`, `StitchBuilding`; which pairs of a building are visited in `Graph` | |
| `geom/tetrahedrons.py`, `geom/triangles.py` | `Triangles`, `Rounded`, `RoundedVolume`, `RoundedArea` | - |
| `io/arrayformat.py` | `ArrayFormat` | - |
| `io/b3d.py`, `io/dotbim.py` | `Files`, `Reload`, `FileSystem` (parent directories) | - |
| `io/stl.py` | `Stl` | - |
| `paths/wildcardpath.py` | `Wildcard`, `FileSystem` | symbolic links, permissions, `..` |
| `random/__init__.py`, `util/roll_back.py` | `Util` | the generator itself |
| `sim/rays/dump_buffers.py` | `Buffers` | - |
| `sim/rays/find_nearby_polygons.py`, `find_target.py`, `simulation_loop.py`, `voxel_grid.py` | `Sim`, `SimRounded`, `SimGridRounded`, `SimPar`, `SimGeo` and `SimGeoRounded` (with the geometric tests) | log output |
| `sim/rays/find_transparent.py` | `Graph`, `GraphGeo` (with the geometric tests) | - |
| `sim/rays/impulse_response.py`, `movie_from_buffer.py`, `ray_buff_plotter.py` | `Output`, `OutputRounded`, `Display` | drawing, writing of movies |
| `sim/rays/simulation.py`, `simulation_config.py` | `Config`, `Sim`, `SimRounded`, `SimSetup` (from the building to the arguments of the loop) | log output |
| `types/cyclic_buffer.py` | `CyclicBuffer` | - |
| `types/recursive_default_dict.py` | `DefaultDict` | keys and values other than strings, whole numbers, booleans and None |
| `logger/__init__.py` | `Logger` | format of the lines |
| `_to_be_ported/` (not imported by the package), `display/colors.py`, `sim/rays/jit_print.py` | - | everything |

## Plan per property

| id | property | what is modelled and how it is proved | status |
|----|----------|---------------------------------------|--------|
| C01 | Cyclic buffer keeps the most recent items in order | `cyclic_buf`, `convert_to_contiguous` as functions on (array, head, tail); invariant by induction over the write history relating the state to the list of all writes; refinement to `last (min k (N-1))`. | proved |
| C02 | Rolling points is a cyclic rotation that loses nothing | Rotations as list functions; inverse, permutation and n-fold identity by induction. | proved |
| C03 | Random identifiers have the requested length or are rejected | Random source is a parameter (the 36-character UUID string with 4 hyphens; a number in [0,1)); decision logic and bounds stated for every value of it. | proved |
| C04 | Names stay unique and separator-free in every reachable model | Heap model (object ids, parent pointers, ordered child dicts) with one transition per public call; invariant by induction over the call sequence. | proved |
| C05 | A rejected add changes nothing | Same heap model; per-call lemma for every state. | proved |
| C06 | Replacing a child removes it and installs the replacements atomically | Same; positive part for fresh names, negation with witness for atomicity under collisions. | partial |
| C07 | Every object can be looked up by its own path | Same heap; `path` follows parent pointers, `get` splits and indexes dicts; proved for every reachable state in which no object was put in two containers, with a witness that sharing breaks it. | partial |
| C08 | A lookup that succeeds returns the object with that path, everything else is an error | Same; converse direction for every string. | proved |
| C09 | Polygon path listing is complete and duplicate free | Same; listing equals the flat traversal, `Nodup`. | proved |
| C10 | The polygon adjacency graph is symmetric, loop-free and duplicate-free, and exact | `graph_polygon` as a fold over ordered pairs with the `checked` set; invariant over prefixes of the pair list; relations are arbitrary predicates. | proved |
| C11 | Wall/solid/zone graphs are exact projections of the polygon graph | `strip_graph`/`remove_last` over paths; exactness and symmetry. | proved |
| C12 | A requested graph answers the requested query | State machine with cached graph; negation with witness; partial for `new=True` / first call. | partial |
| C13 | Meshes of composite objects are exactly the union of their parts | `vstack_mesh` loop with its two offsets and buffers; equality with concatenation for non-empty parts, negation with witness for an empty part. | partial |
| C14 | Array format numbers every object consistently | `to_array_format` nested loops with counters over the tree model; invariants. | proved |
| C15 | Array format round trip restores the geometry | `from_array_format`, `get_polygon_points_and_faces`; round trip composed from the invariants of C14; trailing zones without polygons are shown to be lost. | proved |
| C16 | B3D files round trip | Nested dictionary written and read (JSON layer trusted); the result is the tree without empty containers, same identifiers; a building without polygons raises on reading. | proved |
| C17 | dotbim files round trip | Element list written and read; grouping by (uid, name); round trip. | proved |
| C18 | STL files round trip as triangle soups | STL lines as tokens (number formatting trusted); write/parse round trip. | proved |
| C19 | The STL reader never accepts a structurally broken file silently | Same parser; soundness over every token list. | partial |
| C20 | Triangulation of a polygon has n-2 valid triangles covering all vertices | `triangulate` with abstract convexity and containment predicates; loop invariant on the remaining vertex list; for a flat outline the triangles, counted with orientation, wind around every point exactly as the outline does (`C20_winding`). | proved |
| C21 | Triangulation always terminates | Same; decreasing measure, and the only exception is `TriangulationError`. | proved |
| C22 | Polygon edges form the closed outline | `polygon_edges`; list lemma. | proved |
| C23 | Polygon area does not depend on the description | Shoelace sum over an ordered field; algebra. | proved |
| C24 | Polygon centroid is the area-weighted mean of the triangle centroids | `polygon_centroid`; negation with witness (not divided by the total area); partial for total area 1. | partial |
| C25 | Bounding boxes are tight | min/max folds; lattice facts. | proved |
| C26 | Bounding-box overlap is symmetric and never rejects polygons with a common point | Interval arithmetic with tolerance. | proved |
| C27 | Distance from a point to an edge is the true minimum | Clamped projection; quadratic minimisation over the reals. | proved |
| C28 | Rotation is rigid | Rodrigues matrix over the reals with sin/cos from Mathlib; matrix algebra; the matrix returned for the no-op case is shown to be wrong. | proved |
| C29 | Rotating points to a plane puts them in the plane rigidly | As 28; negation for (anti)parallel normals, partial for the general case. | partial |
| C30 | Tetrahedron volume and triangle area are the exact geometric values | Polynomial identities; square-root bounds. | proved |
| C31 | box() produces a closed solid with outward normals and the right volume | `box` through the modelled polygon constructor, all six faces; outlines, outward normals, closed surface, volume; sizes bounded below by the tolerances; witness that rooms at UTM coordinates raise. | partial |
| C32 | floor_plan() produces a closed solid with the requested walls | `floor_plan` for n-vertex plans: directed edges of floor, ceiling and walls; names; volume of the prism; witnesses for reflex first/last corners. | partial |
| C33 | Flipping a polygon reverses its normal and nothing else | `Polygon.__init__` and `flip` with the modelled triangulation; witnesses for a reflex and a straight last corner. | partial |
| C34 | Facing is a symmetric relation | `are_polygons_facing` with the greedy matching; exact for separated points, witnesses against symmetry in general. | partial |
| C35 | Point equality is an equivalence usable for matching | `allclose` with the default relative tolerance; negation with witness; partial reflexivity. | partial |
| C36 | Collinearity and coplanarity tests agree with geometry | Exact versions; negation for repeated first point; partial. | partial |
| C37 | Segment intersection points lie on both segments | `line_intersection`, `line_segment_intersection`; least squares as the normal equations; soundness up to the tolerances, completeness away from degenerate cases. | partial |
| C38 | A point on a segment is recognised | Exact version. | partial |
| C39 | Closest-pair matching uses every point at most once | Greedy fold over a sorted list; invariants. | proved |
| C40 | Visibility matrices are symmetric with unit diagonal | `are_points_visible` double loop; symmetric, zero diagonal, and what the pairwise test means geometrically. | partial |
| C41 | Slicing a polygon preserves its area | All of `slice_polygon`: cutting the outline as a relation on cyclic lists (`Spec/Slice`), sums over edges add up, hence area vectors and winding numbers; witness for a notch in the closing edge. | partial |
| C42 | Sliced parts get the names they were requested with | Decision table of `make_polygons` for all names and reference points. | proved |
| C43 | Redundant slicing points are removed but nothing is invented | Loops of `remove_redundant_points` as list functions; which runs are kept; witnesses for the failures. | partial |
| C44 | The voxel grid loses no nearby polygon | Grid as function from integer cells; floor arithmetic. | proved |
| C45 | The target surface is the nearest opaque polygon ahead of the ray | Arg-min fold of `find_target_surface` over abstract hit and distance functions. | proved |
| C46 | Ray energy never increases and never goes negative | Whole loop with abstract geometry oracles; induction over steps. | proved |
| C47 | Dead rays stay where they are | Same. | proved |
| C48 | Absorbers account for energy exactly | Same; sum over rays. | proved |
| C49 | Reflections preserve ray speed | Vector algebra + induction. | proved |
| C50 | Results do not depend on the parallel schedule | Every ray is a thread that runs one statement per turn on shared arrays; every interleaving gives the result of the sequential loop. | proved |
| C51 | Every reflection loop ends | Bound on the loop by energy. | proved |
| C52 | Simulation results do not depend on the batch size | Composition of loops, velocity reconstruction from the last two rows; witness for failure, partial under an explicit condition on the rays at batch ends. | partial |
| C53 | Dumped buffers can be read back exactly | File system as a list of files with padded step numbers; writing and reading back, also in several batches. | proved |
| C54 | Setting a surface parameter affects exactly the addressed polygons | Config as nested map; induction over calls. | proved |
| C55 | The simulation uses the configured surface parameters | Negation with witness (the array is filled with the default). | partial |
| C56 | Transparent polygons are exactly internal faces of a zone | Pairs in the same zone; negation for stale cache. | partial |
| C57 | Impulse response is normalised and keeps timing | Column sums and normalisation; negation for the time axis. | partial |
| C58 | Ray trails are connected polylines | Index arithmetic. | proved |
| C59 | Wildcard paths round trip | Pattern as token list, regular expression subset with greedy digits; round trip for separated wildcards, witnesses otherwise. | partial |
| C60 | Wildcard filtering is sound and complete | List filter. | proved |
| C61 | Stitching visits every adjacent pair of solids | `done` set over names; negation with witness; partial for distinct solid names. | partial |
| C62 | Point location returns a solid that contains the point | Search loop over paths. | proved |
| C63 | Solid volume is translation invariant and additive | Signed volume as a sum over triangles of the faces; translation invariance for closed surfaces, additivity, regularisation term explicit. | proved |
| C64 | Plane projection and point-in-plane tests are exact | Vector algebra. | proved |
| C65 | Points inserted between two points are exact and evenly spaced | `new_point_between`, `many_new_points_between`; vector algebra. | proved |
| C66 | Value tuples map to matching paths | Filtering and extraction composed over named paths. | proved |
| C67 | Every ray meets one of six fates in a step | Case analysis of one step of the loop for any geometry. | proved |
| C68 | A simulation starts only with consistent step numbers and a new buffer directory | Constructor checks as decision logic over directory states. | proved |
| C69 | Movie frames show rays and energies of the same time | Frames and trails as index arithmetic; witness for wrong colours with several rays. | partial |
| C70 | A polygon's points run counter-clockwise around its normal | Constructor with the modelled triangulation; orientation through the area vector; witness for reflex first corners. | proved |
| C71 | Points inside polygons | `is_point_inside` of triangles and polygons with their tolerances over the reals; error bounds relative to a specification of the covered region (`Spec/Region`). | partial |
| C72 | The distance from a polygon is the distance to its nearest point | `distance_point_to_polygon`: attained and minimal up to the tolerance; witnesses. | partial |
| C73 | A ray hits a polygon exactly if it meets it going forward | `is_point_inside_projection`: soundness and completeness up to the tolerance. | partial |
| C74 | A point is inside a solid exactly if its surface encloses it | `Solid.is_point_inside` by ray parity; independence of the ray for a closed surface through winding numbers/crossing parity (`Spec/Enclosed`); exact for boxes; witness of a wrong answer. | partial |
| C75 | Adding crossing points keeps two outlines the same lines | `add_intersection_points`: exact description of both outputs; same closed line if crossings come in order; witness otherwise. | partial |
| C76 | Crossing polygons are found | `Crossing`: the loops of `are_polygons_crossing` as `anyOk`, reduced to 'some pair of edges without a common end meets, and a sample is inside' (`crossing_iff`), then combined with C37 (segments) and C71 (points in polygons); rectangles and triangles for the negatives | partial |
| C77 | Touching polygons are found | `Crossing`: the loop of `check_poly_a_against_b` reduced to 'some corner on the boundary' and 'some quarter point inside' (`touching_iff`), then C71; rectangles, the arrow head and an upright rectangle for the negatives | partial |
| C78 | Segments through polygons and polygons through boxes are found | `Crossing`: the segment test reduced to 'not parallel, and the point in the plane is accepted' (`segmentCrossing_iff`), then C71; for boxes `triangle_meets_box` (a triangle and a box meet only if a corner is in the box, an edge of the triangle meets the surface or an edge of the box meets the triangle), by moving along the plane until something is left | partial |
| C79 | Adjacent solids are found and their interface is checked | `Crossing`: the double loops as `anyOk`, reduced to 'some pair crosses or faces' (`adjacent_iff`, `interface_iff`), then C34 and C76; the boxes of C31 for the positive case | partial |
| C80 | Polygons can be compared | `Crossing`: `__eq__` as a comparison of lists of points, `ValueError` for shapes that cannot be broadcast | partial |
| C81 | Stitching two solids cuts their faces until they match | `Stitch`: the functions of `stitch.py` as state transformers which also return the changed solids when an exception is raised, recursion with fuel; induction over the rounds, C41 for every cut, C63 for the volume | partial |
| C82 | Sound rays do not pass through walls | `Sim` with `SimGeo` (the tests of the code as the parameters of the loop): invariant of the steps for the speed and the remaining way to the target, C44 for the grid, C67 for the step, C72 and C73 for the tests; closed rooms by induction over steps and batches | partial |
| C83 | Stitching a building stitches its solids and nothing else | `StitchBuilding`: the loop over the solid graph with the solids as a dictionary by path, on top of `Stitch` and `Graph`; induction over the visits with C81 for each pair; the cache of C12 for the graph afterwards | partial |
| C84 | Every simple outline is accepted as a polygon, whichever corner comes first | `PolygonObj`, `Triangles`: for convex outlines by induction over the ears cut off (a fan from the last corner); for the witnesses the run on whole-number points is transferred to an integer version of ear clipping, which the kernel evaluates | partial |
| C85 | Plotting shows every object completely and in its colour | `Display`: the calls of `add_mesh` as a list, PyVista outside; the flat arrays decode, in a small grammar of cells, to the faces and lines; induction over the objects | partial |
| C86 | Points as dictionary keys agree with equality of points | `PointKey`: `np.round` over the reals with ties to even, `hash` any function of the tuple; rounding facts, two witnesses | partial |
| C87 | A simulation stopped at any point leaves buffers that are read correctly or refused | `Buffers.stopped`: the files after any number of `np.save` calls, the next file possibly cut off; invariant describing the files of each kind after `k` calls, reading characterised exactly | partial |
| C88 | An STL file cut off at any character is never read as a damaged building | `Stl`: the text cut after any number of characters; the lines read are whole lines and a beginning of the next one (`Cut`), invariant of the reading loop by induction over facets and solids | partial |
| C89 | A polygon does not depend on where, in which plane and how large its outline is drawn | `Planar`: coordinates in a plane with two perpendicular unit axes; `is_corner_convex` and `is_point_inside` are the exact tests for outlines without doubtful cases, so that the ear clipping runs like the one on exact plane coordinates (`exactTriangulate`), which does not know plane, position or scale | partial |
| C90 | Whether a floor plan can be built does not depend on where and in which direction it is built | `Solids`, `Planar`: floor and ceiling are the plan in two planes; C89 for both and for their flips, walls are convex outlines; the rest of `floor_plan` only looks at which corners are equal | partial |
| C91 | In a building of rooms exactly the walls between two rooms of a zone are transparent | `GraphGeo`: C56 with the relations of `Graph` replaced by the geometric tests; faces of boxes face each other iff they have the same corners | partial |
| C92 | A point is located in the room that contains it | `GraphGeo`: C62 with the test replaced by C74 for boxes; rooms are separate, so at most one contains an interior point | partial |
| C93 | The simulation works on the polygons of the building | `SimSetup`: C13/C14 for the arrays, C07 for the paths, C25 and C44 for the box and the grid | proved |
| C94 | Rays stay in the zone of their source and pass freely between its rooms | `SimSetup`: C91 and C93 give the scene; every side of a room of the zone is an opaque polygon or the side of another room of the zone with the same extent, so by continuity a straight way out meets an opaque polygon; then C82; passing: C67 and C72 | partial |
| C95 | The triangles of a simple polygon do not overlap | `EarTiling`, `EarWinding`: the rest of the outline does not meet an ear (barycentric coordinates), so what is left is simple again; crossing the diagonal of an ear raises the winding number of the rest by one, which with induction over the later ears excludes an overlap | partial |
| C96 | A room over a floor plan encloses what is over the plan | `WindingStep`: the winding number does not change between points and rays as long as the outline is not met, and jumps at triangles, so a filled outline winds around its region; `PlanRooms`: an upward ray from a point crosses only the ceiling, the parity is the winding number of the ceiling | partial |
| C97 | Nested default dictionaries store what was assigned, and nothing else | the dictionary refines a map from sequences of keys to values, by induction over the keys and over the history; the conversion by mutual induction over the dictionaries | partial |
| C98 | Directories made for wildcard values are found again | `FileSystem`: a file system is a finite map from places to files and directories; the effect of `Path.mkdir` by induction over the path; `str(Path(...))` of the filled path ends with the filled path, so C59 applies | partial |
| C99 | Writing a file touches nothing else and can be read back | frame conditions for one write, then induction over the history of writes | proved |
| C100 | A saved polygon comes back as it was | the constructor of `Polygon` with triangles given (`Reload`) unfolded for the vertices and triangles that the constructor without triangles has produced (C70); exact case analysis of the first corner | proved |
| C101 | Saving and reading a building keeps what the simulation works on | C16 and C17 give equal lists of polygons; the closed form of `to_array_format` (C14) depends on these lists only | proved |
| C102 | Comparisons decide at exactly the configured tolerances | case analysis of each decision, with the tolerances written as numbers (`Spec.Tolerance`), so that a changed constant, a swapped argument or a strict comparison in place of a weak one breaks a theorem | proved |
| C103 | A saved solid comes back as it was | every face is made by the constructor from points alone; a last corner that turns left shows that the order of the points was kept, so C100 applies; the outlines and normals are those of C31 and C32 | partial |
| C104 | Rooms of any shape: shared walls are transparent and points are located in the room around them | the two sides of one polygon have the same corners and area and opposite normals, so the tolerant test accepts them, and a corner without a partner or a normal that is not opposite makes it fail; then as C91 and C92 with C56, C62 and C74 | partial |
| C105 | Rays stay in a zone of rooms of any shape | edges of the polygons that are left out cancel in pairs, so the surface of the zone is closed; the number of crossings with the two sides of a polygon is even, so parities add up; enclosure is constant along segments off the surface (Proofs/EnclosedSegment); then as C94 with C82 and C67 | partial |
| C106 | Which outlines are refused, and with which exception | decision logic of the constructor with C21 for the triangulation; for repeated corners an induction over the run: of two equal corners neither is ever cut off, because the other one is in the ear or makes its corner flat | proved |
| C107 | Which exceptions slicing raises | every step with C71 (the point test never raises) and C106 (edges have positive length, so distances to edges are defined); the numbers of edges come from the location, so they are in range | proved |
| C108 | The log file holds the messages since it was chosen, and logging touches nothing else | induction over the history of calls: an invariant of the handlers of the root logger and of the file system (C99) | proved |
| C109 | Rounding does not change whether and how an outline becomes a polygon | `Rounded`: the constructor over a parameter `Arith` with error bounds; calculus of relative errors; every test of the ear clipping gives the exact answer; the arithmetic with 53 binary digits is an instance (`binary`) | partial |
| C110 | Rounding changes the area of a polygon by at most 1e-12 times n squared times the square of the coordinates | `Rounded.polygonArea`; error of each cross product and of each addition, summed by induction over the corners; rounded against exact dot product with the normal | partial |
| C111 | A convex polygon can be sliced along any chord, into two convex parts | without doubtful cases every tolerance test is exact; no intersection point is added because the line meets the outline only in its ends; both ends are located on the right side or corner; the four cases of the point arrays give convex corners in one of two directions, of which the given normal selects the right one; areas by the closed sums of C41 | proved |
| C112 | Paths and names convert into each other without loss | induction over the string (`Str.split`, `Str.join`) | proved |
| C113 | Tests of points are exact when no position is doubtful | every comparison with a tolerance is decided by the lower bounds for crisp points; convex polygons by the fan of triangles and the change of sign along it | proved |
| C114 | Points in solids are classified exactly when no position is doubtful | turn the ray slightly so that it meets no edge; since the triangles of a face do not overlap, it then crosses one triangle of each face it met before and none of the others; parity is the same for all rays (C74_any_ray) | proved |
| C115 | A straight line that extends beyond a convex polygon slices it where it crosses the outline | the line crosses exactly the two sides it meets: the intersection of segments is exact without doubtful cases, and a corner further away than the tolerance is not confused with the crossing; then the rules for keeping points are followed for each of the cases | proved |
| C116 | Crossings of segments and visibility are exact when no position is doubtful | if the ends of one segment are on the same side of the other line, no point of this line is near the segment; otherwise the lines are far from parallel and the common point is found exactly | proved |
| C117 | The simulation keeps energies and speeds also with rounding errors | error analysis of one reflection, then an invariant over all steps: the number of reflections is bounded by the energy used up, so the errors cannot add up to more than a millionth | proved |
| C118 | Touching and crossing polygons are told apart when no position is doubtful | C113 and C116 make every single test exact; for convex polygons a local argument at a common point: either the polygons have a common inner point or a corner of one is on the outline of the other | proved |
| C119 | Points in polygons are classified correctly also with rounding errors | coordinates in the plane are exact differences up to a relative error, so every sign is right; the triangle test of points on slanted edges is right because the rounded cross products are near enough to 0; the plane test is right because all normals are multiples of one axis | proved |
| C120 | Volumes are right also with rounding errors | a calculus of absolute errors in units of 1e-15 of a bound bounds the error of the polynomial under the root; the exact polynomial is the square of a determinant (C30); the signs are right because the tetrahedra are not flat; the NaN is calculated step by step with 53 binary digits | partial |
| C121 | Areas of triangles and centroids of polygons are right also with rounding errors | the calculus of absolute errors of C120 bounds the error of Heron's product; the exact product is the square of the area (C30); the sum over the triangles is followed component by component; the NaN is calculated step by step with 53 binary digits | partial |
| C122 | The surface a ray will meet is found also with rounding errors | the normal of a level polygon is exactly vertical, so only its length is rounded; the error of the way to the plane is followed operation by operation; a point off the plane by d and at least h from an edge gives a unit vector off by d/h, which the tolerance accepts; beside a triangle the unit vectors are opposite or the bounding box refuses the point; walls are level polygons after the axes have changed their roles, and the test does not depend on the roles; the missed ray is calculated step by step with 53 binary digits | partial |
| C123 | With 64-bit numbers no ray passes through a floor, ceiling or wall | the calculated normal of a surface perpendicular to an axis is exactly a unit vector, so the height of the projected point is wrong only by rounding near the surface; with it the test and the distance are followed operation by operation; the calculated distance never falls below the difference of the heights because each candidate is a rounded norm with that component; the loop invariant of C117 (a ray stops before the distance of reflection) then excludes the crossing; the leak is calculated step by step | partial |
| C124 | In a room with perpendicular walls a ray is reflected at most three times in a step | a polygon is noticed only if the ray goes towards its plane, and its distance is at least that of the plane; a reflection flips only the component along the axis of the polygon, so afterwards no polygon near on this axis lies in front of the ray; the list of used axes has no duplicates, so it has at most three entries; on a surface the parameter of the intersection is 0, which is not negative, and the distance is 0, so the condition of the loop holds after every reflection | proved |
| C125 | In a room with perpendicular walls a ray has only eight directions | induction over the steps; by C67 each step applies a list of reflections, and a reflection by a polygon perpendicular to an axis changes the sign of one component | proved |
| C126 | The echo between two parallel walls is periodic and comes early | the three things that can happen to such a ray in one step (it moves on, turns, or stands still) follow from C67 with the distance and the hits of C72 and C73; a corridor seen from its other end is a corridor, so half a period is proved once; induction over steps and periods | proved |
| C127 | A ray that passes through an absorber is absorbed | by C67 a ray with energy after a step was in no absorber before it; backwards induction over the steps; a part of the way as long as a step contains a step, and balls are convex; witnesses evaluated by the kernel | partial |
| C128 | No sound arrives before the direct sound, and the direct sound is recorded one to two steps late | triangle inequality and C49 by induction over the steps, then C48; for the direct ray the six cases of C67, of which only one is possible on a free way, by induction; the response by evaluating the sums of C57 | proved |
| C129 | What holds in a batch holds over the whole run | the invariant that every batch starts with energies that are not negative and velocities that are zero or have the ray speed, by induction over the batches; then the theorems about a single loop (C46-C49) for the batch that a file belongs to, and induction over the steps | proved |
| C130 | The impulse response of a run tells what the absorbers caught | C53 gives the rows read, C129 the hits of every row but the first as the energies of the rays caught, which are not negative; C57 then decides success by the column sums, which are positive if and only if some ray was caught | proved |
| C131 | A whole run keeps speed, energy and surfaces with rounded arithmetic | The invariant of C117 with an initial error that grows by 2e-14 (size + step) / step in every batch; reflections are counted by the energy they cost, through all batches; rays at rest stay at rest because adding zero changes nothing; files as in C129 | proved |
| C132 | Impulse responses are right also with rounding errors | Induction over the ways to add a list: factors (1 - 1e-15)^n and (1 + 1e-15)^n; they carry over to the maximum and the quotients; Bernoulli's inequality; with C131_hits and the files of C53 | proved |
| C133 | The voxel grid loses no nearby polygon also with 64-bit numbers | Error bounds of quotient, product and sum of less than a millionth of a cell: the floors of the numbers of the range are the consecutive cells (C133_millimetres for the default settings); exactness of multiples of stored numbers against the order of stored numbers shows that no stored number is between two cells; then as C44, with C123_run_partial and C131_run for the run; negation by calculation with 53 digits | partial |
| C134 | Points made between two points are where they should be and on the segment, also with rounding errors | Error bounds of quotient, products and sums; the components of the cross product of nearly parallel vectors cancel up to 13e-15 M L + 7e-15 L^2; negation by calculation with 53 binary digits | partial |
| C135 | Rotating points is right also with rounding errors | Error bounds of the sine of half the angle, of the nine entries of the matrix (135e-15) and of the products with the points; distances by C28 (the exact matrix is a rotation) and the triangle inequality; heights by calculation with zeros and ones | proved |
| C136 | Floor plans have exactly level floors and exactly upright walls, also with 64-bit numbers | The third row and column of the rounded matrix are exactly those of the identity, so heights are kept and x, y do not depend on them; adding 0 is exact; the ceiling differs from the floor since one rounding is smaller than the height; positions from C135 | proved |
| C137 | Turned convex floor plans get a floor that looks down and a ceiling that looks up, and side walls are told apart by direction, also with 64-bit numbers | Turning keeps distances and areas, the rounded corners are at most 1e-9 m from the turned ones (C136), so that they are still a convex outline in an exactly level plane, for which C109 gives points, triangles and normal; the flipped outline is the same with the axes swapped; the directions of walls are those of C136; areas by C110 and the invariance of the shoelace formula | proved |

## Where the code does not have the property

Each item is proved for the model, with a concrete input where it says so.

* C06: `replace_*` with a name collision raises after the old child is gone.
* C07: an object put into two containers, or into a container whose constructor then fails, is not
  found under its own path.
* C12, C56: the cached graph and the cached list of transparent polygons go stale; faces of one solid
  are reported as transparent too.
* C13: an empty container between two others makes `vstack_mesh` overwrite earlier rows.
* C15, C16: trailing empty zones are lost; a building without polygons cannot be read back (`KeyError`).
* C19: the STL reader accepts a facet after `endsolid`, drops an unclosed solid, repeats a solid at a
  second `endsolid`, accepts a vertex with one number.
* C24: the centroid is not divided by the area.
* C28, C29: the matrix returned for "no rotation" is all ones; points parallel to the target plane are
  not moved to it and not moved back.
* C31: `box` raises `TriangulationError` for rooms at UTM coordinates.
* C32: a reflex first or last corner of a plan gives floor and ceiling the same normal and an open
  surface; the flipped floor or ceiling gets a random name.
* C33, C70: with a reflex last (first) corner `flip` (the constructor) does not give the requested
  orientation; with a straight last corner `flip` raises `AssertionError`.
* C34: facing is not symmetric, and polygons of different shape can face each other.
* C35, C36, C38: point equality is neither symmetric nor transitive nor independent of position; a
  repeated first point is "not collinear"; doubled points hide that a set is not planar; everything is
  on a segment of length zero.
* C40: an edge that touches the line of sight or is parallel to it never blocks.
* C41: a cut that starts and ends on the closing edge is inserted after the first point.
* C42: a reference point on the cut raises `RuntimeError`; with equal names the point is ignored.
* C43: a line that only touches is kept, which cut is found depends on the starting point, neighbouring
  vertices count as a cut, a cut is lost when the outline goes on along the second edge.
* C45: "nearest" is by distance from the position, not along the ray.
* C51: with absorption zero the reflection loop need not end.
* C52: a ray that stands exactly at the reflection distance at the end of a batch gets velocity zero.
* C54, C55, C68: unknown parameters are accepted for objects without polygons; the simulation ignores
  the configured absorption; an existing empty buffer directory raises.
* C57: the time axis ends at the end of the simulation, so its spacing is not the time step.
* C59, C60: wildcards at the beginning, next to each other, or with clashing names do not round trip;
  unknown names in a filter do not raise.
* C61: solids with the same name in two zones are not stitched.
* C69: energies are attached to the wrong points of trails; the first and last rows are never shown.
* C71: a point inside close to a corner is rejected; a metre outside is accepted at UTM coordinates;
  `contains_polygon` looks only at corners.
* C72: the polygon's own normal gives a wrong distance if its first corner is reflex.
* C74: a point 10 cm inside a unit cube is reported outside if its ray leaves through an edge.
* C75: crossing points are not sorted along the edge.
* C76: two bars forming a cross are not reported crossing (no sample point is in the common part); a square inside another one which shares a part of an edge is reported; triangles 1 km from the origin and 1 cm apart are reported.
* C77: bars overlapping in a square metre are reported touching; the answer depends on the order of the arguments (a triangle whose corners are all corners of the other polygon); edges that cross in space are not found.
* C78: no segment in the plane of the polygon is reported; if the first corner of the polygon is straight (a normal was passed to the constructor), no segment is reported.
* C79: one facing pair of polygons is enough for a correct interface, even if other polygons of the solids cross; walls overlapping in a square metre can be missed.
* C80: comparing polygons with different numbers of corners raises `ValueError`; the same square starting at another corner is not equal.
* C81: stitching a square wall to a strip that covers its middle from bottom to top recurses for ever (`RecursionError`); a polygon is lost if its wall already has a polygon with the name of its first part; a polygon of the same name in another wall of the solid is replaced by the parts, too.
* C82: a ray passes through a triangle at a point of its inside close to a corner, with the parameters of the configuration (`C82_leak`); with voxels smaller than a step, which nothing rejects, rays leave a closed room even if all tests are right (`C82_small_voxels`).
* C83: after `stitch_solids` the cached graph of the building is that of the polygons before stitching, for all flags (`C83_graph_stale`).
* C84, C32: ear clipping gives up too early because `num_fail` is never reset: simple outlines with a convex first corner are rejected with TriangulationError, also by `floor_plan` (`C84_simple_fails`, `C84_depends_on_start`, `C32_corridor`).
* C85: a single object is drawn white even if a colour is given for it (`C85_single_colour`).
* C86: `points_equal` and the keys of `point_to_tuple` disagree in both directions (`C86_equal_points`, `C86_unequal_points`).
* C87: after a stop inside a step no step can be read, and a stop inside the first file of a later batch destroys a step already complete (`C87_completed_lost`).
* C88: an STL file cut between two solids or two facets is read without an exception, the solids not closed are dropped (`C88_silent`).
* C89: `Polygon(...)` rejects a rectangular floor with TriangulationError if it is more than 100000 times its size away from both axes, for example in the coordinates of a national grid: np.allclose compares with a relative tolerance, so that all corners are "equal" (`C89_far`).
* C32: an L-shaped plan whose first or last corner is the reflex one gives, for every size and place, a solid which is not closed, without an exception (`C32_ell_reflex`).
* C92: a point more than 10 cm inside a room for which `find_location` raises `RuntimeError` (`C92_not_found`).
* C95: an outline whose sides cross is accepted, and two of its triangles overlap (`C95_crossing_sides`); area and centroid count the common part twice.

* C97: `recursive_default_dict_to_dict` makes strings of numbers used as keys: the values are not found any more, and of two values stored under `1` and `"1"` one is lost (`C97_convert_numbers`).
* C98: a wildcard path with a slash at the end makes directories which it never finds (`C98_trailing_slash`); the path returned by `mkdir` is not absolute if the parent directory is relative, contrary to its documentation (`C98_relative`).
* C68: if the buffer directory is set to the project directory and this does not exist, the simulation makes it and then raises `FileExistsError` because it exists (`C68_same_directory`).
* C100: the normal of a polygon is not saved. A polygon made with a given normal because its first corner is reflex, as the documentation asks for, comes back from every file format with the opposite normal (`C100_reflex_first_corner`); if its first corner is straight, with a normal of NaNs (`C100_normal`).
* C101: an empty wall is numbered by `to_array_format` but not saved, so the numbers of the other walls change (`C101_empty_wall`).
* C103: a room over an arrow head whose floor and ceiling were given with their normals has the volume 9; saved and read again it has the volume 3 (`C103_volume_changes`). A polygon in the shape of a U made without a normal, starting and ending at the notch, comes back with the opposite normal (`C103_notch`).
* C107: `slice_polygon` is documented to raise `GeometryError` only; it raises `AssertionError` for points off the plane and `IndexError` for an empty array (`C107_undocumented`).
* C108: `init_logger` with a directory as log file raises after the old log file has been closed, so later messages are written nowhere (`C108_failed_call_ends_logging`).
* C109: with 53 binary digits a wall at 45 degrees over the edge from (997, 3) to (993, 7) is refused with an AssertionError although its corners are exactly in a plane: they seem to be 1.1e-13 out of it, and the tolerance of 1e-13 does not grow with the coordinates (`C109_slanted_fails`).
* C110: the error of the area grows with the square of the distance from the origin, because `polygon_area` multiplies absolute coordinates: with 53 binary digits a triangle of area 129/256 near (12000002, 12000002) gets the area 17/32, 5 percent too much (`C110_far_area`).
* C112: `split_path` checks for an empty list of names, which `str.split` never returns: the empty path is split into one empty name and no exception is raised (`C112_split`).
* C115: a line with both ends beyond a convex polygon is refused with `GeometryError` if it passes a corner, because crossings at corners are not added to the slicing points (`C115_corner`). A line from beyond the polygon to a point of its outline raises `NotImplementedError`, while the same line with its ends exchanged is accepted (`C115_to`, `C115_from`).
* C120: with 64-bit numbers the volume of a box on the origin with a floor of 4 m by 4 m is NaN, whatever its height between 1 m and 50 m (`C120_nan`): the tetrahedra over the faces through the origin are flat, the number under the root is about -1.4e-11 after rounding, and `EPSILON` is only 1e-12.
* C121: with 64-bit numbers `triangle_area` of the triangle (0, 0, 0), (48, 72, 0), (24, 36 + 2^-22, 0) is NaN, and so is `polygon_centroid` for it (`C121_nan`): half the sum of the sides is rounded to less than the longest side, the number under the root is about -2.3e-9, and `EPSILON` is only 1e-12.
* C122: with 64-bit numbers the ray from (2, 1025/512, 1/4) with the velocity (0, 0, 343) does not notice the ceiling (0, 0, 2), (4, 0, 2), (4, 4, 2), (0, 4, 2) (`C122_missed`): the computed point is 2^-52 m below the ceiling, and 1.4 mm from the seam of the two triangles this turns the unit vectors compared in `is_point_on_same_side` by more than the tolerance 1e-13. The tolerance `atol=1e-3` of the simulation does not reach that function.
* C123: with 64-bit numbers a ray leaves a closed room through the ceiling in one step (`C123_leak`).
* C124: a ray that starts on a surface (for example a source placed on the floor) never moves and loses all of its energy in the first step (`C124_on_surface`); without absorption the step never ends (`C124_never_ends`).
* C126: rays turn before they reach a wall, so echoes between parallel walls come up to 4.04 time steps too early for each round trip, and the error accumulates (`C126_period`, `C126_early`); a ray at exactly 1.01 steps from a wall stands still for ever with its energy (`C126_stuck`).
* C127: rays jump through absorbers: with a time step of 1 ms through the centre of an absorber of the default size (`C127_missed`), with the default time step near its rim (`C127_missed_default`).
* C128: hits are recorded one row after the row in which the ray is in the absorber, so the impulse response gives the direct sound more than one time step, and up to two, too late, besides the stretched time axis (`C128_direct`, `C128_response`, C57).
* C133: for a building that starts at x = 0.1001 the voxel grid with the default settings has no cell 6 on this axis; if there is a wall between x = 0.61 and x = 0.69, `make_voxel_grid` raises `ValueError` (`C133_lost`), although with exact numbers the grid is made. The reason is that floor(x / step) of the numbers of the range, which are then multiples of the cell size up to rounding, may repeat a cell and leave out the next one.
* C134: with 64-bit numbers the point two thirds of the way from (0, 0, 0) to (30, 28, 0), as made by `many_new_points_between_2_points`, is not on this segment for `is_point_on_segment` (`C134_off_segment`): the tolerance 1e-13 is absolute, and the cross product it is compared with has the size of an area.
* C137: floor and ceiling of the triangle (997, 3), (993, 7), (993, 3) are made with 64-bit numbers, but the outline of its first side wall is refused with an AssertionError (`C137_wall_refused`), so `floor_plan` fails: the tolerance 1e-13 for corners in a plane is smaller than one rounding of the coordinates.
