import Verif.Model.Util
import Verif.Model.CyclicBuffer
import Verif.Model.DefaultDict
import Verif.Model.FileSystem
import Verif.Model.Bboxes
import Verif.Model.Points
import Verif.Model.Triangles
import Verif.Model.Config
import Verif.Model.Buffers
import Verif.Model.Sim
import Verif.Model.Intersect
import Verif.Model.Logger
import Verif.Model.Display
import Verif.Proofs.Grid
import Verif.Proofs.Tactics

/-!
# Assertions of the project's own unit tests, about the model

Each example restates assertions of a file in `/repo/tests`.  These are tests of the model's fidelity, not proofs of
properties: they only show that the model answers as the project says its code does on the inputs of its tests.  Where a
test uses floating-point numbers, the model computes with rational ones.
-/

namespace B3d.Conformance

/-! ### `tests/util/test_roll_back.py`, `tests/geom/test_points.py` L76-88 -/

example : Util.rollBack [1, 2, 3] = .ok [2, 3, 1] ∧ Util.rollBack [2, 3, 1] = .ok [3, 1, 2] ∧
    Util.rollBack [3, 1, 2] = .ok [1, 2, 3] := by decide +kernel

example : Util.rollForward [0, 1, 2] = [2, 0, 1] := by decide +kernel

/-! ### `tests/types/test_cyclic_buffer.py` -/

open CyclicBuffer in
example : writeAll 5 [[1, 2, 3]] ⟨List.replicate 5 [0, 0, 0], 0, 0⟩
      = .ok ⟨[1, 2, 3] :: List.replicate 4 [0, 0, 0], 1, 0⟩ ∧
    writeAll 3 ((List.range 4).map fun i => [i, i + 1]) ⟨List.replicate 3 [0, 0], 0, 0⟩
      = .ok ⟨[[3, 4], [1, 2], [2, 3]], 1, 2⟩ ∧
    writeAll 4 (List.range 6) ⟨List.replicate 4 0, 0, 0⟩ = .ok ⟨[4, 5, 2, 3], 2, 3⟩ ∧
    writeAll 1 [[1, 2, 3]] ⟨[[0, 0, 0]], 0, 0⟩ = .ok ⟨[[1, 2, 3]], 0, 0⟩ ∧
    writeAll 1 [[1, 2, 3], [4, 5, 6]] ⟨[[0, 0, 0]], 0, 0⟩ = .ok ⟨[[4, 5, 6]], 0, 0⟩ := by decide +kernel

/-! ### `tests/types/test_recursive_default_dict.py` -/

section
open DefaultDict

private def k (c : Char) : Key := .str [c]

/-- `test_recursive_default_dict_basic`. -/
example : ∃ d d', setPath [k 'a', k 'b', k 'c'] (.leaf (.num 1)) new = .ok d ∧
    getPath [k 'a', k 'b', k 'c'] d = .ok (d, .leaf (.num 1)) ∧ getPath [k 'x', k 'y'] d = .ok (d', new) :=
  ⟨_, _, rfl, rfl, rfl⟩

/-- `test_recursive_default_dict_to_dict`: `d['x']['y']` is a plain dictionary. -/
example : ∃ d d', setPath [k 'a', k 'b'] (.leaf (.num 1)) new = .ok d ∧
    setPath [k 'x', k 'y'] (.dict false (.cons (k 'z') (.leaf (.num 2)) .nil)) d = .ok d' ∧
    getPath [k 'a', k 'b'] (toDict d') = .ok (toDict d', .leaf (.num 1)) ∧
    getPath [k 'x', k 'y', k 'z'] (toDict d') = .ok (toDict d', .leaf (.num 2)) ∧
    (∃ es, toDict d' = .dict false es) ∧
    (∃ es, getPath [k 'a'] (toDict d') = .ok (toDict d', .dict false es)) ∧
    (∃ es, getPath [k 'x'] (toDict d') = .ok (toDict d', .dict false es)) ∧
    ∃ es, getPath [k 'x', k 'y'] (toDict d') = .ok (toDict d', .dict false es) :=
  ⟨_, _, rfl, rfl, rfl, rfl, ⟨_, rfl⟩, ⟨_, rfl⟩, ⟨_, rfl⟩, ⟨_, rfl⟩⟩

/-- `test_recursive_default_dict_to_dict_empty`. -/
example : toDict new = .dict false .nil := rfl

end

/-! ### `tests/paths/test_wildcardpath.py` -/

section
open FileSystem Wildcard

/-- The directories made by `fill_dir`. -/
def filledDir : FS Nat :=
  (["t".toList], .dir) :: (List.range 5).flatMap fun i =>
    (["a_".toList ++ natStr i, "t".toList], .dir) :: (List.range 3).map fun j =>
      (["b_".toList ++ natStr i ++ '_' :: natStr j, "a_".toList ++ natStr i, "t".toList], .dir)

example : ∃ w, mkPath "a_<n1>".toList = .ok w ∧
    findPaths w filledDir [] "/t".toList = .ok ((List.range 5).map fun i =>
      ("/t/a_".toList ++ natStr i, [("n1".toList, i)])) :=
  ⟨_, rfl, by decide +kernel⟩

example : ∃ w, mkPath "a_<n1>/b_<n1>_<n2>".toList = .ok w ∧
    findPaths w filledDir [] "/t".toList = .ok ((List.range 5).flatMap fun i => (List.range 3).map fun j =>
      ("/t/a_".toList ++ natStr i ++ "/b_".toList ++ natStr i ++ '_' :: natStr j, [("n1".toList, i), ("n2".toList, j)])) ∧
    (getPaths w (glob filledDir [] "/t".toList) [] ).map List.length = .ok 15 ∧
    (getPaths w (glob filledDir [] "/t".toList) [("n1".toList, 1), ("n2".toList, 1)]).map List.length = .ok 1 ∧
    (getPaths w (glob filledDir [] "/t".toList) [("n1".toList, 1)]).map List.length = .ok 3 :=
  ⟨_, rfl, by decide +kernel, by decide +kernel, by decide +kernel, by decide +kernel⟩

example : ∃ w d, mkPath "a_<n1>/b_<n1>_<n2>".toList = .ok w ∧ getNamed w (glob filledDir [] "/t".toList) = .ok d ∧
    (d.find? fun e => e.1 = [some 1, some 1]).map Prod.snd = some "/t/a_1/b_1_1".toList ∧
    (d.find? fun e => e.1 = [some 1, some 2]).map Prod.snd = some "/t/a_1/b_1_2".toList :=
  ⟨_, _, rfl, rfl, by decide +kernel, by decide +kernel⟩

/-- `test_wildcardpath_mkdir`. -/
example : ∃ w, mkPath "a_<n1>/b_<n2>/c_<n1>_<n2>_<n3>".toList = .ok w ∧
    exists' (mkdir w ([(["t".toList], .dir)] : FS Nat) [] "/t".toList
      [("n1".toList, natStr 1), ("n2".toList, natStr 2), ("n3".toList, natStr 3)]).1
      ["c_1_2_3".toList, "b_2".toList, "a_1".toList, "t".toList] = true :=
  ⟨_, rfl, by decide +kernel⟩

end

/-! ### `tests/geom/test_cube_edges.py` -/

section
open Bboxes

example : ∀ b ∈ ([(⟨0, 0, 0⟩, ⟨1, 1, 1⟩), (⟨-1, -1, -1⟩, ⟨1, 1, 1⟩), (⟨1 / 2, 3 / 2, 5 / 2⟩, ⟨7 / 2, 9 / 2, 11 / 2⟩)] :
      List (Vec3 ℚ × Vec3 ℚ)),
    (cubeEdges b.1 b.2).length = 12 ∧ (cubeEdges b.1 b.2).Nodup ∧
    ∀ e ∈ cubeEdges b.1 b.2, ∀ p ∈ [e.1, e.2],
      p ∈ [b.1.x, b.2.x].flatMap fun x => [b.1.y, b.2.y].flatMap fun y => [b.1.z, b.2.z].map fun z => Vec3.mk x y z := by
  decide +kernel

end

/-! ### `tests/geom/test_points.py` -/

section
open Points

/-- `test_is_point_in_array`. -/
example : isPointInArray (⟨0, 0, 0⟩ : Vec3 ℚ) [⟨1, 1, 1⟩, ⟨-1, -1, -1⟩, ⟨0, 0, 0⟩] = true ∧
    isPointInArray (⟨0, 0, 0⟩ : Vec3 ℚ) [⟨1, 1, 1⟩, ⟨-1, -1, -1⟩] = false := by decide +kernel

/-- `test_new_point_between_2_points`, `test_many_new_points_between_2_points`. -/
example : (∀ t ∈ ([1 / 2, 1 / 10, 9 / 10] : List ℚ), newPointBetween ⟨0, 0, 0⟩ ⟨1, 0, 0⟩ t = ⟨t, 0, 0⟩) ∧
    manyNewPointsBetween (⟨0, 0, 0⟩ : Vec3 ℚ) ⟨1, 0, 0⟩ 4
      = [⟨0, 0, 0⟩, ⟨1 / 5, 0, 0⟩, ⟨2 / 5, 0, 0⟩, ⟨3 / 5, 0, 0⟩, ⟨4 / 5, 0, 0⟩, ⟨1, 0, 0⟩] := by decide +kernel

/-- `test_is_point_on_segment`. -/
example : isPointOnSegment (⟨1, 0, 0⟩ : Vec3 ℚ) ⟨0, 0, 0⟩ ⟨2, 0, 0⟩ = true ∧
    isPointOnSegment (⟨1, 1, 0⟩ : Vec3 ℚ) ⟨0, 0, 0⟩ ⟨2, 0, 0⟩ = false ∧
    isPointOnSegment (⟨2, 0, 0⟩ : Vec3 ℚ) ⟨0, 0, 0⟩ ⟨2, 0, 0⟩ = true ∧
    isPointOnSegment (⟨0, 0, 0⟩ : Vec3 ℚ) ⟨0, 0, 0⟩ ⟨2, 0, 0⟩ = true ∧
    isPointOnSegment (⟨-1 / 1000, 0, 0⟩ : Vec3 ℚ) ⟨0, 0, 0⟩ ⟨2, 0, 0⟩ = false := by decide +kernel

/-- `test_distance_point_to_edge`. -/
example : distancePointToEdge ⟨1, 0, 0⟩ ⟨0, 0, 0⟩ ⟨0, 1, 0⟩ = .ok 1 ∧
    distancePointToEdge ⟨1, 1 / 2, 0⟩ ⟨0, 0, 0⟩ ⟨0, 1, 0⟩ = .ok 1 ∧
    distancePointToEdge ⟨1, 1, 0⟩ ⟨0, 0, 0⟩ ⟨0, 1, 0⟩ = .ok 1 ∧
    distancePointToEdge ⟨1, 2, 0⟩ ⟨0, 0, 0⟩ ⟨0, 1, 0⟩ = .ok (√2) ∧
    distancePointToEdge ⟨0, 1 / 2, 0⟩ ⟨0, 0, 0⟩ ⟨0, 1, 0⟩ = .ok 0 := by
  refine ⟨?_, ?_, ?_, ?_, ?_⟩ <;> norm_num [distancePointToEdge, Vec3.dot, Vec3.norm, Vec3.normSq]

end

/-! ### `tests/geom/test_triangles.py`, `tests/geom/test_tetrahedrons.py`, `tests/geom/test_polygon_functions.py` -/

section
open Triangles

/-- `test_triangle_centroid`, `test_tetrahedron_centroid`. -/
example : triangleCentroid (⟨0, 0, 0⟩ : Vec3 ℚ) ⟨1, 0, 0⟩ ⟨0, 1, 0⟩ = ⟨1 / 3, 1 / 3, 0⟩ ∧
    tetrahedronCentroid (⟨0, 0, 0⟩ : Vec3 ℚ) ⟨1, 0, 0⟩ ⟨0, 1, 0⟩ ⟨0, 0, 1⟩ = ⟨1 / 4, 1 / 4, 1 / 4⟩ := by decide +kernel

/-- `test_polygon_edges`, of the four corners 0, 1, 2, 3. -/
example : Polygon.polygonEdges 0 [0, 1, 2, 3] = .ok [(0, 1), (1, 2), (2, 3), (3, 0)] := by decide +kernel

end

/-! ### `tests/geom/test_triangles.py` L97-183: triangulations

The corners have whole coordinates (those of the C shape and of the failed example are multiplied by four and by two),
so `Grid.triangulate_emb` computes the result. -/

section
open Triangles Grid

/-- Every start of the outline is triangulated into `n` triangles, all of them counter-clockwise. -/
private def triangulated (pts : List (ℤ × ℤ)) (n : Nat) : Bool :=
  (List.range pts.length).all fun i =>
    match gTriangulate (2 * pts.length + 2) (pts.rotate i) with
    | some (.ok (q, tri)) => tri.length == n && tri.all fun t =>
      match q[t.1]?, q[t.2.1]?, q[t.2.2]? with
      | some a, some b, some c => decide (0 < orient a b c)
      | _, _, _ => false
    | _ => false

theorem triangulated_sound {pts : List (ℤ × ℤ)} {n : Nat} (hs : ∀ p ∈ pts, Small p) (h : triangulated pts n = true) :
    ∀ i < pts.length, ∃ q tri, triangulate (2 * pts.length + 2) ((pts.rotate i).map emb) ⟨0, 0, 1⟩ = some (.ok (q, tri)) ∧
      tri.length = n := by
  intro i hi
  have h1 := List.all_eq_true.1 h i (List.mem_range.2 hi)
  rw [triangulate_emb (fun p hp => hs p (List.mem_rotate.1 hp))]
  split at h1
  · next q tri e =>
    rw [Bool.and_eq_true, beq_iff_eq] at h1
    exact ⟨q.map emb, tri, by rw [e]; rfl, h1.1⟩
  · cases h1

private def squareG : List (ℤ × ℤ) := [(0, 0), (1, 0), (1, 1), (0, 1)]
private def ellG : List (ℤ × ℤ) := [(0, 0), (1, 0), (1, 1), (2, 1), (2, 2), (0, 2)]
private def uG : List (ℤ × ℤ) := [(0, 0), (1, 0), (1, 1), (2, 1), (2, 0), (3, 0), (3, 2), (0, 2)]
private def cG : List (ℤ × ℤ) := [(3, 3), (3, 1), (1, 1), (0, 0), (4, 0), (4, 4), (0, 4), (1, 3)]
private def failedG : List (ℤ × ℤ) := [(1, 1), (1, 2), (2, 2), (2, 0), (0, 0)]

/-- `test_triangulate_square`, `_l_shape`, `_u_shape`, `_from_failed_example`: every starting point. -/
example : triangulated squareG 2 = true ∧ triangulated ellG 4 = true ∧ triangulated uG 6 = true ∧
    triangulated failedG 3 = true := by decide +kernel

/-- `test_triangulate_c_shape`. -/
example : ((gTriangulate 18 cG).map fun r => r.map fun x => x.2.length) = some (.ok 6) := by decide +kernel

/-- The same about the model of the real function, for the U shape. -/
example : ∀ i < 8, ∃ q tri, triangulate 18 ((uG.rotate i).map emb) ⟨0, 0, 1⟩ = some (.ok (q, tri)) ∧ tri.length = 6 :=
  triangulated_sound (pts := uG) (n := 6) (by decide +kernel) (by decide +kernel)

end

/-! ### `tests/random/test_random.py` -/

section
open Util

private def uuid : List Char := "0ca175b9-1f3b-4c2d-9a8e-7f6d5c4b3a21".toList

example : randomId uuid none = .ok uuid ∧ uuid.length = 36 ∧
    (∀ n ∈ [1, 8, 16, 32], (randomId uuid (some n)).map (fun s => (s.length, s.contains '-')) = .ok (n.toNat, false)) ∧
    (∀ n ∈ [0, -1, 33], randomId uuid (some n) = .error .valueError) := by
  refine ⟨rfl, by decide, by decide +kernel, by decide +kernel⟩

example : randomWithin (1 / 3 : ℚ) 0 = 0 ∧ randomBetween (1 / 3 : ℚ) 2 2 = 2 ∧ randomWithin (0 : ℚ) 5 = -5 ∧
    randomBetween (1 / 3 : ℚ) 2 5 = 3 ∧ randomBetween (1 / 3 : ℚ) 5 2 = 3 := by decide +kernel

end

/-! ### `tests/rays/test_dump_buffers.py`, with the shapes of the test -/

section
open Buffers Sim

private def row (s : Nat) : Row ℚ :=
  ⟨(List.range 8).map fun r => ⟨s, r, s + r⟩, (List.range 8).map fun r => (s : ℚ) * r, (List.range 4).map fun a => (s : ℚ) + a⟩

example : ∃ fs, dump defaultPaths "tmp/x".toList [] 0 ((List.range 16).map row) = .ok fs ∧
    readBuffers id fs defaultPaths "tmp/x".toList = .ok ((List.range 16).map row) :=
  ⟨_, rfl, by decide +kernel⟩

end

/-! ### `tests/geom/test_building.py`, `tests/geom/test_zone.py`, `tests/rays/test_simulation_config.py` and
`tests/geom/test_building_graph.py`

The names of a box: `building3d/geom/solid/box.py`. -/

section
open Hier Config

/-- The walls of a box with their polygons, then the box: 13 objects, of which the last is the solid. -/
private def boxOps (n : Nat) (name : Str) : List (Op Nat) :=
  ([("floor", "floor"), ("wall_0", "poly_0"), ("wall_1", "poly_1"), ("wall_2", "poly_2"), ("wall_3", "poly_3"),
      ("ceiling", "ceiling")].zipIdx.flatMap fun p =>
    [.construct .polygon p.1.2.toList [0, 1, 2, 3] none [], .construct .wall p.1.1.toList [] none [n + 2 * p.2]]) ++
  [.construct .solid name [] none ((List.range 6).map fun i => n + 2 * i + 1)]

/-- The building of `test_simulation_config.py`: the building is object 40. -/
private def configOps : List (Op Nat) :=
  boxOps 0 "s0".toList ++ boxOps 13 "s1".toList ++ boxOps 26 "s2".toList ++
  [.construct .zone "z".toList [] none [12, 25, 38], .construct .building "b".toList [] none [39]]

private def h : Heap Nat := exec configOps

/-- `test_building.py`: looking up children and paths. -/
example : (h[40]?).map (·.children) = some [("z".toList, 39)] ∧ item h 40 "z".toList = .ok 39 ∧
    items h 40 ["z".toList, "s1".toList] = .ok 25 ∧
    (items h 40 ["z".toList, "s1".toList, "wall_2".toList]).map (fun i => (h[i]?).map (·.kind)) = .ok (some .wall) ∧
    (items h 40 ["z".toList, "s1".toList, "wall_2".toList, "poly_2".toList]).map (fun i => (h[i]?).map (·.kind))
      = .ok (some .polygon) := by decide +kernel

private def value (s : Surfaces Nat) (p : String) : Option Nat := (dGet s "absorption".toList).bind fun d => dGet d p.toList

/-- The configuration after the two assignments of the test. -/
private def configured : Except PyErr (Surfaces Nat × Surfaces Nat) := do
  let s ← initConfig h 40 [("absorption".toList, 20)]
  let r1 := setSurfaceParam (fun _ => none) h 40 s "absorption".toList "b/z/s0".toList 100
  r1.2
  let r2 := setSurfaceParam (fun _ => none) h 40 r1.1 "absorption".toList "b/z/s1/wall_0".toList 200
  r2.2
  return (r1.1, r2.1)

/-- `test_simulation_config`; numbers are given by the array format in the order of the polygons. -/
example : (configured.map fun s =>
      (["b/z/s0/floor/floor", "b/z/s0/wall_0/poly_0", "b/z/s0/wall_1/poly_1", "b/z/s0/wall_2/poly_2",
        "b/z/s0/wall_3/poly_3", "b/z/s0/ceiling/ceiling"].map (value s.1),
       ["b/z/s1/floor/floor", "b/z/s1/wall_0/poly_0", "b/z/s1/wall_1/poly_1", "b/z/s1/wall_2/poly_2",
        "b/z/s1/wall_3/poly_3", "b/z/s1/ceiling/ceiling"].map (value s.2),
       surfaceParamsToArray (fun _ => none) (fun _ => none) h 40 s.2 "absorption".toList,
       surfaceParamsToArray (fun _ => none) (fun i => some ((i / 13) * 6 + (i % 13) / 2 : Nat)) h 40 s.2 "absorption".toList))
    = .ok (List.replicate 6 (some 100), [some 20, some 200, some 20, some 20, some 20, some 20], .error .runtimeError,
        .ok (List.replicate 6 100 ++ [20, 200, 20, 20, 20, 20] ++ List.replicate 6 20)) := by
  decide +kernel

end

/-! ### `tests/rays/test_voxel_grid.py` -/

section

open Sim

/-- The faces of a unit cube at `(x, 0, 0)`: floor, four walls, ceiling. -/
private def cube (x : ℚ) : List (List (Vec3 ℚ)) :=
  [[⟨x, 0, 0⟩, ⟨x + 1, 0, 0⟩, ⟨x + 1, 1, 0⟩, ⟨x, 1, 0⟩], [⟨x, 0, 0⟩, ⟨x + 1, 0, 0⟩, ⟨x + 1, 0, 1⟩, ⟨x, 0, 1⟩],
   [⟨x + 1, 0, 0⟩, ⟨x + 1, 1, 0⟩, ⟨x + 1, 1, 1⟩, ⟨x + 1, 0, 1⟩], [⟨x + 1, 1, 0⟩, ⟨x, 1, 0⟩, ⟨x, 1, 1⟩, ⟨x + 1, 1, 1⟩],
   [⟨x, 1, 0⟩, ⟨x, 0, 0⟩, ⟨x, 0, 1⟩, ⟨x, 1, 1⟩], [⟨x, 0, 1⟩, ⟨x + 1, 0, 1⟩, ⟨x + 1, 1, 1⟩, ⟨x, 1, 1⟩]]

private def two : List (List (Vec3 ℚ)) := (cube 0).zip (cube 1) |>.flatMap fun a => [a.1, a.2]

/-- `test_voxel_grid_large_step`: all polygons in one voxel, five in the one before. -/
example : (makeVoxelGrid ⟨0, 0, 0⟩ ⟨2, 1, 1⟩ two 2 (1 / 10000)).map
    (fun g => ((gridGet g (0, 0, 0)).map List.length, (gridGet g (-1, 0, 0)).map List.length)) = .ok (some 12, some 5) := by
  decide +kernel

/-- `test_voxel_grid_small_step`, with the step 0.9: all polygons are in the grid and some cells are empty. -/
example : (makeVoxelGrid ⟨0, 0, 0⟩ ⟨3, 1, 1⟩ two (9 / 10) (1 / 10000)).map
    (fun g => ((g.flatMap Prod.snd).dedup.length, g.any fun e => e.2.isEmpty)) = .ok (12, true) := by
  decide +kernel

/-- `test_voxel_grid_empty`. -/
example : (makeVoxelGrid ⟨-2, -2, -2⟩ ⟨-1, -1, -1⟩ two (3 / 10) (1 / 10000)).map (fun _ => ()) = .error .valueError := by
  decide +kernel

end

/-! ### `tests/geom/test_points_find_close_pairs.py`, with squares of distances, which are in the same order -/

section

private def pts1 : List (Vec3 ℚ) := [⟨0, 0, 0⟩, ⟨1, 0, 0⟩, ⟨1, 1, 0⟩, ⟨0, 1, 0⟩]

private def pts2 : List (Vec3 ℚ) := [⟨4 / 10, 1 / 10, 0⟩, ⟨9 / 10, 1 / 10, 0⟩, ⟨9 / 10, 8 / 10, 0⟩, ⟨5 / 10, 3 / 10, 0⟩]

private def pairs (n : Nat) := Points.closePairs (fun p q : Vec3 ℚ => Vec3.normSq (q - p)) (fun _ _ => true) false pts1 pts2 n

example : pairs 1 = .ok [(⟨1, 0, 0⟩, ⟨9 / 10, 1 / 10, 0⟩)] ∧
    pairs 4 = .ok [(⟨1, 0, 0⟩, ⟨9 / 10, 1 / 10, 0⟩), (⟨1, 1, 0⟩, ⟨9 / 10, 8 / 10, 0⟩), (⟨0, 0, 0⟩, ⟨4 / 10, 1 / 10, 0⟩),
      (⟨0, 1, 0⟩, ⟨5 / 10, 3 / 10, 0⟩)] ∧ pairs 5 = .error .valueError := by decide +kernel

end

/-! ### `tests/logger/test_logger.py`, in the directory `/w` -/

section

open Logger FileSystem

private def before : Logger.State := ⟨[(["w".toList], .dir)], [.stderr], 30⟩

/-- `test_init_logger_default`. -/
example : let s := initLogger before ["w".toList] none
    (s.2, exists' s.1.fs ["b3d.log".toList, "w".toList], s.1.level, s.1.handlers) =
      (none, true, DEBUG, [.file ["b3d.log".toList, "w".toList]]) := by decide +kernel

/-- `test_init_logger_custom_path`. -/
example : let s := initLogger before ["w".toList] (some "test_logs/test.log".toList)
    (s.2, exists' s.1.fs ["test.log".toList, "test_logs".toList, "w".toList], isDir s.1.fs ["test_logs".toList, "w".toList],
      s.1.handlers) = (none, true, true, [.file ["test.log".toList, "test_logs".toList, "w".toList]]) := by decide +kernel

end

/-! ### `tests/display/test_plot_objects.py`, with colours and points as numbers -/

section

open Display

private def meshObject : Plottable Nat := ⟨some (.ok ([0, 1, 2], [(0, 1, 2)])), none, none⟩
private def lineObject : Plottable Nat := ⟨none, some (.ok ([0, 1], [[0, 1]])), none⟩
private def pointObject : Plottable Nat := ⟨none, none, some (.ok [0, 1, 2])⟩
private def plot (os : List (Plottable Nat)) (cs : List Nat) := plotObjects 0 (fun i => 100 + i) os cs

/-- `test_plot_objects_empty`, `_invalid_colors`, `_invalid_object`. -/
example : plot [] [] = .error .valueError ∧ plot [meshObject] [1, 2] = .error .valueError ∧
    plot [⟨none, none, none⟩] [] = .error .assertionError := by decide +kernel

/-- `test_plot_objects_mesh`, `_lines`, `_points`, `_with_colors`, `_multiple_types`. -/
example : plot [meshObject] [] = .ok [⟨.faces, [0, 1, 2], [3, 0, 1, 2], 0⟩] ∧
    plot [lineObject] [] = .ok [⟨.lines, [0, 1], [2, 0, 1], 0⟩] ∧ plot [pointObject] [] = .ok [⟨.points, [0, 1, 2], [], 0⟩] ∧
    plot [meshObject, lineObject] [1, 2] = .ok [⟨.faces, [0, 1, 2], [3, 0, 1, 2], 1⟩, ⟨.lines, [0, 1], [2, 0, 1], 2⟩] ∧
    (plot [meshObject, lineObject, pointObject] []).map List.length = .ok 3 := by decide +kernel

end

end B3d.Conformance
