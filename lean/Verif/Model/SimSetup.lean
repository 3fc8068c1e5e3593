import Verif.Model.GraphGeo
import Verif.Model.ArrayFormat
import Verif.Model.SimGeo

/-!
# From a building to the arguments of the simulation loop

`Simulation.__init__` and the first part of `Simulation.run` in `sim/rays/simulation.py`, with the first part of
`simulation_loop`.  The hierarchy of objects is the heap of `Verif.Model.Hierarchy`, the attributes of the polygons are those
of `Verif.Model.PolygonObj`; they meet in the tree that `to_array_format` walks through.
-/

namespace B3d.Hier

open Polygon Solids Sim ArrayFormat

variable {P : Type}

/-- The dictionary of children of an object: `wall.polygons`, `solid.walls`, `zone.solids`, `building.zones`. -/
def childrenOf (h : Heap P) (i : Nat) : List (Str × Nat) :=
  match h[i]? with
  | none => []
  | some o => o.children

/-- A polygon as `to_array_format` sees it, `io/arrayformat.py` L68-86.  The identifiers are not used there and are left
out. -/
def treePoly (poly : Polys) (e : Str × Nat) : Tree.Poly (Vec3 ℝ) := ⟨e.1, [], (poly e.2).pts, (poly e.2).tri, none⟩

/-- A wall, `io/arrayformat.py` L63-68. -/
def treeWall (h : Heap P) (poly : Polys) (e : Str × Nat) : Tree.Wall (Vec3 ℝ) :=
  ⟨e.1, [], (childrenOf h e.2).map (treePoly poly), none⟩

/-- A solid, `io/arrayformat.py` L58-63. -/
def treeSolid (h : Heap P) (poly : Polys) (e : Str × Nat) : Tree.Solid (Vec3 ℝ) :=
  ⟨e.1, [], (childrenOf h e.2).map (treeWall h poly), none⟩

/-- A zone, `io/arrayformat.py` L56-58. -/
def treeZone (h : Heap P) (poly : Polys) (e : Str × Nat) : Tree.Zone (Vec3 ℝ) :=
  ⟨e.1, [], (childrenOf h e.2).map (treeSolid h poly), none⟩

/-- The building that `to_array_format` walks through, `io/arrayformat.py` L56-91. -/
def treeOf (h : Heap P) (poly : Polys) (b : Nat) : Tree.Bldg (Vec3 ℝ) :=
  ⟨[], [], (childrenOf h b).map (treeZone h poly)⟩

/-- The attribute `num` of the polygon `i` after `to_array_format` has numbered the building (`io/arrayformat.py` L70): `t` is
the numbered tree, whose polygons come in the order in which the building is walked through.  If the polygon occurs more than
once, the last assignment stays. -/
def polygonNum (h : Heap P) (b : Nat) (t : Tree.Bldg (Vec3 ℝ)) (i : Nat) : Option Nat :=
  let polys := ((t.zones.flatMap (·.solids)).flatMap (·.walls)).flatMap (·.polygons)
  match (((leafIds h 4 b).zip polys).filter fun e => e.1 = i).getLast? with
  | none => none
  | some e => e.2.num

/-- The loop of `get_transparent_polygon_numbers`, `sim/rays/simulation.py` L112-116; the set is a list without repetitions. -/
def addNumbers (parseInt : Str → Option Int) (h : Heap P) (b : Nat) (num : Nat → Option Nat) :
    List Int → List Str → Except PyErr (List Int)
  | acc, [] => .ok acc
  | acc, s :: rest =>
    match get parseInt h b s with
    | .error e => .error e
    | .ok (.point _) => .error .assertionError
    | .ok (.obj i) =>
      match (h[i]?).map Obj.kind with
      | some .polygon =>
        match num i with
        | none => .error .assertionError
        | some n => addNumbers parseInt h b num (if (n : Int) ∈ acc then acc else acc ++ [(n : Int)]) rest
      | _ => .error .assertionError

/-- `Simulation.get_transparent_polygon_numbers`, `sim/rays/simulation.py` L99-118. -/
noncomputable def transparentNumbers (parseInt : Str → Option Int) (h : Heap P) (poly : Polys)
    (cache : List (Nat × List Str)) (b : Nat) (num : Nat → Option Nat) : Except PyErr (List Int) :=
  match (findTransparent h (geoRels poly) cache b).2 with
  | .error e => .error e
  | .ok paths => addNumbers parseInt h b num [-1] paths

/-- The parts of the configuration that reach the loop, `sim/rays/simulation.py` L47-63. -/
structure SimArgs where
  raySpeed : ℝ
  timeStep : ℝ
  voxelSize : ℝ
  absorbers : List (Vec3 ℝ)
  absorberRadius : ℝ
  defaultAbsorption : ℝ
  searchTransparent : Bool

/-- The points and triangles of a polygon read from the arrays, as a polygon; the other attributes are not used by the
tests. -/
def ofArrays (e : List (Vec3 ℝ) × List Triangles.Tri) : Poly := ⟨e.1, none, e.2, 0, none, none⟩

/-- `Simulation.__init__` L31-79, `Simulation.run` L139-161 in `sim/rays/simulation.py` and `simulation_loop.py` L77-105: the
arguments of the loop and what it derives from them.  `eps` has the default `1e-4` in `make_voxel_grid` (`voxel_grid.py` L17)
and `1e-6` in the loop (`simulation_loop.py` L42).  `setIter` is the order in which sets are iterated. -/
noncomputable def simParams (parseInt : Str → Option Int) (setIter : List Nat → List Nat) (h : Heap P) (poly : Polys)
    (cache : List (Nat × List Str)) (b : Nat) (c : SimArgs) : Except PyErr (Params ℝ) :=
  match toArrayFormat 0 (treeOf h poly b) with
  | .error e => .error e
  | .ok (t, st) =>
    match (if c.searchTransparent then transparentNumbers parseInt h poly cache b (polygonNum h b t) else .ok [-1]) with
    | .error e => .error e
    | .ok transparent =>
      match Bboxes.boundingBox st.points with
      | .error e => .error e
      | .ok (lo, hi) =>
        match (List.range st.walls.length).mapM (getPolygonPointsAndFaces st.points st.faces st.polygons) with
        | .error e => .error e
        | .ok polys =>
          match makeVoxelGrid lo hi (polys.map Prod.fst) c.voxelSize (1 / 10 ^ 4) with
          | .error e => .error e
          | .ok grid =>
            .ok { raySpeed := c.raySpeed, timeStep := c.timeStep, gridStep := c.voxelSize, grid := grid,
                  absorbers := c.absorbers, absorberRadius := c.absorberRadius, lo := lo, hi := hi,
                  transparent := transparent, absorption := fun _ => c.defaultAbsorption, eps := 1 / 10 ^ 6,
                  geo := geoOf (polys.map ofArrays), setIter := setIter }

end B3d.Hier
