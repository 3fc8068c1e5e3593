import Verif.Model.PointInPolygon
import Verif.Model.Intersect
import Verif.Model.Util

/-!
# Slicing polygons

`building3d/geom/polygon/slice/`: `locate_slicing_points.py`, `add_intersection_points.py`,
`remove_redundant_points.py`, `get_point_arrays.py`, `__init__.py`.  Exact reals.

The decisions which do not look at coordinates are generic in the type of points; the comparisons of points
they need are parameters, given by the functions for points in space further below.
-/

namespace B3d.Slice

/-- The constants `EXTERIOR`, `INTERIOR`, `VERTEX`, `EDGE` and `INVALID_LOC` of `slice/constants.py` L2-7. -/
inductive Kind where
  | exterior
  | interior
  | vertex
  | edge
  | invalid
  deriving DecidableEq, Repr

/-- The location of a slicing point and the number of the vertex or edge it is at,
`locate_slicing_points.py` L50-54.  `INVALID_INDEX` is modelled by 0, it is never looked at. -/
abbrev Loc := Kind × Nat

/-! ### Which slicing points are kept -/

section keep

variable {α : Type}

/-- The decision for one point in the loop of `remove_redundant_points`, `remove_redundant_points.py`
L119-207: is the point kept, and does the loop end here?  `noInterior` is `num_interior == 0`, `atEdge p e` is
`is_point_in_array(p, edges[e])`, `onEdge v e` is `is_point_in_array(pts[v], edges[e])`. -/
def keepPoint (noInterior : Bool) (atEdge : α → Nat → Bool) (onEdge : Nat → Nat → Bool) (p : α)
    (prev this next : Loc) : Bool × Bool :=
  if this.1 = .exterior then (false, false)
  else if this.1 = .interior then (true, false)
  else if next.1 = .interior ∧ (this.1 = .vertex ∨ this.1 = .edge) then (true, false)
  else if prev.1 = .interior ∧ (this.1 = .vertex ∨ this.1 = .edge) then (true, true)
  else if this.1 = .vertex ∧ next.1 = .vertex ∧ prev.1 ≠ .edge then
    (noInterior && decide (this.2 ≠ next.2), false)
  else if this.1 = .vertex ∧ prev.1 = .vertex ∧ next.1 ≠ .edge then
    (noInterior && decide (this.2 ≠ prev.2), false)
  else if this.1 = .edge ∧ next.1 = .edge then
    (noInterior && decide (this.2 ≠ next.2), false)
  else if this.1 = .edge ∧ prev.1 = .edge then
    (noInterior && decide (this.2 ≠ prev.2), noInterior && decide (this.2 ≠ prev.2))
  else if this.1 = .vertex ∧ next.1 = .edge then
    (noInterior && !atEdge p next.2, false)
  else if this.1 = .vertex ∧ prev.1 = .edge then
    (noInterior && !atEdge p prev.2, false)
  else if this.1 = .edge ∧ next.1 = .vertex then
    (noInterior && !onEdge next.2 this.2, false)
  else if this.1 = .edge ∧ prev.1 = .vertex then
    (noInterior && !onEdge prev.2 this.2, false)
  else (false, false)

/-- The location of the next point, `INVALID_LOC` after the last one, `remove_redundant_points.py` L112-117. -/
def nextLoc : List (α × Loc) → Loc
  | [] => (.invalid, 0)
  | (_, l) :: _ => l

/-- The loop of `remove_redundant_points`, `remove_redundant_points.py` L90-207, over the slicing points with
their locations; `prev` is the location of the point before. -/
def keepLoop (noInterior : Bool) (atEdge : α → Nat → Bool) (onEdge : Nat → Nat → Bool) (prev : Loc) :
    List (α × Loc) → List α
  | [] => []
  | (p, this) :: rest =>
    match keepPoint noInterior atEdge onEdge p prev this (nextLoc rest) with
    | (true, true) => [p]
    | (true, false) => p :: keepLoop noInterior atEdge onEdge this rest
    | (false, _) => keepLoop noInterior atEdge onEdge this rest

/-- How many of the points are at a location of the given kind, `remove_redundant_points.py` L62-64,
`get_point_arrays.py` L62-63. -/
def count (k : Kind) (ls : List (α × Loc)) : Nat := ls.countP fun q => q.2.1 = k

/-- `remove_redundant_points` after the points have been rolled, `remove_redundant_points.py` L62-215, for a
polygon with `n` points. -/
def keepPoints (n : Nat) (atEdge : α → Nat → Bool) (onEdge : Nat → Nat → Bool) (ls : List (α × Loc)) : List α :=
  if ls.length = 4 ∧ n = 4 ∧ count .vertex ls = 2 ∧ count .edge ls = 2 then
    (ls.filter fun q => q.2.1 = .edge).map (·.1)
  else keepLoop (count .interior ls == 0) atEdge onEdge (.invalid, 0) ls

/-- `remove_redundant_points`, `remove_redundant_points.py` L51-215, with the locations already known; `left` is
`len(slicing_pts) + 1 - num_try`, the number of times the points may still be rolled.  The locations do not
depend on the order of the points, so they are rolled with the points. -/
def rollAndKeep (n : Nat) (atEdge : α → Nat → Bool) (onEdge : Nat → Nat → Bool) :
    Nat → List (α × Loc) → List α
  | left, ls =>
    if (ls.head?.map (·.2.1)) = some .interior ∨ (ls.getLast?.map (·.2.1)) = some .interior then
      match left with
      | 0 => (ls.take 1).map (·.1)
      | left + 1 => rollAndKeep n atEdge onEdge left (Util.rollForward ls)
    else keepPoints n atEdge onEdge ls

end keep

/-! ### The points of the two parts -/

section arrays

variable {α : Type}

/-- The number of the last point which equals `q`, 0 if there is none: the loops in `get_point_arrays.py`
L103-111, L201-209, L244-248. -/
def lastMatch (eq : α → α → Bool) (pts : List α) (q : α) : Nat :=
  (List.range pts.length).foldl (fun acc i =>
    match pts[i]? with
    | some p => if eq p q then i else acc
    | none => acc) 0

/-- One step backwards around `n` points, `get_point_arrays.py` L122-126, L268-270. -/
def stepBack (n i : Nat) : Nat := if i = 0 then n - 1 else i - 1

/-- One step forwards around `n` points, `get_point_arrays.py` L131-135, L255-257. -/
def stepOn (n i : Nat) : Nat := if i + 1 > n - 1 then 0 else i + 1

/-- The points from number `i` on, up to and without number `last`: the while-loops in `get_point_arrays.py`
L120-126, L129-135, L220-234, L253-257, L266-270.  `fuel` is the number of points, enough to reach `last`
(`walk_on`). -/
def walk (step : Nat → Nat) (pts : List α) (last : Nat) : Nat → Nat → List α
  | 0, _ => []
  | fuel + 1, i =>
    if i = last then []
    else
      match pts[i]? with
      | some p => p :: walk step pts last fuel (step i)
      | none => []

/-- Case 1, `get_point_arrays.py` L85-139: from edge `e1` to edge `e2`. -/
def caseEdges (eq : α → α → Bool) (pts : List α) (edges : List (α × α)) (s : List α) (e1 e2 : Nat) :
    Except PyErr (List α × List α) :=
  match edges[e1]?, edges[e2]? with
  | some (a1, b1), some (a2, b2) =>
    let next1 := lastMatch eq pts a2
    let next2 := lastMatch eq pts b2
    let last1 := lastMatch eq pts b1
    let last2 := lastMatch eq pts a1
    .ok (s ++ walk (stepBack pts.length) pts last1 pts.length next1 ++ pts[last1]?.toList,
      s ++ walk (stepOn pts.length) pts last2 pts.length next2 ++ pts[last2]?.toList)
  | _, _ => .error .indexError

/-- The loop of case 2, `get_point_arrays.py` L160-169: the slicing points are put after the first point which is
an end of the edge. -/
def insertAfter (eq : α → α → Bool) (edge : α × α) (s : List α) : List α → List α
  | [] => []
  | p :: rest =>
    if eq p edge.1 || eq p edge.2 then p :: s ++ rest
    else p :: insertAfter eq edge s rest

/-- Case 2, `get_point_arrays.py` L141-171; `turn` tells whether the slicing points have to be reversed
(L151-158). -/
def caseSameEdge (eq : α → α → Bool) (turn : Except PyErr Bool) (pts : List α) (edges : List (α × α))
    (s : List α) (e : Nat) : Except PyErr (List α × List α) :=
  match turn with
  | .error err => .error err
  | .ok t =>
    match edges[e]? with
    | some edge => .ok (s, insertAfter eq edge (if t then s.reverse else s) pts)
    | none => .error .indexError

/-- Case 3, `get_point_arrays.py` L187-237, with the slicing points already turned so that the first one is at the
vertex. -/
def caseVertexEdge (eq : α → α → Bool) (pts : List α) (edges : List (α × α)) (s : List α) (e : Nat) :
    Except PyErr (List α × List α) :=
  match edges[e]?, s.head? with
  | some (a, b), some v =>
    let next1 := lastMatch eq pts a
    let next2 := lastMatch eq pts b
    let last := lastMatch eq pts v
    .ok (s ++ walk (stepBack pts.length) pts last pts.length next1,
      s ++ walk (stepOn pts.length) pts last pts.length next2)
  | _, _ => .error .indexError

/-- Case 4, `get_point_arrays.py` L239-276. -/
def caseVertices (eq : α → α → Bool) (pts : List α) (s : List α) : Except PyErr (List α × List α) :=
  match s.head?, s.getLast? with
  | some v, some w =>
    let start := lastMatch eq pts v
    let last := lastMatch eq pts w
    .ok (walk (stepOn pts.length) pts last pts.length start ++ s.tail.reverse,
      walk (stepBack pts.length) pts last pts.length start ++ s.tail.reverse)
  | _, _ => .error .indexError

/-- The numbers of the edges (vertices) with slicing points, `get_point_arrays.py` L65-66; the sets are lists
without repetitions. -/
def numbersAt (k : Kind) (ls : List (α × Loc)) : List Nat :=
  ((ls.filter fun q => q.2.1 = k).map (·.2.2)).dedup

/-- `get_point_arrays` with the locations known, `get_point_arrays.py` L62-281. -/
def arrays (eq : α → α → Bool) (turn : Except PyErr Bool) (pts : List α) (edges : List (α × α))
    (ls : List (α × Loc)) : Except PyErr (List α × List α) :=
  let s := ls.map (·.1)
  let numV := count .vertex ls
  let numE := count .edge ls
  let slE := numbersAt .edge ls
  let slV := numbersAt .vertex ls
  if numE = 2 ∧ slE.length = 2 ∧ numV = 0 then
    match ls.head?, ls.getLast? with
    | some (_, .edge, e1), some (_, .edge, e2) => caseEdges eq pts edges s e1 e2
    | _, _ => .error .assertionError
  else if numE = 2 ∧ slE.length = 1 ∧ numV = 0 then
    match slE with
    | e :: _ => caseSameEdge eq turn pts edges s e
    | [] => .error .keyError
  else if numE = 1 ∧ numV = 1 then
    match slE with
    | e :: _ =>
      match ls.head?, ls.getLast? with
      | some (_, .vertex, _), some (_, .edge, _) => caseVertexEdge eq pts edges s e
      | some (_, .edge, _), some (_, .vertex, _) => caseVertexEdge eq pts edges s.reverse e
      | _, _ => .error .assertionError
    | [] => .error .keyError
  else if numV = 2 ∧ slV.length = 2 ∧ numE = 0 then caseVertices eq pts s
  else .error .notImplementedError

end arrays

/-! ### Points in space -/

open Points Polygon

/-- The first edge at distance (almost) zero, `locate_slicing_points.py` L66-69. -/
noncomputable def locateEdge (ptest : Vec3 ℝ) : Nat → List (Vec3 ℝ × Vec3 ℝ) → Except PyErr Loc
  | _, [] => .ok (.interior, 0)
  | i, (a, b) :: rest =>
    match distancePointToEdge ptest a b with
    | .error e => .error e
    | .ok d => if isClose d 0 NP_RTOL NP_ATOL then .ok (.edge, i) else locateEdge ptest (i + 1) rest

/-- `locate_point_on_polygon`, `locate_slicing_points.py` L47-71. -/
noncomputable def locatePoint (ptest : Vec3 ℝ) (pts : List (Vec3 ℝ)) (tri : List Triangles.Tri)
    (edges : List (Vec3 ℝ × Vec3 ℝ)) : Except PyErr Loc :=
  match isPointInside ptest pts tri with
  | .error e => .error e
  | .ok false => .ok (.exterior, 0)
  | .ok true =>
    match pts.findIdx? fun p => pointsEqual ptest p with
    | some i => .ok (.vertex, i)
    | none => locateEdge ptest 0 edges

/-- The loop of `locate_slicing_points`, `locate_slicing_points.py` L39-43; each point is returned with its
location. -/
noncomputable def locateAll (pts : List (Vec3 ℝ)) (tri : List Triangles.Tri) (edges : List (Vec3 ℝ × Vec3 ℝ)) :
    List (Vec3 ℝ) → Except PyErr (List (Vec3 ℝ × Loc))
  | [] => .ok []
  | p :: rest =>
    match locatePoint p pts tri edges with
    | .error e => .error e
    | .ok l =>
      match locateAll pts tri edges rest with
      | .error e => .error e
      | .ok ls => .ok ((p, l) :: ls)

/-- `locate_slicing_points`, `locate_slicing_points.py` L19-43. -/
noncomputable def locatePoints (s : List (Vec3 ℝ)) (pts : List (Vec3 ℝ)) (tri : List Triangles.Tri)
    (edges : List (Vec3 ℝ × Vec3 ℝ)) : Except PyErr (List (Vec3 ℝ × Loc)) :=
  if s = [] then .error .geometryError else locateAll pts tri edges s

/-- `is_point_in_array(p, edges[e])` as in `remove_redundant_points.py` L182. -/
noncomputable def atEdge (edges : List (Vec3 ℝ × Vec3 ℝ)) (p : Vec3 ℝ) (e : Nat) : Bool :=
  match edges[e]? with
  | some (a, b) => isPointInArray p [a, b]
  | none => false

/-- `is_point_in_array(pts[v], edges[e])` as in `remove_redundant_points.py` L194-196. -/
noncomputable def onEdge (pts : List (Vec3 ℝ)) (edges : List (Vec3 ℝ × Vec3 ℝ)) (v e : Nat) : Bool :=
  match pts[v]? with
  | some p => atEdge edges p e
  | none => false

/-- `remove_redundant_points`, `remove_redundant_points.py` L22-215.  The locations are computed anew after every
roll in the code, with the same result for every point. -/
noncomputable def removeRedundantPoints (s pts : List (Vec3 ℝ)) (tri : List Triangles.Tri) :
    Except PyErr (List (Vec3 ℝ)) :=
  match polygonEdges 0 pts with
  | .error e => .error e
  | .ok edges =>
    match locatePoints s pts tri edges with
    | .error e => .error e
    | .ok ls => .ok (rollAndKeep pts.length (atEdge edges) (onEdge pts edges) (s.length + 1) ls)

/-- Whether the slicing points have to be reversed in case 2, `get_point_arrays.py` L151-158.  A normal of NaNs
is close to nothing. -/
noncomputable def turnNeeded (pts s : List (Vec3 ℝ)) : Except PyErr Bool :=
  match s.getLast?, s[0]?, s[1]?, pts.getLast?, pts[0]?, pts[1]? with
  | some sl, some s0, some s1, some pl, some p0, some p1 =>
    match normal sl s0 s1, normal pl p0 p1 with
    | some sv, some pv =>
      if allClose ((-1 : ℝ) • sv) pv NP_RTOL NP_ATOL then .ok false
      else if allClose sv pv NP_RTOL NP_ATOL then .ok true
      else .error .valueError
    | _, _ => .error .valueError
  | _, _, _, _, _, _ => .error .indexError

/-- `get_point_arrays`, `get_point_arrays.py` L20-281. -/
noncomputable def getPointArrays (pts : List (Vec3 ℝ)) (tri : List Triangles.Tri) (s : List (Vec3 ℝ)) :
    Except PyErr (List (Vec3 ℝ) × List (Vec3 ℝ)) :=
  if s.length < 2 then .error .geometryError
  else
    match polygonEdges 0 pts with
    | .error e => .error e
    | .ok edges =>
      match locatePoints s pts tri edges with
      | .error e => .error e
      | .ok ls => arrays (fun p q => pointsEqual p q) (turnNeeded pts s) pts edges ls

/-- The intersections found by the loops of `add_intersection_points`, `add_intersection_points.py` L32-67, with
the numbers of the edges. -/
noncomputable def intersections (edges1 edges2 : List (Vec3 ℝ × Vec3 ℝ)) : List (Nat × Nat × Vec3 ℝ) :=
  edges1.zipIdx.flatMap fun (e1, i1) => edges2.zipIdx.filterMap fun (e2, i2) =>
    match lineSegmentIntersection e1.1 e1.2 e2.1 e2.2 with
    | none => none
    | some p =>
      if pointsEqual e1.1 p || pointsEqual e1.2 p || pointsEqual e2.1 p || pointsEqual e2.2 p then none
      else some (i1, i2, p)

/-- `add_intersection_points`, `add_intersection_points.py` L16-85. -/
noncomputable def addIntersectionPoints (pts1 pts2 : List (Vec3 ℝ)) :
    Except PyErr (List (Vec3 ℝ) × List (Vec3 ℝ)) :=
  match polygonEdges 0 pts1, polygonEdges 0 pts2 with
  | .ok edges1, .ok edges2 =>
    let found := intersections edges1 edges2
    .ok (edges1.zipIdx.flatMap fun (e, i) => e.1 :: (found.filter fun f => f.1 = i).map (·.2.2),
      edges2.zipIdx.flatMap fun (e, i) => e.1 :: (found.filter fun f => f.2.1 = i).map (·.2.2))
  | .error e, _ => .error e
  | _, .error e => .error e

section names

variable {N : Type} [DecidableEq N]

/-- The names of the two parts, `slice/__init__.py` L110-147; `in1`, `in2` are `poly1.is_point_inside`,
`poly2.is_point_inside`. -/
def chooseNames {α : Type} (in1 in2 : α → Except PyErr Bool) (pt1 pt2 : Option α) (name1 name2 : N) :
    Except PyErr (N × N) :=
  match pt1, pt2 with
  | some a, some b =>
    let pick (inside : α → Except PyErr Bool) : Except PyErr N :=
      match inside a with
      | .error e => .error e
      | .ok true => .ok name1
      | .ok false =>
        match inside b with
        | .error e => .error e
        | .ok true => .ok name2
        | .ok false => .error .geometryError
    match pick in1 with
    | .error e => .error e
    | .ok n1 =>
      match pick in2 with
      | .error e => .error e
      | .ok n2 => .ok (n1, n2)
  | some a, none =>
    match in1 a with
    | .error e => .error e
    | .ok true => .ok (name1, name2)
    | .ok false =>
      match in2 a with
      | .error e => .error e
      | .ok true => .ok (name2, name1)
      | .ok false => .error .geometryError
  | none, some b =>
    match in1 b with
    | .error e => .error e
    | .ok true => .ok (name2, name1)
    | .ok false =>
      match in2 b with
      | .error e => .error e
      | .ok true => .ok (name1, name2)
      | .ok false => .error .geometryError
  | none, none => .ok (name1, name2)

/-- `make_polygons` after the polygons have been made, `slice/__init__.py` L110-154. -/
def nameParts {α π : Type} (inside : π → α → Except PyErr Bool) (poly1 poly2 : π) (pt1 pt2 : Option α)
    (name1 name2 : N) : Except PyErr ((N × π) × (N × π)) :=
  match chooseNames (inside poly1) (inside poly2) pt1 pt2 name1 name2 with
  | .error e => .error e
  | .ok (n1, n2) =>
    if n1 = name1 ∧ n2 = name2 then .ok ((n1, poly1), (n2, poly2))
    else if n1 = name2 ∧ n2 = name1 then .ok ((n2, poly2), (n1, poly1))
    else .error .runtimeError

/-- `make_polygons`, `slice/__init__.py` L74-154; `rand1`, `rand2` are the random names used if none are given. -/
noncomputable def makePolygons (vn : Option (Vec3 ℝ)) (pts1 pts2 : List (Vec3 ℝ)) (pt1 : Option (Vec3 ℝ))
    (name1 : Option N) (pt2 : Option (Vec3 ℝ)) (name2 : Option N) (rand1 rand2 : N) :
    Except PyErr ((N × Poly) × (N × Poly)) :=
  match polygonNew pts1 none vn with
  | .error e => .error e
  | .ok poly1 =>
    match polygonNew pts2 none vn with
    | .error e => .error e
    | .ok poly2 =>
      nameParts (fun P p => isPointInside p P.pts P.tri) poly1 poly2 pt1 pt2 (name1.getD rand1) (name2.getD rand2)

/-- The check of the orientation, `slice/__init__.py` L64-66 and L67-69. -/
noncomputable def checkNormal (vn : Option (Vec3 ℝ)) (part : N × Poly) : Except PyErr (N × Poly) :=
  let same (Q : Poly) : Prop := match Q.vn, vn with
    | some a, some b => allClose a b GEOM_RTOL NP_ATOL
    | _, _ => False
  open Classical in
  if same part.2 then .ok part
  else
    match Polygon.flip part.2 with
    | .error e => .error e
    | .ok Q => if same Q then .ok (part.1, Q) else .error .assertionError

/-- `slice_polygon`, `slice/__init__.py` L17-71. -/
noncomputable def slicePolygon (poly : Poly) (s : List (Vec3 ℝ)) (pt1 : Option (Vec3 ℝ)) (name1 : Option N)
    (pt2 : Option (Vec3 ℝ)) (name2 : Option N) (rand1 rand2 : N) : Except PyErr ((N × Poly) × (N × Poly)) :=
  if arePointsCoplanar (poly.pts ++ s) = false then .error .assertionError
  else
    match addIntersectionPoints poly.pts s with
    | .error e => .error e
    | .ok (_, s1) =>
      match removeRedundantPoints s1 poly.pts poly.tri with
      | .error e => .error e
      | .ok s2 =>
        if s2.length < 2 then .error .geometryError
        else
          match getPointArrays poly.pts poly.tri s2 with
          | .error e => .error e
          | .ok (pts1, pts2) =>
            match makePolygons poly.vn pts1 pts2 pt1 name1 pt2 name2 rand1 rand2 with
            | .error e => .error e
            | .ok (part1, part2) =>
              match checkNormal poly.vn part1 with
              | .error e => .error e
              | .ok part1 =>
                match checkNormal poly.vn part2 with
                | .error e => .error e
                | .ok part2 => .ok (part1, part2)

end names

end B3d.Slice
