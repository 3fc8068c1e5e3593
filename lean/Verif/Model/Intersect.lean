import Verif.Model.Points

/-!
# Intersections of lines and segments, visibility, closest pairs

`building3d/geom/points/intersections.py`, `building3d/geom/points/visibility.py`,
`building3d/geom/points/find_close_pairs.py`.

`INVALID_PT` (a point of NaNs) is `none`.
-/

namespace B3d.Points

/-- `np.linalg.lstsq(A, b)` for the matrix with columns `d1` and `-d2`, `intersections.py` L43-49: the
solution of the normal equations, exact if the columns are independent (the caller has excluded parallel
directions). -/
def lstsq {K : Type} [Field K] (d1 d2 b : Vec3 K) : K × K :=
  let a11 := Vec3.dot d1 d1
  let a12 := Vec3.dot d1 d2
  let a22 := Vec3.dot d2 d2
  let b1 := Vec3.dot d1 b
  let b2 := Vec3.dot d2 b
  let det := a11 * a22 - a12 * a12
  ((a22 * b1 - a12 * b2) / det, (a12 * b1 - a11 * b2) / det)

/-- `d / np.linalg.norm(d)`, `intersections.py` L35-40. -/
noncomputable def unit (d : Vec3 ℝ) : Vec3 ℝ := (1 / Vec3.norm d) • d

open Classical in
/-- `line_intersection`, `intersections.py` L13-63. -/
noncomputable def lineIntersection (pt1 d1 pt2 d2 : Vec3 ℝ) : Option (Vec3 ℝ) :=
  if allClose d1 0 NP_RTOL NP_ATOL ∨ allClose d2 0 NP_RTOL NP_ATOL then none
  else if allClose (unit d1) (unit d2) NP_RTOL NP_ATOL then none
  else if allClose (unit d1) ((-1 : ℝ) • unit d2) NP_RTOL NP_ATOL then none
  else
    let ts := lstsq d1 d2 (pt2 - pt1)
    let pointOnLine1 := pt1 + ts.1 • d1
    let pointOnLine2 := pt2 + ts.2 • d2
    if allClose pointOnLine1 pointOnLine2 NP_RTOL NP_ATOL then some pointOnLine1 else none

/-- `line_segment_intersection`, `intersections.py` L66-93.  The test `candidate is INVALID_PT` compares
objects; a point of NaNs which is another object is not on any segment, and `INVALID_PT` is returned all the
same. -/
noncomputable def lineSegmentIntersection (pa1 pb1 pa2 pb2 : Vec3 ℝ) : Option (Vec3 ℝ) :=
  match lineIntersection pa1 (pb1 - pa1) pa2 (pb2 - pa2) with
  | none => none
  | some c => if isPointOnSegment c pa1 pb1 && isPointOnSegment c pa2 pb2 then some c else none

/-- The inner loop of `are_points_visible`, `visibility.py` L47-58: is some edge of the array in the way? -/
noncomputable def blockedBy (pt0 pt1 : Vec3 ℝ) : List (Vec3 ℝ × Vec3 ℝ) → Bool
  | [] => false
  | (e0, e1) :: es =>
    if pointsEqual e0 pt0 || pointsEqual e0 pt1 || pointsEqual e1 pt0 || pointsEqual e1 pt1 then
      blockedBy pt0 pt1 es
    else
      match lineSegmentIntersection pt0 pt1 e0 e1 with
      | some _ => true
      | none => blockedBy pt0 pt1 es

/-- `are_points_visible`, `visibility.py` L42-59; `blockEdges` is the tuple of arrays of edges. -/
noncomputable def arePointsVisible (pt0 pt1 : Vec3 ℝ) : List (List (Vec3 ℝ × Vec3 ℝ)) → Nat
  | [] => 1
  | bed :: beds => if blockedBy pt0 pt1 bed then 0 else arePointsVisible pt0 pt1 beds

/-- `m[i, j] = v`, as in `visibility.py` L32 and L37; a matrix is a function of row and column. -/
def setEntry (m : Nat → Nat → Nat) (i j v : Nat) : Nat → Nat → Nat :=
  fun i' j' => if i' = i ∧ j' = j then v else m i' j'

/-- The first pair of loops, `visibility.py` L30-32, over the given index pairs; `vis` is
`are_points_visible` of the points with these numbers. -/
def fillUpper (vis : Nat → Nat → Nat) (m : Nat → Nat → Nat) (ij : List (Nat × Nat)) : Nat → Nat → Nat :=
  ij.foldl (fun m p => setEntry m p.1 p.2 (vis p.1 p.2)) m

/-- The second pair of loops, `visibility.py` L35-37. -/
def reflectLower (m : Nat → Nat → Nat) (ij : List (Nat × Nat)) : Nat → Nat → Nat :=
  ij.foldl (fun m p => setEntry m p.1 p.2 (m p.2 p.1)) m

/-- Index pairs of the loops in `visibility.py` L30-31: `j` from `i + 1`. -/
def upperPairs (n : Nat) : List (Nat × Nat) :=
  (List.range n).flatMap fun i => ((List.range n).drop (i + 1)).map fun j => (i, j)

/-- Index pairs of the loops in `visibility.py` L35-36: `j` up to `i - 1`. -/
def lowerPairs (n : Nat) : List (Nat × Nat) :=
  (List.range n).flatMap fun i => (List.range i).map fun j => (i, j)

/-- `np.eye`, `visibility.py` L28. -/
def eye : Nat → Nat → Nat := fun i j => if i = j then 1 else 0

/-- `visibility_matrix`, `visibility.py` L12-39; the entries of the result for `i`, `j` below the number of
points. -/
noncomputable def visibilityMatrix (pts : List (Vec3 ℝ)) (blockEdges : List (List (Vec3 ℝ × Vec3 ℝ))) :
    Except PyErr (Nat → Nat → Nat) :=
  if arePointsCoplanar pts = false then .error .assertionError
  else
    let vis := fun i j => arePointsVisible (pts.getD i 0) (pts.getD j 0) blockEdges
    .ok (reflectLower (fillUpper vis eye (upperPairs pts.length)) (lowerPairs pts.length))

/-! ### Closest pairs -/

section pairs

variable {P K : Type} [LinearOrder K]

/-- Lexicographic order of the tuples `(d, i, j)`, as used by `sorted`, `find_close_pairs.py` L49. -/
def PairLE (a b : K × Nat × Nat) : Prop :=
  a.1 < b.1 ∨ (a.1 = b.1 ∧ (a.2.1 < b.2.1 ∨ (a.2.1 = b.2.1 ∧ a.2.2 ≤ b.2.2)))

instance (a b : K × Nat × Nat) : Decidable (PairLE a b) := by unfold PairLE; infer_instance

/-- Insertion into a sorted list; `sorted` (`find_close_pairs.py` L49) is modelled by insertion sort. -/
def insertPair (a : K × Nat × Nat) : List (K × Nat × Nat) → List (K × Nat × Nat)
  | [] => [a]
  | b :: l => if PairLE a b then a :: b :: l else b :: insertPair a l

/-- `sorted(pairs)`, `find_close_pairs.py` L49. -/
def sortPairs (l : List (K × Nat × Nat)) : List (K × Nat × Nat) := l.foldr insertPair []

/-- The loops which collect the pairs, `find_close_pairs.py` L41-47. -/
def candidatePairs (dist : P → P → K) (vis : P → P → Bool) (visOnly : Bool) (pts0 pts1 : List P) :
    List (K × Nat × Nat) :=
  pts0.zipIdx.flatMap fun a => pts1.zipIdx.flatMap fun b =>
    if visOnly && !vis a.1 b.1 then [] else [(dist a.1 b.1, a.2, b.2)]

/-- The greedy loop, `find_close_pairs.py` L55-60. -/
def greedyLoop (used0 used1 : List Nat) : List (K × Nat × Nat) → List (Nat × Nat)
  | [] => []
  | pp :: pps =>
    if ¬ pp.2.1 ∈ used0 ∧ ¬ pp.2.2 ∈ used1 then
      (pp.2.1, pp.2.2) :: greedyLoop (pp.2.1 :: used0) (pp.2.2 :: used1) pps
    else greedyLoop used0 used1 pps

/-- `find_close_pairs`, `find_close_pairs.py` L10-70, for any distance and visibility; the indices in the
result are in range, so the points are read with `filterMap`. -/
def closePairs (dist : P → P → K) (vis : P → P → Bool) (visOnly : Bool) (pts0 pts1 : List P) (n : Nat) :
    Except PyErr (List (P × P)) :=
  let indices := greedyLoop [] [] (sortPairs (candidatePairs dist vis visOnly pts0 pts1))
  if indices.length < n then .error .valueError
  else .ok ((indices.take n).filterMap fun ij =>
    (pts0[ij.1]?).bind fun a => (pts1[ij.2]?).map fun b => (a, b))

end pairs

/-- `find_close_pairs` with its own distance and visibility, `find_close_pairs.py` L10-70. -/
noncomputable def findClosePairs (pts0 pts1 : List (Vec3 ℝ)) (n : Nat) (visOnly : Bool) :
    Except PyErr (List (Vec3 ℝ × Vec3 ℝ)) :=
  match Polygon.polygonEdges 0 pts0, Polygon.polygonEdges 0 pts1 with
  | .ok edges0, .ok edges1 =>
    closePairs (fun p0 p1 => Vec3.norm (p1 - p0))
      (fun p0 p1 => decide (arePointsVisible p0 p1 [edges0, edges1] ≠ 0)) visOnly pts0 pts1 n
  | .error e, _ => .error e
  | _, .error e => .error e

end B3d.Points
