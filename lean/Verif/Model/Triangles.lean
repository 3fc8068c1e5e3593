import Verif.Model.Points
import Verif.Model.Bboxes
import Mathlib.Algebra.Order.Floor.Ring
import Mathlib.Algebra.Order.Archimedean.Real.Basic

/-!
# `building3d/geom/triangles.py` and `building3d/geom/tetrahedrons.py`
-/

namespace B3d.Triangles

/-- `triangle_area` (`building3d/geom/triangles.py` L18-34). -/
noncomputable def triangleArea (pt1 pt2 pt3 : Vec3 ℝ) : ℝ :=
  let a := Vec3.norm (pt2 - pt1)
  let b := Vec3.norm (pt3 - pt2)
  let c := Vec3.norm (pt3 - pt1)
  let s := 1 / 2 * (a + b + c)
  Real.sqrt (s * (s - a) * (s - b) * (s - c) + EPSILON)

/-- `triangle_centroid` (`building3d/geom/triangles.py` L37-40). -/
def triangleCentroid {K : Type} [Field K] (pt1 pt2 pt3 : Vec3 K) : Vec3 K :=
  (1 / 3 : K) • (pt1 + pt2 + pt3)

/-- `tetrahedron_volume` (`building3d/geom/tetrahedrons.py` L9-34). -/
noncomputable def tetrahedronVolume (pt0 pt1 pt2 pt3 : Vec3 ℝ) : ℝ :=
  let a := Vec3.norm (pt1 - pt0)
  let b := Vec3.norm (pt2 - pt0)
  let c := Vec3.norm (pt3 - pt0)
  let d := Vec3.norm (pt2 - pt1)
  let e := Vec3.norm (pt3 - pt2)
  let f := Vec3.norm (pt3 - pt1)
  let x := b ^ 2 + c ^ 2 - e ^ 2
  let y := a ^ 2 + c ^ 2 - f ^ 2
  let z := a ^ 2 + b ^ 2 - d ^ 2
  let nominator :=
    4 * a ^ 2 * b ^ 2 * c ^ 2 - a ^ 2 * x ^ 2 - b ^ 2 * y ^ 2 - c ^ 2 * z ^ 2 + x * y * z
  Real.sqrt (nominator + EPSILON) / 12

/-- `tetrahedron_centroid` (`building3d/geom/tetrahedrons.py` L37-46). -/
def tetrahedronCentroid {K : Type} [Field K] (pt0 pt1 pt2 pt3 : Vec3 K) : Vec3 K :=
  (1 / 4 : K) • (pt0 + pt1 + pt2 + pt3)

open Classical in
/-- `is_point_on_same_side` (`building3d/geom/triangles.py` L43-81). -/
noncomputable def isPointOnSameSide (pt1 pt2 ptest ptref : Vec3 ℝ) (atol : ℝ := GEOM_ATOL) :
    Except PyErr Bool :=
  let vtest := Vec3.cross (pt2 - pt1) (ptest - pt1)
  let vref := Vec3.cross (pt2 - pt1) (ptref - pt1)
  let lenVtest := Vec3.norm vtest
  let lenVref := Vec3.norm vref
  if lenVref < atol then .error .geometryError
  else if lenVtest < atol then .ok false
  else .ok (decide (allClose ((1 / lenVtest) • vtest) ((1 / lenVref) • vref) NP_RTOL atol))

/-- `np.round(x, 8)` (`POINT_NUM_DEC`, `building3d/config.py` L19): to the nearest multiple of
`1e-8`, ties to even. -/
noncomputable def npRound (x : ℝ) : ℝ :=
  let y : ℝ := x * 10 ^ 8
  let f : ℤ := Int.floor y
  let r : ℤ := if y - f < 1 / 2 then f else if y - f > 1 / 2 then f + 1
    else if f % 2 = 0 then f else f + 1
  (r : ℝ) / 10 ^ 8

open Classical in
/-- The edge test inside the loop of `is_point_inside` (`building3d/geom/triangles.py` L113-130):
`none` if `ptest` is not collinear with the pair, otherwise the returned value. -/
noncomputable def edgeTest (ptest p0 p1 : Vec3 ℝ) (atol : ℝ) : Option Bool :=
  match Points.arePointsCollinear [p0, p1, ptest] atol with
  | .ok true =>
    let out (g : Vec3 ℝ → ℝ) : Prop :=
      npRound (g ptest) > max (npRound (g p0)) (npRound (g p1)) + atol ∨
      npRound (g ptest) < min (npRound (g p0)) (npRound (g p1)) - atol
    some (decide ¬ (out (·.x) ∨ out (·.y) ∨ out (·.z)))
  | _ => none

/-- `is_point_inside` of `building3d/geom/triangles.py` L84-141. -/
noncomputable def isPointInside (ptest pt1 pt2 pt3 : Vec3 ℝ) (atol : ℝ := GEOM_ATOL) :
    Except PyErr Bool := do
  let inBbox ← Bboxes.isPointInsideBbox ptest [pt1, pt2, pt3] (1 / 100)
  if !inBbox then return false
  if Points.pointsEqual ptest pt1 atol || Points.pointsEqual ptest pt2 atol ||
      Points.pointsEqual ptest pt3 atol then return true
  match edgeTest ptest pt1 pt2 atol with
  | some r => return r
  | none =>
  match edgeTest ptest pt2 pt3 atol with
  | some r => return r
  | none =>
  match edgeTest ptest pt3 pt1 atol with
  | some r => return r
  | none =>
  let side1 ← isPointOnSameSide pt1 pt2 ptest pt3 atol
  let side2 ← isPointOnSameSide pt2 pt3 ptest pt1 atol
  let side3 ← isPointOnSameSide pt3 pt1 ptest pt2 atol
  return (side1 && side2 && side3)

open Classical in
/-- `is_corner_convex` (`building3d/geom/triangles.py` L144-190).  The comparison with `vn` uses
`rtol=GEOM_RTOL` and NumPy's default `atol=1e-8`. -/
noncomputable def isCornerConvex (vn pt1 pt2 pt3 : Vec3 ℝ) (atol : ℝ := GEOM_ATOL) :
    Except PyErr Bool :=
  if ¬ |Vec3.norm vn - 1| < atol then .error .assertionError
  else
    let v1v2n := Vec3.cross (pt2 - pt1) (pt3 - pt2)
    let len := Vec3.norm v1v2n
    if len < atol then .ok false
    else .ok (decide (allClose ((1 / len) • v1v2n) vn GEOM_RTOL NP_ATOL))

/-! ## Ear clipping -/

/-- A triangle: the three point indices. -/
abbrev Tri := Nat × Nat × Nat

/-- Local variables of the `while` loop of `triangulate` (`building3d/geom/triangles.py`
L221-224). -/
structure State (α : Type) where
  vertices : List (Nat × α)
  triangles : List Tri
  pos : Nat
  numFail : Nat

/-- Outcome of one iteration of the loop. -/
inductive StepResult (α : Type) where
  /-- next iteration -/
  | cont (s : State α)
  /-- the loop condition failed, the function returns these triangles -/
  | finish (tri : List Tri)
  /-- try again with the reversed points -/
  | flip
  /-- exception -/
  | raise (e : PyErr)

/-- The `for` loop that looks for other points inside the ear
(`building3d/geom/triangles.py` L247-259); it does not stop at the first hit, so an exception in a
later test still surfaces. -/
def anyPointInside {α : Type} (inside : α → α → α → α → Except PyErr Bool) (pts : List α)
    (prevId currId nextId : Nat) : List (Nat × α) → Bool → Except PyErr Bool
  | [], found => .ok found
  | (testId, _) :: rest, found =>
    if testId ≠ prevId ∧ testId ≠ currId ∧ testId ≠ nextId then
      match pts[testId]?, pts[prevId]?, pts[currId]?, pts[nextId]? with
      | some t, some p, some c, some n =>
        match inside t p c n with
        | .error e => .error e
        | .ok r => anyPointInside inside pts prevId currId nextId rest (found || r)
      | _, _, _, _ => .error .indexError
    else anyPointInside inside pts prevId currId nextId rest found

/-- One iteration of the `while` loop of `triangulate` (`building3d/geom/triangles.py` L226-273).
`convex prev curr next` is `is_corner_convex(prev_pt, curr_pt, next_pt, vn)` and
`inside t p c n` is `is_point_inside`; the theorems quantify over every such pair of tests. -/
def step {α : Type} (convex : α → α → α → Except PyErr Bool)
    (inside : α → α → α → α → Except PyErr Bool) (pts : List α) (s : State α) : StepResult α :=
  if s.vertices.length > 2 then
    if s.numFail > pts.length then .flip
    else
      let pos := if s.pos > s.vertices.length - 1 then 0 else s.pos
      let prevPos := if pos > 0 then pos - 1 else s.vertices.length - 1
      let nextPos := if pos < s.vertices.length - 1 then pos + 1 else 0
      match s.vertices[prevPos]?, s.vertices[pos]?, s.vertices[nextPos]? with
      | some (prevId, prevPt), some (currId, currPt), some (nextId, nextPt) =>
        match convex prevPt currPt nextPt with
        | .error e => .raise e
        | .ok true =>
          match anyPointInside inside pts prevId currId nextId s.vertices false with
          | .error e => .raise e
          | .ok false =>
            .cont ⟨s.vertices.eraseIdx pos, s.triangles ++ [(prevId, currId, nextId)], pos,
              s.numFail⟩
          | .ok true => .cont ⟨s.vertices, s.triangles, pos + 1, s.numFail + 1⟩
        | .ok false => .cont ⟨s.vertices, s.triangles, pos + 1, s.numFail + 1⟩
      | _, _, _ => .raise .indexError
  else .finish s.triangles

/-- Iterating the loop body, with an explicit bound on the number of iterations (`none`: the
bound was too small).  Result of a finished loop: an exception, `none` for "flip and retry", or
the triangles. -/
def run {α : Type} (convex : α → α → α → Except PyErr Bool)
    (inside : α → α → α → α → Except PyErr Bool) (pts : List α) :
    Nat → State α → Option (Except PyErr (Option (List Tri)))
  | 0, _ => none
  | fuel + 1, s =>
    match step convex inside pts s with
    | .cont s' => run convex inside pts fuel s'
    | .finish tri => some (.ok (some tri))
    | .flip => some (.ok none)
    | .raise e => some (.error e)

/-- Initial state (`building3d/geom/triangles.py` L221-224). -/
def initState {α : Type} (pts : List α) : State α :=
  ⟨(List.range pts.length).zip pts, [], 0, 0⟩

/-- `triangulate` (`building3d/geom/triangles.py` L193-275) with `tries = 2 - num_try` tries left.
`zeroNormal` is the outcome of `np.isclose(norm(vn), 0)`; `fuel pts` bounds the loop iterations. -/
def triangulateTries {α : Type} (zeroNormal : Bool)
    (convex : α → α → α → Except PyErr Bool) (inside : α → α → α → α → Except PyErr Bool)
    (fuel : Nat) : Nat → List α → Option (Except PyErr (List α × List Tri))
  | 0, _ => some (.error .triangulationError)
  | tries + 1, pts =>
    if zeroNormal then some (.error .triangulationError)
    else
      match run convex inside pts fuel (initState pts) with
      | none => none
      | some (.error e) => some (.error e)
      | some (.ok (some tri)) => some (.ok (pts, tri))
      | some (.ok none) => triangulateTries zeroNormal convex inside fuel tries pts.reverse

open Classical in
/-- `triangulate(pts, vn)` with the actual tests, over the reals. -/
noncomputable def triangulate (fuel : Nat) (pts : List (Vec3 ℝ)) (vn : Vec3 ℝ) :
    Option (Except PyErr (List (Vec3 ℝ) × List Tri)) :=
  triangulateTries (decide (isClose (Vec3.norm vn) 0 NP_RTOL NP_ATOL))
    (fun p c n => isCornerConvex vn p c n) (fun t p c n => isPointInside t p c n) fuel 2 pts

end B3d.Triangles

namespace B3d.Triangles

/-- The two arrays filled by the first loop of `polygon_centroid`
(`building3d/geom/polygon/centroid.py` L18-26): triangle centroids and weights (areas). -/
noncomputable def centroidTerms (pts : List (Vec3 ℝ)) :
    List Tri → Except PyErr (List (Vec3 ℝ × ℝ))
  | [] => .ok []
  | (i, j, k) :: rest =>
    match pts[i]?, pts[j]?, pts[k]? with
    | some a, some b, some c =>
      match centroidTerms pts rest with
      | .ok l => .ok ((triangleCentroid a b c, triangleArea a b c) :: l)
      | .error e => .error e
    | _, _, _ => .error .indexError

/-- `polygon_centroid` (`building3d/geom/polygon/centroid.py` L10-34).  The weighted sum is not
divided by the sum of the weights, exactly as in the code. -/
noncomputable def polygonCentroid (pts : List (Vec3 ℝ)) (tri : List Tri) :
    Except PyErr (Vec3 ℝ) :=
  if tri.length = 0 then .error .assertionError
  else
    match centroidTerms pts tri with
    | .error e => .error e
    | .ok terms => .ok (terms.foldl (fun ctr t => ctr + t.2 • t.1) 0)

end B3d.Triangles
