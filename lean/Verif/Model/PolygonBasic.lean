import Verif.Model.PyErr
import Verif.Model.Vec3
import Verif.Model.NumpyClose

/-!
# Polygon edges, area and plane

`building3d/geom/polygon/edges.py`, `area.py`, `plane.py`, `building3d/geom/vectors.py`.
-/

namespace B3d.Polygon

/-- The `while` loop of `polygon_edges` (`building3d/geom/polygon/edges.py` L23-33).  `j` is the
write position in the current edge (`false` = 0, `true` = 1), `edge` is the two-row work array. -/
def edgesLoop {α : Type} (pts : List α) (i : Nat) (j : Bool) (edge : α × α)
    (acc : List (α × α)) : (α × α) × List (α × α) :=
  if h : i < pts.length then
    if j then
      -- edge[1] = pts[i]; i += 1; j == 2: append a copy, i -= 1, j = 0
      let edge := (edge.1, pts[i])
      edgesLoop pts i false edge (acc ++ [edge])
    else
      -- edge[0] = pts[i]; i += 1; j = 1
      edgesLoop pts (i + 1) true (pts[i], edge.2) acc
  else
    (edge, acc)
termination_by 2 * (pts.length - i) + j.toNat
decreasing_by
  · simp_all
  · simp_all only [Bool.not_eq_true, Bool.toNat_true, Bool.toNat_false]; omega

/-- `polygon_edges` (`building3d/geom/polygon/edges.py` L8-44).  `zero` is the row of
`np.zeros`, used as the initial content of the work array.  For an empty array `pts[-1]` is out
of range (`IndexError`; numba does not check it). -/
def polygonEdges {α : Type} (zero : α) (pts : List α) : Except PyErr (List (α × α)) :=
  let r := edgesLoop pts 0 false (zero, zero) []
  match pts.getLast?, pts.head? with
  | some l, some h => .ok (r.2 ++ [(l, h)])
  | _, _ => .error .indexError

section
variable {K : Type} [Field K] [LinearOrder K]

/-- The loop of `polygon_area` (`building3d/geom/polygon/area.py` L24-33): the sum over `i` of
`cross(pts[i], pts[i + 1])`, with `pts[0]` after the last point. -/
def areaTotal (pts : List (Vec3 K)) : Vec3 K :=
  (List.range pts.length).foldl (fun total i =>
    match pts[i]?, (if i = pts.length - 1 then pts[0]? else pts[i + 1]?) with
    | some pt1, some pt2 => total + Vec3.cross pt1 pt2
    | _, _ => total) 0

/-- `polygon_area` (`building3d/geom/polygon/area.py` L9-38). -/
def polygonArea (pts : List (Vec3 K)) (vn : Vec3 K) : K :=
  if pts.length < 3 then 0 else |Vec3.dot (areaTotal pts) vn / 2|

/-- `projection_coefficients` (`building3d/geom/polygon/plane.py` L10-22). -/
def projectionCoefficients (pt vn : Vec3 K) : K × K × K × K :=
  (vn.x, vn.y, vn.z, -1 * Vec3.dot vn pt)

end

/-- `normal` (`building3d/geom/vectors.py` L15-27), over the reals.  `none` stands for the vector
of NaNs; `np.isclose(len_vn, 0)` is `|len_vn - 0| ≤ 1e-8`. -/
noncomputable def normal (pt0 pt1 pt2 : Vec3 ℝ) : Option (Vec3 ℝ) :=
  let vn := Vec3.cross (pt1 - pt0) (pt2 - pt0)
  let len := Vec3.norm vn
  if isClose len 0 NP_RTOL NP_ATOL then none else some ((1 / len) • vn)

/-- `plane_coefficients` (`building3d/geom/polygon/plane.py` L25-33).  `none`: NaN normal. -/
noncomputable def planeCoefficients (pts : List (Vec3 ℝ)) :
    Except PyErr (Option (ℝ × ℝ × ℝ × ℝ)) :=
  match pts.getLast?, pts[0]?, pts[1]? with
  | some l, some p0, some p1 =>
    .ok ((normal l p0 p1).map fun vn => projectionCoefficients p0 vn)
  | _, _, _ => .error .indexError

end B3d.Polygon
