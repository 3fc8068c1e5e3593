import Verif.Model.Vec3
import Verif.Spec.Cyc

/-!
# Specification vocabulary for points and polygons

Triangles, the region covered by the triangles of a polygon, its outline, and the winding number of the
outline around a point.  Independent of the model.
-/

namespace B3d.Spec

section
variable {K : Type} [Field K] [LinearOrder K]

/-- `x` lies in the (closed) triangle. -/
def InTriangle (a b c x : Vec3 K) : Prop :=
  ∃ r s t : K, 0 ≤ r ∧ 0 ≤ s ∧ 0 ≤ t ∧ r + s + t = 1 ∧ x = r • a + s • b + t • c

/-- `x` lies in the triangle, on none of its edges. -/
def InsideTriangle (a b c x : Vec3 K) : Prop :=
  ∃ r s t : K, 0 < r ∧ 0 < s ∧ 0 < t ∧ r + s + t = 1 ∧ x = r • a + s • b + t • c

/-- The three points with the numbers of a triangle satisfy `R`. -/
def TriangleWith (pts : List (Vec3 K)) (t : Nat × Nat × Nat) (R : Vec3 K → Vec3 K → Vec3 K → Prop) : Prop :=
  ∃ a b c, pts[t.1]? = some a ∧ pts[t.2.1]? = some b ∧ pts[t.2.2]? = some c ∧ R a b c

/-- `x` lies in one of the triangles. -/
def Region (pts : List (Vec3 K)) (tri : List (Nat × Nat × Nat)) (x : Vec3 K) : Prop :=
  ∃ t ∈ tri, TriangleWith pts t fun a b c => InTriangle a b c x

/-- `x` lies on the segment from `p` to `q`. -/
def OnSegment (p q x : Vec3 K) : Prop := ∃ t : K, 0 ≤ t ∧ t ≤ 1 ∧ x = p + t • (q - p)

/-- `x` lies on the closed outline through the points. -/
def OnOutline (pts : List (Vec3 K)) (x : Vec3 K) : Prop :=
  ∃ e ∈ cycEdges pts, OnSegment e.1 e.2 x

/-- How the edge from `p` to `q` crosses the ray from `x` in the direction `u`, in a plane with normal `n`:
`1` from right to left of the ray, `-1` from left to right, `0` not at all. -/
def crossing (n u x p q : Vec3 K) : ℤ :=
  let height (r : Vec3 K) : K := Vec3.dot (Vec3.cross n u) (r - x)
  let side : K := Vec3.dot n (Vec3.cross (q - p) (x - p))
  if height p ≤ 0 ∧ 0 < height q ∧ 0 < side then 1
  else if height q ≤ 0 ∧ 0 < height p ∧ side < 0 then -1
  else 0

/-- How many times the outline runs around `x`, counter-clockwise as seen from the tip of `n`, counted on the
ray in the direction `u`. -/
def winding (n u x : Vec3 K) (pts : List (Vec3 K)) : ℤ :=
  ((cycEdges pts).map fun e => crossing n u x e.1 e.2).sum

end

/-- Every point of the line through `p` and `q` is at least `d` away from `x`. -/
def AwayFromLine (p q x : Vec3 ℝ) (d : ℝ) : Prop := ∀ t : ℝ, d ≤ Vec3.norm (x - (p + t • (q - p)))

/-- `x` lies in the triangle, at least a micrometre and at least `1 / 10000` of the longest edge away from the
lines through its edges. -/
def WellInside (a b c x : Vec3 ℝ) : Prop :=
  InTriangle a b c x ∧ ∃ D : ℝ, Vec3.norm (b - a) ≤ D ∧ Vec3.norm (c - b) ≤ D ∧ Vec3.norm (a - c) ≤ D ∧
    AwayFromLine a b x (max (1 / 10 ^ 6) (1 / 10 ^ 4 * D)) ∧
    AwayFromLine b c x (max (1 / 10 ^ 6) (1 / 10 ^ 4 * D)) ∧
    AwayFromLine c a x (max (1 / 10 ^ 6) (1 / 10 ^ 4 * D))

/-- `x` lies on the edge from `a` to `b` of the triangle, at least a micrometre and at least `1 / 10000` of the longest
edge away from the lines through the other two edges. -/
def WellOnEdge (a b c x : Vec3 ℝ) : Prop :=
  OnSegment a b x ∧ ∃ D : ℝ, Vec3.norm (b - a) ≤ D ∧ Vec3.norm (c - b) ≤ D ∧ Vec3.norm (a - c) ≤ D ∧
    AwayFromLine b c x (max (1 / 10 ^ 6) (1 / 10 ^ 4 * D)) ∧
    AwayFromLine c a x (max (1 / 10 ^ 6) (1 / 10 ^ 4 * D))

/-- The points visibly span a plane: some three successive points span a triangle of twice the area `1e-8`, and
some two successive points are not seen from the first one in (almost) the same or opposite directions. -/
def SpansPlane (pts : List (Vec3 ℝ)) : Prop :=
  (∃ (k : Nat) (a b c : Vec3 ℝ), pts[k]? = some a ∧ pts[k + 1]? = some b ∧ pts[k + 2]? = some c ∧
    1 / 10 ^ 8 < Vec3.norm (Vec3.cross (b - a) (c - a))) ∧
  ∃ (k : Nat) (o a b : Vec3 ℝ), pts[0]? = some o ∧ pts[k + 1]? = some a ∧ pts[k + 2]? = some b ∧
    1 / 10 ^ 11 ≤ Vec3.norm (a - o) ∧ 1 / 10 ^ 11 ≤ Vec3.norm (b - o) ∧
    Vec3.dot (a - o) (b - o) ^ 2 ≤ (1 - 4 / 10 ^ 9) * (Vec3.normSq (a - o) * Vec3.normSq (b - o))

/-- `x` is no further than `d` from a point of the set. -/
def Near (S : Vec3 ℝ → Prop) (x : Vec3 ℝ) (d : ℝ) : Prop := ∃ y, S y ∧ Vec3.norm (x - y) ≤ d

/-- `w` is the unit normal of the first corner, by the right-hand rule from the edge that ends there to the edge that
starts there; the corner is not straight. -/
def CornerNormal (pts : List (Vec3 ℝ)) (w : Vec3 ℝ) : Prop :=
  Vec3.norm w = 1 ∧ ∃ l o q : Vec3 ℝ, pts.getLast? = some l ∧ pts[0]? = some o ∧ pts[1]? = some q ∧
    1 / 10 ^ 8 < Vec3.norm (Vec3.cross (o - l) (q - l)) ∧
    Vec3.cross (o - l) (q - l) = Vec3.norm (Vec3.cross (o - l) (q - l)) • w

end B3d.Spec
