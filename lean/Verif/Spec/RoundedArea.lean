import Verif.Model.Vec3
import Verif.Spec.Rounded

/-!
# Specification vocabulary for areas and centroids with rounding

Independent of the model.  Triangles are given by indices of points.
-/

namespace B3d.Spec

/-- The area of a triangle. -/
noncomputable def areaOf (p1 p2 p3 : Vec3 ℝ) : ℝ := Vec3.norm (Vec3.cross (p2 - p1) (p3 - p1)) / 2

/-- A triangle within `R` of the origin, with sides of at most `R` and an area of at least `t * R ^ 2`. -/
structure Plump (R t : ℝ) (p1 p2 p3 : Vec3 ℝ) : Prop where
  near1 : Vec3.norm p1 ≤ R
  near2 : Vec3.norm p2 ≤ R
  near3 : Vec3.norm p3 ≤ R
  near12 : Vec3.norm (p2 - p1) ≤ R
  near23 : Vec3.norm (p3 - p2) ≤ R
  near13 : Vec3.norm (p3 - p1) ≤ R
  large : t * R ^ 2 ≤ areaOf p1 p2 p3

/-- The sum of the centres of the triangles, each times the area of the triangle. -/
noncomputable def weightedCentres (pts : List (Vec3 ℝ)) (tri : List (Nat × Nat × Nat)) : Vec3 ℝ :=
  (tri.map fun t => (areaOf (pts.getD t.1 0) (pts.getD t.2.1 0) (pts.getD t.2.2 0) / 3) •
    (pts.getD t.1 0 + pts.getD t.2.1 0 + pts.getD t.2.2 0)).sum

end B3d.Spec
