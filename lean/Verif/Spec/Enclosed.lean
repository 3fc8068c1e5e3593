import Verif.Spec.Region

/-!
# Specification vocabulary: what a surface made of triangles encloses

Independent of the model.  A point off the surface is enclosed if every ray from it that meets no edge crosses an odd
number of triangles.
-/

namespace B3d.Spec

/-- The triangles of a polygon, as points. -/
def trianglesOf (pts : List (Vec3 ℝ)) (tri : List (Nat × Nat × Nat)) : List (Vec3 ℝ × Vec3 ℝ × Vec3 ℝ) :=
  tri.filterMap fun t => match pts[t.1]?, pts[t.2.1]?, pts[t.2.2]? with
    | some a, some b, some c => some (a, b, c)
    | _, _, _ => none

/-- `x` lies in none of the triangles. -/
def OffSurface (ts : List (Vec3 ℝ × Vec3 ℝ × Vec3 ℝ)) (x : Vec3 ℝ) : Prop :=
  ∀ t ∈ ts, ¬ InTriangle t.1 t.2.1 t.2.2 x

/-- The ray from `x` in the direction `u` meets no edge of a triangle. -/
def ClearRay (ts : List (Vec3 ℝ × Vec3 ℝ × Vec3 ℝ)) (x u : Vec3 ℝ) : Prop :=
  u ≠ 0 ∧ ∀ t ∈ ts, ∀ s : ℝ, 0 ≤ s → ¬ OnSegment t.1 t.2.1 (x + s • u) ∧ ¬ OnSegment t.2.1 t.2.2 (x + s • u) ∧
    ¬ OnSegment t.2.2 t.1 (x + s • u)

/-- The ray from `x` in the direction `u` crosses the triangle. -/
def Crosses (x u : Vec3 ℝ) (t : Vec3 ℝ × Vec3 ℝ × Vec3 ℝ) : Prop :=
  ∃ s : ℝ, 0 < s ∧ InsideTriangle t.1 t.2.1 t.2.2 (x + s • u)

open Classical in
/-- The number of triangles crossed by the ray. -/
noncomputable def crossings (ts : List (Vec3 ℝ × Vec3 ℝ × Vec3 ℝ)) (x u : Vec3 ℝ) : ℕ :=
  ts.countP fun t => Crosses x u t

/-- Every ray from `x` that meets no edge crosses an odd number of triangles. -/
def Enclosed (ts : List (Vec3 ℝ × Vec3 ℝ × Vec3 ℝ)) (x : Vec3 ℝ) : Prop :=
  ∀ u, ClearRay ts x u → Odd (crossings ts x u)

end B3d.Spec
