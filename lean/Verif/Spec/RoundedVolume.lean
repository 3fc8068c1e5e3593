import Verif.Model.Vec3
import Verif.Spec.Rounded

/-!
# Specification vocabulary for volumes with rounding

Independent of the model.  A face is its points, its normal vector and its triangles, as indices of points.
-/

namespace B3d.Spec

/-- The volume of the tetrahedron with the corners `0`, `p1`, `p2`, `p3`, negative if the triangle is seen running
clockwise from outside. -/
noncomputable def coneOver (p1 p2 p3 : Vec3 ℝ) : ℝ := Vec3.dot p1 (Vec3.cross p2 p3) / 6

/-- A triangle with a normal vector that rounding does not disturb: it runs counter-clockwise around `n`, the stored vector
`v` differs from `n` by at most `1e-13`, the triangle and the origin are within a ball-like region of size `R`, and the
tetrahedron over it is not flat: its volume is at least `t * R ^ 3`. -/
structure Solidly (R t : ℝ) (v p1 p2 p3 : Vec3 ℝ) : Prop where
  facing : ∃ (n : Vec3 ℝ) (k : ℝ), Vec3.norm n = 1 ∧ WithinBy (1 / 10 ^ 13) v n ∧ 0 < k ∧ Vec3.cross (p2 - p1) (p3 - p1) = k • n
  near1 : Vec3.norm p1 ≤ R
  near2 : Vec3.norm p2 ≤ R
  near3 : Vec3.norm p3 ≤ R
  near12 : Vec3.norm (p2 - p1) ≤ R
  near13 : Vec3.norm (p3 - p1) ≤ R
  near23 : Vec3.norm (p3 - p2) ≤ R
  thick : t * R ^ 3 ≤ |coneOver p1 p2 p3|

/-- Every triangle of the face is one that rounding does not disturb. -/
def SolidFace (R t : ℝ) (f : List (Vec3 ℝ) × Vec3 ℝ × List (Nat × Nat × Nat)) : Prop :=
  ∀ i j k, (i, j, k) ∈ f.2.2 → ∃ p1 p2 p3, f.1[i]? = some p1 ∧ f.1[j]? = some p2 ∧ f.1[k]? = some p3 ∧
    Solidly R t f.2.1 p1 p2 p3

/-- The sum of the volumes over the triangles of one face. -/
noncomputable def faceVolume (f : List (Vec3 ℝ) × Vec3 ℝ × List (Nat × Nat × Nat)) : ℝ :=
  (f.2.2.map fun t => coneOver (f.1.getD t.1 0) (f.1.getD t.2.1 0) (f.1.getD t.2.2 0)).sum

/-- The volume enclosed by the faces, positive if they all run counter-clockwise as seen from outside. -/
noncomputable def enclosedVolume (faces : List (List (Vec3 ℝ) × Vec3 ℝ × List (Nat × Nat × Nat))) : ℝ :=
  (faces.map faceVolume).sum

/-- The number of triangles of all faces. -/
def triangleCount (faces : List (List (Vec3 ℝ) × Vec3 ℝ × List (Nat × Nat × Nat))) : Nat :=
  (faces.map fun f => f.2.2.length).sum

/-- One direction of a box, from `c` to `c + x`: it is on one side of the plane through the origin, at least `h` away from
it, within `M` of it, and between `m` and `49 * m` long. -/
structure Aside (m M h c x : ℝ) : Prop where
  long : m ≤ x
  short : x ≤ 49 * m
  near : |c| ≤ M ∧ |c + x| ≤ M
  side : h ≤ c ∨ c + x ≤ -h

end B3d.Spec
