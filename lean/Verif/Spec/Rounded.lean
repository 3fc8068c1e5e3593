import Verif.Spec.Planar

/-!
# Specification vocabulary for outlines that rounding does not disturb

Independent of the model.
-/

namespace B3d.Spec

/-- The plane with the axes `u` and `w` is parallel to two coordinate axes. -/
def AxisPlane (u w : Vec3 ℝ) : Prop := (u.x = 0 ∧ w.x = 0) ∨ (u.y = 0 ∧ w.y = 0) ∨ (u.z = 0 ∧ w.z = 0)

/-- The three points are on a line parallel to a coordinate axis. -/
def AxisLine (p q r : Vec3 ℝ) : Prop :=
  (p.y = q.y ∧ q.y = r.y ∧ p.z = q.z ∧ q.z = r.z) ∨ (p.x = q.x ∧ q.x = r.x ∧ p.z = q.z ∧ q.z = r.z) ∨
    (p.x = q.x ∧ q.x = r.x ∧ p.y = q.y ∧ q.y = r.y)

/-- Three different corners of the outline that are on a line are on a line parallel to a coordinate axis. -/
def StraightOnAxes (o u w : Vec3 ℝ) (pts : List (ℝ × ℝ)) : Prop :=
  ∀ a ∈ pts, ∀ b ∈ pts, ∀ c ∈ pts, a ≠ b → b ≠ c → a ≠ c → signedArea a b c = 0 →
    AxisLine (inPlane o u w a) (inPlane o u w b) (inPlane o u w c)

/-- The components of two vectors differ by at most `d`. -/
def WithinBy (d : ℝ) (v w : Vec3 ℝ) : Prop := |v.x - w.x| ≤ d ∧ |v.y - w.y| ≤ d ∧ |v.z - w.z| ≤ d

/-- The components are at most `R`. -/
def Bounded (R : ℝ) (v : Vec3 ℝ) : Prop := |v.x| ≤ R ∧ |v.y| ≤ R ∧ |v.z| ≤ R

end B3d.Spec
