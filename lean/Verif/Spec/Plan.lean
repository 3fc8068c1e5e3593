import Verif.Model.Vec3
import Verif.Spec.Cyc
import Verif.Spec.Solid
import Mathlib.Analysis.SpecialFunctions.Trigonometric.Basic

/-!
# Specification vocabulary for floor plans

A plan is a list of points in the plane; independent of the model.
-/

namespace B3d.Spec

/-- The product of two vectors of the plane. -/
def cross2 (p q : ℝ × ℝ) : ℝ := p.1 * q.2 - p.2 * q.1

/-- Twice the signed area of a plan (shoelace formula), positive if it runs counter-clockwise. -/
def area2 (plan : List (ℝ × ℝ)) : ℝ := cycSum cross2 plan

/-- The turn at `q` on the way from `p` to `r`: positive to the left. -/
def turn (p q r : ℝ × ℝ) : ℝ := cross2 (q - p) (r - q)

/-- A point of the plan at height `z`. -/
def level (z : ℝ) (p : ℝ × ℝ) : Vec3 ℝ := ⟨p.1, p.2, z⟩

/-- The outline of the wall over the edge from `e.1` to `e.2`. -/
def side (z0 z1 : ℝ) (e : (ℝ × ℝ) × (ℝ × ℝ)) : List (Vec3 ℝ) :=
  [level z0 e.1, level z0 e.2, level z1 e.2, level z1 e.1]

/-- The outlines of the faces over a plan, from the height `z0` to `z1`: walls, floor, ceiling; seen from
outside they run counter-clockwise if the plan does. -/
def prism (z0 z1 : ℝ) (plan : List (ℝ × ℝ)) : List (List (Vec3 ℝ)) :=
  (cycEdges plan).map (side z0 z1) ++ [(plan.map (level z0)).reverse, plan.map (level z1)]

/-- The unit vector to the right of the edge. -/
noncomputable def rightNormal (e : (ℝ × ℝ) × (ℝ × ℝ)) : Vec3 ℝ :=
  (1 / Vec3.norm (⟨e.2.2 - e.1.2, -(e.2.1 - e.1.1), 0⟩ : Vec3 ℝ)) • ⟨e.2.2 - e.1.2, -(e.2.1 - e.1.1), 0⟩

/-- Turning by an angle and moving. -/
noncomputable def place (phi : ℝ) (t : Vec3 ℝ) (p : ℝ × ℝ) : ℝ × ℝ :=
  (Real.cos phi * p.1 - Real.sin phi * p.2 + t.x, Real.sin phi * p.1 + Real.cos phi * p.2 + t.y)

end B3d.Spec
