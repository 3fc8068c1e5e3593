import Verif.Spec.Sim
import Verif.Spec.Region

/-!
# Specification vocabulary for rays and walls

Numbers are real.  A wall is a polygon which is not transparent; what it covers is a set of points.
-/

namespace B3d.Sim

/-- What the arguments of the simulation have to do with each other: the grid is the one made for the polygons, the
box contains them, the normals have length one. -/
structure Scene (P : Params ℝ) (polys : List (List (Vec3 ℝ))) : Prop where
  grid : ∃ eps, 0 ≤ eps ∧ makeVoxelGrid P.lo P.hi polys P.gridStep eps = .ok P.grid
  within : ∀ pts ∈ polys, Within P.lo P.hi pts
  set : IteratesSet P.setIter
  normals : ∀ k, Vec3.normSq (P.geo.vn k) = 1
  gridStep : 0 < P.gridStep
  raySpeed : 0 ≤ P.raySpeed
  timeStep : 0 < P.timeStep
  eps : 0 ≤ P.eps

/-- `x` is a point of the polygon number `k`, which is not transparent. -/
def OnWall (P : Params ℝ) (polys : List (List (Vec3 ℝ))) (region : Nat → Vec3 ℝ → Prop) (k : Nat) (x : Vec3 ℝ) : Prop :=
  (∃ pts, polys[k]? = some pts ∧ PointOf pts x) ∧ (k : Int) ∉ P.trans ∧ region k x

/-- The ray from `p` with velocity `v` comes to the point `x` of the polygon `k`, and the tests of the simulation notice
it: the ray hits the polygon, and the distance of the polygon is not more than that of the point. -/
def Noticed (geo : Geo ℝ) (p v : Vec3 ℝ) (k : Nat) (x : Vec3 ℝ) : Prop :=
  geo.hit p v k = true ∧ geo.dist p k ≤ Vec3.norm (x - p)

/-- The tests of the simulation are right about the polygon: they notice every point of it that a ray comes to. -/
def Reliable (geo : Geo ℝ) (region : Nat → Vec3 ℝ → Prop) (k : Nat) : Prop :=
  ∀ (p v : Vec3 ℝ) (s : ℝ), 0 ≤ s → region k (p + s • v) → Noticed geo p v k (p + s • v)

/-- The walls close the room: every straight way out of it meets one of them. -/
def Closes (room : Vec3 ℝ → Prop) (wall : Nat → Vec3 ℝ → Prop) : Prop :=
  ∀ p q, room p → ¬ room q → ∃ x k, Spec.OnSegment p q x ∧ wall k x

end B3d.Sim
