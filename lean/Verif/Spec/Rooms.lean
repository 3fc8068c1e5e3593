import Verif.Model.Vec3
import Mathlib.Data.Real.Basic

/-!
# Specification vocabulary for rooms

A room is a box with edges along the axes, given by two opposite corners.
-/

namespace B3d.Spec

/-- The three axes. -/
inductive Axis where
  | x | y | z
  deriving DecidableEq

/-- The coordinate of a point along an axis. -/
def coord : Axis → Vec3 ℝ → ℝ
  | .x, p => p.x
  | .y, p => p.y
  | .z, p => p.z

/-- A room: the corner with the smallest coordinates, and the opposite one. -/
structure Room where
  lo : Vec3 ℝ
  hi : Vec3 ℝ

/-- The two coordinates of the walls of a room along an axis. -/
def Room.side (r : Room) (a : Axis) (far : Bool) : ℝ := if far then coord a r.hi else coord a r.lo

/-- The eight corners of a room. -/
def Room.IsCorner (r : Room) (p : Vec3 ℝ) : Prop := ∀ a, ∃ far, coord a p = r.side a far

/-- A point of the room, the walls included. -/
def Room.Contains (r : Room) (p : Vec3 ℝ) : Prop := ∀ a, coord a r.lo ≤ coord a p ∧ coord a p ≤ coord a r.hi

/-- Two rooms which have at most walls in common. -/
def Room.Separate (r s : Room) : Prop := ∃ a, coord a r.hi ≤ coord a s.lo ∨ coord a s.hi ≤ coord a r.lo

/-- Walls of two rooms which are not in the same plane are further apart than the tolerance of the comparison of
points, a hundred thousandth of the coordinate. -/
def Room.ToldApart (r s : Room) : Prop :=
  ∀ a f g, r.side a f = s.side a g ∨ |s.side a g| / 10 ^ 5 + 1 / 10 ^ 13 < |r.side a f - s.side a g|

end B3d.Spec
