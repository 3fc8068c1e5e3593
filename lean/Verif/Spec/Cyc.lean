import Mathlib.Algebra.Group.Defs
import Mathlib.Algebra.Group.Basic

/-!
# Sums over the edges of open and closed polylines

Specification vocabulary, independent of the model: `pathSum f l` adds `f a b` over consecutive
elements `a, b` of `l`; `cycSum f l` also closes the polyline from the last element to the first.
-/

namespace B3d.Spec

/-- Sum of `f a b` over consecutive elements of a list. -/
def pathSum {α G : Type} [AddCommGroup G] (f : α → α → G) : List α → G
  | [] => 0
  | [_] => 0
  | a :: b :: t => f a b + pathSum f (b :: t)

/-- Sum of `f a b` over the edges of the closed outline through the elements of the list. -/
def cycSum {α G : Type} [AddCommGroup G] (f : α → α → G) : List α → G
  | [] => 0
  | a :: t => pathSum f (a :: t ++ [a])

/-- The directed edges of the closed outline through the elements of a list. -/
def cycEdges {α : Type} : List α → List (α × α)
  | [] => []
  | a :: t => List.zip (a :: t) (t ++ [a])

end B3d.Spec
