import Verif.Spec.Region
import Mathlib.Data.List.Rotate

/-!
# Specification of slicing

What it means that a line cuts a closed outline into two.  Independent of the model.
-/

namespace B3d.Spec

/-- Both lists go through the same points in the same cyclic order, in the same or the opposite direction. -/
def SameOutline {α : Type} (p q : List α) : Prop := p ~r q ∨ p.reverse ~r q

/-- The closed outline `outline` is cut along the polyline `s`, which goes from one of its points `x` to another one,
`y`: the first part follows the outline from `x` to `y` and goes back along the polyline, the second part follows the
outline from `y` to `x` and goes along the polyline.  So the polyline is in both parts, once in each direction, and every
edge of the outline is in exactly one of them. -/
def CutAlong {α : Type} (outline s part1 part2 : List α) : Prop :=
  ∃ (x y : α) (F G M : List α), s = x :: M ++ [y] ∧ outline ~r x :: F ++ y :: G ∧
    part1 ~r x :: F ++ y :: M.reverse ∧ part2 ~r y :: G ++ x :: M

section
variable {K : Type} [Field K] [LinearOrder K]

/-- The same closed outline, with points on its edges added as corners. -/
inductive Subdivides (pts : List (Vec3 K)) : List (Vec3 K) → Prop
  | rotate {q : List (Vec3 K)} : pts ~r q → Subdivides pts q
  | insert {a b s : Vec3 K} {r q : List (Vec3 K)} :
      Subdivides pts (a :: b :: r) → OnSegment a b s → a :: s :: b :: r ~r q → Subdivides pts q

/-- The polygon `pts` is cut by the polyline `s` into the parts `pts1` and `pts2` (in either direction, and in either
order): the ends of the polyline are corners of the outline or points on its edges. -/
def Cuts (pts s pts1 pts2 : List (Vec3 K)) : Prop :=
  ∃ outline part1 part2, Subdivides pts outline ∧ CutAlong outline s part1 part2 ∧
    ((SameOutline pts1 part1 ∧ SameOutline pts2 part2) ∨ (SameOutline pts1 part2 ∧ SameOutline pts2 part1))

end

end B3d.Spec
