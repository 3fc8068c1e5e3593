import Verif.Spec.Planar

/-!
# Specification of chords

A straight line across a convex outline.  Independent of the model.
-/

namespace B3d.Spec

/-- The point with the parameter `k` on the line from `a` to `b`. -/
def lerp (a b : ℝ × ℝ) (k : ℝ) : ℝ × ℝ := (a.1 + k * (b.1 - a.1), a.2 + k * (b.2 - a.2))

/-- The side number `i` of the closed outline goes from `a` to `b`. -/
def Side (pts : List (ℝ × ℝ)) (i : Nat) (a b : ℝ × ℝ) : Prop :=
  pts[i]? = some a ∧ pts[(i + 1) % pts.length]? = some b

/-- The point is on the closed outline, at a corner or on a side. -/
def AtOutline (pts : List (ℝ × ℝ)) (p : ℝ × ℝ) : Prop :=
  ∃ i a b k, Side pts i a b ∧ 0 ≤ k ∧ k ≤ 1 ∧ p = lerp a b k

/-- A convex outline which runs counter-clockwise, without three corners on a line. -/
structure ConvexCorners (pts : List (ℝ × ℝ)) : Prop where
  corners : 3 ≤ pts.length
  turns : ∀ a b c, List.Sublist [a, b, c] pts → 0 < signedArea a b c

/-- The points `x` and `y` are on the outline, and no side has both of them on it. -/
structure Chord (pts : List (ℝ × ℝ)) (x y : ℝ × ℝ) : Prop where
  start : AtOutline pts x
  finish : AtOutline pts y
  across : ∀ i a b, Side pts i a b → signedArea a b x ≠ 0 ∨ signedArea a b y ≠ 0

/-- The line from `p` to `q` comes into the outline at `x` and leaves it at `y`; it may start at `x` and end at `y`. -/
def Through (pts : List (ℝ × ℝ)) (p q x y : ℝ × ℝ) : Prop :=
  Chord pts x y ∧ ∃ k l, 0 ≤ k ∧ k < l ∧ l ≤ 1 ∧ x = lerp p q k ∧ y = lerp p q l

end B3d.Spec
