import Verif.Spec.Chord
import Verif.Spec.Region

/-!
# Specification vocabulary for pairs of polygons

Independent of the model.
-/

namespace B3d.Spec

/-- `x` is in the polygon and not on its outline. -/
def Inner (pts : List (Vec3 ℝ)) (tri : List (Nat × Nat × Nat)) (x : Vec3 ℝ) : Prop :=
  Region pts tri x ∧ ¬ OnOutline pts x

/-- `x` is one of the points which divide an edge of the closed outline into `n` equal parts, or an end of the edge. -/
def EdgePoint (n : Nat) (pts : List (Vec3 ℝ)) (x : Vec3 ℝ) : Prop :=
  ∃ e ∈ cycEdges pts, ∃ j : Nat, j ≤ n ∧ x = e.1 + ((j : ℝ) / n) • (e.2 - e.1)

/-- The same for an outline drawn in a plane. -/
def SidePoint (n : Nat) (pts : List (ℝ × ℝ)) (x : ℝ × ℝ) : Prop :=
  ∃ i a b, Side pts i a b ∧ ∃ j : Nat, j ≤ n ∧ x = lerp a b ((j : ℝ) / n)

/-- Two edges without a common end and with different directions meet. -/
def EdgesMeet (e f : Vec3 ℝ × Vec3 ℝ) : Prop :=
  e.1 ≠ f.1 ∧ e.1 ≠ f.2 ∧ e.2 ≠ f.1 ∧ e.2 ≠ f.2 ∧ Vec3.cross (e.2 - e.1) (f.2 - f.1) ≠ 0 ∧
    ∃ x, OnSegment e.1 e.2 x ∧ OnSegment f.1 f.2 x

end B3d.Spec
