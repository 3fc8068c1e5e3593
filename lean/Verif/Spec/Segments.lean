import Verif.Spec.Chord

/-!
# Specification of segments in a plane

What it means that segments meet and that a segment is in the way.  Independent of the model.
-/

namespace B3d.Spec

/-- `z` is on the segment from `p` to `q` and on the segment from `a` to `b`; the ends belong to the segments. -/
def Common (p q a b z : ℝ × ℝ) : Prop :=
  ∃ s t : ℝ, 0 ≤ s ∧ s ≤ 1 ∧ 0 ≤ t ∧ t ≤ 1 ∧ z = lerp p q s ∧ z = lerp a b t

/-- `a` and `b` are on the line through `p` and `q`. -/
def OneLine (p q a b : ℝ × ℝ) : Prop := signedArea p q a = 0 ∧ signedArea p q b = 0

/-- The segment from `a` to `b` is in the way between `p` and `q`: the segments meet, are not on one line, and have no
end in common. -/
def Blocking (p q a b : ℝ × ℝ) : Prop :=
  (∃ z, Common p q a b z) ∧ ¬ OneLine p q a b ∧ a ≠ p ∧ a ≠ q ∧ b ≠ p ∧ b ≠ q

end B3d.Spec
