import Verif.Model.Vec3
import Verif.Spec.Cyc

/-!
# Specification vocabulary for solids

A face is its outline, a list of points; independent of the model.
-/

namespace B3d.Spec

/-- The directed edges of all outlines. -/
def allEdges {α : Type} (faces : List (List α)) : List (α × α) := faces.flatMap cycEdges

/-- Every edge is run through in one direction by as many faces as in the other. -/
def Closed {α : Type} (faces : List (List α)) : Prop := (allEdges faces).Perm ((allEdges faces).map Prod.swap)

/-- Twice the area vector of an outline (normal times twice the area, if the outline is flat). -/
def areaVector2 (pts : List (Vec3 ℝ)) : Vec3 ℝ := cycSum Vec3.cross pts

/-- The volume of the cone over a flat outline with apex `o`, positive if the outline runs
counter-clockwise as seen from outside: a third of the area times the height. -/
noncomputable def coneVolume (o : Vec3 ℝ) (pts : List (Vec3 ℝ)) : ℝ :=
  Vec3.dot (areaVector2 pts) (pts.headD 0 - o) / 6

/-- The volume enclosed by faces, as the sum of the cones with apex `o`. -/
noncomputable def signedVolume (o : Vec3 ℝ) (faces : List (List (Vec3 ℝ))) : ℝ :=
  (faces.map (coneVolume o)).sum

end B3d.Spec
