import Verif.Model.Display

/-! # Specification vocabulary for plotting -/

namespace B3d.Display

variable {α κ : Type}

/-- How PyVista reads an array of cells: the number of corners of a cell, then the indices of the corners, and so on. -/
inductive Cells : List Nat → List (List Nat) → Prop
  | nil : Cells [] []
  | cons {flat : List Nat} {cells : List (List Nat)} (c : List Nat) : Cells flat cells →
      Cells (c.length :: (c ++ flat)) (c :: cells)

/-- The picture of an object in a colour: its triangles, its lines, its points, as far as it has them. -/
def Pictures (o : Plottable α) (col : κ) (d : List (Drawing α κ)) : Prop :=
  ∃ a b c, d = a ++ b ++ c ∧
    (match o.getMesh with
      | none => a = []
      | some r => ∃ verts faces flat, r = .ok (verts, faces) ∧ a = [⟨.faces, verts, flat, col⟩] ∧
          Cells flat (faces.map fun f => [f.1, f.2.1, f.2.2])) ∧
    (match o.getLines with
      | none => b = []
      | some r => ∃ verts lines flat, r = .ok (verts, lines) ∧ b = [⟨.lines, verts, flat, col⟩] ∧ Cells flat lines) ∧
    (match o.getPoints with
      | none => c = []
      | some r => ∃ verts, r = .ok verts ∧ c = [⟨.points, verts, [], col⟩])

/-- Something can be plotted: there is a method, and none of them raises. -/
def Ready (o : Plottable α) : Prop :=
  (o.getMesh.isSome ∨ o.getLines.isSome ∨ o.getPoints.isSome) ∧
  (∀ e, o.getMesh ≠ some (.error e)) ∧ (∀ e, o.getLines ≠ some (.error e)) ∧ (∀ e, o.getPoints ≠ some (.error e))

end B3d.Display
