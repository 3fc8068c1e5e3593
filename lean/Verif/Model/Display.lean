import Verif.Model.Output

/-!
# Plotting

`building3d/display/plot_objects.py` and `building3d/sim/rays/ray_buff_plotter.py`.

PyVista is outside: the model gives the calls of `add_mesh`, with the arrays passed to `PolyData` and the colour.
Opacity and point size, which do not depend on the objects, are not modelled.  The window or image file shown at the end is
not modelled.
-/

namespace B3d.Display

variable {α κ : Type}

/-- An object to plot: the methods it has (`none`: it has no such method), each with its outcome,
`plot_objects.py` L68-70. -/
structure Plottable (α : Type) where
  getMesh : Option (Except PyErr (List α × List (Nat × Nat × Nat)))
  getLines : Option (Except PyErr (List α × List (List Nat)))
  getPoints : Option (Except PyErr (List α))

/-- Which arguments of `PolyData` are given, `plot_objects.py` L81, L92, L97. -/
inductive Kind where
  | faces
  | lines
  | points
deriving DecidableEq

/-- A call of `add_mesh`, `plot_objects.py` L82, L93, L98. -/
structure Drawing (α κ : Type) where
  kind : Kind
  verts : List α
  /-- the array `faces` or `lines` (empty for points) -/
  flat : List Nat
  colour : κ
deriving DecidableEq

/-- The loop over the faces, `plot_objects.py` L77-79. -/
def facesFlat (faces : List (Nat × Nat × Nat)) : List Nat :=
  faces.foldl (fun flat f => flat ++ [3, f.1, f.2.1, f.2.2]) []

/-- The inner loop for one line, `plot_objects.py` L88-90. -/
def segment (l : List Nat) : List Nat := l.foldl (fun seg v => seg ++ [v]) [l.length]

/-- The loop over the lines, `plot_objects.py` L86-91. -/
def linesFlat (lines : List (List Nat)) : List Nat := lines.foldl (fun flat l => flat ++ segment l) []

/-- The colour of the object number `i` of `n`, `plot_objects.py` L55-65.  `rand i` is the random colour. -/
def colourOf (white : κ) (rand : Nat → κ) (colors : List κ) (n i : Nat) : Except PyErr κ :=
  if n > 1 ∧ colors.length = 0 then .ok (rand i)
  else if n > 1 ∧ colors.length = n then
    match colors[i]? with
    | some c => .ok c
    | none => .error .indexError
  else if n = 1 then .ok white
  else .error .runtimeError

/-- The mesh of one object, `plot_objects.py` L75-82. -/
def drawMesh (col : κ) (o : Plottable α) : Except PyErr (List (Drawing α κ)) :=
  match o.getMesh with
  | none => .ok []
  | some (.error e) => .error e
  | some (.ok (verts, faces)) => .ok [⟨.faces, verts, facesFlat faces, col⟩]

/-- The lines of one object, `plot_objects.py` L84-93. -/
def drawLines (col : κ) (o : Plottable α) : Except PyErr (List (Drawing α κ)) :=
  match o.getLines with
  | none => .ok []
  | some (.error e) => .error e
  | some (.ok (verts, lines)) => .ok [⟨.lines, verts, linesFlat lines, col⟩]

/-- The points of one object, `plot_objects.py` L95-98. -/
def drawPoints (col : κ) (o : Plottable α) : Except PyErr (List (Drawing α κ)) :=
  match o.getPoints with
  | none => .ok []
  | some (.error e) => .error e
  | some (.ok verts) => .ok [⟨.points, verts, [], col⟩]

/-- One pass of the loop, `plot_objects.py` L53-98. -/
def drawObject (white : κ) (rand : Nat → κ) (colors : List κ) (n i : Nat) (o : Plottable α) :
    Except PyErr (List (Drawing α κ)) :=
  match colourOf white rand colors n i with
  | .error e => .error e
  | .ok col =>
    if o.getMesh.isNone ∧ o.getLines.isNone ∧ o.getPoints.isNone then .error .assertionError
    else
      match drawMesh col o with
      | .error e => .error e
      | .ok a =>
        match drawLines col o with
        | .error e => .error e
        | .ok b =>
          match drawPoints col o with
          | .error e => .error e
          | .ok c => .ok (a ++ b ++ c)

/-- The loop over the objects, `plot_objects.py` L53-98. -/
def drawLoop (white : κ) (rand : Nat → κ) (colors : List κ) (n : Nat) :
    Nat → List (Plottable α) → List (Drawing α κ) → Except PyErr (List (Drawing α κ))
  | _, [], acc => .ok acc
  | i, o :: rest, acc =>
    match drawObject white rand colors n i o with
    | .error e => .error e
    | .ok d => drawLoop white rand colors n (i + 1) rest (acc ++ d)

/-- `plot_objects`, `plot_objects.py` L12-107: what is drawn when the window is shown. -/
def plotObjects (white : κ) (rand : Nat → κ) (objects : List (Plottable α)) (colors : List κ) :
    Except PyErr (List (Drawing α κ)) :=
  if objects.length = 0 then .error .valueError
  else if colors.length > 0 ∧ colors.length ≠ objects.length then .error .valueError
  else drawLoop white rand colors objects.length 0 objects []

/-- `RayBuffPlotter.get_points`, `ray_buff_plotter.py` L24-25: the last row. -/
def lastRow (pb : List (List α)) : Except PyErr (List α) :=
  match pb.getLast? with
  | none => .error .indexError
  | some r => .ok r

/-- A `RayBuffPlotter` as an object to plot, `ray_buff_plotter.py` L24-38. -/
def rays (pb : List (List α)) (numRays : Nat) : Plottable α :=
  ⟨none, some (Output.getLines pb numRays), some (lastRow pb)⟩

/-- `RayBuffPlotter.plot`, `ray_buff_plotter.py` L18-22. -/
def plotRays (white red : κ) (rand : Nat → κ) (building : Plottable α) (pb : List (List α)) (numRays : Nat) :
    Except PyErr (List (Drawing α κ)) :=
  plotObjects white rand [building, rays pb numRays] [white, red]

end B3d.Display
