import Verif.Model.Stl

/-! Vocabulary for the properties of STL files (C18, C19). -/

namespace B3d.Stl

open B3d.Triangles (Tri)
open B3d.Tree

variable {F T : Type}

/-- A point. -/
abbrev V3 (F : Type) := F × F × F
/-- The corners of a triangle. -/
abbrev Tri3 (F : Type) := V3 F × V3 F × V3 F

/-- Corners of one triangle of a polygon. -/
def cornersOf (pts : List (V3 F)) (t : Tri) : Option (Tri3 F) :=
  match pts[t.1]?, pts[t.2.1]?, pts[t.2.2]? with
  | some a, some b, some c => some (a, b, c)
  | _, _, _ => none

/-- All triangle indices of the polygon refer to its points. -/
def PolyOk (p : Poly (V3 F)) : Prop := ∀ t ∈ p.tri, (cornersOf p.pts t).isSome

/-- The triangles of a polygon, in order. -/
def polyTris (p : Poly (V3 F)) : List (Tri3 F) := p.tri.filterMap (cornersOf p.pts)

/-- The triangles of a solid, in order. -/
def solidTris (s : Solid (V3 F)) : List (Tri3 F) :=
  s.walls.flatMap fun w => w.polygons.flatMap polyTris

/-- The solids of a building, in order. -/
def solidsOf (b : Bldg (V3 F)) : List (Solid (V3 F)) := b.zones.flatMap Zone.solids

/-! ### What a text says -/

/-- The statements of an STL file. -/
inductive Item (F : Type)
  | opened (uid : Str)
  | facet (t : Tri3 F)
  | closed (uid : Str)

/-- A line giving the vertex `v`: three numbers, or one number used three times. -/
def VertexLine (parse : Str → Option F) (l : Str) (v : V3 F) : Prop :=
  ∃ text, strip l = "vertex".toList ++ text ∧
    ((Str.split ' ' (strip text)).map parse = [some v.1, some v.2.1, some v.2.2] ∨
      (Str.split ' ' (strip text)).map parse = [some v.1] ∧ v.2.1 = v.1 ∧ v.2.2 = v.1)

/-- `Says lines items`: the lines are, in order, lines opening a solid, complete facet blocks, lines
closing a solid, and other lines; `items` lists the first three. -/
inductive Says (parse : Str → Option F) : List Str → List (Item F) → Prop
  | nil : Says parse [] []
  | opened {l ls u its} : strip l = "solid".toList ++ u → Says parse ls its →
      Says parse (l :: ls) (.opened (strip u) :: its)
  | facet {l l0 l1 l2 l3 l4 ls u v1 v2 v3 its} : strip l = "facet".toList ++ u →
      checkNormal parse (strip l) = .ok () →
      strip l0 = "outer loop".toList → VertexLine parse l1 v1 → VertexLine parse l2 v2 →
      VertexLine parse l3 v3 → strip l4 = "endloop".toList → Says parse ls its →
      Says parse (l :: l0 :: l1 :: l2 :: l3 :: l4 :: ls) (.facet (v1, v2, v3) :: its)
  | closed {l ls u its} : strip l = "endsolid".toList ++ u → Says parse ls its →
      Says parse (l :: ls) (.closed (strip u) :: its)
  | other {l ls its} : (∀ u, strip l ≠ "solid".toList ++ u) → (∀ u, strip l ≠ "facet".toList ++ u) →
      (∀ u, strip l ≠ "endsolid".toList ++ u) → Says parse ls its → Says parse (l :: ls) its

/-- A line opening a solid and what follows up to the next such line. -/
structure Segment (F : Type) where
  uid : Str
  body : List (Item F)

/-- The statements of a segment. -/
def Segment.items (s : Segment F) : List (Item F) := .opened s.uid :: s.body

/-- The facets in a list of statements. -/
def facetsIn : List (Item F) → List (Tri3 F)
  | [] => []
  | .facet t :: its => t :: facetsIn its
  | _ :: its => facetsIn its

/-- How many statements close a solid. -/
def closings : List (Item F) → Nat
  | [] => 0
  | .closed _ :: its => closings its + 1
  | _ :: its => closings its

/-- No statement opens a solid. -/
def NoOpen (its : List (Item F)) : Prop := ∀ u, Item.opened u ∉ its

end B3d.Stl
