import Verif.Model.Tree

/-! Vocabulary for the properties of files (C16, C17): buildings with distinct, valid names, what is
left of a building without its empty containers, what a B3D file stores. -/

namespace B3d.Files

open B3d.Triangles (Tri)
open B3d.Tree

variable {P : Type}

/-- Without walls that have no polygon. -/
def pruneSolid (s : Solid P) : Solid P :=
  ⟨s.name, s.uid, s.walls.filter fun w => !w.polygons.isEmpty, s.num⟩
/-- Without solids that have no polygon. -/
def pruneZone (z : Zone P) : Zone P :=
  ⟨z.name, z.uid, (z.solids.map pruneSolid).filter fun s => !s.walls.isEmpty, z.num⟩
/-- Without zones that have no polygon. -/
def prune (b : Bldg P) : Bldg P :=
  ⟨b.name, b.uid, (b.zones.map pruneZone).filter fun z => !z.solids.isEmpty⟩

/-- No two siblings share a name. -/
structure Distinct (b : Bldg P) : Prop where
  zones : (b.zones.map Zone.name).Nodup
  solids : ∀ z ∈ b.zones, (z.solids.map Solid.name).Nodup
  walls : ∀ z ∈ b.zones, ∀ s ∈ z.solids, (s.walls.map Wall.name).Nodup
  polygons : ∀ z ∈ b.zones, ∀ s ∈ z.solids, ∀ w ∈ s.walls, (w.polygons.map Poly.name).Nodup

/-- No name contains the path separator (object names are checked by the constructors). -/
structure ValidNames (b : Bldg P) : Prop where
  bldg : PATH_SEP ∉ b.name
  zones : ∀ z ∈ b.zones, PATH_SEP ∉ z.name
  solids : ∀ z ∈ b.zones, ∀ s ∈ z.solids, PATH_SEP ∉ s.name
  walls : ∀ z ∈ b.zones, ∀ s ∈ z.solids, ∀ w ∈ s.walls, PATH_SEP ∉ w.name
  polygons : ∀ z ∈ b.zones, ∀ s ∈ z.solids, ∀ w ∈ s.walls, ∀ p ∈ w.polygons, PATH_SEP ∉ p.name

/-- The polygon constructor accepts the vertices and triangles of every polygon of the building. -/
def Accepted (geom : List P → List Tri → Option PyErr) (b : Bldg P) : Prop :=
  ∀ z ∈ b.zones, ∀ s ∈ z.solids, ∀ w ∈ s.walls, ∀ p ∈ w.polygons, geom p.pts p.tri = none

/-- Names and order of all objects, uids, vertices and triangles of the polygons. -/
def view (b : Bldg P) :
    Str × List (Str × List (Str × List (Str × List (Str × Str × List P × List Tri)))) :=
  (b.name, b.zones.map fun z => (z.name, z.solids.map fun s => (s.name, s.walls.map fun w =>
    (w.name, w.polygons.map fun p => (p.name, p.uid, p.pts, p.tri)))))

/-- All polygons in order, each with the names of its zone, solid and wall. -/
def leaves (b : Bldg P) : List (Str × Str × Str × Str × Str × List P × List Tri) :=
  b.zones.flatMap fun z => z.solids.flatMap fun s => s.walls.flatMap fun w =>
    w.polygons.map fun p => (z.name, s.name, w.name, p.name, p.uid, p.pts, p.tri)

/-- Every container has something in it. -/
def NoneEmpty (b : Bldg P) : Prop :=
  ∀ z ∈ b.zones, z.solids ≠ [] ∧ ∀ s ∈ z.solids, s.walls ≠ [] ∧ ∀ w ∈ s.walls, w.polygons ≠ []

/-- The polygon as a fresh object (not yet numbered by the array format). -/
def freshPoly (p : Poly P) : Poly P := ⟨p.name, p.uid, p.pts, p.tri, none⟩
/-- The wall as a fresh object. -/
def freshWall (w : Wall P) : Wall P := ⟨w.name, w.uid, w.polygons.map freshPoly, none⟩
/-- The solid as a fresh object. -/
def freshSolid (s : Solid P) : Solid P := ⟨s.name, s.uid, s.walls.map freshWall, none⟩
/-- The zone as a fresh object. -/
def freshZone (z : Zone P) : Zone P := ⟨z.name, z.uid, z.solids.map freshSolid, none⟩
/-- The building as a fresh object. -/
def freshBldg (b : Bldg P) : Bldg P := ⟨b.name, b.uid, b.zones.map freshZone⟩

end B3d.Files
