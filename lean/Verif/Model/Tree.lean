import Verif.Model.Str
import Verif.Model.Triangles

/-!
# Buildings as trees

Functions that only read a building (meshes, file writers, array format) see it as a tree: every
dictionary of children is an ordered list, the key of a child is its name.  `Verif/Model/Hierarchy.lean`
models how such trees are built and proves (C04) that names of siblings differ; where a theorem
needs that fact about a tree it is a hypothesis.

Simplification: an object placed in two containers appears here as two equal subtrees.
-/

namespace B3d.Tree

open B3d.Triangles (Tri)

/-- `Polygon` attributes used by the readers and writers (`building3d/geom/polygon/__init__.py`
L55-90): name, uid, `num`, points, triangles. -/
structure Poly (P : Type) where
  name : Str
  uid : Str
  pts : List P
  tri : List Tri
  num : Option Nat := none
  deriving DecidableEq

/-- `Wall` (`building3d/geom/wall/__init__.py` L34-49). -/
structure Wall (P : Type) where
  name : Str
  uid : Str
  polygons : List (Poly P)
  num : Option Nat := none
  deriving DecidableEq

/-- `Solid` (`building3d/geom/solid/__init__.py` L41-53). -/
structure Solid (P : Type) where
  name : Str
  uid : Str
  walls : List (Wall P)
  num : Option Nat := none
  deriving DecidableEq

/-- `Zone` (`building3d/geom/zone/__init__.py` L37-52). -/
structure Zone (P : Type) where
  name : Str
  uid : Str
  solids : List (Solid P)
  num : Option Nat := none
  deriving DecidableEq

/-- `Building` (`building3d/geom/building/__init__.py` L44-60). -/
structure Bldg (P : Type) where
  name : Str
  uid : Str
  zones : List (Zone P)
  deriving DecidableEq

end B3d.Tree
