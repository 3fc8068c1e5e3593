import Verif.Model.Str

/-!
# The object hierarchy: polygons, walls, solids, zones, buildings

`building3d/geom/{polygon,wall,solid,zone,building}/__init__.py`.

Python objects are mutable and shared by reference, so the model is a heap: object identity is the
index in a list of records.  Every record keeps the name, the parent pointer, the ordered
dictionary of children (`dict` preserves insertion order) and, for polygons, the points.  The
remaining attributes (`uid`, `num`, cached graphs, geometry of a polygon) do not take part in these
operations.

Simplifications: calls respect the type hints (a container only gets children of the right class;
the model answers `TypeError` otherwise, Python would accept them by duck typing); the optional
`parent=` argument of the constructors and direct assignment to attributes are not modelled.
-/

namespace B3d.Hier

/-- The five classes. -/
inductive Kind where
  | polygon | wall | solid | zone | building
  deriving DecidableEq, Repr

/-- Nesting level of a class. -/
def Kind.rank : Kind → Nat
  | .polygon => 0
  | .wall => 1
  | .solid => 2
  | .zone => 3
  | .building => 4

/-- Attributes of an object: `polygon/__init__.py` L55-68, `wall/__init__.py` L34-46,
`solid/__init__.py` L41-51, `zone/__init__.py` L37-47, `building/__init__.py` L44-50. -/
structure Obj (P : Type) where
  kind : Kind
  name : Str
  parent : Option Nat
  children : List (Str × Nat)
  pts : List P
  deriving DecidableEq

/-- The heap: objects by identity. -/
abbrev Heap (P : Type) := List (Obj P)

variable {P : Type}

/-- Creation of an object without children.  `geom` is the outcome of the geometric part of the
constructor (only `Polygon` has one: `polygon/__init__.py` L52-53, L74-90), which can raise; `name`
is the given name or the result of `random_id()`. -/
def alloc (h : Heap P) (kind : Kind) (name : Str) (pts : List P) (geom : Option PyErr) :
    Heap P × Except PyErr Nat :=
  match geom with
  | some e => (h, .error e)
  | none =>
    match validateName name with
    | .error e => (h, .error e)
    | .ok name => (h ++ [⟨kind, name, none, [], pts⟩], .ok h.length)

/-- `Wall.add_polygon` (`wall/__init__.py` L71-81), `Solid.add_wall` (`solid/__init__.py` L75-81),
`Zone.add_solid` (`zone/__init__.py` L74-86), `Building.add_zone` (`building/__init__.py`
L74-81). -/
def add (h : Heap P) (c x : Nat) : Heap P × Except PyErr Unit :=
  match h[c]?, h[x]? with
  | some C, some X =>
    if C.kind.rank ≠ X.kind.rank + 1 then (h, .error .typeError)
    else if X.name ∈ C.children.map Prod.fst then (h, .error .geometryError)
    else
      let h1 := h.set x { X with parent := some c }
      let h2 := h1.set c { C with children := C.children ++ [(X.name, x)] }
      (h2, .ok ())
  | _, _ => (h, .error .typeError)

/-- The loops `for x in xs: self.add_...(x)` in the constructors and in `replace_polygon`: they
stop at the first exception, keeping what was added before. -/
def addAll (h : Heap P) (c : Nat) : List Nat → Heap P × Except PyErr Unit
  | [] => (h, .ok ())
  | x :: xs =>
    match add h c x with
    | (h', .ok ()) => addAll h' c xs
    | (h', .error e) => (h', .error e)

/-- Constructors: `Polygon(...)` (`polygon/__init__.py` L42-90), `Wall(...)` (`wall/__init__.py`
L20-49), `Solid(...)` (`solid/__init__.py` L27-53), `Zone(...)` (`zone/__init__.py` L23-52),
`Building(...)` (`building/__init__.py` L30-60).  When adding a child fails the exception
propagates and the new object is unreachable, but the parent pointers of the children that were
already added stay changed. -/
def construct (h : Heap P) (kind : Kind) (name : Str) (pts : List P) (geom : Option PyErr)
    (children : List Nat) : Heap P × Except PyErr Nat :=
  match alloc h kind name pts geom with
  | (h1, .error e) => (h1, .error e)
  | (h1, .ok i) =>
    match addAll h1 i children with
    | (h2, .ok ()) => (h2, .ok i)
    | (h2, .error e) => (h2, .error e)

/-- `Wall.replace_polygon` (`wall/__init__.py` L83-86) and, with exactly one new wall,
`Solid.replace_wall` (`solid/__init__.py` L83-85). -/
def replace (h : Heap P) (c : Nat) (oldName : Str) (news : List Nat) :
    Heap P × Except PyErr Unit :=
  match h[c]? with
  | none => (h, .error .typeError)
  | some C =>
    if C.kind ≠ .wall ∧ C.kind ≠ .solid then (h, .error .attributeError)
    else if oldName ∈ C.children.map Prod.fst then
      let h1 := h.set c { C with children := C.children.filter (fun kv => kv.1 ≠ oldName) }
      addAll h1 c news
    else (h, .error .keyError)

/-- The mutating calls of the public interface. -/
inductive Op (P : Type) where
  | construct (kind : Kind) (name : Str) (pts : List P) (geom : Option PyErr) (children : List Nat)
  | add (c x : Nat)
  | replacePolygon (c : Nat) (oldName : Str) (news : List Nat)
  | replaceWall (c : Nat) (oldName : Str) (new : Nat)

/-- State after one call, successful or not. -/
def Op.exec (h : Heap P) : Op P → Heap P
  | .construct kind name pts geom children => (Hier.construct h kind name pts geom children).1
  | .add c x => (Hier.add h c x).1
  | .replacePolygon c old news => (replace h c old news).1
  | .replaceWall c old new => (replace h c old [new]).1

/-- State after a sequence of calls, starting from nothing. -/
def exec (ops : List (Op P)) : Heap P := ops.foldl Op.exec []

/-- The `path` property: `polygon/__init__.py` L104-110, `wall/__init__.py` L63-69,
`solid/__init__.py` L67-73, `zone/__init__.py` L66-72, `building/__init__.py` L70-72.  `fuel` bounds
the recursion over the parents; five levels exist. -/
def pathAux (h : Heap P) : Nat → Nat → Str
  | 0, _ => []
  | fuel + 1, i =>
    match h[i]? with
    | none => []
    | some o =>
      match o.parent with
      | some p => Str.join PATH_SEP [pathAux h fuel p, o.name]
      | none => o.name

/-- `obj.path`. -/
def path (h : Heap P) (i : Nat) : Str := pathAux h 5 i

/-- `self[key]` (`__getitem__`: `wall/__init__.py` L133-134, `solid/__init__.py` L263-264,
`zone/__init__.py` L141-142, `building/__init__.py` L241-242). -/
def item (h : Heap P) (c : Nat) (key : Str) : Except PyErr Nat :=
  match h[c]? with
  | none => .error .typeError
  | some C =>
    match C.children.lookup key with
    | some j => .ok j
    | none => .error .keyError

/-- `self[a][b]...`: lookups from left to right. -/
def items (h : Heap P) : Nat → List Str → Except PyErr Nat
  | c, [] => .ok c
  | c, key :: rest =>
    match item h c key with
    | .ok j => items h j rest
    | .error e => .error e

/-- What `get` can return. -/
inductive Found (P : Type) where
  | obj (i : Nat)
  | point (p : P)
  deriving DecidableEq

/-- `pts[index]` with Python's negative indices. -/
def pyIndex (l : List P) (i : Int) : Except PyErr P :=
  let k := if i < 0 then i + l.length else i
  if k < 0 then .error .indexError
  else
    match l[k.toNat]? with
    | some p => .ok p
    | none => .error .indexError

/-- `Building.get` (`building/__init__.py` L83-128).  `parseInt` is Python's `int(str)`
(`none`: `ValueError`), applied before the lookups. -/
def get (parseInt : Str → Option Int) (h : Heap P) (b : Nat) (abspath : Str) :
    Except PyErr (Found P) :=
  match h[b]? with
  | none => .error .typeError
  | some B =>
    match Str.split PATH_SEP abspath with
    | [] => .error .assertionError
    | building :: rest =>
      if building ≠ B.name then .error .assertionError
      else
        match rest with
        | [] => .ok (.obj b)
        | [z] => (items h b [z]).map .obj
        | [z, s] => (items h b [z, s]).map .obj
        | [z, s, w] => (items h b [z, s, w]).map .obj
        | [z, s, w, p] => (items h b [z, s, w, p]).map .obj
        | [z, s, w, p, i] =>
          match parseInt i with
          | none => .error .valueError
          | some index =>
            match items h b [z, s, w, p] with
            | .error e => .error e
            | .ok poly =>
              match h[poly]? with
              | none => .error .typeError
              | some o => (pyIndex o.pts index).map .point
        | _ => .error .valueError

/-- `get` called on any object (`polygon/__init__.py` L115-121, `wall/__init__.py` L88-94,
`solid/__init__.py` L87-93, `zone/__init__.py` L88-94): climb to the root, then ask it.  If the root
is not a building it asks itself again and again until Python raises `RecursionError` (a
`RuntimeError`). -/
def objGet (parseInt : Str → Option Int) (h : Heap P) : Nat → Nat → Str → Except PyErr (Found P)
  | 0, _, _ => .error .runtimeError
  | fuel + 1, i, abspath =>
    match h[i]? with
    | none => .error .typeError
    | some o =>
      match o.parent with
      | some p => objGet parseInt h fuel p abspath
      | none =>
        if o.kind = .building then get parseInt h i abspath else .error .runtimeError

/-- Names of the object and of `n` ancestors, outermost first; the assertions of
`get_polygon_paths` (`wall/__init__.py` L99-105, `solid/__init__.py` L98-102,
`zone/__init__.py` L99-101). -/
def prefixNames (h : Heap P) : Nat → Nat → Except PyErr (List Str)
  | 0, i =>
    match h[i]? with
    | none => .error .typeError
    | some o => .ok [o.name]
  | n + 1, i =>
    match h[i]? with
    | none => .error .typeError
    | some o =>
      match o.parent with
      | none => .error .assertionError
      | some p =>
        match prefixNames h n p with
        | .ok l => .ok (l ++ [o.name])
        | .error e => .error e

/-- The nested loops of `get_polygon_paths` over the keys of the dictionaries, `depth` levels
deep. -/
def leafKeys (h : Heap P) : Nat → Nat → List (List Str)
  | 0, _ => [[]]
  | depth + 1, i =>
    match h[i]? with
    | none => []
    | some o => o.children.flatMap fun kv => (leafKeys h depth kv.2).map (kv.1 :: ·)

/-- `get_polygon_paths`: `building/__init__.py` L130-141, `zone/__init__.py` L96-109,
`solid/__init__.py` L95-109, `wall/__init__.py` L96-111. -/
def getPolygonPaths (h : Heap P) (i : Nat) : Except PyErr (List Str) :=
  match h[i]? with
  | none => .error .typeError
  | some o =>
    if o.kind = .polygon then .error .attributeError else
    match prefixNames h (4 - o.kind.rank) i with
    | .error e => .error e
    | .ok pre =>
      .ok ((leafKeys h o.kind.rank i).map fun keys => Str.join PATH_SEP (pre ++ keys))

end B3d.Hier
