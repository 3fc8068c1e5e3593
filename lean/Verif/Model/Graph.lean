import Verif.Model.Hierarchy

/-!
# Adjacency graphs of a building

`building3d/geom/building/graph.py`, and `get_graph`, `stitch_solids` of
`building3d/geom/building/__init__.py`.

The geometric relations between two polygons (bounding boxes overlap, facing, crossing, touching)
are parameters, indexed by the identity of the two polygon objects: every theorem holds for every
relation, in particular for the ones modelled in `Bboxes.lean`, `Facing.lean`.
-/

namespace B3d.Hier

variable {P : Type}

/-- A `dict[str, list[str]]` in insertion order. -/
abbrev GDict := List (Str × List Str)

/-- `if k not in g: g[k] = []` (`graph.py` L52-55). -/
def GDict.setDefault (g : GDict) (k : Str) : GDict :=
  if k ∈ g.map Prod.fst then g else g ++ [(k, [])]

/-- `g[k].append(v)` for an existing key (`graph.py` L73-74). -/
def GDict.push (g : GDict) (k v : Str) : GDict :=
  g.map fun kv => if kv.1 = k then (kv.1, kv.2 ++ [v]) else kv

/-- Identities of the objects `depth` levels below `i`, in traversal order; with depth 4 below a
building this is `iter_polygons`, with 3 `iter_walls`, 2 `iter_solids`, 1 `iter_zones`
(`graph.py` L177-204). -/
def leafIds (h : Heap P) : Nat → Nat → List Nat
  | 0, i => [i]
  | depth + 1, i =>
    match h[i]? with
    | none => []
    | some o => o.children.flatMap fun kv => leafIds h depth kv.2

/-- The geometric predicates used by `graph_polygon`: bounding boxes overlap
(`are_bboxes_overlapping`), `is_facing_polygon`, `is_crossing_polygon`, `is_touching_polygon`. -/
structure Rels where
  bb : Nat → Nat → Bool
  facing : Nat → Nat → Bool
  crossing : Nat → Nat → Bool
  touching : Nat → Nat → Bool

/-- The flags `facing`, `overlapping`, `touching`. -/
structure Flags where
  facing : Bool
  overlapping : Bool
  touching : Bool
  deriving DecidableEq

/-- `np.array(cond).any()` (`graph.py` L65-72). -/
def Rels.cond (r : Rels) (f : Flags) (i j : Nat) : Bool :=
  let cond : List Bool :=
    (if f.facing then [r.facing i j] else []) ++
    (if f.overlapping then [r.crossing i j] else []) ++
    (if f.touching then [r.touching i j] else [])
  cond.any id

/-- Loop state of `graph_polygon`: `g` and `checked`. -/
structure GState where
  g : GDict
  checked : List (Str × Str)

/-- Body of the inner loop of `graph_polygon` (`graph.py` L44-76).  The counter used for logging is
dropped. -/
def graphStep (name : Nat → Str) (r : Rels) (f : Flags) (st : GState) (ij : Nat × Nat) : GState :=
  let i := ij.1
  let j := ij.2
  if i = j then st
  else if (name i, name j) ∈ st.checked then st
  else
    let g := (st.g.setDefault (name i)).setDefault (name j)
    if r.bb i j = false then { st with g := g }
    else if r.cond f i j then
      { g := (g.push (name i) (name j)).push (name j) (name i),
        checked := (name j, name i) :: (name i, name j) :: st.checked }
    else { st with g := g }

/-- `graph_polygon` (`graph.py` L18-79). -/
def graphPolygon (h : Heap P) (r : Rels) (f : Flags) (b : Nat) : GDict :=
  let polys := leafIds h 4 b
  ((polys.flatMap fun i => polys.map fun j => (i, j)).foldl (graphStep (path h) r f) ⟨[], []⟩).g

/-- `remove_last` (`graph.py` L170-174). -/
def removeLast (p : Str) : Nat → Str
  | 0 => p
  | n + 1 => removeLast (Str.join PATH_SEP (Str.split PATH_SEP p).dropLast) n

/-- The first loop of `strip_graph` (`graph.py` L153-162). -/
def stripStep (n : Nat) (gnew : GDict) (kv : Str × List Str) : GDict :=
  let newK := removeLast kv.1 n
  let newV := (kv.2.map fun x => removeLast x n).filter (· ≠ newK)
  if newK ∈ gnew.map Prod.fst then
    gnew.map fun e => if e.1 = newK then (e.1, e.2 ++ newV) else e
  else gnew ++ [(newK, newV)]

/-- `strip_graph` (`graph.py` L148-167).  `setList` is `list(set(...))`, whose order Python does
not specify. -/
def stripGraph (setList : List Str → List Str) (g : GDict) (n : Nat) : GDict :=
  (g.foldl (stripStep n) []).map fun kv => (kv.1, setList kv.2)

/-- `graph_wall`, `graph_solid`, `graph_zone` (`graph.py` L82-145) with `n` = 1, 2, 3, and with the
optional polygon graph `g`. -/
def graphLevel (setList : List Str → List Str) (h : Heap P) (r : Rels) (f : Flags) (b : Nat)
    (g : Option GDict) (n : Nat) : GDict :=
  match g with
  | none => stripGraph setList (graphPolygon h r f b) n
  | some g =>
    if g.length = 0 then stripGraph setList (graphPolygon h r f b) n else stripGraph setList g n

/-- `level` argument of `get_graph`. -/
inductive Level where
  | polygon | wall | solid | zone | other
  deriving DecidableEq

/-- The cached graphs of a building (`building/__init__.py` L52-56). -/
structure Cache where
  polygon : GDict
  wall : GDict
  solid : GDict
  zone : GDict

/-- `Building.get_graph` (`building/__init__.py` L143-189): new cache and result. -/
def getGraph (setList : List Str → List Str) (h : Heap P) (r : Rels) (b : Nat) (c : Cache)
    (new : Bool) (level : Level) (f : Flags) : Cache × Except PyErr GDict :=
  let new := if c.polygon.length = 0 then true else new
  let c := if new then
      let g := graphPolygon h r f b
      { polygon := g,
        wall := graphLevel setList h r f b (some g) 1,
        solid := graphLevel setList h r f b (some g) 2,
        zone := graphLevel setList h r f b (some g) 3 }
    else c
  match level with
  | .polygon => (c, .ok c.polygon)
  | .wall => (c, .ok c.wall)
  | .solid => (c, .ok c.solid)
  | .zone => (c, .ok c.zone)
  | .other => (c, .error .valueError)

/-- The visiting part of `Building.stitch_solids` (`building/__init__.py` L191-209): the list of
pairs of solids handed to `stitch_solids`, in order, given the solid graph.  `done` is the list of
two-element sets of solid names (sets are modelled by both orders).  A path that does not have
exactly three components makes the unpacking raise `ValueError`. -/
def stitchVisitsAux : List (Str × Str) → List (Str × Str) → Except PyErr (List (Str × Str))
  | _, [] => .ok []
  | done, (s, t) :: rest =>
    match Str.split PATH_SEP s, Str.split PATH_SEP t with
    | [_, _, sName], [_, _, tName] =>
      if (sName, tName) ∈ done ∨ (tName, sName) ∈ done then stitchVisitsAux done rest
      else
        match stitchVisitsAux (done ++ [(sName, tName)]) rest with
        | .ok l => .ok ((s, t) :: l)
        | .error e => .error e
    | _, _ => .error .valueError

/-- `Building.stitch_solids` L199-209: the double loop over the solid graph. -/
def stitchVisits (g : GDict) : Except PyErr (List (Str × Str)) :=
  stitchVisitsAux [] (g.flatMap fun kv => kv.2.map fun t => (kv.1, t))

end B3d.Hier

namespace B3d.Hier
variable {P : Type}

/-- `find_location` (`building3d/geom/building/find_location.py` L6-44).  `inside i` is
`is_point_inside(p)` of the solid with identity `i`. -/
def findLocationLoop (parseInt : Str → Option Int) (h : Heap P) (inside : Nat → Bool) (b : Nat) :
    List Str → Except PyErr Str
  | [] => .error .runtimeError
  | s :: rest =>
    match get parseInt h b s with
    | .error e => .error e
    | .ok (.point _) => .error .typeError
    | .ok (.obj i) =>
      match h[i]? with
      | none => .error .typeError
      | some o =>
        if o.kind = .solid then
          if inside i then
            -- L42: `assert len(location) > 0`
            if s.length > 0 then .ok s else .error .assertionError
          else findLocationLoop parseInt h inside b rest
        else .error .typeError

/-- `find_location`: hints first, then all solids in traversal order (L18-22). -/
def findLocation (parseInt : Str → Option Int) (h : Heap P) (inside : Nat → Bool) (b : Nat)
    (firstLookAt : List Str) : Except PyErr Str :=
  findLocationLoop parseInt h inside b (firstLookAt ++ (leafIds h 2 b).map (path h))

/-- The zone name `z` in `_, z, *_ = split_path(k)` (`sim/rays/find_transparent.py` L66-67);
`ValueError` if there are fewer than two components. -/
def zoneOf (k : Str) : Except PyErr Str :=
  match splitPath k with
  | .ok (_ :: z :: _) => .ok z
  | .ok _ => .error .valueError
  | .error e => .error e

/-- The loop of `find_transparent` over the items of the graph (`find_transparent.py` L56-75):
`acc` is `transparent_polygons` (and, as a set, `added`). -/
def transparentLoop : List Str → GDict → Except PyErr (List Str)
  | acc, [] => .ok acc
  | acc, (k, v) :: rest =>
    if 1 < v.length then .error .assertionError
    else
      match v with
      | [q] =>
        if k ∉ acc ∨ q ∉ acc then
          match zoneOf k, zoneOf q with
          | .ok z0, .ok z1 =>
            if z0 = z1 then transparentLoop (acc ++ [k, q]) rest else transparentLoop acc rest
          | .error e, _ => .error e
          | _, .error e => .error e
        else transparentLoop acc rest
      | _ => transparentLoop acc rest

/-- `find_transparent` (`sim/rays/find_transparent.py` L36-81) with its module level `CACHE`, keyed
by the identity of the building; a set is a list up to membership. -/
def findTransparent (h : Heap P) (r : Rels) (cache : List (Nat × List Str)) (b : Nat) :
    List (Nat × List Str) × Except PyErr (List Str) :=
  match cache.lookup b with
  | some s => (cache, .ok s)
  | none =>
    match transparentLoop [] (graphPolygon h r ⟨true, false, false⟩ b) with
    | .error e => (cache, .error e)
    | .ok l => ((b, l) :: cache, .ok l)

end B3d.Hier
