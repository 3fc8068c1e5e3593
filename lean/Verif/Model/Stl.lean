import Verif.Model.Tree
import Verif.Model.ArrayFormat

/-!
# STL files

`building3d/io/stl.py`.  The file is modelled as its text.  Parameters: `render` is the formatting of
a float in an f-string, `parse` is `float(text)` (`none` for `ValueError`), `vn` the normal of a
polygon, `mk` the constructor `Polygon(vertices)` on three points.  Parent directories, logging and
the warning about different normals are not modelled.
-/

namespace B3d.Stl

open B3d.Triangles (Tri)
open B3d.Tree
open B3d.ArrayFormat (rowAt)

variable {F T : Type}

/-! ### Text -/

/-- `str.isspace` for one character: what `str.strip()` removes. -/
def isWs (c : Char) : Bool :=
  let n := c.toNat
  (9 ≤ n && n ≤ 13) || (28 ≤ n && n ≤ 32) || n == 0x85 || n == 0xA0 || n == 0x1680 ||
    (0x2000 ≤ n && n ≤ 0x200A) || n == 0x2028 || n == 0x2029 || n == 0x202F || n == 0x205F ||
    n == 0x3000

/-- `s.strip()`. -/
def strip (s : Str) : Str := ((s.dropWhile isWs).reverse.dropWhile isWs).reverse

/-- Text before and after the first occurrence of `sep`. -/
def breakOn (sep : Str) : Str → Option (Str × Str)
  | [] => none
  | c :: t =>
    if sep.isPrefixOf (c :: t) then some ([], (c :: t).drop sep.length)
    else
      match breakOn sep t with
      | none => none
      | some (a, b) => some (c :: a, b)

/-- `s.split(sep)[1]`: `IndexError` when `sep` does not occur. -/
def secondPart (sep s : Str) : Except PyErr Str :=
  match breakOn sep s with
  | none => .error .indexError
  | some (_, r) =>
    match breakOn sep r with
    | none => .ok r
    | some (a, _) => .ok a

/-- `f.readlines()` in text mode: lines end with `\n`; `\r\n` and `\r` are read as `\n`. -/
def readlines : Str → List Str
  | [] => []
  | c :: t =>
    if c = '\r' ∧ t.head? = some '\n' then readlines t
    else if c = '\n' ∨ c = '\r' then ['\n'] :: readlines t
    else
      match readlines t with
      | [] => [[c]]
      | l :: ls => (c :: l) :: ls

/-! ### Writing -/

/-- `a b c` with formatted floats. -/
def triple (render : F → Str) (v : F × F × F) : Str :=
  render v.1 ++ ' ' :: (render v.2.1 ++ ' ' :: render v.2.2)

/-- The lines of one facet, `io/stl.py` L72-81. -/
def facetLines (render : F → Str) (n v1 v2 v3 : F × F × F) : List Str :=
  ["  facet normal ".toList ++ triple render n ++ ['\n'],
   "    outer loop\n".toList,
   "      vertex ".toList ++ triple render v1 ++ ['\n'],
   "      vertex ".toList ++ triple render v2 ++ ['\n'],
   "      vertex ".toList ++ triple render v3 ++ ['\n'],
   "    endloop\n".toList,
   "  endfacet\n".toList]

/-- Loop over the triangles of a polygon, `io/stl.py` L70-81. -/
def polyLines (render : F → Str) (n : F × F × F) (pts : List (F × F × F)) :
    List Tri → Except PyErr (List Str)
  | [] => .ok []
  | t :: ts =>
    match rowAt pts t.1 with
    | .error e => .error e
    | .ok v1 =>
      match rowAt pts t.2.1 with
      | .error e => .error e
      | .ok v2 =>
        match rowAt pts t.2.2 with
        | .error e => .error e
        | .ok v3 =>
          match polyLines render n pts ts with
          | .error e => .error e
          | .ok ls => .ok (facetLines render n v1 v2 v3 ++ ls)

/-- `for x in xs: lines += f(x)`. -/
def linesOf {X : Type} (f : X → Except PyErr (List Str)) : List X → Except PyErr (List Str)
  | [] => .ok []
  | x :: xs =>
    match f x with
    | .error e => .error e
    | .ok a =>
      match linesOf f xs with
      | .error e => .error e
      | .ok b => .ok (a ++ b)

/-- The lines of one solid, `io/stl.py` L67-82. -/
def solidLines (render : F → Str) (vn : Poly (F × F × F) → F × F × F) (s : Solid (F × F × F)) :
    Except PyErr (List Str) :=
  match linesOf (fun w : Wall (F × F × F) =>
      linesOf (fun p => polyLines render (vn p) p.pts p.tri) w.polygons) s.walls with
  | .error e => .error e
  | .ok ls => .ok (("solid ".toList ++ s.uid ++ ['\n']) :: ls
      ++ ["endsolid ".toList ++ s.uid ++ ['\n']])

/-- `write_stl`, `io/stl.py` L40-84: the text of the file. -/
def writeStl (render : F → Str) (vn : Poly (F × F × F) → F × F × F) (b : Bldg (F × F × F)) :
    Except PyErr Str :=
  match linesOf (fun z : Zone (F × F × F) => linesOf (solidLines render vn) z.solids) b.zones with
  | .error e => .error e
  | .ok ls => .ok ls.flatten

/-! ### Reading -/

/-- The three `float(normal_coord_list[k])`, `io/stl.py` L123-129. -/
def checkNormal (parse : Str → Option F) (line : Str) : Except PyErr Unit :=
  match secondPart "normal".toList (line.drop 5) with
  | .error e => .error e
  | .ok part =>
    match Str.split ' ' (strip part) with
    | [] => .error .indexError
    | n0 :: ns =>
      match parse n0 with
      | none => .error .valueError
      | some _ =>
        match ns with
        | [] => .error .indexError
        | n1 :: ns =>
          match parse n1 with
          | none => .error .valueError
          | some _ =>
            match ns with
            | [] => .error .indexError
            | n2 :: _ =>
              match parse n2 with
              | none => .error .valueError
              | some _ => .ok ()

/-- A `vertex` line (already stripped), `io/stl.py` L138-143; a single number fills the row. -/
def parseVertex (parse : Str → Option F) (line : Str) : Except PyErr (F × F × F) :=
  if line.take 6 ≠ "vertex".toList then .error .assertionError
  else
    match (Str.split ' ' (strip (line.drop 6))).mapM parse with
    | some [x, y, z] => .ok (x, y, z)
    | some [x] => .ok (x, x, x)
    | _ => .error .valueError

/-- One line of the vertex loop, `io/stl.py` L136-143. -/
def readVertex (parse : Str → Option F) : List Str → Except PyErr ((F × F × F) × List Str)
  | [] => .error .indexError
  | l :: rest =>
    match parseVertex parse (strip l) with
    | .error e => .error e
    | .ok v => .ok (v, rest)

/-- A line that must equal `text`, `io/stl.py` L131-133 and L145-147. -/
def expectLine (text : Str) : List Str → Except PyErr (List Str)
  | [] => .error .indexError
  | l :: rest => if strip l ≠ text then .error .assertionError else .ok rest

/-- The lines after `facet`, `io/stl.py` L131-147: the three vertices. -/
def facetBody (parse : Str → Option F) (lines : List Str) :
    Except PyErr ((F × F × F) × (F × F × F) × (F × F × F)) :=
  match expectLine "outer loop".toList lines with
  | .error e => .error e
  | .ok lines =>
    match readVertex parse lines with
    | .error e => .error e
    | .ok (v1, lines) =>
      match readVertex parse lines with
      | .error e => .error e
      | .ok (v2, lines) =>
        match readVertex parse lines with
        | .error e => .error e
        | .ok (v3, lines) =>
          match expectLine "endloop".toList lines with
          | .error e => .error e
          | .ok _ => .ok (v1, v2, v3)

/-- Variables of the reading loop: all `Wall` objects made so far with their polygons (`wall` is the
last one; it may already belong to a solid), `solid_uid`, and for each solid of the zone the number
of its wall. -/
structure St (T : Type) where
  walls : List (List T)
  uid : Option Str
  solids : List Nat

/-- `wall.add_polygon(poly)` on the last wall (names are random, so never repeated);
`io/stl.py` L156-159. -/
def addPoly (st : St T) (p : T) : Except PyErr (St T) :=
  match st.walls.getLast? with
  | none => .error .valueError
  | some w => .ok { st with walls := st.walls.dropLast ++ [w ++ [p]] }

/-- The `endsolid` branch, `io/stl.py` L161-171; `rid` is `random_id()`. -/
def closeSolid (rid : Str) (st : St T) (line : Str) : Except PyErr (St T) :=
  if some (strip (line.drop 8)) ≠ st.uid then .error .assertionError
  else if st.walls = [] then .error .valueError
  else .ok { st with uid := if st.uid = some [] then some rid else st.uid,
                     solids := st.solids ++ [st.walls.length - 1] }

/-- The loop of `read_stl`, `io/stl.py` L108-175. -/
def loop (parse : Str → Option F) (mk : (F × F × F) × (F × F × F) × (F × F × F) → Except PyErr T)
    (rid : Str) : List Str → St T → Except PyErr (St T)
  | [], st => .ok st
  | l :: rest, st =>
    if (strip l).take 5 = "solid".toList then
      loop parse mk rid rest
        { st with walls := st.walls ++ [[]], uid := some (strip ((strip l).drop 5)) }
    else if (strip l).take 5 = "facet".toList then
      match checkNormal parse (strip l) with
      | .error e => .error e
      | .ok _ =>
        match facetBody parse rest with
        | .error e => .error e
        | .ok t =>
          match mk t with
          | .error e => .error e
          | .ok p =>
            match addPoly st p with
            | .error e => .error e
            | .ok st =>
              match rest with
              | _ :: _ :: _ :: _ :: _ :: rest => loop parse mk rid rest st
              | _ => .error .indexError  -- not reached: `facetBody` has read five lines
    else if (strip l).take 8 = "endsolid".toList then
      match closeSolid rid st (strip l) with
      | .error e => .error e
      | .ok st => loop parse mk rid rest st
    else loop parse mk rid rest st

/-- `read_stl`, `io/stl.py` L87-180: for each solid of the zone, the polygons of its only wall. -/
def readStl (parse : Str → Option F) (mk : (F × F × F) × (F × F × F) × (F × F × F) → Except PyErr T)
    (rid : Str) (text : Str) : Except PyErr (List (List T)) :=
  match loop parse mk rid (readlines text) ⟨[], none, []⟩ with
  | .error e => .error e
  | .ok st => .ok (st.solids.map fun k => st.walls.getD k [])

end B3d.Stl
