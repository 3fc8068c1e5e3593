import Verif.Model.Wildcard

/-!
# `building3d/types/recursive_default_dict.py`

Nested dictionaries are trees: a dictionary which is put into itself or in two places is not modelled.  Values that are
not dictionaries are whole numbers, booleans and `None`, which cannot be indexed; strings and lists as values are not modelled.
Keys are strings, whole numbers, booleans and `None`.
-/

namespace B3d.DefaultDict

/-- A key of a dictionary. -/
inductive Key where
  | str (s : Str)
  | int (i : Int)
  | bool (b : Bool)
  | none
deriving DecidableEq

/-- `True` and `1` are the same key for Python, as are `False` and `0`. -/
def Key.norm : Key → Key
  | .bool b => .int (if b then 1 else 0)
  | k => k

/-- Two keys are equal (and have the same hash). -/
def Key.same (k k' : Key) : Bool := k.norm = k'.norm

/-- A value that is not a dictionary. -/
inductive Leaf where
  | num (n : Int)
  | bool (b : Bool)
  | none
deriving DecidableEq

mutual
/-- A value: a leaf or a dictionary; `auto` tells if it is a `defaultdict` (`recursive_default_dict.py` L19) or a plain
`dict`. -/
inductive Val where
  | leaf (l : Leaf)
  | dict (auto : Bool) (es : Entries)

/-- The entries of a dictionary, in the order of insertion. -/
inductive Entries where
  | nil
  | cons (k : Key) (v : Val) (rest : Entries)
end

/-- `recursive_default_dict()`, `recursive_default_dict.py` L5-19. -/
def new : Val := .dict true .nil

/-- The value stored under a key. -/
def Entries.get (k : Key) : Entries → Option Val
  | .nil => .none
  | .cons k' v rest => if k'.same k then some v else rest.get k

/-- `d[k] = v`: an existing key stays as it is and in its place. -/
def Entries.put (k : Key) (v : Val) : Entries → Entries
  | .nil => .cons k v .nil
  | .cons k' v' rest => if k'.same k then .cons k' v rest else .cons k' v' (rest.put k v)

/-- Reading `d[k1][k2]...`: the dictionary afterwards and the value.  A missing key of a `defaultdict` gets a new
`defaultdict` (L9, L19), one of a plain dict raises `KeyError`; a leaf cannot be indexed.  Nothing is inserted before an
exception: below an inserted dictionary everything is new. -/
def getPath : List Key → Val → Except PyErr (Val × Val)
  | [], v => .ok (v, v)
  | _ :: _, .leaf _ => .error .typeError
  | k :: ks, .dict auto es =>
    match es.get k with
    | some v =>
      match getPath ks v with
      | .ok (v', r) => .ok (.dict auto (es.put k v'), r)
      | .error e => .error e
    | none =>
      if auto then
        match getPath ks new with
        | .ok (v', r) => .ok (.dict auto (es.put k v'), r)
        | .error e => .error e
      else .error .keyError

/-- `d[k1][k2]...[kn] = v`: the last dictionary is read, the value stored in it. -/
def setPath : List Key → Val → Val → Except PyErr Val
  | [], _, _ => .error .typeError
  | _ :: _, _, .leaf _ => .error .typeError
  | [k], v, .dict auto es => .ok (.dict auto (es.put k v))
  | k :: k' :: ks, v, .dict auto es =>
    match es.get k with
    | some w =>
      match setPath (k' :: ks) v w with
      | .ok w' => .ok (.dict auto (es.put k w'))
      | .error e => .error e
    | none =>
      if auto then
        match setPath (k' :: ks) v new with
        | .ok w' => .ok (.dict auto (es.put k w'))
        | .error e => .error e
      else .error .keyError

/-- The text of a key in JSON: `json.dumps` writes numbers, booleans and `None` as strings. -/
def jsonKey : Key → Str
  | .str s => s
  | .int i => if i < 0 then '-' :: Wildcard.natStr i.natAbs else Wildcard.natStr i.natAbs
  | .bool b => (if b then "true" else "false").toList
  | .none => "null".toList

mutual
/-- `recursive_default_dict_to_dict`, `recursive_default_dict.py` L22-38: `json.loads(json.dumps(rdd))`.  Writing puts
down every entry; reading makes plain dictionaries, in which a key that occurs again gets the later value. -/
def toDict : Val → Val
  | .leaf l => .leaf l
  | .dict _ es => .dict false (readEntries es .nil)

/-- The entries are put into the dictionary `acc` one after the other. -/
def readEntries : Entries → Entries → Entries
  | .nil, acc => acc
  | .cons k v rest, acc => readEntries rest (acc.put (.str (jsonKey k)) (toDict v))
end

end B3d.DefaultDict
