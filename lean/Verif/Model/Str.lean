import Verif.Model.PyErr

/-!
# Python strings

A Python string is modelled as the list of its characters.
-/

namespace B3d

/-- Python `str`. -/
abbrev Str := List Char

namespace Str

/-- `s.split(sep)` for a one-character separator: always at least one part. -/
def split (sep : Char) : Str → List Str
  | [] => [[]]
  | c :: t =>
    if c = sep then [] :: split sep t
    else
      match split sep t with
      | [] => [[c]]
      | h :: r => (c :: h) :: r

/-- `sep.join(parts)` for a one-character separator. -/
def join (sep : Char) : List Str → Str
  | [] => []
  | [a] => a
  | a :: b :: t => a ++ sep :: join sep (b :: t)

end Str

/-- `PATH_SEP` (`building3d/geom/paths/__init__.py` L1). -/
def PATH_SEP : Char := '/'

/-- `validate_name` (`building3d/geom/paths/validate_name.py` L4-7). -/
def validateName (name : Str) : Except PyErr Str :=
  if PATH_SEP ∈ name then .error .valueError else .ok name

/-- `split_path` (`building3d/geom/paths/split_path.py` L4-8). -/
def splitPath (p : Str) : Except PyErr (List Str) :=
  let names := Str.split PATH_SEP p
  if names.length = 0 then .error .valueError else .ok names

end B3d
