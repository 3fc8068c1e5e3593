import Verif.Model.DefaultDict

/-! # What nested default dictionaries are for (C97) -/

namespace B3d.Spec

open DefaultDict

/-- What Python takes as the same key: `True` is `1` and `False` is `0`, and otherwise keys are the same only if they are
equal. -/
def keyId : Key → Str ⊕ Option Int
  | .str s => .inl s
  | .int i => .inr (some i)
  | .bool true => .inr (some 1)
  | .bool false => .inr (some 0)
  | .none => .inr none

/-- A sequence of keys, up to what Python takes as the same key. -/
def keysOf (p : List Key) : List (Str ⊕ Option Int) := p.map keyId

/-- What is stored: the value, if any, under each sequence of keys. -/
abbrev Stored := List Key → Option Leaf

/-- Before the end of the sequence of keys, a value that is not a dictionary is reached. -/
def Blocked (c : Stored) (p : List Key) : Prop := ∃ q k r, p = q ++ k :: r ∧ c q ≠ none

/-- What is stored after `d[k1]...[kn] = l`: this value, nothing below it, and everything else as before. -/
def stored (p : List Key) (l : Leaf) (c : Stored) : Stored := fun q =>
  if keysOf q = keysOf p then some l else if keysOf p <+: keysOf q then none else c q

/-- A use of the dictionary: `d[k1]...[kn] = l` or `d[k1]...[kn]`. -/
inductive Use where
  | write (p : List Key) (l : Leaf)
  | read (p : List Key)

/-- What is stored after these uses, if none of them raises. -/
inductive Uses : List Use → Stored → Prop where
  | start : Uses [] fun _ => none
  | write {us c p l} : Uses us c → p ≠ [] → ¬ Blocked c p → Uses (us ++ [.write p l]) (stored p l c)
  | read {us c p} : Uses us c → ¬ Blocked c p → Uses (us ++ [.read p]) c

/-- How JSON writes a key: always as a string, numbers in decimal notation. -/
def keyText : Key → Str
  | .str s => s
  | .int i => (toString i).toList
  | .bool true => ['t', 'r', 'u', 'e']
  | .bool false => ['f', 'a', 'l', 's', 'e']
  | .none => ['n', 'u', 'l', 'l']

/-- The entries of a dictionary as a list. -/
def pairs : Entries → List (Key × Val)
  | .nil => []
  | .cons k v rest => (k, v) :: pairs rest

end B3d.Spec
