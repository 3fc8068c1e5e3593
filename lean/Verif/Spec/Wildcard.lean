import Verif.Model.Wildcard

/-! # Specification vocabulary for wildcard paths -/

namespace B3d.Wildcard

/-- Part of a wildcard path: a character or a named wildcard. -/
inductive Part where
  | lit (c : Char)
  | wild (name : Str)
deriving DecidableEq

/-- The path as text, with wildcards in angle brackets. -/
def render : List Part → Str
  | [] => []
  | .lit c :: ps => c :: render ps
  | .wild n :: ps => '<' :: (n ++ '>' :: render ps)

/-- The path with numbers in place of the wildcards. -/
def filled (val : Str → Nat) : List Part → Str
  | [] => []
  | .lit c :: ps => c :: filled val ps
  | .wild n :: ps => natStr (val n) ++ filled val ps

/-- Names of the wildcards, in order of occurrence. -/
def names : List Part → List Str
  | [] => []
  | .lit _ :: ps => names ps
  | .wild n :: ps => n :: names ps

/-- Characters allowed outside of wildcards: no angle brackets, line feeds or special characters of
regular expressions other than `.`. -/
def plain (c : Char) : Bool := c ≠ '<' && c ≠ '>' && c ≠ '\n' && !(special.contains c)

/-- No wildcard is followed by another one or by a digit. -/
def Separated : List Part → Prop
  | [] => True
  | .lit _ :: ps => Separated ps
  | .wild _ :: ps => Separated ps ∧ ∀ p, ps.head? = some p → ∃ c, p = .lit c ∧ isDigit c = false

/-- Wildcard paths for which matching inverts filling: they begin with a character other than a dot
or a digit, consist of plain characters and wildcards with valid names, wildcards are separated by
something that is not a digit, and no wildcard is called like another one with a number attached. -/
structure Good (ps : List Part) : Prop where
  first : ∃ c rest, ps = .lit c :: rest ∧ isDigit c = false ∧ c ≠ '.'
  chars : ∀ c, Part.lit c ∈ ps → plain c = true
  valid : ∀ n, Part.wild n ∈ ps → isName n = true
  apart : Separated ps
  clash : ∀ n m, Part.wild n ∈ ps → Part.wild m ∈ ps → ∀ i, n ≠ m ++ '_' :: natStr i

/-- The text is an instance of the path in which every occurrence of a wildcard is a non-empty string
of digits standing for the value of the wildcard; a dot stands for any character. -/
inductive Reads (val : Str → Option Nat) : List Part → Str → Prop where
  | nil : Reads val [] []
  | lit {c : Char} {ps : List Part} {s : Str} (hc : c ≠ '.') (h : Reads val ps s) :
      Reads val (.lit c :: ps) (c :: s)
  | dot {c : Char} {ps : List Part} {s : Str} (hc : c ≠ '\n') (h : Reads val ps s) :
      Reads val (.lit '.' :: ps) (c :: s)
  | wild {n ds : Str} {ps : List Part} {s : Str} (h0 : ds ≠ []) (h1 : ∀ c ∈ ds, isDigit c = true)
      (h2 : val n = some (parseNat ds)) (h : Reads val ps s) : Reads val (.wild n :: ps) (ds ++ s)

/-- The value belonging to the last entry with the given key. -/
def lastWith {α β γ : Type} [DecidableEq γ] (key : β → γ) (l : List (α × β)) (k : γ) : Option α :=
  ((l.filter fun e => key e.2 = k).getLast?).map Prod.fst

end B3d.Wildcard
