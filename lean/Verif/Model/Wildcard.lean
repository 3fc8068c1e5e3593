import Verif.Model.Str
import Mathlib.Data.List.Dedup
import Mathlib.Data.List.Sort

/-!
# Wildcard paths

`building3d/paths/wildcardpath.py`.

Regular expressions: the expression built by the class is `.*` + path + `/*$`, where the path is not
escaped.  Modelled are paths in which, apart from the wildcards, every character stands for itself or
is `.` (any character but a line feed).  A path with another special character ends in
`notImplementedError`, which means "not modelled".  Matching is backtracking in the order of Python's
`re`: the first success in priority order is the result.  `\d` matches the ASCII digits only
(Python also accepts other Unicode decimal digits); wildcard names are ASCII.  The directory listing
of `Path(parent).glob` is a parameter.
-/

namespace B3d.Wildcard

/-! ### Numbers as text -/

/-- ASCII decimal digit. -/
def isDigit (c : Char) : Bool := 48 ≤ c.toNat && c.toNat ≤ 57

/-- The digit character of a number below ten. -/
def digitChar (n : Nat) : Char := Char.ofNat (48 + n)

/-- Decimal digits, with at most `fuel` of them. -/
def natStrAux : Nat → Nat → Str
  | 0, _ => []
  | fuel + 1, n => if n < 10 then [digitChar n] else natStrAux fuel (n / 10) ++ [digitChar (n % 10)]

/-- `str(n)` for a natural number. -/
def natStr (n : Nat) : Str := natStrAux (n + 1) n

/-- `int(s)` for a string of ASCII digits. -/
def parseNat (s : Str) : Nat := s.foldl (fun acc c => 10 * acc + (c.toNat - 48)) 0

/-! ### String functions -/

/-- `s.replace(old, new, 1)` for a non-empty `old`. -/
def replaceFirst (old new : Str) : Str → Str
  | [] => []
  | c :: t => if old.isPrefixOf (c :: t) then new ++ (c :: t).drop old.length
      else c :: replaceFirst old new t

/-- `s.replace(old, new)` for a non-empty `old`; `skip` characters belong to an occurrence already
replaced. -/
def replaceAllAux (old new : Str) : Nat → Str → Str
  | _, [] => []
  | skip + 1, _ :: t => replaceAllAux old new skip t
  | 0, c :: t => if old.isPrefixOf (c :: t) then new ++ replaceAllAux old new (old.length - 1) t
      else c :: replaceAllAux old new 0 t

/-- `s.replace(old, new)` for a non-empty `old`. -/
def replaceAll (old new s : Str) : Str := replaceAllAux old new 0 s

/-! ### Wildcards -/

/-- `re.findall("<([^<>]+)>", path)`; the state holds the characters after the last `<`. -/
def findAll : Option Str → Str → List Str
  | _, [] => []
  | none, c :: t => findAll (if c = '<' then some [] else none) t
  | some buf, c :: t =>
    if c = '<' then findAll (some []) t
    else if c = '>' then (if buf = [] then findAll none t else buf :: findAll none t)
    else findAll (some (buf ++ [c])) t

/-- `WildcardPath.wrap`, `wildcardpath.py` L22-24. -/
def wrap (w : Str) : Str := '<' :: (w ++ ['>'])

/-- Group names of a wildcard, `wildcardpath.py` L207-209. -/
def groups (w : Str) (count : Nat) : List Str :=
  (List.range count).map fun i => w ++ '_' :: natStr i

/-- Reserved words of Python. -/
def keywords : List Str :=
  ["False", "None", "True", "and", "as", "assert", "async", "await", "break", "class", "continue",
    "def", "del", "elif", "else", "except", "finally", "for", "from", "global", "if", "import", "in",
    "is", "lambda", "nonlocal", "not", "or", "pass", "raise", "return", "try", "while", "with",
    "yield"].map String.toList

/-- ASCII letter. -/
def isLetter (c : Char) : Bool :=
  (65 ≤ c.toNat && c.toNat ≤ 90) || (97 ≤ c.toNat && c.toNat ≤ 122)

/-- What `namedtuple` accepts as a field name (`wildcardpath.py` L20): an identifier that is not a
keyword and does not start with an underscore. -/
def isName (w : Str) : Bool :=
  match w with
  | [] => false
  | c :: t => isLetter c && t.all (fun c => isLetter c || isDigit c || c = '_') && !(keywords.contains w)

/-- A wildcard path object: `_path`, `_wildcards` and the part of `_regex` between `.*` and `/*$`. -/
structure WPath where
  path : Str
  wildcards : List Str
  body : Str
deriving DecidableEq

/-- `_find_wildcards`, `wildcardpath.py` L197-211: the names found and the sorted list without
repetitions. -/
def findWildcards (path : Str) : List Str × List Str :=
  let found := findAll none path
  (found, found.dedup.insertionSort (fun a b => a ≤ b))

/-- The replacement text for one group, `wildcardpath.py` L227. -/
def groupText (gr : Str) : Str := "(?P<".toList ++ gr ++ ">\\d+)".toList

/-- `_wildcards_to_regex`, `wildcardpath.py` L213-229, without the constant ends. -/
def toRegex (path : Str) (found wildcards : List Str) : Str :=
  wildcards.foldl (fun p w =>
    (groups w (found.count w)).foldl (fun p gr => replaceFirst (wrap w) (groupText gr) p) p) path

/-- `WildcardPath.__init__`, `wildcardpath.py` L14-20. -/
def mkPath (path : Str) : Except PyErr WPath :=
  let f := findWildcards path
  if f.2.all isName then .ok ⟨path, f.2, toRegex path f.1 f.2⟩ else .error .valueError

/-! ### Regular expressions -/

/-- Parts of an expression. -/
inductive Tok where
  /-- a character that stands for itself -/
  | lit (c : Char)
  /-- `.` -/
  | any
  /-- `(?P<name>\d+)` -/
  | digits (name : Str)
deriving DecidableEq

/-- Characters with a special meaning, other than `.`. -/
def special : List Char := "\\^$*+?{}[]|()".toList

/-- Reading an expression; at most `fuel` parts. -/
def parseRe : Nat → Str → Option (List Tok)
  | 0, _ => none
  | _ + 1, [] => some []
  | fuel + 1, c :: t =>
    if "(?P<".toList.isPrefixOf (c :: t) then
      let rest := t.drop 3
      let name := rest.takeWhile (· ≠ '>')
      let rest := rest.dropWhile (· ≠ '>')
      if ">\\d+)".toList.isPrefixOf rest then
        (parseRe fuel (rest.drop 5)).map (Tok.digits name :: ·)
      else none
    else if c = '.' then (parseRe fuel t).map (Tok.any :: ·)
    else if c ∈ special then none
    else (parseRe fuel t).map (Tok.lit c :: ·)

/-- Names of the groups. -/
def tokNames : List Tok → List Str
  | [] => []
  | .digits n :: ts => n :: tokNames ts
  | _ :: ts => tokNames ts

/-- `re.compile`: a group name may occur once. -/
def compile (body : Str) : Except PyErr (List Tok) :=
  match parseRe (body.length + 1) body with
  | none => .error .notImplementedError
  | some ts => if (tokNames ts).Nodup then .ok ts else .error .reError

/-- `k, k-1, ..., 1`. -/
def countdown : Nat → List Nat
  | 0 => []
  | k + 1 => (k + 1) :: countdown k

/-- Matching the parts and then `/*$` at the beginning of the string: all ways in the order in which
they are tried, each with the texts of the groups. -/
def matchToks : List Tok → Str → List (List (Str × Str))
  | [], s =>
    let rest := s.dropWhile (· = '/')
    if rest = [] ∨ rest = ['\n'] then [[]] else []
  | .lit c :: ts, s =>
    match s with
    | [] => []
    | d :: s => if d = c then matchToks ts s else []
  | .any :: ts, s =>
    match s with
    | [] => []
    | d :: s => if d = '\n' then [] else matchToks ts s
  | .digits n :: ts, s =>
    (countdown (s.takeWhile isDigit).length).flatMap fun k =>
      (matchToks ts (s.drop k)).map ((n, s.take k) :: ·)

/-- `regex.match(s)`: `.*` takes as much as possible. -/
def reMatch (ts : List Tok) (s : Str) : Option (List (Str × Str)) :=
  let n := (s.takeWhile (· ≠ '\n')).length
  (((countdown n ++ [0]).flatMap fun k => matchToks ts (s.drop k))).head?

/-- `re.sub("_\\d+$", "", gr)`, `wildcardpath.py` L64. -/
def stripIndex (gr : Str) : Str :=
  let r := gr.reverse
  let ds := r.takeWhile isDigit
  match r.dropWhile isDigit with
  | '_' :: rest => if ds = [] then gr else rest.reverse
  | _ => gr

/-- One entry of a Python dict. -/
def dictGet {α : Type} (d : List (Str × α)) (k : Str) : Option α := (d.find? fun e => e.1 = k).map Prod.snd

/-- `wildcardpath.py` L62-70. -/
def collect : List (Str × Nat) → List (Str × Str) → Except PyErr (List (Str × Nat))
  | d, [] => .ok d
  | d, (gr, val) :: rest =>
    let w := stripIndex gr
    match dictGet d w with
    | none => collect (d ++ [(w, parseNat val)]) rest
    | some v => if parseNat val = v then collect d rest else .error .assertionError

/-- The loop over the files, `wildcardpath.py` L58-71. -/
def matchFiles (ts : List Tok) : List Str → Except PyErr (List (Str × List (Str × Nat)))
  | [] => .ok []
  | f :: fs =>
    match reMatch ts f with
    | none => matchFiles ts fs
    | some gs =>
      match collect [] gs with
      | .error e => .error e
      | .ok d =>
        match matchFiles ts fs with
        | .error e => .error e
        | .ok r => .ok ((f, d) :: r)

/-- `get_matching_paths_dict_values`, `wildcardpath.py` L34-71; `files` is the listing, in which no
path occurs twice. -/
def getDict (w : WPath) (files : List Str) : Except PyErr (List (Str × List (Str × Nat))) :=
  match compile w.body with
  | .error e => .error e
  | .ok ts => matchFiles ts files

/-- Values of the fields of `Case(**wd)`, in the order of the fields. -/
def caseOf (w : WPath) (wd : List (Str × Nat)) : List (Option Nat) := w.wildcards.map (dictGet wd)

/-- `dnew[s] = p`, `wildcardpath.py` L253. -/
def caseSet (d : List (List (Option Nat) × Str)) (k : List (Option Nat)) (p : Str) :
    List (List (Option Nat) × Str) :=
  if d.any (fun e => e.1 = k) then d.map fun e => if e.1 = k then (k, p) else e else d ++ [(k, p)]

/-- `get_matching_paths_namedtuple_keys`, `wildcardpath.py` L73-97 and L231-254. -/
def getNamed (w : WPath) (files : List Str) : Except PyErr (List (List (Option Nat) × Str)) :=
  match getDict w files with
  | .error e => .error e
  | .ok d => .ok (d.foldl (fun m e => caseSet m (caseOf w e.2) e.1) [])

/-- `num_matching`, `wildcardpath.py` L112-116. -/
def numMatching (wd : List (Str × Nat)) (kwargs : List (Str × Nat)) : Nat :=
  (wd.map fun e => (kwargs.filter fun k => k.1 = e.1 ∧ k.2 = e.2).length).sum

/-- `get_matching_paths`, `wildcardpath.py` L99-121; the names in `kwargs` are distinct. -/
def getPaths (w : WPath) (files : List Str) (kwargs : List (Str × Nat)) : Except PyErr (List Str) :=
  match getDict w files with
  | .error e => .error e
  | .ok d =>
    if kwargs.length = 0 then .ok (d.map Prod.fst)
    else .ok ((d.filter fun e => numMatching e.2 kwargs = kwargs.length).map Prod.fst)

/-- `os.path.join(parent, path)` (POSIX). -/
def osJoin (parent path : Str) : Str :=
  if path.head? = some '/' then path
  else if parent = [] ∨ parent.getLast? = some '/' then parent ++ path
  else parent ++ '/' :: path

/-- The loop of `fill`, `wildcardpath.py` L158-162; values are given as text (`str(v)`). -/
def fillLoop (wildcards : List Str) : Str → List (Str × Str) → Except PyErr Str
  | path, [] => .ok path
  | path, (k, v) :: rest =>
    if k ∈ wildcards then fillLoop wildcards (replaceAll (wrap k) v path) rest
    else .error .keyError

/-- `fill`, `wildcardpath.py` L123-166; the names in `kwargs` are distinct. -/
def fill (w : WPath) (parent : Str) (kwargs : List (Str × Str)) : Except PyErr Str :=
  if kwargs.length ≠ w.wildcards.length then .error .valueError
  else
    match fillLoop w.wildcards w.path kwargs with
    | .error e => .error e
    | .ok path => .ok (if 0 < parent.length then osJoin parent path else path)

end B3d.Wildcard
