import Verif.Model.Wildcard

/-!
# Files and directories

The effects on the file system of `WildcardPath.mkdir` (`building3d/paths/wildcardpath.py`), of the functions that write
files with `parent_dirs` (`building3d/io/b3d.py`, `building3d/io/dotbim.py`, `building3d/io/stl.py`) and of
`Simulation.make_dirs` (`building3d/sim/rays/simulation.py`).

The functions of `pathlib` and `os` are modelled after their documentation and CPython's source (POSIX): there are
directories and regular files, no symbolic links, no missing permissions, no other process; a path with a component `..`
is not modelled (`notImplementedError`).
-/

namespace B3d.FileSystem

open Wildcard (WPath osJoin fill getDict)

/-- A place in the file system: the names from the innermost to the outermost, so `/a/b` is `["b", "a"]`. -/
abbrev Loc := List Str

/-- What is at a place. -/
inductive Node (C : Type) where
  | dir
  | file (content : C)
deriving DecidableEq

/-- A file system: what is at which place, apart from the root directory. -/
abbrev FS (C : Type) := List (Loc × Node C)

variable {C : Type}

/-- What is at this place. -/
def look (fs : FS C) : Loc → Option (Node C)
  | [] => some .dir
  | n :: p => (fs.find? fun e => e.1 = n :: p).map Prod.snd

/-- `os.path.exists`, `Path.exists`. -/
def exists' (fs : FS C) (p : Loc) : Bool := (look fs p).isSome

/-- `os.path.isdir`, `Path.is_dir`. -/
def isDir (fs : FS C) (p : Loc) : Bool :=
  match look fs p with
  | some .dir => true
  | _ => false

/-- A file stands where the path needs a directory. -/
def fileAbove (fs : FS C) : Loc → Bool
  | [] => false
  | _ :: p =>
    match look fs p with
    | some (.file _) => true
    | _ => fileAbove fs p

/-- The file system after a call, and the exception if one was raised. -/
abbrev Res (C : Type) := FS C × Option PyErr

/-- `os.mkdir`. -/
def osMkdir (fs : FS C) (p : Loc) : Res C :=
  match look fs p with
  | some _ => (fs, some .fileExistsError)
  | none =>
    if isDir fs p.tail then (fs ++ [(p, .dir)], none)
    else if fileAbove fs p then (fs, some .notADirectoryError)
    else (fs, some .fileNotFoundError)

/-- The handler `except OSError: if not exist_ok or not self.is_dir(): raise` of `Path.mkdir`. -/
def unlessDir (existOk : Bool) (p : Loc) (r : Res C) : Res C :=
  match r with
  | (fs, none) => (fs, none)
  | (fs, some e) => if !existOk || !isDir fs p then (fs, some e) else (fs, none)

/-- `Path.mkdir(parents=True, exist_ok=existOk)`: after `FileNotFoundError` the parent is made (with
`exist_ok=True`), then the directory itself (with `parents=False`). -/
def pathMkdir (existOk : Bool) (fs : FS C) : Loc → Res C
  | [] => unlessDir existOk [] (osMkdir fs [])
  | n :: p =>
    match osMkdir fs (n :: p) with
    | (_, some .fileNotFoundError) =>
      match pathMkdir true fs p with
      | (fs', some e) => (fs', some e)
      | (fs', none) => unlessDir existOk (n :: p) (osMkdir fs' (n :: p))
    | r => unlessDir existOk (n :: p) r

/-- `os.makedirs(name)` (with `exist_ok=False`): the parents are made first if they are not there; a `FileExistsError`
from that is ignored. -/
def makedirs (fs : FS C) : Loc → Res C
  | [] => osMkdir fs []
  | n :: p =>
    if exists' fs p then osMkdir fs (n :: p)
    else
      match makedirs fs p with
      | (fs', none) => osMkdir fs' (n :: p)
      | (fs', some .fileExistsError) => osMkdir fs' (n :: p)
      | (fs', some e) => (fs', some e)

/-! ### Paths as text -/

/-- A path as `pathlib` holds it: is it absolute, and its components from the outermost to the innermost. -/
structure Path where
  absolute : Bool
  parts : List Str
deriving DecidableEq

/-- The components of a path: empty ones and `.` are dropped by `pathlib`. -/
def components (s : Str) : List Str := (Str.split '/' s).filter fun c => c ≠ [] ∧ c ≠ ['.']

/-- `Path(s)`; a path beginning with exactly two slashes is taken like any other absolute path. -/
def parse (s : Str) : Path := ⟨s.head? = some '/', components s⟩

/-- `str(path)`. -/
def Path.str (p : Path) : Str :=
  if p.absolute then '/' :: Str.join '/' p.parts
  else if p.parts = [] then ['.'] else Str.join '/' p.parts

/-- The place of a path, seen from the working directory. -/
def Path.loc (cwd : Loc) (p : Path) : Loc := p.parts.reverse ++ if p.absolute then [] else cwd

/-- `p / rel` for a relative path `rel`. -/
def Path.append (p : Path) (rel : List Str) : Path := ⟨p.absolute, p.parts ++ rel⟩

/-- `[str(f) for f in Path(parent).glob("**/*")]`, `wildcardpath.py` L58-59: everything below a directory, in some order
(here that of the list; no theorem depends on it). -/
def glob (fs : FS C) (cwd : Loc) (parent : Str) : List Str :=
  let base := (parse parent).loc cwd
  fs.filterMap fun e =>
    if e.1 ≠ base ∧ base <:+ e.1 then
      some (((parse parent).append ((e.1.take (e.1.length - base.length)).reverse)).str)
    else none

/-- `get_matching_paths_dict_values` over a file system, `wildcardpath.py` L34-71. -/
def findPaths (w : WPath) (fs : FS C) (cwd : Loc) (parent : Str) : Except PyErr (List (Str × List (Str × Nat))) :=
  getDict w (glob fs cwd parent)

/-- `WildcardPath.mkdir`, `wildcardpath.py` L168-195: the file system afterwards and the path returned. -/
def mkdir (w : WPath) (fs : FS C) (cwd : Loc) (parent : Str) (kwargs : List (Str × Str)) : FS C × Except PyErr Str :=
  match fill w parent kwargs with
  | .error e => (fs, .error e)
  | .ok path =>
    if ['.', '.'] ∈ components path then (fs, .error .notImplementedError)
    else
      match pathMkdir true fs ((parse path).loc cwd) with
      | (fs', some e) => (fs', .error e)
      | (fs', none) => (fs', .ok (parse path).str)

/-! ### Writing files -/

/-- `open(path, "w")` followed by writing all of the content. -/
def writeFile (fs : FS C) (p : Loc) (c : C) : Res C :=
  match look fs p with
  | some .dir => (fs, some .isADirectoryError)
  | some (.file _) => (fs.map fun e => if e.1 = p then (p, .file c) else e, none)
  | none =>
    if isDir fs p.tail then (fs ++ [(p, .file c)], none)
    else if fileAbove fs p then (fs, some .notADirectoryError)
    else (fs, some .fileNotFoundError)

/-- `write_b3d`, `write_dotbim` and `write_stl` (`io/b3d.py` L54-57 and L76-77, `io/dotbim.py` L30-33, `io/stl.py` L56-59):
the parent directories are made if asked for and not there, then the file is written.  `content` is what goes into the
file. -/
def writeTo (parentDirs : Bool) (fs : FS C) (p : Loc) (content : C) : Res C :=
  if parentDirs && !exists' fs p.tail then
    match pathMkdir false fs p.tail with
    | (fs', some e) => (fs', some e)
    | (fs', none) => writeFile fs' p content
  else writeFile fs p content

/-- `open(path, "r")`: the content. -/
def readFrom (fs : FS C) (p : Loc) : Except PyErr C :=
  match look fs p with
  | some (.file c) => .ok c
  | some .dir => .error .isADirectoryError
  | none => if fileAbove fs p then .error .notADirectoryError else .error .fileNotFoundError

/-! ### Directories of a simulation -/

/-- `len(os.listdir(p)) > 0` for a directory. -/
def hasEntries (fs : FS C) (p : Loc) : Bool := fs.any fun e => e.1 ≠ [] ∧ e.1.tail = p

/-- `Simulation.make_dirs`, `simulation.py` L88-98.  `os.listdir` of a file raises `NotADirectoryError`. -/
def makeDirs (fs : FS C) (project buffer : Loc) : Res C :=
  let r := if exists' fs project then (fs, none) else makedirs fs project
  match r with
  | (fs, some e) => (fs, some e)
  | (fs, none) =>
    match look fs buffer with
    | some (.file _) => (fs, some .notADirectoryError)
    | some .dir => if hasEntries fs buffer then (fs, some .runtimeError) else makedirs fs buffer
    | none => makedirs fs buffer

end B3d.FileSystem
