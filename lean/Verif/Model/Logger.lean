import Verif.Model.FileSystem

/-!
# The log file

`init_logger` (`building3d/logger/__init__.py`) and what `logging.basicConfig(..., filemode="w", force=True)` does to the
root logger of Python, after CPython's `logging/__init__.py`: the handlers present are removed and closed, then the file
is opened, which empties it.  A log file is a list of lines; the format of a line, time stamps and the encoding are not
modelled (a message is its formatted line).  The loggers of the package are children of the root logger without handlers
or levels of their own.  The restrictions of the file system model hold: no `..`, links, permissions or other processes.
-/

namespace B3d.Logger

open FileSystem

/-- Where a handler of the root logger writes. -/
inductive Handler where
  | stderr
  | file (place : Loc)
deriving DecidableEq

/-- The file system and the root logger: its handlers and its level. -/
structure State where
  fs : FS (List Str)
  handlers : List Handler
  level : Nat

/-- `logging.DEBUG`, the value of `LOG_LEVEL` in `building3d/config.py` L5. -/
def DEBUG : Nat := 10

/-- `LOG_FILE`, `building3d/config.py` L4. -/
def LOG_FILE : Str := "b3d.log".toList

/-- `Path(p).parent`. -/
def parent (p : Path) : Path := ⟨p.absolute, p.parts.dropLast⟩

/-- The place of the log file: the argument of `init_logger` or `LOG_FILE`, `logger/__init__.py` L12-13. -/
def place (cwd : Loc) (logfile : Option Str) : Loc := (parse (logfile.getD LOG_FILE)).loc cwd

/-- The parent directories of a log file given by the caller, `logger/__init__.py` L9-10. -/
def makeParents (fs : FS (List Str)) (cwd : Loc) : Option Str → Res (List Str)
  | none => (fs, none)
  | some f =>
    if !exists' fs ((parent (parse f)).loc cwd) then pathMkdir false fs ((parent (parse f)).loc cwd) else (fs, none)

/-- `init_logger`, `logger/__init__.py` L8-22.  `basicConfig` first removes and closes all handlers (`force=True`), then
opens the file (an empty name means no file: messages go to the error stream), and only then sets handler and level. -/
def initLogger (s : State) (cwd : Loc) (logfile : Option Str) : State × Option PyErr :=
  if ['.', '.'] ∈ components (logfile.getD LOG_FILE) then (s, some .notImplementedError)
  else
    match makeParents s.fs cwd logfile with
    | (fs, some e) => ({ s with fs := fs }, some e)
    | (fs, none) =>
      if logfile.getD LOG_FILE = [] then (⟨fs, [.stderr], DEBUG⟩, none)
      else
        match writeFile fs (place cwd logfile) [] with
        | (fs, some e) => (⟨fs, [], s.level⟩, some e)
        | (fs, none) => (⟨fs, [.file (place cwd logfile)], DEBUG⟩, none)

/-- A line is added to the end of an open file. -/
def appendLine (fs : FS (List Str)) (p : Loc) (line : Str) : FS (List Str) :=
  fs.map fun e =>
    match e with
    | (q, .file c) => if q = p then (q, .file (c ++ [line])) else e
    | e => e

/-- `logger.debug(...)`, `logger.info(...)`, ... anywhere in the package: the message goes to every handler of the root
logger if its level is high enough. -/
def message (s : State) (level : Nat) (line : Str) : State :=
  if s.level ≤ level then
    { s with fs := s.handlers.foldl (fun fs h =>
        match h with
        | .stderr => fs
        | .file p => appendLine fs p line) s.fs }
  else s

/-- What a program does with the logger. -/
inductive Call where
  | init (logfile : Option Str)
  | message (level : Nat) (line : Str)

/-- One call; exceptions are caught by the program. -/
def call (cwd : Loc) (s : State) : Call → State
  | .init f => (initLogger s cwd f).1
  | .message l t => message s l t

/-- A history of calls. -/
def run (cwd : Loc) (s : State) (cs : List Call) : State := cs.foldl (call cwd) s

end B3d.Logger
