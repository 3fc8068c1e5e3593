import Verif.Model.Wildcard
import Verif.Model.Sim

/-!
# Dumping and reading buffers

`building3d/sim/rays/dump_buffers.py`.

The file system is a list of files.  Simplifications: directories are not modelled (so `glob` lists
files only, and the directory is assumed to be written as `pathlib` prints it); files are arrays saved
by NumPy, which is assumed to load what was saved; after an exception the file system is not described.
-/

namespace B3d.Buffers

open Wildcard Sim

/-- Content of a file: an array of points, shape `(n, 3)`, or of numbers, shape `(n,)`, as saved by
`np.save(path, data[step])`, `dump_buffers.py` L50; `torn` is a file of which `np.save` was stopped before
it had written everything. -/
inductive Arr (K : Type) where
  | pts (l : List (Vec3 K))
  | nums (l : List K)
  | torn
deriving DecidableEq

/-- Files with their contents. -/
abbrev FS (K : Type) := List (Str × Arr K)

variable {K : Type}

/-- Content of a file. -/
def fsGet (fs : FS K) (p : Str) : Option (Arr K) := (fs.find? fun e => e.1 = p).map Prod.snd

/-- Writing a file. -/
def fsSet (fs : FS K) (p : Str) (a : Arr K) : FS K :=
  if fs.any (fun e => e.1 = p) then fs.map fun e => if e.1 = p then (p, a) else e else fs ++ [(p, a)]

/-- File name used by `np.save`, which appends `.npy` if it is missing. -/
def npyName (p : Str) : Str := if ".npy".toList.isSuffixOf p then p else p ++ ".npy".toList

/-- The three file names of the configuration, `simulation_config.py` L68-74. -/
structure Paths where
  position : Str
  energy : Str
  hits : Str

/-- Default names, `simulation_config.py` L71-73. -/
def defaultPaths : Paths :=
  ⟨"position_<step>.npy".toList, "energy_<step>.npy".toList, "hits_<step>.npy".toList⟩

/-- `WildcardPath(file).fill(parent=dump_dir, step=n)`, `dump_buffers.py` L49, L95-102. -/
def stepPath (file dir : Str) (n : Nat) : Except PyErr Str :=
  match mkPath file with
  | .error e => .error e
  | .ok w => fill w dir [("step".toList, natStr n)]

/-- `dump_buffers.py` L49-50. -/
def saveStep (fs : FS K) (file dir : Str) (n : Nat) (a : Arr K) : Except PyErr (FS K) :=
  match stepPath file dir n with
  | .error e => .error e
  | .ok p => .ok (fsSet fs (npyName p) a)

/-- The inner loop, `dump_buffers.py` L44-50. -/
def saveRow (ps : Paths) (dir : Str) (fs : FS K) (n : Nat) (row : Row K) : Except PyErr (FS K) :=
  match saveStep fs ps.position dir n (.pts row.pos) with
  | .error e => .error e
  | .ok fs =>
    match saveStep fs ps.energy dir n (.nums row.energy) with
    | .error e => .error e
    | .ok fs => saveStep fs ps.hits dir n (.nums row.hits)

/-- A sequence of writes of rows. -/
def saveAll (ps : Paths) (dir : Str) : FS K → List (Nat × Row K) → Except PyErr (FS K)
  | fs, [] => .ok fs
  | fs, (n, row) :: rest =>
    match saveRow ps dir fs n row with
    | .error e => .error e
    | .ok fs => saveAll ps dir fs rest

/-- `dump_buffers`, `dump_buffers.py` L15-52; the writes are those of `Sim.dumpBuffers`. -/
def dump (ps : Paths) (dir : Str) (fs : FS K) (initStep : Nat) (rows : List (Row K)) :
    Except PyErr (FS K) := saveAll ps dir fs (dumpBuffers initStep rows)

/-- The calls of `np.save` for a sequence of rows, in order: file name of the configuration, step and
array, `dump_buffers.py` L43-52. -/
def saves (ps : Paths) : List (Nat × Row K) → List (Str × Nat × Arr K)
  | [] => []
  | (n, row) :: rest =>
    (ps.position, n, .pts row.pos) :: (ps.energy, n, .nums row.energy) :: (ps.hits, n, .nums row.hits) ::
      saves ps rest

/-- The calls one after another, `dump_buffers.py` L49-50. -/
def saveSeq (dir : Str) : FS K → List (Str × Nat × Arr K) → Except PyErr (FS K)
  | fs, [] => .ok fs
  | fs, (file, n, a) :: rest =>
    match saveStep fs file dir n a with
    | .error e => .error e
    | .ok fs => saveSeq dir fs rest

/-- The files left when the program is stopped after `k` calls of `np.save`, `dump_buffers.py` L43-52;
`torn` if it is stopped inside the next call, which has opened its file (and so emptied it) but not written
everything. -/
def stopped (ps : Paths) (dir : Str) (fs : FS K) (ws : List (Nat × Row K)) (k : Nat) (torn : Bool) :
    Except PyErr (FS K) :=
  match saveSeq dir fs ((saves ps ws).take k) with
  | .error e => .error e
  | .ok fs =>
    match torn, (saves ps ws)[k]? with
    | true, some (file, n, _) => saveStep fs file dir n .torn
    | _, _ => .ok fs

/-- `Path(dir).glob("**/*")` in the order given by `order`. -/
def listing (order : List Str → List Str) (fs : FS K) (dir : Str) : List Str :=
  order ((fs.map Prod.fst).filter fun p => (dir ++ ['/']).isPrefixOf p)

/-- `d["step"]` for all the values, `dump_buffers.py` L80-82. -/
def stepValues : List (Str × List (Str × Nat)) → Except PyErr (List Nat)
  | [] => .ok []
  | e :: r =>
    match dictGet e.2 "step".toList with
    | none => .error .keyError
    | some n =>
      match stepValues r with
      | .error e => .error e
      | .ok l => .ok (n :: l)

/-- `max(l) + 1` for a non-empty list. -/
def maxSucc (l : List Nat) : Nat := l.foldr (fun n m => max (n + 1) m) 0

/-- `get_matching_paths_dict_values` of one kind of files, `dump_buffers.py` L67-73. -/
def dictOf (order : List Str → List Str) (fs : FS K) (dir file : Str) :
    Except PyErr (List (Str × List (Str × Nat))) :=
  match mkPath file with
  | .error e => .error e
  | .ok w => getDict w (listing order fs dir)

/-- `np.load(wpath.fill(parent=dump_dir, step=step_num))`, `dump_buffers.py` L95-102.  NumPy is assumed to
raise an exception for a file that is cut off anywhere (`ValueError`, or `EOFError`, which is not told apart
here). -/
def loadStep (fs : FS K) (file dir : Str) (n : Nat) : Except PyErr (Arr K) :=
  match stepPath file dir n with
  | .error e => .error e
  | .ok p =>
    match fsGet fs p with
    | none => .error .fileNotFoundError
    | some .torn => .error .valueError
    | some a => .ok a

/-- `buf[step, 0:n] = row` for a row of zeros of length `width`, `dump_buffers.py` L112-114: the slice
is cut at the end of the row; an array of length one is repeated. -/
def putRow {α : Type} (zero : α) (width n : Nat) (row : List α) : Except PyErr (List α) :=
  let w := min n width
  if row.length = w then .ok (row ++ List.replicate (width - w) zero)
  else
    match row with
    | [x] => .ok (List.replicate w x ++ List.replicate (width - w) zero)
    | _ => .error .valueError

/-- The body of the loop, `dump_buffers.py` L94-114.  `shape` holds the widths fixed in step 0.
Loading an array of another kind than expected is not modelled. -/
def readStep [Zero K] (fs : FS K) (ps : Paths) (dir : Str) (shape : Option (Nat × Nat)) (n : Nat) :
    Except PyErr ((Nat × Nat) × Row K) :=
  match loadStep fs ps.position dir n, loadStep fs ps.energy dir n, loadStep fs ps.hits dir n with
  | .error e, _, _ => .error e
  | _, .error e, _ => .error e
  | _, _, .error e => .error e
  | .ok (.pts pos), .ok (.nums enr), .ok (.nums hit) =>
    let sh := match shape with
      | some s => s
      | none => (pos.length, hit.length)
    match putRow (⟨0, 0, 0⟩ : Vec3 K) sh.1 pos.length pos, putRow 0 sh.1 pos.length enr, putRow 0 sh.2 hit.length hit with
    | .error e, _, _ => .error e
    | _, .error e, _ => .error e
    | _, _, .error e => .error e
    | .ok p, .ok e, .ok h => .ok (sh, ⟨p, e, h⟩)
  | _, _, _ => .error .notImplementedError

/-- The loop, `dump_buffers.py` L94-114. -/
def readLoop [Zero K] (fs : FS K) (ps : Paths) (dir : Str) : Option (Nat × Nat) → List Nat →
    Except PyErr (List (Row K))
  | _, [] => .ok []
  | shape, n :: ns =>
    match readStep fs ps dir shape n with
    | .error e => .error e
    | .ok (sh, row) =>
      match readLoop fs ps dir (some sh) ns with
      | .error e => .error e
      | .ok rows => .ok (row :: rows)

/-- `read_buffers`, `dump_buffers.py` L55-116: the rows of the three buffers. -/
def readBuffers [Zero K] (order : List Str → List Str) (fs : FS K) (ps : Paths) (dir : Str) :
    Except PyErr (List (Row K)) :=
  match dictOf order fs dir ps.position with
  | .error e => .error e
  | .ok dp =>
    match dictOf order fs dir ps.energy with
    | .error e => .error e
    | .ok de =>
      match dictOf order fs dir ps.hits with
      | .error e => .error e
      | .ok dh =>
        if dp.length = 0 ∨ de.length = 0 ∨ dh.length = 0 then .error .runtimeError
        else
          match stepValues dp with
          | .error e => .error e
          | .ok sp =>
            match stepValues de with
            | .error e => .error e
            | .ok se =>
              match stepValues dh with
              | .error e => .error e
              | .ok sh =>
                if maxSucc sp = maxSucc se ∧ maxSucc se = maxSucc sh then
                  readLoop fs ps dir none (List.range (maxSucc sp))
                else .error .assertionError

end B3d.Buffers
