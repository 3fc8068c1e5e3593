import Verif.Model.Buffers
import Verif.Spec.Wildcard
import Verif.Spec.Sim

/-! # Specification vocabulary for dumped buffers -/

namespace B3d.Buffers

open Wildcard Sim

/-- File of one kind for a step. -/
def fileName (parts : List Part) (dir : Str) (n : Nat) : Str := dir ++ '/' :: filled (fun _ => n) parts

/-- A usable file name: relative, good for matching, `step` is its only wildcard, and it ends in
`.npy`. -/
structure StepPattern (parts : List Part) : Prop where
  good : Good parts
  only : ∀ n, Part.wild n ∈ parts ↔ n = "step".toList
  rel : parts.head? ≠ some (.lit '/')
  npy : ∃ front, parts = front ++ ".npy".toList.map Part.lit

/-- Files named by `a` are not matched by `b`. -/
def Apart (a b : List Part) : Prop :=
  ∀ w, mkPath (render b) = .ok w → ∀ dir n, '\n' ∉ dir → getDict w [fileName a dir n] = .ok []

/-- File names that can be used: each is a usable pattern and none matches the files of another. -/
structure GoodPaths (ps : Paths) (a b c : List Part) : Prop where
  pos : ps.position = render a
  enr : ps.energy = render b
  hit : ps.hits = render c
  pa : StepPattern a
  pb : StepPattern b
  pc : StepPattern c
  ab : Apart a b
  ac : Apart a c
  ba : Apart b a
  bc : Apart b c
  ca : Apart c a
  cb : Apart c b

/-- A directory name: not empty, without line feed, not ending in a slash. -/
structure GoodDir (dir : Str) : Prop where
  ne : dir ≠ []
  line : '\n' ∉ dir
  last : dir.getLast? ≠ some '/'

variable {K : Type}

/-- No file in the directory matches the file name. -/
def NoneMatch (fs : FS K) (dir file : Str) : Prop :=
  ∀ p ∈ fs.map Prod.fst, (dir ++ ['/']).isPrefixOf p = true →
    ∀ w, mkPath file = .ok w → getDict w [p] = .ok []

/-- The rows have the same numbers of rays and absorbers. -/
def SameShape (rays absorbers : Nat) (row : Row K) : Prop :=
  row.pos.length = rays ∧ row.energy.length = rays ∧ row.hits.length = absorbers

/-- Step of the row dumped with number `j` (from 0) by a simulation with batches of `B` steps: each batch
dumps `B + 1` rows, the first one being the last one of the batch before. -/
def dumpedStep (B j : Nat) : Nat := j / (B + 1) * B + j % (B + 1)

end B3d.Buffers
