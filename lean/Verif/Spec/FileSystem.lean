import Verif.Model.FileSystem
import Verif.Spec.Wildcard

/-! # Vocabulary for files and directories (C98, C99) -/

namespace B3d.Spec

open FileSystem Wildcard

variable {C : Type}

/-- Whatever is in the file system is in a directory. -/
def Tree (fs : FS C) : Prop := ∀ n p, look fs (n :: p) ≠ none → look fs p = some .dir

/-- The file system `fs'` has directories at `p` and all places above it, and is otherwise like `fs`. -/
def WithDir (fs : FS C) (p : Loc) (fs' : FS C) : Prop :=
  ∀ q, (q <:+ p → look fs' q = some .dir) ∧ (¬ q <:+ p → look fs' q = look fs q)

/-- There is a file at `p` or at a place above it. -/
def InTheWay (fs : FS C) (p : Loc) : Prop := ∃ q c, q <:+ p ∧ look fs q = some (.file c)

/-- Components of a wildcard path with slashes between them. -/
def slashed : List (List Part) → List Part
  | [] => []
  | [c] => c
  | c :: c' :: cs => c ++ .lit '/' :: slashed (c' :: cs)

/-- A component which `pathlib` keeps as it is: not empty, not `.` or `..`, and without a slash. -/
def Proper (c : List Part) : Prop := c ≠ [] ∧ c ≠ [.lit '.'] ∧ c ≠ [.lit '.', .lit '.'] ∧ .lit '/' ∉ c

end B3d.Spec
