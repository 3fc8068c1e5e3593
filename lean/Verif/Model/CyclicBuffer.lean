import Verif.Model.PyErr

/-!
# `building3d/types/cyclic_buffer.py`

The rows of the NumPy buffer are abstract elements of a type `α`.
-/

namespace B3d.CyclicBuffer

/-- The triple `(buffer, head, tail)` threaded through the calls of `cyclic_buf`
(`building3d/types/cyclic_buffer.py` L6-8, L64). -/
structure State (α : Type) where
  buffer : List α
  head : Nat
  tail : Nat
  deriving DecidableEq, Repr

/-- `cyclic_buf` (`building3d/types/cyclic_buffer.py` L5-64).  Writing outside the buffer is an
`IndexError` (numba does not check bounds; the theorems show that the error never happens when
`bufferSize` is the length of the buffer). -/
def cyclicBuf {α : Type} (s : State α) (element : α) (bufferSize : Nat) :
    Except PyErr (State α) :=
  if s.head < s.buffer.length then
    let buffer := s.buffer.set s.head element
    let head := (s.head + 1) % bufferSize
    let tail := if head = s.tail then (s.tail + 1) % bufferSize else s.tail
    .ok ⟨buffer, head, tail⟩
  else
    .error .indexError

/-- `convert_to_contiguous` (`building3d/types/cyclic_buffer.py` L67-90). -/
def convertToContiguous {α : Type} (s : State α) : List α :=
  if s.head = s.tail then
    []
  else if s.head > s.tail then
    (s.buffer.drop s.tail).take (s.head - s.tail)
  else
    s.buffer.drop s.tail ++ s.buffer.take s.head

/-- Caller's loop: write the elements one after the other, as in the example of
`building3d/types/cyclic_buffer.py` L93-103. -/
def writeAll {α : Type} (bufferSize : Nat) :
    List α → State α → Except PyErr (State α)
  | [], s => .ok s
  | e :: es, s => do
    let s' ← cyclicBuf s e bufferSize
    writeAll bufferSize es s'

end B3d.CyclicBuffer
