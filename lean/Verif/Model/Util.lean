import Verif.Model.PyErr
import Mathlib.Algebra.Order.Field.Basic

/-!
# Small utilities

`building3d/util/roll_back.py`, `roll_forward` of `building3d/geom/points/__init__.py` and
`building3d/random/__init__.py`.
-/

namespace B3d.Util

/-- `roll_back` (`building3d/util/roll_back.py` L1-5): the list comprehension over
`range(1, len(x))` followed by `append(x[0])`, which raises `IndexError` for an empty list. -/
def rollBack {α : Type} (x : List α) : Except PyErr (List α) :=
  let xnew := (List.range' 1 (x.length - 1)).filterMap fun i => x[i]?
  match x[0]? with
  | none => .error .indexError
  | some a => .ok (xnew ++ [a])

/-- `roll_forward` (`building3d/geom/points/__init__.py` L49-68): row `0` of the new array is the
last row, row `i` is row `i - 1`. -/
def rollForward {α : Type} (pts : List α) : List α :=
  (List.range pts.length).filterMap fun i =>
    if i = 0 then pts[pts.length - 1]? else pts[i - 1]?

/-- `random_id` (`building3d/random/__init__.py` L6-27).  `uuid` is the text of the UUID drawn by
`uuid.uuid4()`; the `size` argument is an integer or `None`. -/
def randomId (uuid : List Char) (size : Option Int) : Except PyErr (List Char) :=
  match size with
  | none => .ok uuid
  | some n =>
    if n > 32 then .error .valueError
    else if n ≤ 0 then .error .valueError
    else .ok ((uuid.filter (· ≠ '-')).take n.toNat)

section
variable {K : Type} [Field K] [LinearOrder K]

/-- `random_within` (`building3d/random/__init__.py` L30-35); `v` is the number drawn by
`np.random.random()`, which lies in `[0, 1)`. -/
def randomWithin (v lim : K) : K :=
  if lim = 0 then 0 else 2 * lim * (v - 1 / 2)

/-- `random_between` (`building3d/random/__init__.py` L38-47); `v` is the number drawn by
`np.random.random()`, which lies in `[0, 1)`. -/
def randomBetween (v lo hi : K) : K :=
  let p : K × K := if lo > hi then (hi, lo) else (lo, hi)
  v * (p.2 - p.1) + p.1

end

end B3d.Util
