import Verif.Model.Points
import Mathlib.Algebra.Order.Round
import Mathlib.Algebra.Order.Archimedean.Real.Basic

/-!
# Points as dictionary keys: `point_to_tuple`, `point_to_hash`

`building3d/geom/points/__init__.py` L84-95.
-/

namespace B3d.PointKey

/-- The nearest integer, ties to even (`np.rint`, used by `np.round`, `points/__init__.py` L88). -/
noncomputable def rint (y : ℝ) : ℤ :=
  if y - (Int.floor y : ℝ) < 1 / 2 then Int.floor y
  else if y - (Int.floor y : ℝ) > 1 / 2 then Int.floor y + 1
  else if Int.floor y % 2 = 0 then Int.floor y else Int.floor y + 1

/-- `np.round(x, decimals)` for `decimals ≥ 0`, `points/__init__.py` L88: scaled, rounded and scaled back. -/
noncomputable def roundTo (decimals : Nat) (x : ℝ) : ℝ := (rint (x * 10 ^ decimals) : ℝ) / 10 ^ decimals

/-- `point_to_tuple`, `points/__init__.py` L85-89. -/
noncomputable def pointToTuple (pt : Vec3 ℝ) (decimals : Nat := 8) : ℝ × ℝ × ℝ :=
  (roundTo decimals pt.x, roundTo decimals pt.y, roundTo decimals pt.z)

/-- `point_to_hash`, `points/__init__.py` L93-95; Python's `hash` is any function of the tuple. -/
noncomputable def pointToHash (hash : ℝ × ℝ × ℝ → ℤ) (pt : Vec3 ℝ) (decimals : Nat := 8) : ℤ :=
  hash (pointToTuple pt decimals)

end B3d.PointKey
