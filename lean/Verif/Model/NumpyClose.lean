import Verif.Model.Vec3

/-!
# NumPy tolerance comparisons and the constants of `building3d/config.py`

`np.isclose(a, b, rtol=1e-5, atol=1e-8)` is `|a - b| ≤ atol + rtol * |b|` for finite numbers;
`np.allclose` is the conjunction over the components.
-/

namespace B3d

variable {K : Type} [Field K] [LinearOrder K]

/-- `EPSILON` (`building3d/config.py` L10). -/
def EPSILON : K := 1 / 10 ^ 12
/-- `GEOM_ATOL` (`building3d/config.py` L13). -/
def GEOM_ATOL : K := 1 / 10 ^ 13
/-- `GEOM_RTOL` (`building3d/config.py` L16). -/
def GEOM_RTOL : K := 1 / 10 ^ 6
/-- Default relative tolerance of `np.isclose` and `np.allclose` (NumPy). -/
def NP_RTOL : K := 1 / 10 ^ 5
/-- Default absolute tolerance of `np.isclose` and `np.allclose` (NumPy). -/
def NP_ATOL : K := 1 / 10 ^ 8

/-- `np.isclose(a, b, rtol, atol)` on finite scalars. -/
def isClose (a b rtol atol : K) : Prop := |a - b| ≤ atol + rtol * |b|

instance (a b rtol atol : K) : Decidable (isClose a b rtol atol) := by
  unfold isClose; infer_instance

/-- `np.allclose(a, b, atol=atol)` on arrays of shape `(3,)`, relative tolerance as given
(callers in the code leave the NumPy default `1e-5`). -/
def allClose (a b : Vec3 K) (rtol atol : K) : Prop :=
  isClose a.x b.x rtol atol ∧ isClose a.y b.y rtol atol ∧ isClose a.z b.z rtol atol

instance (a b : Vec3 K) (rtol atol : K) : Decidable (allClose a b rtol atol) := by
  unfold allClose; infer_instance

end B3d
